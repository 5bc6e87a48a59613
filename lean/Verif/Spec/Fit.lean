import Verif.Model.Fit
import Mathlib.Algebra.BigOperators.Group.List.Basic
/-!
# What a fit should read and compute
-/
set_option autoImplicit false
namespace GooFit.Spec
variable {K : Type}

/-- Number of entries (events or bins) of a dataset. -/
def entries : Data K → Nat
  | .unbinned num _ => num
  | .binned num .. => num

/-- The coordinate of entry `i` in observable `o`: the event's value or the bin centre. -/
def coord : Data K → Nat → Nat → K
  | .unbinned _ value => value
  | .binned _ center .. => center

/-- Number of events in a dataset: for a binned one, the sum of the bin contents. -/
def numEvents [Semiring K] : Data K → K
  | .unbinned num _ => num
  | .binned num _ content .. => ((List.range num).map content).sum

/-- The fit control is meant for this kind of dataset. -/
def Matches (c : Control) (d : Data K) : Prop := c.binnedFit = d.isBinned

/-- The function looks only at the first `n` slots of an event. -/
def Local (n : Nat) (pdf : Evt K → Option K) : Prop :=
  ∀ e e' : Evt K, (∀ j < n, e j = e' j) → pdf e = pdf e'

section
variable [Field K] [LinearOrder K]

/-- `expected - n·log(expected)` for a positive expectation, 0 otherwise. -/
def poissonTerm (log : K → K) (expected n : K) : K :=
  if expected > 0 then expected - n * log expected else 0

/-- The contribution of one entry to what a fit minimises (or of one value a query returns):
`p` is the normalised PDF value there, `raw` the bare one, `N` the number of events, and `n`, `err`,
`vol` the bin's content, error and volume. -/
def term (log : K → K) (c : Control) (N p raw n err vol : K) : K :=
  match c with
  | .unbinnedNll => if p > 0 then -log p else 0
  | .prob => p
  | .eval => raw
  | .binnedNll => poissonTerm log (N * (p * vol)) n
  | .binnedError => ((raw - n) / err) ^ 2
  | .binnedChisq => (N * (p * vol) - n) ^ 2 / max n 1

/-- The contribution of entry `i` of the data, with PDF value `p` (normalised) or `raw` (bare) there. -/
def entryTerm (log : K → K) (c : Control) (d : Data K) (i : Nat) (p raw : K) : K :=
  match d with
  | .unbinned .. => term log c (numEvents d) p raw 0 0 0
  | .binned _ _ content error volume => term log c (numEvents d) p raw (content i) (error i) (volume i)

end
end GooFit.Spec

namespace GooFit.Spec
variable {K : Type}

/-- A query after which the fit control is the one the user had: `getCompProbsAtDataPoints` and
`normalize` always; the others only when the control they leave behind happens to be the user's. -/
def Harmless (c : Control) (d : Data K) : Query K → Prop
  | .compProbs => True
  | .normalize => True
  | .getValue f _ => if d.isBinned then c = .binnedNll else c = f.control
  | .evaluateAtPoints .. => if d.isBinned then c = .binnedNll else c = .eval

end GooFit.Spec
