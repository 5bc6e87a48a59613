import Verif.Props.DataSet
import Verif.Model.Plotter
/-!
# Specification for C91: the Dalitz plot on the bins of two observables
-/
set_option autoImplicit false
namespace GooFit.Spec
variable {K : Type} [Field K] [LinearOrder K]

/-- The bins `(i, j)` whose centre is allowed, column by column. -/
def allowedCells (c12 c13 : ObsCell K) (inside : K → K → Bool) : List (Nat × Nat) :=
  ((List.range c12.numBins).flatMap fun i => (List.range c13.numBins).map fun j => (i, j)).filter fun c =>
    inside (binCentre c12 c.1) (binCentre c13 c.2)

/-- The event at the centre of bin `c`, with number `k`. -/
def cellEvent (c12 c13 : ObsCell K) (m12 m13 : Nat) (c : Nat × Nat) (k : Nat) : Event K := fun o =>
  if o = m12 then binCentre c12 c.1 else if o = m13 then binCentre c13 c.2 else (k : K)

/-- Bin `i` of the observable contains `x`. -/
def InBin (c : ObsCell K) (i : Nat) (x : K) : Prop :=
  c.lower + (i : K) * ((c.upper - c.lower) / (c.numBins : K)) ≤ x ∧
    x < c.lower + ((i : K) + 1) * ((c.upper - c.lower) / (c.numBins : K))

/-- `pdf` gives the densities `dens` of the PDF and its components at the events of a dataset of the observables, if
the events carry their positions as event numbers. -/
def PlotValues (m12 m13 ev : Nat) (dens : List (K → K → K)) (pdf : UDS K → Option (List (List K))) : Prop :=
  ∀ (d : UDS K) (es : List (Event K)), d.obs = [m12, m13, ev] → Holds d es →
    (∀ (k : Nat) e, es[k]? = some e → e ev = (k : K)) →
    pdf d = some (dens.map fun p => es.map fun e => p (e m12) (e m13))

/-- The observables as the constructor finds them: different, limits in order, and event numbers up to the number of
points in range. -/
structure PlotReady (s : Store K) (m12 m13 ev : Nat) (inside : K → K → Bool) : Prop where
  h23 : m12 ≠ m13
  h2e : m12 ≠ ev
  h3e : m13 ≠ ev
  hl2 : (s m12).lower ≤ (s m12).upper
  hl3 : (s m13).lower ≤ (s m13).upper
  numbers : ∀ k < (allowedCells (s m12) (s m13) inside).length, InLimits { s ev with value := (k : K) }

/-- What is known of toy event `e`, number `k`, drawn with the numbers `r`, `u` and `v`, from the densities `p` at the centres of
the bins `cells`: it lies in one of these bins, `u` and `v` bin sizes from its centre; `r` is between the share of the
bins before that bin and the share of these and itself, unless it is zero; the density is positive there; the number of
the event is `k`; and the other observables have their values `t`. -/
def ToyPoint (c12 c13 : ObsCell K) (m12 m13 ev : Nat) (t : Store K) (cells : List (Nat × Nat)) (p : K → K → K) (k : Nat) (r u v : K)
    (e : Event K) : Prop :=
  let at_ := fun c : Nat × Nat => p (binCentre c12 c.1) (binCentre c13 c.2)
  let share := fun j : Nat => ((cells.take j).map at_).sum / (cells.map at_).sum
  ∃ (j : Nat) (c : Nat × Nat), cells[j]? = some c ∧ (share j < r ∧ r ≤ share (j + 1) ∧ 0 < at_ c ∨ r = 0) ∧
    e m12 = binCentre c12 c.1 + (c12.upper - c12.lower) / (c12.numBins : K) * u ∧ InBin c12 c.1 (e m12) ∧
    e m13 = binCentre c13 c.2 + (c13.upper - c13.lower) / (c13.numBins : K) * v ∧ InBin c13 c.2 (e m13) ∧
    e ev = (k : K) ∧ ∀ o, o ≠ m12 → o ≠ m13 → o ≠ ev → e o = (t o).value

end GooFit.Spec
