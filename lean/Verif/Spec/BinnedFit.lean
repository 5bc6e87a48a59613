import Verif.Spec.Likelihood
import Verif.Model.FpReal
import Mathlib.Analysis.SpecialFunctions.Log.Basic
/-!
# What a fit to a histogram should minimise
-/
set_option autoImplicit false
namespace GooFit.Spec
open Finset

/-- The probability of the counts `k 0, …, k (n - 1)` when `E 0, …, E (n - 1)` are expected, independently. -/
noncomputable def poissonLikelihood (n : Nat) (E : Nat → ℝ) (k : Nat → Nat) : ℝ :=
  ∏ b ∈ range n, Real.exp (-E b) * E b ^ k b / (Nat.factorial (k b) : ℝ)

/-- Chi-square of the counts with their own statistical errors. -/
noncomputable def chiSquare (n : Nat) (E : Nat → ℝ) (k : Nat → Nat) : ℝ :=
  ∑ b ∈ range n, ((E b - k b) / Real.sqrt (k b)) ^ 2

open Classical in
/-- Number of events in bin `b` when `[lo, hi)` is cut into `n` equal bins. -/
noncomputable def countIn (lo hi : ℝ) (n b : Nat) (xs : List ℝ) : Nat :=
  (xs.filter fun x => decide (lo + b * ((hi - lo) / n) ≤ x ∧ x < lo + (b + 1) * ((hi - lo) / n))).length

section
variable {K : Type} [Field K] [LinearOrder K] [IsStrictOrderedRing K] [FloorRing K]
attribute [local instance] FpOps.ofField
variable {L : Lib K}

/-- The expected number of events: the number of observed ones, or the sum of the yields of an extended sum. -/
def expectedTotal (val : Nat → K) (t : Pdf L) (observed : K) : K :=
  match t.node.fn with
  | .addExt => (t.node.params.map val).sum
  | _ => observed

mutual
/-- Whatever is divided by when the tree is normalised is a sum over `n` cells of the range of observable `o`: basic PDFs
without analytic integral, sums, products of basic PDFs, and composites. -/
def OnCells (cfg : NormSetup L) (o n : Nat) : Pdf L → Prop
  | .mk m cs =>
    match m.fn with
    | .leaf k => (∀ ps, cfg.analytic k ps m.consts = none) ∧ gridCells cfg m.oid o = n
    | .add | .addExt => OnCellsAll cfg o n cs
    | .prod => m.obs = [o] ∧ 2 ≤ cs.length ∧ gridCells cfg m.oid o = n
    | .composite => gridCells cfg m.oid o = n
    | _ => False
/-- The same for all components. -/
def OnCellsAll (cfg : NormSetup L) (o n : Nat) : List (Pdf L) → Prop
  | [] => True
  | c :: cs => OnCells cfg o n c ∧ OnCellsAll cfg o n cs
end

end
end GooFit.Spec
