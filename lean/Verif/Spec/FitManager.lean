import Verif.Model.FitManager
import Mathlib.Data.Real.Basic
import Mathlib.Order.Bounds.Basic
/-!
# What is expected of Minuit, and of the errors it reports
-/
set_option autoImplicit false
namespace GooFit.Spec
variable {F : Type}

/-- The minimiser keeps to what it was told: at every point it tries, and in the result, parameters declared constant have
their value and limited parameters are within their limits. -/
structure Respects [LE F] (start : List (MnPar F)) (r : MinRun F) : Prop where
  constant : ∀ (k : Nat) (p : MnPar F), start[k]? = some p → p.kind = .constant →
    (∀ v ∈ r.calls ++ r.minosCalls, v[k]? = some p.value) ∧ r.value k = p.value
  limited : ∀ (k : Nat) (p : MnPar F) (e lo hi : F), start[k]? = some p → p.kind = .limited e lo hi →
    (∀ v ∈ r.calls ++ r.minosCalls, ∃ x, v[k]? = some x ∧ lo ≤ x ∧ x ≤ hi) ∧ lo ≤ r.value k ∧ r.value k ≤ hi

/-- The error of the `i`-th parameter of a function with minimum at `x₀`: how far the parameter can go while the function,
minimised over all others, does not rise by more than `up`. -/
def IsError {n : Nat} (f : (Fin n → ℝ) → ℝ) (x₀ : Fin n → ℝ) (up : ℝ) (i : Fin n) (e : ℝ) : Prop :=
  IsGreatest {d : ℝ | ∃ x, x i - x₀ i = d ∧ f x ≤ f x₀ + up} e

end GooFit.Spec
