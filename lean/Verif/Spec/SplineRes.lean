import Mathlib.Analysis.Calculus.Deriv.Basic
import Mathlib.Analysis.Calculus.Deriv.Add

/-!
# What a user expects of a spline amplitude
-/

set_option autoImplicit false

namespace GooFit.Spec

/-- Knots in increasing order. -/
def Increasing (x : Nat → ℝ) (n : Nat) : Prop := ∀ k, k + 1 < n → x k < x (k + 1)

/-- Twice continuously differentiable on the open interval `(a, b)`. -/
def TwiceSmooth (f : ℝ → ℝ) (a b : ℝ) : Prop :=
  ∃ f' f'' : ℝ → ℝ, ∀ t, a < t → t < b →
    HasDerivAt f (f' t) t ∧ HasDerivAt f' (f'' t) t ∧ ContinuousAt f'' t

/-- The slope of the chord between knots `k` and `k + 1`. -/
noncomputable def chord (x y : Nat → ℝ) (k : Nat) : ℝ := (y (k + 1) - y k) / (x (k + 1) - x k)

/-- `f` is twice continuously differentiable between the first and the last of
the `n` knots `x`; at both ends its slope is twice that of the chord (unless that
exceeds `0.99e30`).  At the last knot the slope is the one of `f` completed by
the last coefficient. -/
def SplineCurve (f : ℝ → ℝ) (x y : Nat → ℝ) (n : Nat) : Prop :=
  TwiceSmooth f (x 0) (x (n - 1)) ∧
  (2 * chord x y 0 ≤ 0.99e30 →
    HasDerivWithinAt f (2 * chord x y 0) (Set.Ici (x 0)) (x 0)) ∧
  (2 * chord x y (n - 2) ≤ 0.99e30 →
    HasDerivWithinAt (fun t => if t < x (n - 1) then f t else y (n - 1))
      (2 * chord x y (n - 2)) (Set.Iic (x (n - 1))) (x (n - 1)))

/-- A Dalitz point `(m12, m13, m23)` at which the pair `cyc` (0: 12, 1: 13,
2: 23) has squared mass `t` and the other two pairs have squared masses `a`, `b`. -/
def place (cyc : Nat) (t a b : ℝ) : ℝ × ℝ × ℝ :=
  if cyc = 0 then (t, a, b) else if cyc = 1 then (a, t, b) else (a, b, t)

end GooFit.Spec
