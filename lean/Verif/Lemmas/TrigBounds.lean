import Mathlib.Analysis.SpecialFunctions.Trigonometric.Bounds
import Mathlib.Analysis.Calculus.Deriv.MeanValue

/-!
# Bounds on the remainder of the sine and cosine series
-/

set_option autoImplicit false

namespace GooFit

theorem nonneg_of_deriv (f f' : ℝ → ℝ) (h : ∀ x, HasDerivAt f (f' x) x) (h0 : f 0 = 0)
    (hn : ∀ x, 0 < x → 0 ≤ f' x) (x : ℝ) (hx : 0 ≤ x) : 0 ≤ f x := by
  have hm : MonotoneOn f (Set.Ici 0) := by
    refine monotoneOn_of_deriv_nonneg (convex_Ici 0) (fun x _ => (h x).continuousAt.continuousWithinAt)
      (fun x _ => (h x).differentiableAt.differentiableWithinAt) ?_
    intro x hx
    rw [interior_Ici] at hx
    rw [(h x).deriv]
    exact hn x hx
  rw [← h0]
  exact hm Set.self_mem_Ici hx hx

theorem sin_ge_cubic (x : ℝ) (hx : 0 ≤ x) : x - x ^ 3 / 6 ≤ Real.sin x := by
  rcases hx.eq_or_lt with h | h
  · rw [← h]; simp
  · exact (Real.sin_gt_sub_cube h).le

theorem cos_le_quartic (x : ℝ) : Real.cos x ≤ 1 - x ^ 2 / 2 + x ^ 4 / 24 := by
  have key : ∀ x : ℝ, 0 ≤ x → 0 ≤ 1 - x ^ 2 / 2 + x ^ 4 / 24 - Real.cos x := by
    refine nonneg_of_deriv _ (fun x => Real.sin x - (x - x ^ 3 / 6)) ?_ (by simp) ?_
    · intro x
      have h := ((((hasDerivAt_pow 2 x).div_const 2).const_sub 1).add ((hasDerivAt_pow 4 x).div_const 24)).sub
        (Real.hasDerivAt_cos x)
      refine h.congr_deriv ?_
      simp
      ring
    · intro x hx
      have := sin_ge_cubic x hx.le
      linarith
  have h := key |x| (abs_nonneg x)
  rw [Real.cos_abs] at h
  rw [sq_abs, show |x| ^ 4 = (|x| ^ 2) ^ 2 by ring, sq_abs] at h
  nlinarith

theorem sin_le_quintic (x : ℝ) (hx : 0 ≤ x) : Real.sin x ≤ x - x ^ 3 / 6 + x ^ 5 / 120 := by
  have key : ∀ x : ℝ, 0 ≤ x → 0 ≤ x - x ^ 3 / 6 + x ^ 5 / 120 - Real.sin x := by
    refine nonneg_of_deriv _ (fun x => 1 - x ^ 2 / 2 + x ^ 4 / 24 - Real.cos x) ?_ (by simp) ?_
    · intro x
      have h := ((((hasDerivAt_id x).sub ((hasDerivAt_pow 3 x).div_const 6))).add
        ((hasDerivAt_pow 5 x).div_const 120)).sub (Real.hasDerivAt_sin x)
      refine h.congr_deriv ?_
      simp
      ring
    · intro x _
      have := cos_le_quartic x
      linarith
  have := key x hx
  linarith

theorem cos_remainder (x : ℝ) : |1 - x ^ 2 / 2 - Real.cos x| ≤ x ^ 4 / 24 := by
  rw [abs_le]
  constructor
  · have := cos_le_quartic x
    linarith
  · have := Real.one_sub_sq_div_two_le_cos (x := x)
    have : 0 ≤ x ^ 4 / 24 := by positivity
    linarith

theorem sin_remainder (x : ℝ) : |x - x ^ 3 / 6 - Real.sin x| ≤ |x| ^ 5 / 120 := by
  have key : ∀ x : ℝ, 0 ≤ x → |x - x ^ 3 / 6 - Real.sin x| ≤ x ^ 5 / 120 := by
    intro x hx
    rw [abs_le]
    constructor
    · have := sin_le_quintic x hx
      linarith
    · have := sin_ge_cubic x hx
      have : 0 ≤ x ^ 5 / 120 := by positivity
      linarith
  rcases le_total 0 x with h | h
  · rw [abs_of_nonneg h]; exact key x h
  · have := key (-x) (by linarith)
    rw [abs_of_nonpos h]
    rw [Real.sin_neg] at this
    refine le_trans (le_of_eq ?_) this
    rw [← abs_neg]
    congr 1
    ring

end GooFit
