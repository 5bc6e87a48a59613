import Verif.Model.OfferedIntegrals
import Verif.Spec.OfferedIntegrals
import Verif.Lemmas.BasicReal
import Mathlib.Analysis.Real.Pi.Bounds
import Mathlib.Analysis.SumIntegralComparisons
import Mathlib.Analysis.SpecialFunctions.Gaussian.GaussianIntegral
/-!
# Lemmas for the offered integrals
-/
set_option autoImplicit false
namespace GooFit.Offered
open MeasureTheory intervalIntegral

/-! ### The Gaussian part of Crystal Ball -/

/-- The factor in front of the Gaussian that `integrate` really integrates. -/
noncomputable def cbk : ℝ := 2 * 1.2533141373 / (Real.sqrt Real.pi * 1.4142135624)

theorem cbk_le : cbk ≤ 1 := by
  unfold cbk
  have hp : 0 < Real.sqrt Real.pi := Real.sqrt_pos.mpr Real.pi_pos
  rw [div_le_one (by positivity)]
  have : (2 * 1.2533141373 / 1.4142135624 : ℝ) ≤ Real.sqrt Real.pi := by
    apply Real.le_sqrt_of_sq_le
    have := Real.pi_gt_d20
    norm_num at this ⊢
    linarith
  have := mul_le_mul_of_nonneg_right this (show (0 : ℝ) ≤ 1.4142135624 by norm_num)
  norm_num at this ⊢
  linarith

theorem cbk_ge : 1 - 4 / 10 ^ 11 ≤ cbk := by
  unfold cbk
  have hp : 0 < Real.sqrt Real.pi := Real.sqrt_pos.mpr Real.pi_pos
  rw [le_div_iff₀ (by positivity)]
  have : Real.sqrt Real.pi ≤ (2 * 1.2533141373 / (1.4142135624 * (1 - 4 / 10 ^ 11)) : ℝ) := by
    rw [Real.sqrt_le_left (by norm_num)]
    have := Real.pi_lt_d20
    norm_num at this ⊢
    linarith
  have := mul_le_mul_of_nonneg_right this (show (0 : ℝ) ≤ 1.4142135624 * (1 - 4 / 10 ^ 11) by norm_num)
  norm_num at this ⊢
  linarith

theorem gauss_close (t : ℝ) :
    |cbk * Real.exp (-(t / 1.4142135624) ^ 2) - Real.exp (-t ^ 2 / 2)| ≤ 1 / 10 ^ 10 := by
  set u := (t / 1.4142135624) ^ 2 with hu
  have hu0 : 0 ≤ u := sq_nonneg _
  have ht : t ^ 2 / 2 = u * (1.4142135624 ^ 2 / 2) := by rw [hu]; field_simp
  have e1 : Real.exp (-u) ≤ 1 := Real.exp_le_one_iff.mpr (by linarith)
  have e0 : 0 < Real.exp (-u) := Real.exp_pos _
  have hle : Real.exp (-t ^ 2 / 2) ≤ Real.exp (-u) := by
    apply Real.exp_le_exp.mpr
    rw [neg_div, ht]
    norm_num
    nlinarith
  have hge : Real.exp (-u) * (1 - u * (1.4142135624 ^ 2 / 2 - 1)) ≤ Real.exp (-t ^ 2 / 2) := by
    have : Real.exp (-t ^ 2 / 2) = Real.exp (-u) * Real.exp (-(u * (1.4142135624 ^ 2 / 2 - 1))) := by
      rw [← Real.exp_add]
      congr 1
      rw [neg_div, ht]
      ring
    rw [this]
    apply mul_le_mul_of_nonneg_left _ e0.le
    have := Real.add_one_le_exp (-(u * (1.4142135624 ^ 2 / 2 - 1)))
    linarith
  have hue : u * Real.exp (-u) ≤ 1 := by
    have h := Real.add_one_le_exp u
    rw [Real.exp_neg]
    rw [← div_eq_mul_inv, div_le_one (Real.exp_pos _)]
    linarith
  have hd : Real.exp (-u) - Real.exp (-t ^ 2 / 2) ≤ 4 / 10 ^ 11 := by
    have h3 : (1.4142135624 ^ 2 / 2 - 1 : ℝ) ≤ 4 / 10 ^ 11 := by norm_num
    have h4 : (0 : ℝ) ≤ 1.4142135624 ^ 2 / 2 - 1 := by norm_num
    have h5 : u * Real.exp (-u) * (1.4142135624 ^ 2 / 2 - 1) ≤ 1 * (4 / 10 ^ 11) :=
      mul_le_mul hue h3 h4 (by norm_num)
    linarith
  have hk1 := cbk_le
  have hk2 := cbk_ge
  rw [abs_le]
  constructor
  · have := mul_le_mul_of_nonneg_right hk2 e0.le
    nlinarith
  · have := mul_le_mul_of_nonneg_right hk1 e0.le
    nlinarith

theorem core_close (t1 t2 : ℝ) (h : t1 ≤ t2) :
    |1.2533141373 * (Spec.erf (t2 / 1.4142135624) - Spec.erf (t1 / 1.4142135624)) -
      ∫ t in t1..t2, Real.exp (-t ^ 2 / 2)| ≤ 1 / 10 ^ 10 * (t2 - t1) := by
  have hi : ∀ a b : ℝ, IntervalIntegrable (fun v : ℝ => Real.exp (-v ^ 2)) volume a b := fun a b =>
    (by fun_prop : Continuous fun v : ℝ => Real.exp (-v ^ 2)).intervalIntegrable a b
  have h1 : 1.2533141373 * (Spec.erf (t2 / 1.4142135624) - Spec.erf (t1 / 1.4142135624)) =
      ∫ t in t1..t2, cbk * Real.exp (-(t / 1.4142135624) ^ 2) := by
    rw [intervalIntegral.integral_const_mul,
      intervalIntegral.integral_comp_div (fun v : ℝ => Real.exp (-v ^ 2)) (by norm_num)]
    unfold Spec.erf cbk
    rw [← mul_sub, intervalIntegral.integral_interval_sub_left (hi _ _) (hi _ _), smul_eq_mul]
    have hp : Real.sqrt Real.pi ≠ 0 := (Real.sqrt_pos.mpr Real.pi_pos).ne'
    field_simp
  rw [h1, ← intervalIntegral.integral_sub
    ((by fun_prop : Continuous fun t : ℝ => cbk * Real.exp (-(t / 1.4142135624) ^ 2)).intervalIntegrable _ _)
    ((by fun_prop : Continuous fun t : ℝ => Real.exp (-t ^ 2 / 2)).intervalIntegrable _ _)]
  have := intervalIntegral.norm_integral_le_of_norm_le_const (a := t1) (b := t2) (C := 1 / 10 ^ 10)
    (f := fun t => cbk * Real.exp (-(t / 1.4142135624) ^ 2) - Real.exp (-t ^ 2 / 2))
    (fun t _ => by rw [Real.norm_eq_abs]; exact gauss_close t)
  rw [Real.norm_eq_abs, abs_of_nonneg (sub_nonneg.mpr h)] at this
  exact this

/-! ### The tail -/

theorem tail_integral (a p t1 t2 : ℝ) (ha : 0 < a) (hp : 0 < p) (h12 : t1 ≤ t2) (h2 : t2 ≤ -a)
    (hl : p = 1 ∨ 1 / 100000 ≤ |p - 1|) :
    (cbTail (F := ℝ) 1 a p (p / a - a - t1) (p / a - a - t2)) =
      ∫ t in t1..t2, Real.exp (-a ^ 2 / 2) * (p / a / (p / a - a + -t)) ^ p := by
  have hpa : 0 < p / a := div_pos hp ha
  set u1 := p / a - a - t1 with hu1
  set u2 := p / a - a - t2 with hu2
  have h20 : 0 < u2 := by rw [hu2]; linarith
  have h10 : 0 < u1 := by rw [hu1]; linarith
  have hI : ∫ t in t1..t2, Real.exp (-a ^ 2 / 2) * (p / a / (p / a - a + -t)) ^ p =
      Real.exp (-a ^ 2 / 2) * (p / a) ^ p * ∫ u in u2..u1, u ^ (-p) := by
    rw [← intervalIntegral.integral_const_mul, hu1, hu2,
      ← intervalIntegral.integral_comp_sub_left (fun u => Real.exp (-a ^ 2 / 2) * (p / a) ^ p * u ^ (-p))
        (p / a - a)]
    apply intervalIntegral.integral_congr
    intro t ht
    rw [Set.uIcc_of_le h12] at ht
    have : 0 < p / a - a - t := by linarith [ht.2]
    show Real.exp (-a ^ 2 / 2) * (p / a / (p / a - a + -t)) ^ p =
      Real.exp (-a ^ 2 / 2) * (p / a) ^ p * (p / a - a - t) ^ (-p)
    rw [← sub_eq_add_neg, Real.div_rpow hpa.le this.le, Real.rpow_neg this.le]
    ring
  rw [hI]
  unfold cbTail
  real_ops
  push_cast
  have hmem : (0 : ℝ) ∉ Set.uIcc u2 u1 := Set.notMem_uIcc_of_lt h20 h10
  have he : Real.exp (-1 / 2 * a * a) = Real.exp (-a ^ 2 / 2) := by congr 1; ring
  rcases hl with hl | hl
  · have hlt : |p - 1| < 1 / 100000 := by rw [hl]; norm_num
    rw [if_pos hlt, he, hl]
    simp only [Real.rpow_neg_one, Real.rpow_one]
    rw [integral_inv_of_pos h20 h10, Real.log_div h10.ne' h20.ne']
    ring
  · rw [if_neg (not_lt.mpr hl), he]
    have hp1 : p ≠ 1 := by
      rintro rfl
      norm_num at hl
    rw [integral_rpow (Or.inr ⟨fun h => hp1 (by linarith), hmem⟩)]
    have hx : ∀ u : ℝ, 0 < u → (1 : ℝ) / u ^ (p - 1) = u ^ (-p + 1) := by
      intro u hu
      rw [one_div, ← Real.rpow_neg hu.le]
      congr 1
      ring
    rw [hx u1 h10, hx u2 h20]
    have : 1 - p ≠ 0 := fun h => hp1 (by linarith)
    have h' : -p + 1 = 1 - p := by ring
    rw [h']
    field_simp

theorem shape_continuous (a p : ℝ) (ha : 0 < a) (hp : 0 < p) :
    Continuous fun u => Spec.crystalShape a p u := by
  have hpa : 0 < p / a := div_pos hp ha
  have h1 : (fun u => Spec.crystalShape a p u) = fun u => if u ≤ a then Real.exp (-u ^ 2 / 2) else
      Real.exp (-a ^ 2 / 2) * (p / a / (p / a - a + max a u)) ^ p := by
    funext u
    unfold Spec.crystalShape
    by_cases hu : u ≤ a
    · rw [if_pos hu, if_pos hu]
    · rw [if_neg hu, if_neg hu, max_eq_right (not_le.mp hu).le]
  rw [h1]
  have hne : ∀ u : ℝ, p / a - a + max a u ≠ 0 := fun u => by
    have := le_max_left a u
    intro h
    linarith
  apply Continuous.if_le (by fun_prop) _ continuous_id continuous_const
  · intro u hu
    rw [show u = a from hu, max_self, show p / a - a + a = p / a by ring, div_self hpa.ne', Real.one_rpow, mul_one]
  · apply continuous_const.mul
    apply Continuous.rpow_const
    · exact continuous_const.div (by fun_prop) hne
    · intro u
      exact Or.inr hp.le

/-- The three cases of `integrate` for unit width. -/
theorem cases_close (a p t1 t2 : ℝ) (ha : 0 < a) (hp : 0 < p) (h : t1 ≤ t2)
    (hl : p = 1 ∨ 1 / 100000 ≤ |p - 1|) :
    |cbCases Spec.erf (1 : ℝ) a p t1 t2 - ∫ t in t1..t2, Spec.crystalShape a p (-t)| ≤ 1 / 10 ^ 10 * (t2 - t1) := by
  have hc : ∀ x y : ℝ, IntervalIntegrable (fun t => Spec.crystalShape a p (-t)) volume x y := fun x y =>
    ((shape_continuous a p ha hp).comp continuous_neg).intervalIntegrable x y
  have hcore : ∀ x y : ℝ, x ≤ y → -a ≤ x →
      ∫ t in x..y, Spec.crystalShape a p (-t) = ∫ t in x..y, Real.exp (-t ^ 2 / 2) := by
    intro x y hxy hx
    apply intervalIntegral.integral_congr
    intro t ht
    rw [Set.uIcc_of_le hxy] at ht
    show Spec.crystalShape a p (-t) = _
    unfold Spec.crystalShape
    rw [if_pos (by linarith [ht.1]), neg_sq]
  have htail : ∀ x y : ℝ, x ≤ y → y ≤ -a → ∫ t in x..y, Spec.crystalShape a p (-t) =
      ∫ t in x..y, Real.exp (-a ^ 2 / 2) * (p / a / (p / a - a + -t)) ^ p := by
    intro x y hxy hy
    apply intervalIntegral.integral_congr
    intro t ht
    rw [Set.uIcc_of_le hxy] at ht
    show Spec.crystalShape a p (-t) = Real.exp (-a ^ 2 / 2) * (p / a / (p / a - a + -t)) ^ p
    unfold Spec.crystalShape
    by_cases hta : -t ≤ a
    · have : -t = a := by linarith [ht.2]
      rw [if_pos hta, this, show p / a - a + a = p / a by ring, div_self (div_pos hp ha).ne', Real.one_rpow,
        mul_one]
    · rw [if_neg hta]
  have hcoreM : ∀ x y : ℝ, cbCore Spec.erf (1 : ℝ) x y =
      1.2533141373 * (Spec.erf (y / 1.4142135624) - Spec.erf (x / 1.4142135624)) := by
    intro x y
    unfold cbCore cbSqrtPiOver2 cbSqrt2
    real_ops
    push_cast
    norm_num
  unfold cbCases
  real_ops
  push_cast
  by_cases h1 : -a ≤ t1
  · rw [if_pos h1, zero_add, hcore _ _ h h1, hcoreM]
    exact core_close t1 t2 h
  · rw [if_neg h1]
    by_cases h2 : t2 ≤ -a
    · rw [if_pos h2, zero_add, tail_integral a p t1 t2 ha hp h h2 hl, htail _ _ h h2, sub_self, abs_zero]
      exact mul_nonneg (by norm_num) (sub_nonneg.mpr h)
    · rw [if_neg h2, zero_add, ← intervalIntegral.integral_add_adjacent_intervals (hc t1 (-a)) (hc (-a) t2),
        htail _ _ (not_le.mp h1).le le_rfl, hcore _ _ (not_le.mp h2).le le_rfl, hcoreM,
        ← tail_integral a p t1 (-a) ha hp (not_le.mp h1).le le_rfl hl,
        show p / a - a - -a = p / a by ring, add_sub_add_left_eq_sub]
      refine (core_close (-a) t2 (not_le.mp h2).le).trans ?_
      exact mul_le_mul_of_nonneg_left (by linarith [not_le.mp h1]) (by norm_num)

/-- The width is a factor of all three cases. -/
theorem cases_scale (s a p t1 t2 : ℝ) : cbCases Spec.erf s a p t1 t2 = s * cbCases Spec.erf (1 : ℝ) a p t1 t2 := by
  unfold cbCases cbCore cbTail
  real_ops
  push_cast
  split_ifs <;> ring

end GooFit.Offered
