import Verif.Model.Mixing
import Verif.Spec.Mixing
import Verif.Lemmas.Mixing
import Mathlib.Analysis.Convolution

/-!
# Exponentials folded with a normal distribution
-/

set_option autoImplicit false

namespace GooFit

open MeasureTheory Set Spec

/-- Moments of the upper tail of `exp (-v²)`. -/
noncomputable def gm (n : ℕ) (u : ℝ) : ℝ := ∫ v in Ioi u, v ^ n * Real.exp (-v ^ 2)

theorem gm_integrable (n : ℕ) : Integrable (fun v : ℝ => v ^ n * Real.exp (-v ^ 2)) := by
  have h := integrable_rpow_mul_exp_neg_mul_sq (b := 1) one_pos (s := n) (by
    have : (0 : ℝ) ≤ n := Nat.cast_nonneg n
    linarith)
  simpa [Real.rpow_natCast] using h

theorem gm_tendsto (n : ℕ) : Filter.Tendsto (fun v : ℝ => v ^ n * Real.exp (-v ^ 2)) Filter.atTop (nhds 0) := by
  have k := Real.tendsto_pow_mul_exp_neg_atTop_nhds_zero n
  refine squeeze_zero' ?_ ?_ k
  · filter_upwards [Filter.eventually_ge_atTop (0 : ℝ)] with v hv
    positivity
  · filter_upwards [Filter.eventually_ge_atTop (1 : ℝ)] with v hv
    have : Real.exp (-v ^ 2) ≤ Real.exp (-v) := Real.exp_le_exp.2 (by nlinarith)
    exact mul_le_mul_of_nonneg_left this (by positivity)

theorem expsq_deriv (v : ℝ) : HasDerivAt (fun v : ℝ => Real.exp (-v ^ 2)) (Real.exp (-v ^ 2) * (-(2 * v))) v := by
  have h : HasDerivAt (fun v : ℝ => -v ^ 2) (-(2 * v)) v := by
    refine ((hasDerivAt_pow 2 v).neg).congr_deriv ?_
    simp
  exact h.exp

theorem gm_one (u : ℝ) : gm 1 u = Real.exp (-u ^ 2) / 2 := by
  have hd : ∀ v ∈ Ici u, HasDerivAt (fun v : ℝ => -(v ^ 0 * Real.exp (-v ^ 2)) / 2) (v ^ 1 * Real.exp (-v ^ 2)) v := by
    intro v _
    have := ((expsq_deriv v).neg).div_const 2
    simp only [pow_zero, one_mul]
    refine this.congr_deriv ?_
    ring
  have ht := ((gm_tendsto 0).neg).div_const 2
  rw [neg_zero, zero_div] at ht
  unfold gm
  rw [integral_Ioi_of_hasDerivAt_of_tendsto' hd (gm_integrable 1).integrableOn ht]
  simp
  ring

theorem gm_two (u : ℝ) : gm 2 u = u * Real.exp (-u ^ 2) / 2 + gm 0 u / 2 := by
  have hd : ∀ v ∈ Ici u, HasDerivAt (fun v : ℝ => -(v ^ 1 * Real.exp (-v ^ 2)) / 2)
      (v ^ 2 * Real.exp (-v ^ 2) - v ^ 0 * Real.exp (-v ^ 2) / 2) v := by
    intro v _
    have := (((hasDerivAt_id v).mul (expsq_deriv v)).neg).div_const 2
    simp only [pow_one]
    refine this.congr_deriv ?_
    simp only [id]
    ring
  have ht := ((gm_tendsto 1).neg).div_const 2
  rw [neg_zero, zero_div] at ht
  have h := integral_Ioi_of_hasDerivAt_of_tendsto' hd
    ((gm_integrable 2).integrableOn.sub ((gm_integrable 0).integrableOn.div_const 2)) ht
  rw [integral_sub (gm_integrable 2).integrableOn ((gm_integrable 0).integrableOn.div_const 2),
    integral_div] at h
  unfold gm
  linarith

theorem gm_three (u : ℝ) : gm 3 u = (u ^ 2 + 1) * Real.exp (-u ^ 2) / 2 := by
  have hd : ∀ v ∈ Ici u, HasDerivAt (fun v : ℝ => -(v ^ 2 * Real.exp (-v ^ 2) + v ^ 0 * Real.exp (-v ^ 2)) / 2)
      (v ^ 3 * Real.exp (-v ^ 2)) v := by
    intro v _
    have := ((((hasDerivAt_pow 2 v).mul (expsq_deriv v)).add (expsq_deriv v)).neg).div_const 2
    simp only [pow_zero, one_mul]
    refine this.congr_deriv ?_
    simp
    ring
  have ht := (((gm_tendsto 2).add (gm_tendsto 0)).neg).div_const 2
  rw [add_zero, neg_zero, zero_div] at ht
  unfold gm
  rw [integral_Ioi_of_hasDerivAt_of_tendsto' hd (gm_integrable 3).integrableOn ht]
  simp
  ring

theorem gm_zero_erfc (u : ℝ) : 1.0 / (2 / √Real.pi) * erfcFun u = gm 0 u := by
  unfold erfcFun gm
  have : √Real.pi ≠ 0 := (Real.sqrt_pos.2 Real.pi_pos).ne'
  simp only [pow_zero, one_mul]
  rw [show (1.0 : ℝ) = 1 by norm_num]
  field_simp

theorem shift_Ioi (g : ℝ → ℝ) (u : ℝ) : ∫ x in Ioi 0, g (x + u) = ∫ v in Ioi u, g v := by
  rw [← integral_indicator measurableSet_Ioi, ← integral_indicator measurableSet_Ioi,
    ← integral_add_right_eq_self (fun v => (Ioi u).indicator g v) u]
  congr 1
  funext x
  by_cases hx : 0 < x
  · rw [indicator_of_mem (show x ∈ Ioi 0 from hx), indicator_of_mem (show x + u ∈ Ioi u by simpa using hx)]
  · rw [indicator_of_notMem (show x ∉ Ioi 0 from hx), indicator_of_notMem (show x + u ∉ Ioi u by simpa using hx)]

theorem subst_Ioi (g : ℝ → ℝ) (u : ℝ) {b : ℝ} (hb : 0 < b) :
    ∫ t in Ioi 0, g (t / b + u) = b * ∫ v in Ioi u, g v := by
  have h := integral_comp_mul_left_Ioi (fun x => g (x + u)) 0 (inv_pos.2 hb)
  rw [mul_zero, inv_inv, smul_eq_mul, shift_Ioi] at h
  rw [← h]
  congr 1
  funext t
  rw [div_eq_inv_mul]

/-- The lower end of the error function for a damping constant `k`. -/
noncomputable def ulow (σ T k : ℝ) : ℝ := σ / √2 * (k - T / σ ^ 2)

theorem fold_point {σ : ℝ} (hσ : 0 < σ) (T k t : ℝ) :
    Real.exp (-k * t) * normalDensity σ (T - t)
      = 1 / (σ * √(2 * Real.pi)) * Real.exp (-(T ^ 2 / (2 * σ ^ 2)) + ulow σ T k ^ 2)
        * Real.exp (-(t / (σ * √2) + ulow σ T k) ^ 2) := by
  unfold normalDensity
  have h2 : √2 ^ 2 = (2 : ℝ) := Real.sq_sqrt (by norm_num)
  have hs : √2 ≠ (0 : ℝ) := by positivity
  have : -k * t + -(T - t) ^ 2 / (2 * σ ^ 2)
      = (-(T ^ 2 / (2 * σ ^ 2)) + ulow σ T k ^ 2) + -(t / (σ * √2) + ulow σ T k) ^ 2 := by
    unfold ulow
    generalize hr : √2 = r at *
    have e1 : (t / (σ * r)) ^ 2 = t ^ 2 / (2 * σ ^ 2) := by
      rw [div_pow, mul_pow, h2, mul_comm]
    have e2 : t / (σ * r) * (σ / r * (k - T / σ ^ 2)) = t * (k - T / σ ^ 2) / 2 := by
      rw [← h2]; field_simp
    rw [add_sq, e1, mul_assoc, e2]
    field_simp
    ring
  calc _ = 1 / (σ * √(2 * Real.pi)) * (Real.exp (-k * t) * Real.exp (-(T - t) ^ 2 / (2 * σ ^ 2))) := by ring
    _ = _ := by rw [← Real.exp_add, this, Real.exp_add]; ring

/-- A damped function of the true time folded with a normal distribution. -/
theorem fold_eq {σ : ℝ} (hσ : 0 < σ) (T k : ℝ) (g : ℝ → ℝ) :
    smear (fun t => Real.exp (-k * t) * g t) (normalDensity σ) T
      = 1 / (σ * √(2 * Real.pi)) * Real.exp (-(T ^ 2 / (2 * σ ^ 2)) + ulow σ T k ^ 2) * (σ * √2)
        * ∫ v in Ioi (ulow σ T k), g (σ * √2 * (v - ulow σ T k)) * Real.exp (-v ^ 2) := by
  have hb : 0 < σ * √2 := by positivity
  have h := subst_Ioi (fun v => g (σ * √2 * (v - ulow σ T k)) * Real.exp (-v ^ 2)) (ulow σ T k) hb
  rw [mul_assoc _ (σ * √2), ← h, ← integral_const_mul]
  unfold smear
  congr 1
  funext t
  have e : σ * √2 * (t / (σ * √2) + ulow σ T k - ulow σ T k) = t := by
    rw [add_sub_cancel_right]; field_simp
  rw [e]
  calc _ = g t * (Real.exp (-k * t) * normalDensity σ (T - t)) := by ring
    _ = _ := by rw [fold_point hσ]; ring

theorem poly_tail (p0 p1 p2 p3 u : ℝ) :
    ∫ v in Ioi u, (p0 + p1 * v + p2 * v ^ 2 + p3 * v ^ 3) * Real.exp (-v ^ 2)
      = p0 * gm 0 u + p1 * gm 1 u + p2 * gm 2 u + p3 * gm 3 u := by
  have i0 := ((gm_integrable 0).integrableOn (s := Ioi u)).const_mul p0
  have i1 := ((gm_integrable 1).integrableOn (s := Ioi u)).const_mul p1
  have i2 := ((gm_integrable 2).integrableOn (s := Ioi u)).const_mul p2
  have i3 := ((gm_integrable 3).integrableOn (s := Ioi u)).const_mul p3
  unfold gm
  rw [← integral_const_mul, ← integral_const_mul, ← integral_const_mul, ← integral_const_mul]
  have e01 := integral_add i0 i1
  have e012 := integral_add (i0.add i1) i2
  have e0123 := integral_add ((i0.add i1).add i2) i3
  simp only [Pi.add_apply] at e01 e012 e0123
  rw [← e01, ← e012, ← e0123]
  congr 1
  funext v
  ring

/-- Integrability of the folded function. -/
theorem fold_int {σ : ℝ} (hσ : 0 < σ) (T k : ℝ) :
    IntegrableOn (fun t => Real.exp (-k * t) * normalDensity σ (T - t)) (Ioi 0) := by
  have hb : σ * √2 ≠ 0 := by positivity
  have h0 : Integrable (fun v : ℝ => Real.exp (-v ^ 2)) := by simpa using gm_integrable 0
  have h1 := (h0.comp_add_right (ulow σ T k)).comp_div hb
  have h2 := h1.const_mul (1 / (σ * √(2 * Real.pi)) * Real.exp (-(T ^ 2 / (2 * σ ^ 2)) + ulow σ T k ^ 2))
  refine (h2.congr (Filter.Eventually.of_forall fun t => ?_)).integrableOn
  rw [fold_point hσ]

theorem normal_integrable {σ : ℝ} (hσ : 0 < σ) : Integrable (normalDensity σ) := by
  have h := (integrable_exp_neg_mul_sq (b := 1 / (2 * σ ^ 2)) (by positivity)).const_mul (1 / (σ * √(2 * Real.pi)))
  refine h.congr (Filter.Eventually.of_forall fun t => ?_)
  unfold normalDensity
  dsimp only
  congr 2
  ring

theorem normal_total {σ : ℝ} (hσ : 0 < σ) : ∫ u, normalDensity σ u = 1 := by
  have h := integral_gaussian (1 / (2 * σ ^ 2))
  have e : (fun u => normalDensity σ u) = fun u : ℝ => 1 / (σ * √(2 * Real.pi)) * Real.exp (-(1 / (2 * σ ^ 2)) * u ^ 2) := by
    funext u
    unfold normalDensity
    congr 2
    ring
  rw [e, integral_const_mul, h]
  have : Real.pi / (1 / (2 * σ ^ 2)) = σ ^ 2 * (2 * Real.pi) := by field_simp
  rw [this, Real.sqrt_mul (sq_nonneg σ), Real.sqrt_sq hσ.le]
  have : √(2 * Real.pi) ≠ 0 := by positivity
  field_simp

/-- Folding preserves the integral. -/
theorem smear_total {σ : ℝ} (hσ : 0 < σ) (f : ℝ → ℝ) (hf : IntegrableOn f (Ioi 0)) :
    ∫ T, smear f (normalDensity σ) T = ∫ t in Ioi 0, f t := by
  have hf' : Integrable ((Ioi 0).indicator f) := (integrable_indicator_iff measurableSet_Ioi).2 hf
  have h := integral_convolution (μ := volume) (ν := volume) (ContinuousLinearMap.mul ℝ ℝ) hf' (normal_integrable hσ)
  rw [ContinuousLinearMap.mul_apply', normal_total hσ, mul_one, integral_indicator measurableSet_Ioi] at h
  rw [← h]
  congr 1
  funext T
  unfold smear
  rw [convolution_def, ← integral_indicator measurableSet_Ioi]
  congr 1
  funext t
  rw [ContinuousLinearMap.mul_apply']
  by_cases ht : t ∈ Ioi (0 : ℝ)
  · rw [indicator_of_mem ht, indicator_of_mem ht]
  · rw [indicator_of_notMem ht, indicator_of_notMem ht, zero_mul]

theorem smear_integrable {σ : ℝ} (hσ : 0 < σ) (f : ℝ → ℝ) (hf : IntegrableOn f (Ioi 0)) :
    Integrable (smear f (normalDensity σ)) := by
  have hf' : Integrable ((Ioi 0).indicator f) := (integrable_indicator_iff measurableSet_Ioi).2 hf
  have h := Integrable.integrable_convolution (μ := volume) (ContinuousLinearMap.mul ℝ ℝ) hf' (normal_integrable hσ)
  refine h.congr (Filter.Eventually.of_forall fun T => ?_)
  unfold smear
  rw [convolution_def, ← integral_indicator measurableSet_Ioi]
  congr 1
  funext t
  rw [ContinuousLinearMap.mul_apply']
  by_cases ht : t ∈ Ioi (0 : ℝ)
  · rw [indicator_of_mem ht, indicator_of_mem ht]
  · rw [indicator_of_notMem ht, indicator_of_notMem ht, zero_mul]

end GooFit
