import Verif.Model.Mixing
import Mathlib.Analysis.SpecialFunctions.ImproperIntegrals
import Mathlib.Analysis.SpecialFunctions.Gamma.Basic
import Mathlib.MeasureTheory.Integral.IntegralEqImproper
import Mathlib.Tactic.LinearCombination
import Mathlib.Tactic.FieldSimp

/-!
# Integrals of damped oscillations
-/

set_option autoImplicit false

namespace GooFit

open MeasureTheory Set

/-- Real exponentials of a line in the complex plane. -/
theorem cexp_parts (a b : ℝ) : Complex.exp ((a : ℂ) + (b : ℂ) * Complex.I)
    = (⟨Real.exp a * Real.cos b, Real.exp a * Real.sin b⟩ : ℂ) := by
  apply Complex.ext
  · simp [Complex.exp_re]
  · simp [Complex.exp_im]

theorem expC_int {a : ℂ} (ha : 0 < a.re) : IntegrableOn (fun t : ℝ => Complex.exp (-a * t)) (Ioi 0) :=
  integrableOn_exp_mul_complex_Ioi (by simpa using ha) 0

theorem expC_val {a : ℂ} (ha : 0 < a.re) : ∫ t : ℝ in Ioi 0, Complex.exp (-a * t) = 1 / a := by
  rw [integral_exp_mul_complex_Ioi (by simpa using ha) 0]
  simp

theorem texp_int {b : ℝ} (hb : 0 < b) : IntegrableOn (fun t : ℝ => t * Real.exp (-b * t)) (Ioi 0) := by
  have h := integrableOn_rpow_mul_exp_neg_mul_rpow (s := 1) (p := 1) (by norm_num) one_pos hb
  simpa [Real.rpow_one] using h

theorem texpC_int {a : ℂ} (ha : 0 < a.re) :
    IntegrableOn (fun t : ℝ => (t : ℂ) * Complex.exp (-a * t)) (Ioi 0) := by
  refine Integrable.mono' (texp_int ha) ?_ ?_
  · exact (by fun_prop : Continuous fun t : ℝ => (t : ℂ) * Complex.exp (-a * t)).aestronglyMeasurable
  · refine (ae_restrict_iff' measurableSet_Ioi).2 (Filter.Eventually.of_forall fun t ht => ?_)
    rw [norm_mul, Complex.norm_exp, Complex.norm_real, Real.norm_of_nonneg (le_of_lt ht)]
    simp

theorem texpC_val {a : ℂ} (ha : 0 < a.re) :
    ∫ t : ℝ in Ioi 0, (t : ℂ) * Complex.exp (-a * t) = 1 / a ^ 2 := by
  have ha0 : a ≠ 0 := by rintro rfl; simp at ha
  have hd : ∀ t ∈ Ici (0 : ℝ), HasDerivAt (fun t : ℝ => -((t : ℂ) / a + 1 / a ^ 2) * Complex.exp (-a * t))
      ((t : ℂ) * Complex.exp (-a * t)) t := by
    intro t _
    have h1 : HasDerivAt (fun t : ℝ => (t : ℂ)) 1 t := Complex.ofRealCLM.hasDerivAt
    have h2 : HasDerivAt (fun t : ℝ => Complex.exp (-a * t)) (Complex.exp (-a * t) * (-a * 1)) t :=
      (h1.const_mul (-a)).cexp
    have h3 : HasDerivAt (fun t : ℝ => -((t : ℂ) / a + 1 / a ^ 2)) (-(1 / a)) t :=
      ((h1.div_const a).add_const _).neg
    refine (h3.mul h2).congr_deriv ?_
    field_simp
    ring
  have ht : Filter.Tendsto (fun t : ℝ => -((t : ℂ) / a + 1 / a ^ 2) * Complex.exp (-a * t)) Filter.atTop
      (nhds 0) := by
    rw [tendsto_zero_iff_norm_tendsto_zero]
    have k1 := tendsto_rpow_mul_exp_neg_mul_atTop_nhds_zero 1 a.re ha
    have k0 := tendsto_rpow_mul_exp_neg_mul_atTop_nhds_zero 0 a.re ha
    have k := (k1.const_mul (1 / ‖a‖)).add (k0.const_mul (1 / ‖a‖ ^ 2))
    simp only [mul_zero, add_zero] at k
    refine squeeze_zero' (Filter.Eventually.of_forall fun t => norm_nonneg _) ?_ k
    filter_upwards [Filter.eventually_ge_atTop (0 : ℝ)] with t ht
    rw [norm_mul, Complex.norm_exp, norm_neg, Real.rpow_one, Real.rpow_zero]
    have e : (-a * (t : ℂ)).re = -a.re * t := by simp
    rw [e]
    have h : ‖(t : ℂ) / a + 1 / a ^ 2‖ ≤ 1 / ‖a‖ * t + 1 / ‖a‖ ^ 2 := by
      refine (norm_add_le _ _).trans (le_of_eq ?_)
      rw [norm_div, norm_div, norm_pow, Complex.norm_real, Real.norm_of_nonneg ht, norm_one]
      ring
    calc _ ≤ _ := mul_le_mul_of_nonneg_right h (Real.exp_pos _).le
      _ = _ := by ring
  rw [integral_Ioi_of_hasDerivAt_of_tendsto' hd (texpC_int ha) ht]
  simp

/-- A sum of three damped exponentials. -/
noncomputable def expSum (α β γ a b c : ℂ) (t : ℝ) : ℂ :=
  α * Complex.exp (-a * t) + β * Complex.exp (-b * t) + γ * Complex.exp (-c * t)

theorem expSum_int (α β γ : ℂ) {a b c : ℂ} (ha : 0 < a.re) (hb : 0 < b.re) (hc : 0 < c.re) :
    IntegrableOn (expSum α β γ a b c) (Ioi 0) :=
  (((expC_int ha).const_mul α).add ((expC_int hb).const_mul β)).add ((expC_int hc).const_mul γ)

theorem expSum_val (α β γ : ℂ) {a b c : ℂ} (ha : 0 < a.re) (hb : 0 < b.re) (hc : 0 < c.re) :
    ∫ t in Ioi 0, expSum α β γ a b c t = α / a + β / b + γ / c := by
  show ∫ t : ℝ in Ioi 0, α * Complex.exp (-a * t) + β * Complex.exp (-b * t) + γ * Complex.exp (-c * t) = _
  have e1 := (expC_int ha).const_mul α
  have e2 := (expC_int hb).const_mul β
  have e3 := (expC_int hc).const_mul γ
  rw [integral_add (f := fun t : ℝ => α * Complex.exp (-a * t) + β * Complex.exp (-b * t)) (e1.add e2) e3,
    integral_add e1 e2, integral_const_mul, integral_const_mul,
    integral_const_mul, expC_val ha, expC_val hb, expC_val hc]
  ring

theorem texpSum_int (α β γ : ℂ) {a b c : ℂ} (ha : 0 < a.re) (hb : 0 < b.re) (hc : 0 < c.re) :
    IntegrableOn (fun t : ℝ => (t : ℂ) * expSum α β γ a b c t) (Ioi 0) := by
  have := (((texpC_int ha).const_mul α).add ((texpC_int hb).const_mul β)).add ((texpC_int hc).const_mul γ)
  refine this.congr (Filter.Eventually.of_forall fun t => ?_)
  simp only [Pi.add_apply, expSum]
  ring

theorem texpSum_val (α β γ : ℂ) {a b c : ℂ} (ha : 0 < a.re) (hb : 0 < b.re) (hc : 0 < c.re) :
    ∫ t : ℝ in Ioi 0, (t : ℂ) * expSum α β γ a b c t = α / a ^ 2 + β / b ^ 2 + γ / c ^ 2 := by
  have e1 := (texpC_int ha).const_mul α
  have e2 := (texpC_int hb).const_mul β
  have e3 := (texpC_int hc).const_mul γ
  have : (fun t : ℝ => (t : ℂ) * expSum α β γ a b c t) = fun t : ℝ =>
      α * ((t : ℂ) * Complex.exp (-a * t)) + β * ((t : ℂ) * Complex.exp (-b * t))
        + γ * ((t : ℂ) * Complex.exp (-c * t)) := by
    funext t; simp only [expSum]; ring
  rw [this, integral_add (f := fun t : ℝ => α * ((t : ℂ) * Complex.exp (-a * t))
    + β * ((t : ℂ) * Complex.exp (-b * t))) (e1.add e2) e3, integral_add e1 e2, integral_const_mul, integral_const_mul,
    integral_const_mul, texpC_val ha, texpC_val hb, texpC_val hc]
  ring

/-- The time dependence of a mixing rate as damped exponentials. -/
theorem truthResolution_eq_expSum (c1 c2 c3 c4 τ t x y : ℝ) :
    truthResolution c1 c2 c3 c4 τ t x y
      = (expSum (c1 / 2 - c3 : ℝ) (c1 / 2 + c3 : ℝ) ⟨c2, 2 * c4⟩ ((1 - y) / τ : ℝ) ((1 + y) / τ : ℝ)
          ⟨1 / τ, -(x / τ)⟩ t).re := by
  have h1 : -(((1 - y) / τ : ℝ) : ℂ) * t = ((y * (t / τ) + -(t / τ) : ℝ) : ℂ) + ((0 : ℝ) : ℂ) * Complex.I := by
    push_cast; ring
  have h2 : -(((1 + y) / τ : ℝ) : ℂ) * t = ((-(y * (t / τ)) + -(t / τ) : ℝ) : ℂ) + ((0 : ℝ) : ℂ) * Complex.I := by
    push_cast; ring
  have h3 : -(⟨1 / τ, -(x / τ)⟩ : ℂ) * t = ((-(t / τ) : ℝ) : ℂ) + ((x * (t / τ) : ℝ) : ℂ) * Complex.I := by
    apply Complex.ext
    · simp; ring
    · simp; ring
  unfold expSum truthResolution
  rw [h1, h2, h3, cexp_parts, cexp_parts, cexp_parts, Real.exp_add, Real.exp_add]
  dsimp only
  rw [Real.cosh_eq, Real.sinh_eq, Real.cos_zero, Real.sin_zero]
  simp only [Complex.add_re, Complex.mul_re, Complex.ofReal_re, Complex.ofReal_im]
  ring

end GooFit
