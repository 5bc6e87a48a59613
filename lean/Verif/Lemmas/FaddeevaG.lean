import Verif.Lemmas.FaddeevaF
import Mathlib.MeasureTheory.Integral.Bochner.ContinuousLinearMap
/-!
# The Voigt profile as the real part of the complex error function; reflection
-/
set_option autoImplicit false
namespace GooFit.Faddeeva
open MeasureTheory Complex Set

theorem fad_integrable (z : ℂ) (hz : 0 < z.im) :
    Integrable fun t : ℝ => cexp (-(t : ℂ) ^ 2) / (z - t) := by
  have ha : Integrable (fun t : ℝ => (1 / z.im) * Real.exp (-(1 : ℝ) * t ^ 2)) :=
    (integrable_exp_neg_mul_sq (by norm_num)).const_mul _
  refine ha.mono' ?_ (Filter.Eventually.of_forall fun t => ?_)
  · apply Continuous.aestronglyMeasurable
    apply Continuous.div
    · fun_prop
    · fun_prop
    · intro t; exact sub_ne z hz t
  · rw [norm_div]
    have h1 : ‖cexp (-(t : ℂ) ^ 2)‖ = Real.exp (-(1 : ℝ) * t ^ 2) := by
      rw [show -(t : ℂ) ^ 2 = ((-(1 : ℝ) * t ^ 2 : ℝ) : ℂ) by push_cast; ring,
        ← Complex.ofReal_exp, Complex.norm_of_nonneg (Real.exp_pos _).le]
    have h2 := dist_im z t z.im (le_refl _)
    rw [h1, one_div, inv_mul_eq_div]
    exact div_le_div_of_nonneg_left (Real.exp_pos _).le hz h2

theorem fad_re (z : ℂ) (hz : 0 < z.im) :
    (Spec.faddeeva z).re = 1 / Real.pi * ∫ t : ℝ, z.im * Real.exp (-t ^ 2) / ((z.re - t) ^ 2 + z.im ^ 2) := by
  rw [Spec.faddeeva]
  have h1 : (I / Real.pi * ∫ t : ℝ, cexp (-(t : ℂ) ^ 2) / (z - t)).re =
      -(1 / Real.pi) * (∫ t : ℝ, cexp (-(t : ℂ) ^ 2) / (z - t)).im := by
    generalize (∫ t : ℝ, cexp (-(t : ℂ) ^ 2) / (z - t)) = Z
    have e : I / (Real.pi : ℂ) = ((1 / Real.pi : ℝ) : ℂ) * I := by push_cast; ring
    rw [e, mul_assoc, Complex.re_ofReal_mul]
    simp
  have h2 : (∫ t : ℝ, cexp (-(t : ℂ) ^ 2) / (z - t)).im =
      ∫ t : ℝ, (cexp (-(t : ℂ) ^ 2) / (z - t)).im := by
    have := integral_im (fad_integrable z hz)
    simpa using this.symm
  rw [h1, h2, neg_mul, ← mul_neg, ← integral_neg]
  congr 1
  congr 1
  funext t
  have hne : (z.re - t) ^ 2 + z.im ^ 2 ≠ 0 := by positivity
  have e1 : cexp (-(t : ℂ) ^ 2) = ((Real.exp (-t ^ 2) : ℝ) : ℂ) := by push_cast; rfl
  rw [e1, div_eq_mul_inv, Complex.im_ofReal_mul, Complex.inv_im, Complex.normSq_apply]
  simp only [sub_re, sub_im, ofReal_re, ofReal_im, sub_zero]
  have hne2 : (z.re - t) * (z.re - t) + z.im * z.im ≠ 0 := by
    intro h; apply hne; rw [← h]; ring
  field_simp

theorem voigt_eq (x m σ Γ : ℝ) (hσ : 0 < σ) (hΓ : 0 < Γ) :
    Spec.voigt x m σ Γ = 1 / (Real.sqrt 2 * σ) / Real.sqrt Real.pi *
      (Spec.faddeeva (Complex.mk ((x - m) / (Real.sqrt 2 * σ)) (Γ / (2 * (Real.sqrt 2 * σ))))).re := by
  have h2 : 0 < Real.sqrt 2 := Real.sqrt_pos.2 (by norm_num)
  set a := Real.sqrt 2 * σ with ha
  have ha0 : 0 < a := mul_pos h2 hσ
  have ha2 : a ^ 2 = 2 * σ ^ 2 := by rw [ha, mul_pow, Real.sq_sqrt (by norm_num)]
  have hsp : σ * Real.sqrt (2 * Real.pi) = a * Real.sqrt Real.pi := by
    rw [Real.sqrt_mul (by norm_num), ha]; ring
  rw [fad_re _ (by simp only; positivity), Spec.voigt]
  rw [← integral_sub_left_eq_self _ volume x]
  have hs := Measure.integral_comp_mul_left
    (fun s : ℝ => Spec.breitWignerDensity Γ (x - s - m) * Spec.smearingDensity σ (x - s - x)) a
  rw [smul_eq_mul, abs_of_pos (inv_pos.2 ha0), eq_inv_mul_iff_mul_eq₀ ha0.ne'] at hs
  rw [← hs, ← integral_const_mul, ← integral_const_mul, ← integral_const_mul]
  congr 1
  funext τ
  have hp := Real.pi_pos
  have hsq := sqrtpi_pos
  simp only [Spec.breitWignerDensity, Spec.smearingDensity]
  rw [hsp, ← ha2]
  have e1 : -(x - a * τ - x) ^ 2 / a ^ 2 = -τ ^ 2 := by field_simp; ring
  rw [e1]
  have e2 : (x - a * τ - m) ^ 2 + Γ ^ 2 / 4 = a ^ 2 * (((x - m) / a - τ) ^ 2 + (Γ / (2 * a)) ^ 2) := by
    field_simp
    ring
  rw [e2]
  have e3 : ((x - m) / a - τ) ^ 2 + (Γ / (2 * a)) ^ 2 ≠ 0 := by positivity
  generalize ((x - m) / a - τ) ^ 2 + (Γ / (2 * a)) ^ 2 = Q at e3
  field_simp

/-! ### Reflection about the imaginary axis -/

/-- the mirror image `-x + iy` of `x + iy` -/
def mirror (z : ℂ) : ℂ := Complex.mk (-z.re) z.im

theorem pade_conj (cs : List ℝ) (w : ℂ) : padeLoop cs ((starRingEnd ℂ) w) = (starRingEnd ℂ) (padeLoop cs w) := by
  cases cs with
  | nil => simp [padeLoop]
  | cons c0 rest =>
    simp only [padeLoop]
    have : ∀ (l : List ℝ) (c : ℂ), l.foldl (fun (c : ℂ) (ci : ℝ) => c * (starRingEnd ℂ) w + (ci : ℂ)) ((starRingEnd ℂ) c) =
        (starRingEnd ℂ) (l.foldl (fun (c : ℂ) (ci : ℝ) => c * w + (ci : ℂ)) c) := by
      intro l
      induction l with
      | nil => intro c; rfl
      | cons b l ih =>
        intro c
        simp only [List.foldl_cons]
        rw [← ih]
        congr 1
        simp
    rw [← this, Complex.conj_ofReal]

theorem mirror_sq (z : ℂ) : mirror z * mirror z = (starRingEnd ℂ) (z * z) := by
  apply Complex.ext
  · simp [mirror]
  · simp [mirror]

theorem dev_mirror (z : ℂ) : devFaddeeva (mirror z) = (devFaddeeva z).map (starRingEnd ℂ) := by
  have hn : Complex.normSq (mirror z) = Complex.normSq z := by
    simp [Complex.normSq_apply, mirror]
  by_cases hs : Complex.normSq z < 1e-7
  · rw [devFaddeeva, devFaddeeva]
    simp only [hn, if_pos hs, mirror_sq, pade_conj, Complex.exp_conj]
    have e1 : ((starRingEnd ℂ) (cexp (z * z)) = 0 ∨ (starRingEnd ℂ) (padeLoop devPadeD (z * z)) = 0) ↔
        (cexp (z * z) = 0 ∨ padeLoop devPadeD (z * z) = 0) := by
      simp only [map_eq_zero]
    by_cases h0 : cexp (z * z) = 0 ∨ padeLoop devPadeD (z * z) = 0
    · rw [if_pos (e1.2 h0), if_pos h0]; rfl
    · rw [if_neg (fun h => h0 (e1.1 h)), if_neg h0, Option.map_some]
      congr 1
      have em : mirror z = -(starRingEnd ℂ) z := by
        apply Complex.ext <;> simp [mirror]
      have ei : Complex.mk 0.0 (2 / Real.sqrt Real.pi) = -(starRingEnd ℂ) (Complex.mk 0.0 (2 / Real.sqrt Real.pi)) := by
        apply Complex.ext
        · simp; norm_num
        · simp
      simp only [map_add, map_mul, map_div₀, map_one]
      rw [em]
      nth_rewrite 1 [ei]
      ring
  · rw [devFaddeeva, devFaddeeva]
    simp only [hn, if_neg hs]
    have hre : (mirror z).re = -z.re := rfl
    have him : (mirror z).im = z.im := rfl
    rw [hre, him]
    simp only [abs_neg]
    have hd : (z.im - -z.re) * (z.im + -z.re) = (z.im - z.re) * (z.im + z.re) := by ring
    have hf : 4 * -z.re * -z.re * z.im * z.im = 4 * z.re * z.re * z.im * z.im := by ring
    rw [hd, hf]
    generalize (if (|z.im| < 0.01 ∧ |z.re| < 6.01) ∧
      (|z.re| * 2 - ⌊|z.re| * 2⌋ < 0.02 ∨ |z.re| * 2 - ⌊|z.re| * 2⌋ > 0.98) then 1 / Real.pi * 0.53
        else 1 / Real.pi * 0.5) = r
    generalize tableLoop _ _ _ _ _ 0.0 0.0 = T
    cases T with
    | none => rfl
    | some gh =>
      simp only [Option.bind_eq_bind, Option.bind_some]
      generalize fdiv 1 (Complex.normSq z) = U
      cases U with
      | none => rfl
      | some u =>
        simp only [Option.bind_some]
        have hc : (r : ℂ) * Complex.mk (z.im * (u + 2.0 * gh.1)) (-z.re * (u + 2.0 * gh.2)) =
            (starRingEnd ℂ) ((r : ℂ) * Complex.mk (z.im * (u + 2.0 * gh.1)) (z.re * (u + 2.0 * gh.2))) := by
          rw [map_mul, Complex.conj_ofReal]
          congr 1
          apply Complex.ext <;> simp
        rw [hc]
        by_cases hy : z.im < 6.28318530717958
        · simp only [if_pos hy]
          generalize fdiv 2.0 r = S
          cases S with
          | none => rfl
          | some s =>
            simp only [Option.bind_some]
            have h1 : s * -z.re = -(s * z.re) := by ring
            have h2 : 2.0 * -z.re * z.im = -(2.0 * z.re * z.im) := by rw [mul_neg, neg_mul]
            rw [h1, h2, Real.sin_neg, Real.cos_neg, Real.sin_neg, Real.cos_neg]
            have h3 : -Real.sin (s * z.re) * -Real.sin (s * z.re) = Real.sin (s * z.re) * Real.sin (s * z.re) := by ring
            rw [h3]
            generalize fdiv _ (Real.sin (s * z.re) * Real.sin (s * z.re) + _) = G
            cases G with
            | none => rfl
            | some g =>
              simp only [Option.bind_some, Option.map_some]
              congr 1
              rw [map_add, map_mul, Complex.conj_ofReal]
              congr 2
              apply Complex.ext
              · simp
              · simp [mul_comm, add_comm]
        · simp only [if_neg hy, Option.map_some]

end GooFit.Faddeeva
