import Verif.Model.ExtRes
import Verif.Spec.Acceptance
import Verif.Lemmas.ExtRes

/-!
# C76: decay-time resolution with an efficiency of two slopes
-/

set_option autoImplicit false

namespace GooFit

open Spec MeasureTheory Set

theorem slope_point (C s t0 τ t q r : ℝ) :
    C * Real.exp (-s * (t - t0)) * Real.exp (-(t / τ)) * r * q
      = C * Real.exp (s * t0) * (Real.exp (-(1 / τ + s) * t) * q * r) := by
  have e : Real.exp (-s * (t - t0)) * Real.exp (-(t / τ)) = Real.exp (s * t0) * Real.exp (-(1 / τ + s) * t) := by
    rw [← Real.exp_add, ← Real.exp_add]; congr 1; ring
  calc _ = C * (Real.exp (-s * (t - t0)) * Real.exp (-(t / τ))) * r * q := by ring
    _ = _ := by rw [e]; ring

/-- **C76 (before the threshold).**  The four numbers computed for true times before
the threshold are the functions `cosh (y t/τ)`, `cos (x t/τ)`, `sinh (y t/τ)` and
`sin (x t/τ)`, times the decay law and the efficiency `C exp (-s (t - t0))`, folded
with the Gaussian over the true times from 0 to `t0`; the cosine and the sine are
replaced by the first two terms of their power series. -/
theorem C76_before_partial (τ T x y σ s t0 C : ℝ) (hσ : 0 < σ) (ht : 0 ≤ t0) :
    gaussLow τ T x y σ s t0 C
      = (∫ t in Ioc 0 t0, C * Real.exp (-s * (t - t0)) * Real.exp (-(t / τ)) * normalDensity σ (T - t)
            * Real.cosh (y * (t / τ)),
         ∫ t in Ioc 0 t0, C * Real.exp (-s * (t - t0)) * Real.exp (-(t / τ)) * normalDensity σ (T - t)
            * (1 - (x * (t / τ)) ^ 2 / 2),
         ∫ t in Ioc 0 t0, C * Real.exp (-s * (t - t0)) * Real.exp (-(t / τ)) * normalDensity σ (T - t)
            * Real.sinh (y * (t / τ)),
         ∫ t in Ioc 0 t0, C * Real.exp (-s * (t - t0)) * Real.exp (-(t / τ)) * normalDensity σ (T - t)
            * (x * (t / τ) - (x * (t / τ)) ^ 3 / 6)) := by
  obtain ⟨h1, h2, h3, h4⟩ := trunc_fold_int hσ T τ x y s
  simp only [slope_point, integral_const_mul]
  rw [integral_Ioc_eq_sub ht _ h1, integral_Ioc_eq_sub ht _ h2, integral_Ioc_eq_sub ht _ h3,
    integral_Ioc_eq_sub ht _ h4, gaussLow_eq hσ ht]
  rfl

/-- A Gaussian of 50 fs, a threshold at 200 fs, the lifetime of the charmed meson. -/
example (T : ℝ) := C76_before_partial (41 / 100) T (4 / 1000) (6 / 1000) (1 / 20) (-2) (1 / 5) 1
  (by norm_num) (by norm_num)

/-- **C76, partial (after the threshold).**  For true times after the threshold the
first and the third number are the folded hyperbolic functions; the other two are
the folded cosine and sine if `x = 0`.  Missing: `x ≠ 0`, where they are wrong
(`C76_violation_after`). -/
theorem C76_after_partial (τ T x y σ s t0 C : ℝ) (hσ : 0 < σ) (ht : 0 ≤ t0) :
    (gaussHigh τ T x y σ s t0 C).1
      = ∫ t in Ioi t0, C * Real.exp (-s * (t - t0)) * Real.exp (-(t / τ)) * normalDensity σ (T - t)
          * Real.cosh (y * (t / τ))
    ∧ (gaussHigh τ T x y σ s t0 C).2.2.1
      = ∫ t in Ioi t0, C * Real.exp (-s * (t - t0)) * Real.exp (-(t / τ)) * normalDensity σ (T - t)
          * Real.sinh (y * (t / τ))
    ∧ (x = 0 →
        (gaussHigh τ T x y σ s t0 C).2.1
          = ∫ t in Ioi t0, C * Real.exp (-s * (t - t0)) * Real.exp (-(t / τ)) * normalDensity σ (T - t)
              * Real.cos (x * (t / τ))
        ∧ (gaussHigh τ T x y σ s t0 C).2.2.2
          = ∫ t in Ioi t0, C * Real.exp (-s * (t - t0)) * Real.exp (-(t / τ)) * normalDensity σ (T - t)
              * Real.sin (x * (t / τ))) := by
  rw [gaussHigh_eq hσ ht]
  simp only [slope_point, integral_const_mul]
  refine ⟨rfl, rfl, ?_⟩
  rintro rfl
  unfold highExcess foldFrom smearFrom
  dsimp only
  constructor
  · simp
  · simp

example (T : ℝ) := C76_after_partial (41 / 100) T 0 (6 / 1000) (1 / 20) 1 (1 / 5) 1 (by norm_num) (by norm_num)

theorem excess_point {σ : ℝ} (hσ : 0 < σ) (T k t0 : ℝ) :
    foldPre σ T k * gm 1 (t0 / (σ * √2) + ulow σ T k)
      = σ / √2 * Real.exp (-k * t0) * normalDensity σ (T - t0) := by
  have h2 : √2 * √2 = (2 : ℝ) := Real.mul_self_sqrt (by norm_num)
  have hs : √2 ≠ (0 : ℝ) := by positivity
  rw [gm_one]
  unfold foldPre normalDensity
  have e : Real.exp (-(T ^ 2 / (2 * σ ^ 2)) + ulow σ T k ^ 2) * Real.exp (-(t0 / (σ * √2) + ulow σ T k) ^ 2)
      = Real.exp (-k * t0) * Real.exp (-(T - t0) ^ 2 / (2 * σ ^ 2)) := by
    rw [← Real.exp_add, ← Real.exp_add]
    congr 1
    unfold ulow
    field_simp
    have h2' : √2 ^ 2 = (2 : ℝ) := by rw [pow_two, h2]
    rw [h2']
    ring
  have e2 : σ * √2 / 2 = σ / √2 := by
    rw [div_eq_div_iff (by norm_num) hs, mul_assoc, h2]
  calc _ = 1 / (σ * √(2 * Real.pi)) * (σ * √2 / 2) * (Real.exp (-(T ^ 2 / (2 * σ ^ 2)) + ulow σ T k ^ 2)
        * Real.exp (-(t0 / (σ * √2) + ulow σ T k) ^ 2)) := by ring
    _ = _ := by rw [e, e2]; ring

theorem excess_w {σ : ℝ} (hσ : 0 < σ) (T k t0 : ℝ) :
    t0 / (σ * √2) + ulow σ T k = σ * k / √2 - (T - t0) / (σ * √2) := by
  unfold ulow
  have hs : √2 ≠ (0 : ℝ) := by positivity
  field_simp
  ring

theorem highExcess_one {σ : ℝ} (hσ : 0 < σ) (τ T x s t0 : ℝ) :
    (highExcess τ T x σ s t0).1
      = -((x / τ) ^ 2 * σ ^ 3 / √2 * Real.exp (-(1 / τ + s) * t0)
          * ((1 - σ * (1 / τ + s) / √2 + (T - t0) / (σ * √2)) * normalDensity σ (T - t0))) := by
  have h := excess_point hσ T (1 / τ + s) t0
  have h2 : √2 * √2 = (2 : ℝ) := Real.mul_self_sqrt (by norm_num)
  unfold highExcess
  dsimp only
  calc _ = -1 / 2 * ((x * (1 / τ) * (σ * √2)) * (x * (1 / τ) * (σ * √2)))
        * (foldPre σ T (1 / τ + s) * gm 1 (t0 / (σ * √2) + ulow σ T (1 / τ + s)))
        * (1 - (t0 / (σ * √2) + ulow σ T (1 / τ + s))) := by ring
    _ = -1 / 2 * ((x / τ) ^ 2 * σ ^ 2 * (√2 * √2)) * (σ / √2 * Real.exp (-(1 / τ + s) * t0) * normalDensity σ (T - t0))
        * (1 - (σ * (1 / τ + s) / √2 - (T - t0) / (σ * √2))) := by
          rw [h, excess_w hσ]; ring
    _ = _ := by rw [h2]; ring

/-- **C76, violation (after the threshold).**  For every `x ≠ 0` the second number is
not the folded cut cosine, except at one measured time: what is computed differs from
it by the given term. -/
theorem C76_violation_after (τ T x y σ s t0 C : ℝ) (hσ : 0 < σ) (ht : 0 ≤ t0) :
    (gaussHigh τ T x y σ s t0 C).2.1
      = (∫ t in Ioi t0, C * Real.exp (-s * (t - t0)) * Real.exp (-(t / τ)) * normalDensity σ (T - t)
          * (1 - (x * (t / τ)) ^ 2 / 2))
        - C * Real.exp (s * t0) * ((x / τ) ^ 2 * σ ^ 3 / √2 * Real.exp (-(1 / τ + s) * t0)
          * ((1 - σ * (1 / τ + s) / √2 + (T - t0) / (σ * √2)) * normalDensity σ (T - t0)))
    ∧ (x ≠ 0 → τ ≠ 0 → C ≠ 0 → T = t0 → σ * (1 / τ + s) < √2 →
        (gaussHigh τ T x y σ s t0 C).2.1
          ≠ ∫ t in Ioi t0, C * Real.exp (-s * (t - t0)) * Real.exp (-(t / τ)) * normalDensity σ (T - t)
            * (1 - (x * (t / τ)) ^ 2 / 2)) := by
  have h : (gaussHigh τ T x y σ s t0 C).2.1
      = (∫ t in Ioi t0, C * Real.exp (-s * (t - t0)) * Real.exp (-(t / τ)) * normalDensity σ (T - t)
          * (1 - (x * (t / τ)) ^ 2 / 2))
        - C * Real.exp (s * t0) * ((x / τ) ^ 2 * σ ^ 3 / √2 * Real.exp (-(1 / τ + s) * t0)
          * ((1 - σ * (1 / τ + s) / √2 + (T - t0) / (σ * √2)) * normalDensity σ (T - t0))) := by
    rw [gaussHigh_eq hσ ht]
    dsimp only
    rw [highExcess_one hσ]
    simp only [slope_point, integral_const_mul]
    unfold foldFrom smearFrom
    dsimp only
    ring
  refine ⟨h, ?_⟩
  rintro hx hτ hC rfl hk
  rw [h]
  have hs : 0 < √2 := by positivity
  have h1 : 0 < 1 - σ * (1 / τ + s) / √2 := by
    rw [sub_pos, div_lt_one hs]; exact hk
  have h2 : 0 < normalDensity σ (T - T) := by unfold normalDensity; positivity
  have h3 : C * Real.exp (s * T) * ((x / τ) ^ 2 * σ ^ 3 / √2 * Real.exp (-(1 / τ + s) * T)
      * ((1 - σ * (1 / τ + s) / √2 + (T - T) / (σ * √2)) * normalDensity σ (T - T))) ≠ 0 := by
    have : 0 < (x / τ) ^ 2 * σ ^ 3 / √2 * Real.exp (-(1 / τ + s) * T)
      * ((1 - σ * (1 / τ + s) / √2 + (T - T) / (σ * √2)) * normalDensity σ (T - T)) := by
      rw [sub_self T, zero_div, add_zero]
      have := sub_self T ▸ h2
      positivity
    exact mul_ne_zero (mul_ne_zero hC (Real.exp_pos _).ne') this.ne'
  intro e
  apply h3
  linarith

example := (C76_violation_after (41 / 100) (1 / 5) (4 / 1000) (6 / 1000) (1 / 20) 1 (1 / 5) 1 (by norm_num)
  (by norm_num)).2 (by norm_num) (by norm_num) (by norm_num) rfl
  (lt_of_lt_of_le (b := 1) (by norm_num) (by rw [Real.one_le_sqrt]; norm_num))

/-- The rate with the efficiency, cut series. -/
noncomputable def accTrunc (p : ExtPars) (c1 c2 c3 c4 τ x y t : ℝ) : ℝ :=
  twoSlopes p.constantC p.Tthreshold p.selbiasLow p.selbiasHigh t * truncRate c1 c2 c3 c4 τ x y 0 t

/-- The whole resolution function as a folding. -/
theorem ext_eq (p : ExtPars) (c1 c2 c3 c4 τ T x y σ : ℝ) (ht : 0 ≤ p.Tthreshold)
    (h1 : 0 < p.coreScale * σ) (h2 : 0 < p.tailScale * σ) (h3 : 0 < p.outlScale * σ) :
    extResolution p c1 c2 c3 c4 τ T x y σ
      = (p.coreFraction * smear (accTrunc p c1 c2 c3 c4 τ x y) (normalDensity (p.coreScale * σ)) (T - p.coreBias * σ)
        + p.tailFraction * smear (accTrunc p c1 c2 c3 c4 τ x y) (normalDensity (p.tailScale * σ)) (T - p.tailBias * σ)
        + (1 - p.coreFraction - p.tailFraction)
          * smear (accTrunc p c1 c2 c3 c4 τ x y) (normalDensity (p.outlScale * σ)) (T - p.outlBias * σ))
        + p.constantC * Real.exp (p.selbiasHigh * p.Tthreshold)
          * (p.coreFraction
              * (c2 * (highExcess τ (T - p.coreBias * σ) x (p.coreScale * σ) p.selbiasHigh p.Tthreshold).1
                - 2 * c4 * (highExcess τ (T - p.coreBias * σ) x (p.coreScale * σ) p.selbiasHigh p.Tthreshold).2)
            + p.tailFraction
              * (c2 * (highExcess τ (T - p.tailBias * σ) x (p.tailScale * σ) p.selbiasHigh p.Tthreshold).1
                - 2 * c4 * (highExcess τ (T - p.tailBias * σ) x (p.tailScale * σ) p.selbiasHigh p.Tthreshold).2)
            + (1 - p.coreFraction - p.tailFraction)
              * (c2 * (highExcess τ (T - p.outlBias * σ) x (p.outlScale * σ) p.selbiasHigh p.Tthreshold).1
                - 2 * c4 * (highExcess τ (T - p.outlBias * σ) x (p.outlScale * σ) p.selbiasHigh p.Tthreshold).2)) := by
  have e1 := (ext_one h1 ht p.constantC p.selbiasLow p.selbiasHigh c1 c2 c3 c4 (T - p.coreBias * σ) τ x y).2
  have e2 := (ext_one h2 ht p.constantC p.selbiasLow p.selbiasHigh c1 c2 c3 c4 (T - p.tailBias * σ) τ x y).2
  have e3 := (ext_one h3 ht p.constantC p.selbiasLow p.selbiasHigh c1 c2 c3 c4 (T - p.outlBias * σ) τ x y).2
  dsimp only at e1 e2 e3
  unfold extResolution accTrunc
  dsimp only
  linear_combination p.coreFraction * e1 + p.tailFraction * e2 + (1 - p.coreFraction - p.tailFraction) * e3

theorem highExcess_zero (τ T σ s t0 : ℝ) : highExcess τ T 0 σ s t0 = (0, 0) := by
  unfold highExcess
  dsimp only
  simp

/-- **C76, partial (three Gaussians).**  For `x = 0`, positive widths and a threshold
not before production, the value for an event with amplitudes `A` and `B`, measured
at time `T` with error `σ`, is the decay rate, times the efficiency that changes its
slope at the threshold, folded with the sum of the three Gaussians.  Missing:
`x ≠ 0` (`C76_violation_after`, `C76_violation_norm`). -/
theorem C76_resolution_partial (p : ExtPars) (A B : ℂ) (τ T y σ : ℝ) (ht : 0 ≤ p.Tthreshold)
    (h1 : 0 < p.coreScale * σ) (h2 : 0 < p.tailScale * σ) (h3 : 0 < p.outlScale * σ) :
    extResolution p (Complex.normSq A + Complex.normSq B) (Complex.normSq A - Complex.normSq B)
        (A * starRingEnd ℂ B).re (A * starRingEnd ℂ B).im τ T 0 y σ
      = smear (fun t => twoSlopes p.constantC p.Tthreshold p.selbiasLow p.selbiasHigh t * decayRate A B τ 0 y t)
          (threeNormals p.coreFraction p.tailFraction (1 - p.coreFraction - p.tailFraction)
            (p.coreBias * σ) (p.tailBias * σ) (p.outlBias * σ)
            (p.coreScale * σ) (p.tailScale * σ) (p.outlScale * σ)) T := by
  have hr : (fun t => twoSlopes p.constantC p.Tthreshold p.selbiasLow p.selbiasHigh t * decayRate A B τ 0 y t)
      = accTrunc p (Complex.normSq A + Complex.normSq B) (Complex.normSq A - Complex.normSq B)
        (A * starRingEnd ℂ B).re (A * starRingEnd ℂ B).im τ 0 y := by
    funext t
    unfold accTrunc
    rw [← C62_rate]
    unfold truthResolution truncRate
    dsimp only
    have e : Real.exp (-(1 / τ + 0) * t) = Real.exp (-(t / τ)) := by congr 1; ring
    rw [e, zero_mul, Real.cos_zero, Real.sin_zero]
    ring
  rw [ext_eq p _ _ _ _ _ _ _ _ _ ht h1 h2 h3, hr]
  simp only [highExcess_zero, mul_zero, sub_zero, add_zero]
  generalize Complex.normSq A + Complex.normSq B = c1
  generalize Complex.normSq A - Complex.normSq B = c2
  generalize (A * starRingEnd ℂ B).re = c3
  generalize (A * starRingEnd ℂ B).im = c4
  have i1 := ((ext_one h1 ht p.constantC p.selbiasLow p.selbiasHigh c1 c2 c3 c4 (T - p.coreBias * σ) τ 0 y).1).const_mul
    p.coreFraction
  have i2 := ((ext_one h2 ht p.constantC p.selbiasLow p.selbiasHigh c1 c2 c3 c4 (T - p.tailBias * σ) τ 0 y).1).const_mul
    p.tailFraction
  have i3 := ((ext_one h3 ht p.constantC p.selbiasLow p.selbiasHigh c1 c2 c3 c4 (T - p.outlBias * σ) τ 0 y).1).const_mul
    (1 - p.coreFraction - p.tailFraction)
  have e12 := integral_add i1 i2
  have e123 := integral_add (i1.add i2) i3
  simp only [Pi.add_apply, integral_const_mul] at e12 e123
  unfold smear accTrunc
  rw [← e12, ← e123]
  congr 1
  funext t
  unfold threeNormals
  rw [show T - p.coreBias * σ - t = T - t - p.coreBias * σ by ring,
    show T - p.tailBias * σ - t = T - t - p.tailBias * σ by ring,
    show T - p.outlBias * σ - t = T - t - p.outlBias * σ by ring]
  ring

/-- A rising efficiency up to 200 fs and a slowly falling one afterwards. -/
example (A B : ℂ) (T : ℝ) := C76_resolution_partial ⟨4 / 5, 1 / 10, 0, 1, 0, 2, 1 / 100, 3, -2, 1 / 10, 1 / 5, 1⟩
  A B (41 / 100) T (1 / 100) (1 / 20) (by norm_num) (by norm_num) (by norm_num) (by norm_num)

/-- **C76 (normalisation, true times).**  The number the resolution reports as its
normalisation is the integral over all true decay times of the rate times the
efficiency, for every `x`; `I1`, `I2`, `I3`, `I4` stand for the integrals over the
Dalitz plot of `|A|²`, `|B|²`, `Re AB*` and `Im AB*`.  The rate must be integrable
after the threshold, and before it no denominator may vanish. -/
theorem C76_norm (p : ExtPars) (I1 I2 I3 I4 τ x y : ℝ) (ht : 0 ≤ p.Tthreshold)
    (hy : |y / τ| < 1 / τ + p.selbiasHigh)
    (hm : 1 / τ - y / τ + p.selbiasLow ≠ 0) (hp : 1 / τ + y / τ + p.selbiasLow ≠ 0)
    (hk : 1 / τ + p.selbiasLow ≠ 0 ∨ x / τ ≠ 0) :
    IntegrableOn (fun t => twoSlopes p.constantC p.Tthreshold p.selbiasLow p.selbiasHigh t
        * truthResolution (I1 + I2) (I1 - I2) I3 I4 τ t x y) (Ioi 0)
    ∧ ∫ t in Ioi 0, twoSlopes p.constantC p.Tthreshold p.selbiasLow p.selbiasHigh t
        * truthResolution (I1 + I2) (I1 - I2) I3 I4 τ t x y
      = extNormalization p I1 I2 I3 I4 τ x y := by
  obtain ⟨ha, hb⟩ := abs_lt.1 hy
  have ey : y * (1 / τ) = y / τ := by ring
  have ex : x * (1 / τ) = x / τ := by ring
  have hm' : 0 < 1 / τ - y * (1 / τ) + p.selbiasHigh := by linarith
  have hp' : 0 < 1 / τ + y * (1 / τ) + p.selbiasHigh := by linarith
  have hk' : 0 < 1 / τ + p.selbiasHigh := by linarith
  have dL := fun t => antiRate_deriv (I1 + I2) (I1 - I2) I3 I4 τ x y p.selbiasLow t (by rwa [ey]) (by rwa [ey])
    (by
      rw [ex]
      rcases hk with h | h
      · have := pow_pos (abs_pos.2 h) 2; rw [sq_abs] at this; positivity
      · have := pow_pos (abs_pos.2 h) 2; rw [sq_abs] at this; positivity)
  have dH := fun t => antiRate_deriv (I1 + I2) (I1 - I2) I3 I4 τ x y p.selbiasHigh t hm'.ne' hp'.ne' (by positivity)
  have hc : Continuous (fun t => Real.exp (-p.selbiasLow * t) * truthResolution (I1 + I2) (I1 - I2) I3 I4 τ t x y) := by
    simp only [truth_damped]
    fun_prop
  have iL := hc.integrableOn_Ioc (μ := volume) (a := 0) (b := p.Tthreshold)
  have iH := truth_int_Ioi (I1 + I2) (I1 - I2) I3 I4 τ x y p.selbiasHigh p.Tthreshold hm' hp'
  obtain ⟨hi, hv⟩ := twoSlopes_split (C := p.constantC) ht
    (fun t => truthResolution (I1 + I2) (I1 - I2) I3 I4 τ t x y) iL iH
  refine ⟨hi, ?_⟩
  rw [hv, ← intervalIntegral.integral_of_le ht,
    intervalIntegral.integral_eq_sub_of_hasDerivAt (fun t _ => dL t) (hc.intervalIntegrable _ _),
    integral_Ioi_of_hasDerivAt_of_tendsto' (fun t _ => dH t) iH (antiRate_tendsto _ _ _ _ _ _ _ _ hm' hp')]
  rw [← lowIntegrals_eq, ← tailIntegrals_eq]
  unfold extNormalization
  dsimp only
  ring

example (I1 I2 I3 I4 : ℝ) := C76_norm ⟨4 / 5, 1 / 10, 0, 1, 0, 2, 1 / 100, 3, -2, 1 / 10, 1 / 5, 1⟩ I1 I2 I3 I4 (41 / 100)
  (4 / 1000) (6 / 1000) (by norm_num) (by norm_num [abs_lt]) (by norm_num) (by norm_num) (by norm_num)

theorem accTrunc_int (p : ExtPars) (c1 c2 c3 c4 τ x y : ℝ) (ht : 0 ≤ p.Tthreshold)
    (hm : 0 < 1 / τ - y * (1 / τ) + p.selbiasHigh) (hp : 0 < 1 / τ + y * (1 / τ) + p.selbiasHigh) :
    IntegrableOn (accTrunc p c1 c2 c3 c4 τ x y) (Ioi 0) := by
  refine (twoSlopes_split ht (fun t => truncRate c1 c2 c3 c4 τ x y 0 t) ?_ ?_).1
  · have hc : Continuous (fun t => Real.exp (-p.selbiasLow * t) * truncRate c1 c2 c3 c4 τ x y 0 t) := by
      unfold truncRate
      fun_prop
    exact hc.integrableOn_Ioc
  · simp only [← truncRate_damp]
    exact (trunc_total c1 c2 c3 c4 τ x y p.selbiasHigh hm hp).1.mono_set (Ioi_subset_Ioi ht)

theorem ext_smear_total (p : ExtPars) (f : ℝ → ℝ) (σ : ℝ) (hf : IntegrableOn f (Ioi 0))
    (h1 : 0 < p.coreScale * σ) (h2 : 0 < p.tailScale * σ) (h3 : 0 < p.outlScale * σ) :
    Integrable (fun T => p.coreFraction * smear f (normalDensity (p.coreScale * σ)) (T - p.coreBias * σ)
        + p.tailFraction * smear f (normalDensity (p.tailScale * σ)) (T - p.tailBias * σ)
        + (1 - p.coreFraction - p.tailFraction) * smear f (normalDensity (p.outlScale * σ)) (T - p.outlBias * σ))
    ∧ ∫ T, (p.coreFraction * smear f (normalDensity (p.coreScale * σ)) (T - p.coreBias * σ)
        + p.tailFraction * smear f (normalDensity (p.tailScale * σ)) (T - p.tailBias * σ)
        + (1 - p.coreFraction - p.tailFraction) * smear f (normalDensity (p.outlScale * σ)) (T - p.outlBias * σ))
      = ∫ t in Ioi 0, f t := by
  have i1 := ((smear_integrable h1 _ hf).comp_sub_right (p.coreBias * σ)).const_mul p.coreFraction
  have i2 := ((smear_integrable h2 _ hf).comp_sub_right (p.tailBias * σ)).const_mul p.tailFraction
  have i3 := ((smear_integrable h3 _ hf).comp_sub_right (p.outlBias * σ)).const_mul
    (1 - p.coreFraction - p.tailFraction)
  have e12 := integral_add i1 i2
  have e123 := integral_add (i1.add i2) i3
  simp only [Pi.add_apply, integral_const_mul] at e12 e123
  refine ⟨(i1.add i2).add i3, ?_⟩
  rw [e123, e12, integral_sub_right_eq_self (smear _ _), integral_sub_right_eq_self (smear _ _),
    integral_sub_right_eq_self (smear _ _), smear_total h1 _ hf, smear_total h2 _ hf, smear_total h3 _ hf]
  ring

/-- **C76, partial (normalisation, measured times).**  For `x = 0` the reported
normalisation is the integral of the value over all measured times, whatever the
biases, the widths, the fractions and the error of the event.  Missing: `x ≠ 0`,
where it is not (`C76_violation_norm`). -/
theorem C76_norm_partial (p : ExtPars) (I1 I2 I3 I4 τ y σ : ℝ) (ht : 0 ≤ p.Tthreshold)
    (h1 : 0 < p.coreScale * σ) (h2 : 0 < p.tailScale * σ) (h3 : 0 < p.outlScale * σ)
    (hy : |y / τ| < 1 / τ + p.selbiasHigh)
    (hm : 1 / τ - y / τ + p.selbiasLow ≠ 0) (hp : 1 / τ + y / τ + p.selbiasLow ≠ 0)
    (hk : 1 / τ + p.selbiasLow ≠ 0) :
    ∫ T, extResolution p (I1 + I2) (I1 - I2) I3 I4 τ T 0 y σ = extNormalization p I1 I2 I3 I4 τ 0 y := by
  obtain ⟨ha, hb⟩ := abs_lt.1 hy
  have ey : y * (1 / τ) = y / τ := by ring
  rw [← (C76_norm p I1 I2 I3 I4 τ 0 y ht hy hm hp (Or.inl hk)).2]
  simp only [ext_eq p _ _ _ _ _ _ _ _ _ ht h1 h2 h3, highExcess_zero, mul_zero, sub_zero, add_zero]
  rw [(ext_smear_total p _ σ (accTrunc_int p _ _ _ _ τ 0 y ht (by linarith) (by linarith)) h1 h2 h3).2]
  congr 1
  funext t
  unfold accTrunc truthResolution truncRate
  dsimp only
  have e : Real.exp (-(1 / τ + 0) * t) = Real.exp (-(t / τ)) := by congr 1; ring
  rw [e, zero_mul, Real.cos_zero, Real.sin_zero]
  ring

example (I1 I2 I3 I4 : ℝ) := C76_norm_partial ⟨4 / 5, 1 / 10, 0, 1, 0, 2, 1 / 100, 3, -2, 1 / 10, 1 / 5, 1⟩ I1 I2 I3 I4
  (41 / 100) (6 / 1000) (1 / 20) (by norm_num) (by norm_num) (by norm_num) (by norm_num) (by norm_num [abs_lt])
  (by norm_num) (by norm_num) (by norm_num)

theorem normal_first {σ : ℝ} (hσ : 0 < σ) :
    Integrable (fun u => u * normalDensity σ u) ∧ ∫ u, u * normalDensity σ u = 0 := by
  constructor
  · have h := (integrable_mul_exp_neg_mul_sq (b := 1 / (2 * σ ^ 2)) (by positivity)).const_mul
      (1 / (σ * √(2 * Real.pi)))
    refine h.congr (Filter.Eventually.of_forall fun u => ?_)
    unfold normalDensity
    dsimp only
    rw [show -(1 / (2 * σ ^ 2)) * u ^ 2 = -(u ^ 2) / (2 * σ ^ 2) by ring]
    ring
  · have h := integral_neg_eq_self (fun u => u * normalDensity σ u) volume
    have e : (fun u : ℝ => -u * normalDensity σ (-u)) = fun u => -(u * normalDensity σ u) := by
      funext u
      unfold normalDensity
      rw [neg_sq]
      ring
    rw [e, integral_neg] at h
    linarith

theorem excess_total {σ : ℝ} (hσ : 0 < σ) (τ x s t0 b : ℝ) :
    Integrable (fun T => (highExcess τ (T - b) x σ s t0).1)
    ∧ ∫ T, (highExcess τ (T - b) x σ s t0).1
      = -((x / τ) ^ 2 * σ ^ 3 / √2 * Real.exp (-(1 / τ + s) * t0) * (1 - σ * (1 / τ + s) / √2)) := by
  obtain ⟨n1, n2⟩ := normal_first hσ
  have i1 := (normal_integrable hσ).const_mul
    (-((x / τ) ^ 2 * σ ^ 3 / √2 * Real.exp (-(1 / τ + s) * t0) * (1 - σ * (1 / τ + s) / √2)))
  have i2 := n1.const_mul (-((x / τ) ^ 2 * σ ^ 3 / √2 * Real.exp (-(1 / τ + s) * t0) / (σ * √2)))
  have e : (fun T => (highExcess τ (T - b) x σ s t0).1)
      = fun T => (fun u => -((x / τ) ^ 2 * σ ^ 3 / √2 * Real.exp (-(1 / τ + s) * t0) * (1 - σ * (1 / τ + s) / √2))
          * normalDensity σ u
        + -((x / τ) ^ 2 * σ ^ 3 / √2 * Real.exp (-(1 / τ + s) * t0) / (σ * √2)) * (u * normalDensity σ u))
          (T - (b + t0)) := by
    funext T
    rw [highExcess_one hσ, sub_add_eq_sub_sub]
    ring
  rw [e]
  refine ⟨(i1.add i2).comp_sub_right _, ?_⟩
  rw [integral_sub_right_eq_self (fun u => -((x / τ) ^ 2 * σ ^ 3 / √2 * Real.exp (-(1 / τ + s) * t0)
      * (1 - σ * (1 / τ + s) / √2)) * normalDensity σ u
        + -((x / τ) ^ 2 * σ ^ 3 / √2 * Real.exp (-(1 / τ + s) * t0) / (σ * √2)) * (u * normalDensity σ u)),
    integral_add i1 i2, integral_const_mul, integral_const_mul, n2, normal_total hσ]
  ring

/-- **C76, violation (normalisation).**  For every `x ≠ 0`, every positive efficiency
and Gaussians of width below `√2` lifetimes (that is, below `√2 / (1/τ + s)`), the
integral of the value over the measured times is smaller than the reported
normalisation.  Here for the simplest rate, `A` alone. -/
theorem C76_violation_norm (p : ExtPars) (τ x y σ : ℝ) (hτ : τ ≠ 0) (hx : x ≠ 0) (hC : 0 < p.constantC)
    (ht : 0 ≤ p.Tthreshold) (h1 : 0 < p.coreScale * σ) (h2 : 0 < p.tailScale * σ) (h3 : 0 < p.outlScale * σ)
    (f1 : 0 < p.coreFraction) (f2 : 0 ≤ p.tailFraction) (f3 : p.coreFraction + p.tailFraction ≤ 1)
    (hy : |y / τ| < 1 / τ + p.selbiasHigh)
    (hm : 1 / τ - y / τ + p.selbiasLow ≠ 0) (hp : 1 / τ + y / τ + p.selbiasLow ≠ 0)
    (k1 : p.coreScale * σ * (1 / τ + p.selbiasHigh) < √2) (k2 : p.tailScale * σ * (1 / τ + p.selbiasHigh) < √2)
    (k3 : p.outlScale * σ * (1 / τ + p.selbiasHigh) < √2) :
    ∫ T, extResolution p (1 + 0) (1 - 0) 0 0 τ T x y σ < extNormalization p 1 0 0 0 τ x y := by
  obtain ⟨ha, hb⟩ := abs_lt.1 hy
  have ey : y * (1 / τ) = y / τ := by ring
  have hs : 0 < √2 := by positivity
  obtain ⟨iT, vT⟩ := C76_norm p 1 0 0 0 τ x y ht hy hm hp (Or.inr (div_ne_zero hx hτ))
  have iA := accTrunc_int p (1 + 0) (1 - 0) 0 0 τ x y ht (by linarith) (by linarith)
  obtain ⟨iS, vS⟩ := ext_smear_total p _ σ iA h1 h2 h3
  obtain ⟨j1, w1⟩ := excess_total h1 τ x p.selbiasHigh p.Tthreshold (p.coreBias * σ)
  obtain ⟨j2, w2⟩ := excess_total h2 τ x p.selbiasHigh p.Tthreshold (p.tailBias * σ)
  obtain ⟨j3, w3⟩ := excess_total h3 τ x p.selbiasHigh p.Tthreshold (p.outlBias * σ)
  have l1 := j1.const_mul p.coreFraction
  have l2 := j2.const_mul p.tailFraction
  have l3 := j3.const_mul (1 - p.coreFraction - p.tailFraction)
  have e12 := integral_add l1 l2
  have e123 := integral_add (l1.add l2) l3
  simp only [Pi.add_apply, integral_const_mul] at e12 e123
  have hE : ∀ w, 0 < w → w * (1 / τ + p.selbiasHigh) < √2 →
      0 < (x / τ) ^ 2 * w ^ 3 / √2 * Real.exp (-(1 / τ + p.selbiasHigh) * p.Tthreshold)
        * (1 - w * (1 / τ + p.selbiasHigh) / √2) := by
    intro w hw hk
    have : 0 < 1 - w * (1 / τ + p.selbiasHigh) / √2 := by rw [sub_pos, div_lt_one hs]; exact hk
    positivity
  have q1 := mul_pos f1 (hE _ h1 k1)
  have q2 := mul_nonneg f2 (hE _ h2 k2).le
  have q3 := mul_nonneg (show 0 ≤ 1 - p.coreFraction - p.tailFraction by linarith) (hE _ h3 k3).le
  have hP : 0 < p.constantC * Real.exp (p.selbiasHigh * p.Tthreshold) := mul_pos hC (Real.exp_pos _)
  have hle : ∫ t in Ioi 0, accTrunc p (1 + 0) (1 - 0) 0 0 τ x y t ≤ extNormalization p 1 0 0 0 τ x y := by
    rw [← vT]
    refine setIntegral_mono iA iT fun t => ?_
    unfold accTrunc
    have h0 : 0 ≤ twoSlopes p.constantC p.Tthreshold p.selbiasLow p.selbiasHigh t := by
      unfold twoSlopes
      split <;> positivity
    refine mul_le_mul_of_nonneg_left ?_ h0
    unfold truncRate truthResolution
    dsimp only
    have e : Real.exp (-(1 / τ + 0) * t) = Real.exp (-(t / τ)) := by congr 1; ring
    have hcos := mul_le_mul_of_nonneg_right (Real.one_sub_sq_div_two_le_cos (x := x * (t / τ))) (Real.exp_pos (-(t / τ))).le
    rw [e]
    linarith
  have hsum := integral_add iS (((l1.add l2).add l3).const_mul (p.constantC * Real.exp (p.selbiasHigh * p.Tthreshold)))
  simp only [Pi.add_apply, integral_const_mul] at hsum
  have hval : ∫ T, extResolution p (1 + 0) (1 - 0) 0 0 τ T x y σ
      = (∫ t in Ioi 0, accTrunc p (1 + 0) (1 - 0) 0 0 τ x y t)
        + p.constantC * Real.exp (p.selbiasHigh * p.Tthreshold)
          * (p.coreFraction * (∫ T, (highExcess τ (T - p.coreBias * σ) x (p.coreScale * σ) p.selbiasHigh p.Tthreshold).1)
            + p.tailFraction * (∫ T, (highExcess τ (T - p.tailBias * σ) x (p.tailScale * σ) p.selbiasHigh p.Tthreshold).1)
            + (1 - p.coreFraction - p.tailFraction)
              * (∫ T, (highExcess τ (T - p.outlBias * σ) x (p.outlScale * σ) p.selbiasHigh p.Tthreshold).1)) := by
    rw [← vS, ← e12, ← e123, ← hsum]
    congr 1
    funext T
    rw [ext_eq p _ _ _ _ _ _ _ _ _ ht h1 h2 h3]
    ring
  rw [hval, w1, w2, w3]
  have := mul_pos hP (by linarith : 0 < p.coreFraction * ((x / τ) ^ 2 * (p.coreScale * σ) ^ 3 / √2
      * Real.exp (-(1 / τ + p.selbiasHigh) * p.Tthreshold) * (1 - p.coreScale * σ * (1 / τ + p.selbiasHigh) / √2))
    + p.tailFraction * ((x / τ) ^ 2 * (p.tailScale * σ) ^ 3 / √2
      * Real.exp (-(1 / τ + p.selbiasHigh) * p.Tthreshold) * (1 - p.tailScale * σ * (1 / τ + p.selbiasHigh) / √2))
    + (1 - p.coreFraction - p.tailFraction) * ((x / τ) ^ 2 * (p.outlScale * σ) ^ 3 / √2
      * Real.exp (-(1 / τ + p.selbiasHigh) * p.Tthreshold) * (1 - p.outlScale * σ * (1 / τ + p.selbiasHigh) / √2)))
  refine lt_of_lt_of_le (sub_pos.1 (lt_of_lt_of_eq this ?_)) hle
  ring

example := C76_violation_norm ⟨4 / 5, 1 / 10, 0, 1, 0, 2, 1 / 100, 3, -2, 1 / 10, 1 / 5, 1⟩ (41 / 100) (4 / 1000) (6 / 1000)
  (1 / 20) (by norm_num) (by norm_num) (by norm_num) (by norm_num) (by norm_num) (by norm_num) (by norm_num) (by norm_num)
  (by norm_num) (by norm_num) (by norm_num [abs_lt]) (by norm_num) (by norm_num)
  (lt_of_lt_of_le (b := 1) (by norm_num) (by rw [Real.one_le_sqrt]; norm_num))
  (lt_of_lt_of_le (b := 1) (by norm_num) (by rw [Real.one_le_sqrt]; norm_num))
  (lt_of_lt_of_le (b := 1) (by norm_num) (by rw [Real.one_le_sqrt]; norm_num))

end GooFit
