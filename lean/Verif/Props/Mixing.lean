import Verif.Model.Mixing
import Verif.Spec.Mixing
import Verif.Lemmas.Mixing
import Mathlib.Analysis.SpecialFunctions.ImproperIntegrals
import Mathlib.MeasureTheory.Integral.IntegralEqImproper
import Mathlib.Tactic.LinearCombination
import Mathlib.Tactic.FieldSimp

/-!
# C62: mixing rates and their normalisation
-/

set_option autoImplicit false

namespace GooFit

open Spec MeasureTheory

/-- **C62 (rate).**  Called with the terms the amplitude PDFs compute from the
amplitudes `A` and `B` of an event, the perfect resolution returns the rate of
decays at that time. -/
theorem C62_rate (A B : ℂ) (τ x y t : ℝ) :
    truthResolution (Complex.normSq A + Complex.normSq B) (Complex.normSq A - Complex.normSq B)
      (A * starRingEnd ℂ B).re (A * starRingEnd ℂ B).im τ t x y = decayRate A B τ x y t := by
  unfold truthResolution decayRate timeAmplitude eigen1 eigen2
  dsimp only
  generalize ht : t / τ = T
  have e : ((t : ℂ) / (τ : ℂ)) = (T : ℂ) := by rw [← ht]; push_cast; rfl
  rw [e, Complex.sq_norm]
  have key : ∀ a b : ℝ, Complex.exp ((a : ℂ) + (b : ℂ) * Complex.I)
      = (⟨Real.exp a * Real.cos b, Real.exp a * Real.sin b⟩ : ℂ) := by
    intro a b
    apply Complex.ext
    · simp [Complex.exp_re]
    · simp [Complex.exp_im]
  have h1 : -((1 + (y : ℂ)) / 2 + x / 2 * Complex.I) * T
      = ((-(1 + y) / 2 * T : ℝ) : ℂ) + ((-(x / 2 * T) : ℝ) : ℂ) * Complex.I := by push_cast; ring
  have h2 : -((1 - (y : ℂ)) / 2 - x / 2 * Complex.I) * T
      = ((-(1 - y) / 2 * T : ℝ) : ℂ) + ((x / 2 * T : ℝ) : ℂ) * Complex.I := by push_cast; ring
  rw [h1, h2, key, key, Real.cos_neg, Real.sin_neg]
  have hexp : Real.exp (-T) = Real.exp (-(1 + y) / 2 * T) * Real.exp (-(1 - y) / 2 * T) := by
    rw [← Real.exp_add]; congr 1; ring
  have hE1 : Real.exp (y * T) * Real.exp (-T) = Real.exp (-(1 - y) / 2 * T) ^ 2 := by
    rw [← Real.exp_add, ← Real.exp_nat_mul]; congr 1; push_cast; ring
  have hE2 : Real.exp (-(y * T)) * Real.exp (-T) = Real.exp (-(1 + y) / 2 * T) ^ 2 := by
    rw [← Real.exp_add, ← Real.exp_nat_mul]; congr 1; push_cast; ring
  have hc : Real.cos (x * T) = Real.cos (x / 2 * T) ^ 2 - Real.sin (x / 2 * T) ^ 2 := by
    rw [← Real.cos_two_mul']; congr 1; ring
  have hs : Real.sin (x * T) = 2 * Real.sin (x / 2 * T) * Real.cos (x / 2 * T) := by
    rw [← Real.sin_two_mul]; congr 1; ring
  have h1' := Real.sin_sq_add_cos_sq (x / 2 * T)
  rw [Real.cosh_eq, Real.sinh_eq, hc, hs]
  generalize Real.exp (-(1 + y) / 2 * T) = E1 at *
  generalize Real.exp (-(1 - y) / 2 * T) = E2 at *
  generalize Real.cos (x / 2 * T) = c at *
  generalize Real.sin (x / 2 * T) = s at *
  generalize Real.exp (y * T) = P at *
  generalize Real.exp (-(y * T)) = Q at *
  generalize Real.exp (-T) = D at *
  simp only [Complex.normSq_apply, Complex.mul_re, Complex.mul_im, Complex.add_re, Complex.add_im,
    Complex.sub_re, Complex.sub_im, Complex.div_ofNat_re, Complex.div_ofNat_im, Complex.conj_re,
    Complex.conj_im]
  obtain ⟨a, b⟩ := A
  obtain ⟨u, v⟩ := B
  dsimp only
  subst hexp
  clear key h1 h2 e hc hs ht
  linear_combination ((a * a + b * b + (u * u + v * v)) / 2 - (a * u + b * v)) * hE1
    + ((a * a + b * b + (u * u + v * v)) / 2 + (a * u + b * v)) * hE2
    - (E1 ^ 2 * ((a + u) ^ 2 + (b + v) ^ 2) + E2 ^ 2 * ((a - u) ^ 2 + (b - v) ^ 2)) / 2 * h1'

/-- **C62 (sign).**  The rate is never negative. -/
theorem C62_nonneg (A B : ℂ) (τ x y t : ℝ) :
    0 ≤ truthResolution (Complex.normSq A + Complex.normSq B) (Complex.normSq A - Complex.normSq B)
      (A * starRingEnd ℂ B).re (A * starRingEnd ℂ B).im τ t x y := by
  rw [C62_rate]
  unfold decayRate
  positivity

/-- **C62 (normalisation).**  For a positive lifetime and `|y| < 1` the number the
perfect resolution reports as its normalisation is the integral over all decay
times of the rate with the same coefficients; `I1`, `I2`, `I3`, `I4` stand for the
integrals over the Dalitz plot of `|A|²`, `|B|²`, `Re AB*` and `Im AB*`. -/
theorem C62_norm (I1 I2 I3 I4 τ x y : ℝ) (hτ : 0 < τ) (hy : |y| < 1) :
    ∫ t in Set.Ioi 0, truthResolution (I1 + I2) (I1 - I2) I3 I4 τ t x y
      = truthNormalization I1 I2 I3 I4 τ x y := by
  obtain ⟨hy1, hy2⟩ := abs_lt.1 hy
  have ha : 0 < (((1 - y) / τ : ℝ) : ℂ).re := by
    rw [Complex.ofReal_re]; exact div_pos (by linarith) hτ
  have hb : 0 < (((1 + y) / τ : ℝ) : ℂ).re := by
    rw [Complex.ofReal_re]; exact div_pos (by linarith) hτ
  have hc : 0 < (⟨1 / τ, -(x / τ)⟩ : ℂ).re := by simpa using hτ
  simp only [truthResolution_eq_expSum]
  have key := integral_re (expSum_int (((I1 + I2) / 2 - I3 : ℝ) : ℂ) (((I1 + I2) / 2 + I3 : ℝ) : ℂ)
    ⟨I1 - I2, 2 * I4⟩ ha hb hc)
  simp only [RCLike.re_eq_complex_re] at key
  rw [key, expSum_val _ _ _ ha hb hc]
  have hx : 0 < 1 + x * x := by linarith [mul_self_nonneg x]
  have n1 : 1 - y ≠ 0 := by linarith
  have n2 : 1 + y ≠ 0 := by linarith
  have n3 : 1 - y * y ≠ 0 := by
    have : 1 - y * y = (1 - y) * (1 + y) := by ring
    rw [this]; exact mul_ne_zero n1 n2
  have e3 : ((⟨I1 - I2, 2 * I4⟩ : ℂ) / ⟨1 / τ, -(x / τ)⟩).re = τ * (I1 - I2 - 2 * I4 * x) / (1 + x * x) := by
    rw [Complex.div_re]
    simp only [Complex.normSq_apply]
    field_simp
    ring
  rw [Complex.add_re, Complex.add_re, e3, ← Complex.ofReal_div, ← Complex.ofReal_div, Complex.ofReal_re,
    Complex.ofReal_re]
  unfold truthNormalization
  dsimp only
  have e4 : ((I1 + I2) / 2 - I3) / ((1 - y) / τ) + ((I1 + I2) / 2 + I3) / ((1 + y) / τ)
      = τ * (I1 + I2 - 2 * I3 * y) / (1 - y * y) := by
    rw [div_div_eq_mul_div, div_div_eq_mul_div, div_add_div _ _ n1 n2, div_eq_div_iff (mul_ne_zero n1 n2) n3]
    ring
  rw [e4]
  field_simp
  ring

/-- **C62 (mean decay time).**  For a positive lifetime and `|y| < 1` the average
lifetime the perfect resolution reports for a point of the Dalitz plot is the mean
decay time of the rate there. -/
theorem C62_average_time (A B : ℂ) (τ x y : ℝ) (hτ : 0 < τ) (hy : |y| < 1) :
    truthAverageTau (Complex.normSq A) (Complex.normSq B) (A * starRingEnd ℂ B).re
        (A * starRingEnd ℂ B).im x y τ
      = (∫ t in Set.Ioi 0, t * decayRate A B τ x y t) / ∫ t in Set.Ioi 0, decayRate A B τ x y t := by
  simp only [← C62_rate]
  rw [C62_norm _ _ _ _ _ _ _ hτ hy]
  generalize Complex.normSq A = I1
  generalize Complex.normSq B = I2
  generalize (A * starRingEnd ℂ B).re = I3
  generalize (A * starRingEnd ℂ B).im = I4
  obtain ⟨hy1, hy2⟩ := abs_lt.1 hy
  have ha : 0 < (((1 - y) / τ : ℝ) : ℂ).re := by
    rw [Complex.ofReal_re]; exact div_pos (by linarith) hτ
  have hb : 0 < (((1 + y) / τ : ℝ) : ℂ).re := by
    rw [Complex.ofReal_re]; exact div_pos (by linarith) hτ
  have hc : 0 < (⟨1 / τ, -(x / τ)⟩ : ℂ).re := by simpa using hτ
  simp only [truthResolution_eq_expSum]
  have key := integral_re (texpSum_int (((I1 + I2) / 2 - I3 : ℝ) : ℂ) (((I1 + I2) / 2 + I3 : ℝ) : ℂ)
    ⟨I1 - I2, 2 * I4⟩ ha hb hc)
  simp only [RCLike.re_eq_complex_re, Complex.re_ofReal_mul] at key
  rw [key, texpSum_val _ _ _ ha hb hc]
  have hx : 0 < 1 + x * x := by linarith [mul_self_nonneg x]
  have n1 : 1 - y ≠ 0 := by linarith
  have n2 : 1 + y ≠ 0 := by linarith
  have n3 : 1 - y * y ≠ 0 := by
    have : 1 - y * y = (1 - y) * (1 + y) := by ring
    rw [this]; exact mul_ne_zero n1 n2
  have e3 : ((⟨I1 - I2, 2 * I4⟩ : ℂ) / (⟨1 / τ, -(x / τ)⟩ : ℂ) ^ 2).re
      = τ ^ 2 * ((I1 - I2) * (1 - x * x) - 4 * I4 * x) / (1 + x * x) ^ 2 := by
    have e : (⟨1 / τ, -(x / τ)⟩ : ℂ) ^ 2 = ⟨(1 - x * x) / τ ^ 2, -(2 * x) / τ ^ 2⟩ := by
      rw [pow_two]
      apply Complex.ext
      · simp only [Complex.mul_re]; field_simp
      · simp only [Complex.mul_im]; field_simp; ring
    have n : Complex.normSq ⟨(1 - x * x) / τ ^ 2, -(2 * x) / τ ^ 2⟩ = (1 + x * x) ^ 2 / τ ^ 4 := by
      simp only [Complex.normSq_apply]; field_simp; ring
    rw [e, Complex.div_re, n]
    field_simp
    ring
  rw [Complex.add_re, Complex.add_re, e3, ← Complex.ofReal_pow, ← Complex.ofReal_pow, ← Complex.ofReal_div,
    ← Complex.ofReal_div, Complex.ofReal_re, Complex.ofReal_re]
  have e4 : ((I1 + I2) / 2 - I3) / ((1 - y) / τ) ^ 2 + ((I1 + I2) / 2 + I3) / ((1 + y) / τ) ^ 2
      = τ ^ 2 * ((I1 + I2) * (1 + y * y) - 4 * I3 * y) / (1 - y * y) ^ 2 := by
    rw [div_pow, div_pow, div_div_eq_mul_div, div_div_eq_mul_div,
      div_add_div _ _ (pow_ne_zero 2 n1) (pow_ne_zero 2 n2),
      div_eq_div_iff (mul_ne_zero (pow_ne_zero 2 n1) (pow_ne_zero 2 n2)) (pow_ne_zero 2 n3)]
    ring
  rw [e4]
  have hN : truthNormalization I1 I2 I3 I4 τ x y
      = τ * ((y * y - 1) * (2 * I4 * x - (I1 - I2)) + (x * x + 1) * (I1 + I2 - 2 * I3 * y))
        / ((1 - y * y) * (1 + x * x)) := by
    unfold truthNormalization
    dsimp only
    rw [show y * y - 1 = -(1 - y * y) by ring, show x * x + 1 = 1 + x * x by ring]
    generalize 1 + x * x = X at *
    generalize 1 - y * y = Y at *
    field_simp
    ring
  rw [hN]
  unfold truthAverageTau
  dsimp only
  generalize (y * y - 1) * (2 * I4 * x - (I1 - I2)) + (x * x + 1) * (I1 + I2 - 2 * I3 * y) = D
  rcases eq_or_ne D 0 with h0 | h0
  · subst h0; simp
  · rw [show y * y - 1 = -(1 - y * y) by ring, show x * x + 1 = 1 + x * x by ring]
    generalize hX : 1 + x * x = X at *
    generalize hY : 1 - y * y = Y at *
    field_simp
    ring

/-- The hypotheses hold for the D0: lifetime 0.41 ps, y = 0.0065. -/
example (A B : ℂ) := C62_average_time A B 0.41 0.0039 0.0065 (by norm_num) (by norm_num [abs_lt])
example (I1 I2 I3 I4 : ℝ) := C62_norm I1 I2 I3 I4 0.41 0.0039 0.0065 (by norm_num) (by norm_num [abs_lt])

end GooFit
