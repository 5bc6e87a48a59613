import Verif.Lemmas.FaddeevaD
import Mathlib.MeasureTheory.Integral.Gamma
/-!
# The complex error function: pole correction, distance from the nodes, small arguments
-/
set_option autoImplicit false
namespace GooFit.Faddeeva
open MeasureTheory Complex Set

/-! ### The pole correction -/

theorem q_re (z : ℂ) (b : ℝ) : (cexp (2 * I * z * (b : ℝ))).re =
    Real.exp (-(2 * b * z.im)) * Real.cos (2 * b * z.re) := by
  rw [Complex.exp_re]
  congr 2
  · simp [mul_re, mul_im]; ring
  · simp [mul_re, mul_im]; ring

theorem q_im (z : ℂ) (b : ℝ) : (cexp (2 * I * z * (b : ℝ))).im =
    Real.exp (-(2 * b * z.im)) * Real.sin (2 * b * z.re) := by
  rw [Complex.exp_im]
  congr 2
  · simp [mul_re, mul_im]; ring
  · simp [mul_re, mul_im]; ring

theorem gz_re (z : ℂ) : (cexp (-z ^ 2)).re =
    Real.exp ((z.im - z.re) * (z.im + z.re)) * Real.cos (2 * z.re * z.im) := by
  rw [Complex.exp_re, ← Real.cos_neg (2 * z.re * z.im)]
  congr 2
  · simp [sq, mul_re]; ring
  · simp [sq, mul_im]; ring

theorem gz_im (z : ℂ) : (cexp (-z ^ 2)).im =
    -(Real.exp ((z.im - z.re) * (z.im + z.re)) * Real.sin (2 * z.re * z.im)) := by
  rw [Complex.exp_im, ← mul_neg, ← Real.sin_neg]
  congr 2
  · simp [sq, mul_re]; ring
  · simp [sq, mul_im]; ring

theorem q_norm_lt (z : ℂ) (hz : 0 < z.im) (b : ℝ) (hb : 0 < b) :
    ‖cexp (2 * I * z * (b : ℝ))‖ < 1 := by
  rw [Complex.norm_exp]
  apply exp_lt_one'
  have : (2 * I * z * ((b : ℝ) : ℂ)).re = -(2 * z.im * b) := by
    simp [mul_re, mul_im]
  rw [this]
  have := mul_pos hz hb
  linarith

/-- the denominator of the correction -/
theorem pole_den (z : ℂ) (hz : 0 < z.im) (b : ℝ) (hb : 0 < b) :
    let t := 2 * b * z.re
    let u := 2 * b * z.im
    Real.sin t * Real.sin t + (Real.exp (-u) - Real.cos t) * (Real.exp (-u) - Real.cos t) =
      Complex.normSq (1 - cexp (2 * I * z * (b : ℝ))) ∧
    Complex.normSq (1 - cexp (2 * I * z * (b : ℝ))) ≠ 0 := by
  intro t u
  constructor
  · rw [Complex.normSq_apply, sub_re, sub_im, q_re, q_im, one_re, one_im]
    have hE := Real.sin_sq_add_cos_sq t
    show _ = (1 - Real.exp (-u) * Real.cos t) * (1 - Real.exp (-u) * Real.cos t) +
      (0 - Real.exp (-u) * Real.sin t) * (0 - Real.exp (-u) * Real.sin t)
    linear_combination (1 - Real.exp (-u) ^ 2) * hE
  · rw [Ne, Complex.normSq_eq_zero, sub_eq_zero]
    intro h
    have h1 := q_norm_lt z hz b hb
    rw [← h, norm_one] at h1
    exact lt_irrefl _ h1

theorem pole_corr (z : ℂ) (hz : 0 < z.im) (h : ℝ) (hh : 0 < h) :
    let b := Real.pi / h
    let t := 2 * b * z.re
    let u := 2 * b * z.im
    let U := 2 * z.re * z.im
    let d := (z.im - z.re) * (z.im + z.re)
    let N := Complex.normSq (1 - cexp (2 * I * z * (b : ℝ)))
    let f := Real.exp (-u) - Real.cos t
    ((2 * Real.exp (d - u) / N : ℝ) : ℂ) *
      Complex.mk (Real.cos U * f - Real.sin U * Real.sin t) (-(Real.cos U * Real.sin t + Real.sin U * f)) =
    -poleTerm z h := by
  intro b t u U d N f
  obtain ⟨h1, h2⟩ := pole_den z hz b (div_pos Real.pi_pos hh)
  have hN : N = Real.sin t * Real.sin t + f * f := h1.symm
  have hE := Real.sin_sq_add_cos_sq t
  have hed : Real.exp (d - u) = Real.exp d * Real.exp (-u) := by
    rw [← Real.exp_add]; congr 1
  have hqr : (cexp (2 * I * z * (b : ℝ))).re = Real.exp (-u) * Real.cos t := q_re z b
  have hqi : (cexp (2 * I * z * (b : ℝ))).im = Real.exp (-u) * Real.sin t := q_im z b
  have hgr : (cexp (-z ^ 2)).re = Real.exp d * Real.cos U := gz_re z
  have hgi : (cexp (-z ^ 2)).im = -(Real.exp d * Real.sin U) := gz_im z
  have hN0 : N ≠ 0 := h2
  have hdr : (cexp (2 * I * z * (b : ℝ)) / (1 - cexp (2 * I * z * (b : ℝ)))).re = -(Real.exp (-u) * f) / N := by
    rw [Complex.div_re, sub_re, sub_im, hqr, hqi, one_re, one_im, ← add_div]
    congr 1
    show _ = -(Real.exp (-u) * (Real.exp (-u) - Real.cos t))
    linear_combination (-Real.exp (-u) ^ 2) * hE
  have hdi : (cexp (2 * I * z * (b : ℝ)) / (1 - cexp (2 * I * z * (b : ℝ)))).im =
      (Real.exp (-u) * Real.sin t) / N := by
    rw [Complex.div_im, sub_re, sub_im, hqr, hqi, one_re, one_im, ← sub_div]
    congr 1
    ring
  show _ = -(2 * cexp (-z ^ 2) * (cexp (2 * I * z * (b : ℝ)) / (1 - cexp (2 * I * z * (b : ℝ)))))
  apply Complex.ext
  · rw [Complex.re_ofReal_mul, neg_re, mul_re, hdr, hdi, mul_re, mul_im, hgr, hgi, hed, re_ofNat, im_ofNat]
    field_simp
    ring
  · rw [Complex.im_ofReal_mul, neg_im, mul_im, hdr, hdi, mul_re, mul_im, hgr, hgi, hed, re_ofNat, im_ofNat]
    field_simp
    ring

/-! ### Distance from the nodes -/

theorem dist_re (z : ℂ) (t r : ℝ) (h : r ≤ |z.re - t|) : r ≤ ‖z - t‖ := by
  refine h.trans ?_
  have := abs_re_le_norm (z - t)
  simpa using this

theorem dist_im (z : ℂ) (t r : ℝ) (h : r ≤ z.im) : r ≤ ‖z - t‖ := by
  have := abs_im_le_norm (z - t)
  have h2 : z.im ≤ |z.im| := le_abs_self _
  simp only [sub_im, ofReal_im, sub_zero] at this
  linarith

/-- both nodes of a pair, by the distance of `|Re z|` from the node -/
theorem dist_abs (z : ℂ) (t r : ℝ) (ht : 0 ≤ t) (h : r ≤ |(|z.re|) - t|) :
    r ≤ ‖z - t‖ ∧ r ≤ ‖z + t‖ := by
  have key : |(|z.re|) - t| ≤ |z.re - t| ∧ |(|z.re|) - t| ≤ |z.re + t| := by
    rcases abs_cases z.re with ⟨h1, h2⟩ | ⟨h1, h2⟩ <;> rw [h1]
    · refine ⟨le_refl _, ?_⟩
      rw [abs_le]
      rw [abs_of_nonneg (by linarith : 0 ≤ z.re + t)]
      constructor <;> linarith
    · constructor
      · rw [abs_of_nonpos (by linarith : z.re - t ≤ 0), abs_le]
        constructor <;> linarith
      · rw [← abs_neg]
        apply le_of_eq
        congr 1
        ring
  refine ⟨dist_re z t r (h.trans key.1), ?_⟩
  have e : z + (t : ℂ) = z - ((-t : ℝ) : ℂ) := by push_cast; ring
  rw [e]
  apply dist_re
  rw [sub_neg_eq_add]
  exact h.trans key.2

theorem dist_im2 (z : ℂ) (t r : ℝ) (h : r ≤ z.im) : r ≤ ‖z - t‖ ∧ r ≤ ‖z + t‖ := by
  refine ⟨dist_im z t r h, ?_⟩
  have e : z + (t : ℂ) = z - ((-t : ℝ) : ℂ) := by push_cast; ring
  rw [e]
  exact dist_im z (-t) r h

/-- distance of a real number from the integers -/
theorem frac_dist (x : ℝ) (h1 : 0.02 ≤ x - ⌊x⌋) (h2 : x - ⌊x⌋ ≤ 0.98) (n : ℤ) : 0.02 ≤ |x - n| := by
  rw [le_abs]
  norm_num [-Int.self_sub_floor] at h1 h2 ⊢
  by_cases h : n ≤ ⌊x⌋
  · left
    have : (n : ℝ) ≤ ⌊x⌋ := by exact_mod_cast h
    linarith
  · right
    have : ((⌊x⌋ + 1 : ℤ) : ℝ) ≤ n := by exact_mod_cast (by omega : ⌊x⌋ + 1 ≤ n)
    push_cast at this
    linarith

/-- a number close to an integer -/
theorem frac_near (x : ℝ) (h : x - ⌊x⌋ < 0.02 ∨ x - ⌊x⌋ > 0.98) : ∃ m : ℤ, |x - m| < 0.02 := by
  have h0 := Int.floor_le x
  have h1 := Int.lt_floor_add_one x
  rcases h with h | h
  · exact ⟨⌊x⌋, by rw [abs_lt]; norm_num [-Int.self_sub_floor] at h ⊢; constructor <;> linarith⟩
  · refine ⟨⌊x⌋ + 1, ?_⟩
    rw [abs_lt]; push_cast
    norm_num [-Int.self_sub_floor] at h ⊢; constructor <;> linarith

/-- table 1 keeps away from its nodes -/
theorem near1 (z : ℂ) (hz : 0 < z.im)
    (hc : ¬ ((|z.im| < 0.01 ∧ |z.re| < 6.01) ∧ (|z.re| * 2 - ⌊|z.re| * 2⌋ < 0.02 ∨ |z.re| * 2 - ⌊|z.re| * 2⌋ > 0.98)))
    (n : ℕ) (hn : n < 12) :
    1 / 100 ≤ ‖z - (((n : ℝ) + 1) * (1 / 2) : ℝ)‖ ∧ 1 / 100 ≤ ‖z + (((n : ℝ) + 1) * (1 / 2) : ℝ)‖ := by
  rw [abs_of_pos hz] at hc
  by_cases hy : z.im < 0.01
  · by_cases hx : |z.re| < 6.01
    · have hf : ¬ (|z.re| * 2 - ⌊|z.re| * 2⌋ < 0.02 ∨ |z.re| * 2 - ⌊|z.re| * 2⌋ > 0.98) := fun h => hc ⟨⟨hy, hx⟩, h⟩
      push Not at hf
      have := frac_dist (|z.re| * 2) hf.1 hf.2 ((n : ℤ) + 1)
      apply dist_abs _ _ _ (by positivity)
      push_cast at this
      have e : |z.re| * 2 - ((n : ℝ) + 1) = 2 * (|z.re| - ((n : ℝ) + 1) * (1 / 2)) := by ring
      rw [e, abs_mul, abs_of_pos (by norm_num : (0 : ℝ) < 2)] at this
      norm_num at this ⊢
      linarith
    · apply dist_abs _ _ _ (by positivity)
      have : (n : ℝ) ≤ 11 := by exact_mod_cast (by omega : n ≤ 11)
      rw [le_abs]
      left
      norm_num at hx ⊢
      linarith
  · apply dist_im2
    norm_num at hy ⊢
    linarith

/-- table 2 is used away from its nodes -/
theorem near2 (z : ℂ)
    (hc : (|z.im| < 0.01 ∧ |z.re| < 6.01) ∧ (|z.re| * 2 - ⌊|z.re| * 2⌋ < 0.02 ∨ |z.re| * 2 - ⌊|z.re| * 2⌋ > 0.98))
    (n : ℕ) (hn : n < 12) :
    1 / 100 ≤ ‖z - (((n : ℝ) + 1) * (53 / 100) : ℝ)‖ ∧ 1 / 100 ≤ ‖z + (((n : ℝ) + 1) * (53 / 100) : ℝ)‖ := by
  obtain ⟨m, hm⟩ := frac_near _ hc.2
  apply dist_abs _ _ _ (by positivity)
  have hn' : (n : ℝ) ≤ 11 := by exact_mod_cast (by omega : n ≤ 11)
  have hn0 : (0 : ℝ) ≤ n := Nat.cast_nonneg n
  rw [abs_lt] at hm
  norm_num at hm
  rw [le_abs]
  rcases lt_trichotomy m ((n : ℤ) + 1) with h | h | h
  · right
    have : (m : ℝ) + 1 ≤ (n : ℝ) + 1 := by exact_mod_cast (by omega : m + 1 ≤ (n : ℤ) + 1)
    linarith
  · right
    have : (m : ℝ) = (n : ℝ) + 1 := by rw [h]; push_cast; ring
    linarith
  · left
    have : (n : ℝ) + 1 + 1 ≤ (m : ℝ) := by exact_mod_cast (by omega : (n : ℤ) + 1 + 1 ≤ m)
    linarith

theorem far_of (z : ℂ) (h : ℝ) (hh : 1 / 2 ≤ h) (hr : |z.re| ≤ 6.4 ∨ 1 / 10 ^ 9 ≤ z.im) (n : ℕ) (hn : 12 ≤ n) :
    1 / 10 ^ 9 ≤ ‖z - (((n : ℝ) + 1) * h : ℝ)‖ ∧ 1 / 10 ^ 9 ≤ ‖z + (((n : ℝ) + 1) * h : ℝ)‖ := by
  rcases hr with hr | hr
  · apply dist_abs _ _ _ (by positivity)
    have hn' : (12 : ℝ) ≤ n := by exact_mod_cast hn
    rw [le_abs]
    right
    have : 13 * (1 / 2) ≤ ((n : ℝ) + 1) * h := mul_le_mul (by linarith) hh (by norm_num) (by linarith)
    norm_num at hr this ⊢
    linarith
  · exact dist_im2 _ _ _ hr

/-! ### Small arguments -/

theorem mom1 : ∫ v in Ioi (0 : ℝ), v * Real.exp (-(1 / 4) * v ^ 2) = 2 := by
  have h := _root_.integral_rpow_mul_exp_neg_mul_rpow (p := 2) (q := 1) (b := 1 / 4) (by norm_num) (by norm_num)
    (by norm_num)
  have e : ∫ v in Ioi (0 : ℝ), v * Real.exp (-(1 / 4) * v ^ 2) =
      ∫ x in Ioi (0 : ℝ), x ^ (1 : ℝ) * Real.exp (-(1 / 4) * x ^ (2 : ℝ)) := by
    congr 1
    funext v
    rw [Real.rpow_one]
    norm_num
  rw [e, h]
  norm_num [Real.Gamma_one]

theorem mom2 : ∫ v in Ioi (0 : ℝ), v ^ 2 * Real.exp (-(1 / 4) * v ^ 2) = 2 * Real.sqrt Real.pi := by
  have h := _root_.integral_rpow_mul_exp_neg_mul_rpow (p := 2) (q := 2) (b := 1 / 4) (by norm_num) (by norm_num)
    (by norm_num)
  have e : ∫ v in Ioi (0 : ℝ), v ^ 2 * Real.exp (-(1 / 4) * v ^ 2) =
      ∫ x in Ioi (0 : ℝ), x ^ (2 : ℝ) * Real.exp (-(1 / 4) * x ^ (2 : ℝ)) := by
    congr 1
    funext v
    norm_num
  rw [e, h]
  have hG : Real.Gamma ((2 + 1) / 2) = Real.sqrt Real.pi / 2 := by
    rw [show ((2 : ℝ) + 1) / 2 = 1 / 2 + 1 by norm_num, Real.Gamma_add_one (by norm_num),
      Real.Gamma_one_half_eq]
    ring
  have hr : (1 / 4 : ℝ) ^ (-(2 + 1) / 2 : ℝ) = 8 := by
    rw [show (1 / 4 : ℝ) = 2 ^ (-2 : ℝ) by
      rw [Real.rpow_neg (by norm_num)]; norm_num]
    rw [← Real.rpow_mul (by norm_num), show (-2 * (-(2 + 1) / 2) : ℝ) = (3 : ℕ) by norm_num,
      Real.rpow_natCast]
    norm_num
  rw [hG, hr]
  ring

theorem int1 : IntegrableOn (fun v : ℝ => v * Real.exp (-(1 / 4) * v ^ 2)) (Ioi 0) :=
  (integrable_mul_exp_neg_mul_sq (b := 1 / 4) (by norm_num)).integrableOn

theorem int2 : IntegrableOn (fun v : ℝ => v ^ 2 * Real.exp (-(1 / 4) * v ^ 2)) (Ioi 0) := by
  have := integrableOn_rpow_mul_exp_neg_mul_sq (b := 1 / 4) (by norm_num) (s := 2) (by norm_num)
  refine this.congr_fun (fun v _ => ?_) measurableSet_Ioi
  norm_num

/-- the quadratic approximation -/
theorem quad_integral (z : ℂ) :
    (∫ v in Ioi (0 : ℝ), (Real.exp (-(1 / 4) * v ^ 2) : ℂ) * (1 + I * z * v + (I * z * v) ^ 2 / 2)) =
      (Real.sqrt Real.pi : ℂ) * (1 - z ^ 2) + 2 * I * z ∧
    IntegrableOn (fun v : ℝ => (Real.exp (-(1 / 4) * v ^ 2) : ℂ) * (1 + I * z * v + (I * z * v) ^ 2 / 2)) (Ioi 0) := by
  have i0 : IntegrableOn (fun v : ℝ => ((Real.exp (-(1 / 4) * v ^ 2) : ℝ) : ℂ)) (Ioi 0) := gauss_int.ofReal
  have i1 : IntegrableOn (fun v : ℝ => ((v * Real.exp (-(1 / 4) * v ^ 2) : ℝ) : ℂ) * (I * z)) (Ioi 0) :=
    Integrable.mul_const int1.ofReal _
  have i2 : IntegrableOn (fun v : ℝ => ((v ^ 2 * Real.exp (-(1 / 4) * v ^ 2) : ℝ) : ℂ) * ((I * z) ^ 2 / 2)) (Ioi 0) :=
    Integrable.mul_const int2.ofReal _
  have e : (fun v : ℝ => (Real.exp (-(1 / 4) * v ^ 2) : ℂ) * (1 + I * z * v + (I * z * v) ^ 2 / 2)) =
      fun v : ℝ => (((Real.exp (-(1 / 4) * v ^ 2) : ℝ) : ℂ) + ((v * Real.exp (-(1 / 4) * v ^ 2) : ℝ) : ℂ) * (I * z)) +
        ((v ^ 2 * Real.exp (-(1 / 4) * v ^ 2) : ℝ) : ℂ) * ((I * z) ^ 2 / 2) := by
    funext v
    rw [Complex.ofReal_mul, Complex.ofReal_mul, Complex.ofReal_pow]
    ring
  rw [e]
  refine ⟨?_, (i0.add i1).add i2⟩
  have i01 : IntegrableOn (fun v : ℝ => ((Real.exp (-(1 / 4) * v ^ 2) : ℝ) : ℂ) +
      ((v * Real.exp (-(1 / 4) * v ^ 2) : ℝ) : ℂ) * (I * z)) (Ioi 0) := i0.add i1
  rw [integral_add i01 i2, integral_add i0 i1, integral_mul_const, integral_mul_const,
    integral_complex_ofReal, integral_complex_ofReal, integral_complex_ofReal, gauss_half, mom1, mom2]
  have hI : I ^ 2 = -1 := I_sq
  push_cast
  linear_combination (Real.sqrt Real.pi * z ^ 2 : ℂ) * hI

theorem cube_exp (v e : ℝ) (hv : 0 ≤ v) (he : e ≤ 1 / 1000) :
    v ^ 3 * Real.exp (e * v) * Real.exp (-(1 / 4) * v ^ 2) ≤ 17.1 * Real.exp (-0.1295 * v ^ 2) := by
  have h1 : Real.exp (e * v) ≤ Real.exp (0.0005 + 0.0005 * v ^ 2) := by
    apply Real.exp_le_exp.2
    norm_num
    nlinarith [sq_nonneg (v - 1)]
  have h2 : v ^ 3 ≤ 17.02 * Real.exp (0.12 * v ^ 2) := by
    have := Real.quadratic_le_exp_of_nonneg (x := 0.12 * v ^ 2) (by positivity)
    have h3 : v ^ 3 ≤ 17.02 * (1 + 0.12 * v ^ 2 + (0.12 * v ^ 2) ^ 2 / 2) := by
      norm_num
      nlinarith [mul_nonneg (sq_nonneg v) (sq_nonneg (v - 4)), sq_nonneg v]
    norm_num at h3 this ⊢
    linarith
  have h3 : Real.exp 0.0005 ≤ 1.001 := by
    have := Real.abs_exp_sub_one_le (x := 0.0005) (by norm_num)
    rw [abs_le] at this
    have h := this.2
    norm_num at h ⊢
    linarith
  calc v ^ 3 * Real.exp (e * v) * Real.exp (-(1 / 4) * v ^ 2)
      ≤ (17.02 * Real.exp (0.12 * v ^ 2)) * Real.exp (0.0005 + 0.0005 * v ^ 2) * Real.exp (-(1 / 4) * v ^ 2) := by
        gcongr
    _ = 17.02 * Real.exp 0.0005 * Real.exp (-0.1295 * v ^ 2) := by
        rw [Real.exp_add, mul_assoc (17.02 * Real.exp (0.12 * v ^ 2)), mul_assoc (17.02 : ℝ),
          mul_assoc (17.02 : ℝ)]
        congr 1
        have e1 : Real.exp (0.12 * v ^ 2) * (Real.exp 0.0005 * Real.exp (0.0005 * v ^ 2) * Real.exp (-(1 / 4) * v ^ 2)) =
            Real.exp 0.0005 * (Real.exp (0.12 * v ^ 2) * Real.exp (0.0005 * v ^ 2) * Real.exp (-(1 / 4) * v ^ 2)) := by
          ring
        rw [e1, ← Real.exp_add, ← Real.exp_add]
        congr 2
        norm_num
        ring
    _ ≤ 17.1 * Real.exp (-0.1295 * v ^ 2) := by
        have : 17.02 * Real.exp 0.0005 ≤ 17.1 := by
          norm_num at h3 ⊢
          linarith
        gcongr

/-- The complex error function near zero. -/
theorem W_small (z : ℂ) (hr : ‖z‖ ≤ 1 / 1000) :
    ‖W z - (1 - z ^ 2 + 2 / (Real.sqrt Real.pi : ℂ) * I * z)‖ ≤ 24 * ‖z‖ ^ 3 := by
  obtain ⟨hq, hqi⟩ := quad_integral z
  have hs : (Real.sqrt Real.pi : ℂ) ≠ 0 := by exact_mod_cast sqrtpi_pos.ne'
  have e1 : (1 - z ^ 2 + 2 / (Real.sqrt Real.pi : ℂ) * I * z) = 1 / (Real.sqrt Real.pi : ℂ) *
      ∫ v in Ioi (0 : ℝ), (Real.exp (-(1 / 4) * v ^ 2) : ℂ) * (1 + I * z * v + (I * z * v) ^ 2 / 2) := by
    rw [hq]; field_simp
  rw [e1, W, J, ← mul_sub, ← integral_sub (kern_integrable z 0).integrableOn hqi]
  have hb : ‖∫ v in Ioi (0 : ℝ), (kern z 0 v - (Real.exp (-(1 / 4) * v ^ 2) : ℂ) *
      (1 + I * z * v + (I * z * v) ^ 2 / 2))‖ ≤
      ∫ v in Ioi (0 : ℝ), (‖z‖ ^ 3 * 17.1) * Real.exp (-0.1295 * v ^ 2) := by
    apply norm_integral_le_of_norm_le
    · exact ((integrable_exp_neg_mul_sq (b := 0.1295) (by norm_num)).integrableOn).const_mul _
    · filter_upwards [ae_restrict_mem measurableSet_Ioi] with v hv
      have hv : 0 < v := hv
      have hk : kern z 0 v = (Real.exp (-(1 / 4) * v ^ 2) : ℂ) * cexp (I * z * v) := by
        rw [kern, Complex.ofReal_exp, ← Complex.exp_add]
        congr 1
        push_cast
        ring
      rw [hk, ← mul_sub, norm_mul, Complex.norm_of_nonneg (Real.exp_pos _).le]
      have ht := Complex.norm_exp_sub_sum_le_norm_mul_exp (I * z * v) 3
      simp only [Finset.sum_range_succ, Finset.sum_range_zero, Nat.factorial] at ht
      have e2 : cexp (I * z * v) - (1 + I * z * v + (I * z * v) ^ 2 / 2) = cexp (I * z * v) -
          (0 + (I * z * v) ^ 0 / ((1 : ℕ) : ℂ) + (I * z * v) ^ 1 / ((0 + 1) * 1 : ℕ) +
            (I * z * v) ^ 2 / ((1 + 1) * ((0 + 1) * 1) : ℕ)) := by
        norm_num
      rw [e2]
      have hn : ‖I * z * v‖ = ‖z‖ * v := by
        rw [norm_mul, norm_mul, norm_I, one_mul, Complex.norm_of_nonneg hv.le]
      rw [hn] at ht
      calc Real.exp (-(1 / 4) * v ^ 2) * _ ≤
            Real.exp (-(1 / 4) * v ^ 2) * ((‖z‖ * v) ^ 3 * Real.exp (‖z‖ * v)) :=
            mul_le_mul_of_nonneg_left ht (Real.exp_pos _).le
        _ = ‖z‖ ^ 3 * (v ^ 3 * Real.exp (‖z‖ * v) * Real.exp (-(1 / 4) * v ^ 2)) := by ring
        _ ≤ ‖z‖ ^ 3 * (17.1 * Real.exp (-0.1295 * v ^ 2)) :=
            mul_le_mul_of_nonneg_left (cube_exp v ‖z‖ hv.le hr) (by positivity)
        _ = _ := by ring
  rw [integral_const_mul, integral_gaussian_Ioi] at hb
  rw [norm_mul, norm_div, norm_one, Complex.norm_of_nonneg sqrtpi_pos.le, one_div,
    inv_mul_le_iff₀ sqrtpi_pos]
  refine hb.trans ?_
  have hsq : Real.sqrt (Real.pi / 0.1295) ≤ 2.78 * Real.sqrt Real.pi := by
    rw [Real.sqrt_le_left (by positivity), mul_pow, Real.sq_sqrt Real.pi_pos.le]
    rw [div_le_iff₀ (by norm_num)]
    have := Real.pi_pos
    norm_num
    nlinarith
  calc ‖z‖ ^ 3 * 17.1 * (Real.sqrt (Real.pi / 0.1295) / 2) ≤
        ‖z‖ ^ 3 * 17.1 * (2.78 * Real.sqrt Real.pi / 2) := by gcongr
    _ ≤ Real.sqrt Real.pi * (24 * ‖z‖ ^ 3) := by
        have : 0 ≤ ‖z‖ ^ 3 * Real.sqrt Real.pi := by positivity
        norm_num
        nlinarith

end GooFit.Faddeeva
