import Verif.Lemmas.FaddeevaE
import Verif.Spec.Faddeeva
/-!
# The complex error function: the code's value and its distance from the integral
-/
set_option autoImplicit false
namespace GooFit.Faddeeva
open MeasureTheory Complex Set

/-- step and weights the code chooses -/
def Close (z : ℂ) : Prop :=
  (|z.im| < 0.01 ∧ |z.re| < 6.01) ∧ (|z.re| * 2 - ⌊|z.re| * 2⌋ < 0.02 ∨ |z.re| * 2 - ⌊|z.re| * 2⌋ > 0.98)

/-- the value of the trapezoid branch for a step and a table -/
noncomputable def trapValue (z : ℂ) (h : ℝ) (E : ℕ → ℝ) : ℂ :=
  trapSum z h E + if z.im < 6.28318530717958 then -poleTerm z h else 0

theorem zero_lit : (0.0 : ℝ) = 0 := by norm_num

theorem inv_eq (z : ℂ) : Complex.mk (z.im * (1 / Complex.normSq z)) (z.re * (1 / Complex.normSq z)) = I / z := by
  rw [div_eq_mul_inv I z, Complex.inv_def]
  apply Complex.ext
  · rw [mul_re, Complex.re_mul_ofReal, Complex.im_mul_ofReal]
    simp
  · rw [mul_im, Complex.re_mul_ofReal, Complex.im_mul_ofReal]
    simp

/-- the trapezoid branch for given tables -/
theorem branch (z : ℂ) (hz : 0 < z.im) (hs : Complex.normSq z ≠ 0) (h : ℝ) (hh : 0 < h) (r : ℝ) (hr : r = h / Real.pi)
    (ns es : List ℝ) (hn : ∀ n ∈ ns, 0 ≤ n) (E : ℕ → ℝ)
    (hsum : ((ns.zip es).map (term z)).sum = ∑ n ∈ Finset.range 12, (E n : ℂ) * pair z (((n : ℝ) + 1) * h)) :
    (do
      let d := (z.im - z.re) * (z.im + z.re)
      let f := 4 * z.re * z.re * z.im * z.im
      let gh ← tableLoop (Complex.normSq z) d f ns es 0.0 0.0
      let u ← fdiv 1 (Complex.normSq z)
      let c := (r : ℂ) * Complex.mk (z.im * (u + 2.0 * gh.1)) (z.re * (u + 2.0 * gh.2))
      if z.im < 6.28318530717958 then do
        let s ← fdiv 2.0 r
        let t := s * z.re
        let u := s * z.im
        let s := Real.sin t
        let h := Real.cos t
        let f := Real.exp (-u) - h
        let g ← fdiv (2.0 * Real.exp (d - u)) (s * s + f * f)
        let u := 2.0 * z.re * z.im
        let h := Real.cos u
        let t := Real.sin u
        some (c + (g : ℂ) * Complex.mk (h * f - t * s) (-(h * s + t * f)))
      else some c) = some (trapValue z h E) := by
  obtain ⟨g', h', e1, e2⟩ := loop_eq z hz ns es hn 0.0 0.0
  simp only [e1, Option.bind_eq_bind, Option.bind_some, fdiv, if_neg hs]
  have hc : (r : ℂ) * Complex.mk (z.im * (1 / Complex.normSq z + 2.0 * g')) (z.re * (1 / Complex.normSq z + 2.0 * h')) =
      trapSum z h E := by
    have e3 : Complex.mk (z.im * (1 / Complex.normSq z + 2.0 * g')) (z.re * (1 / Complex.normSq z + 2.0 * h')) =
        Complex.mk (z.im * (1 / Complex.normSq z)) (z.re * (1 / Complex.normSq z)) +
        Complex.mk (z.im * (2.0 * g')) (z.re * (2.0 * h')) := by
      apply Complex.ext
      · simp only [add_re, two_lit]; ring
      · simp only [add_im, two_lit]; ring
    have e4 : Complex.mk (z.im * (2.0 * (0.0 : ℝ))) (z.re * (2.0 * 0.0)) = 0 := by
      rw [zero_lit]; apply Complex.ext <;> simp
    rw [e3, e2, e4, zero_add, inv_eq, hsum, trapSum, hr]
    push_cast
    rfl
  by_cases hy : z.im < 6.28318530717958
  · have hpi := Real.pi_pos
    have hr0 : r ≠ 0 := by rw [hr]; exact (div_pos hh hpi).ne'
    have h2r : 2.0 / r = 2 * (Real.pi / h) := by
      rw [hr, two_lit]; field_simp
    obtain ⟨d1, d2⟩ := pole_den z hz (Real.pi / h) (div_pos hpi hh)
    simp only [if_pos hy, if_neg hr0, h2r, trapValue, Option.bind_some]
    rw [d1]
    simp only [if_neg d2, Option.bind_some]
    rw [hc]
    have := pole_corr z hz h hh
    simp only at this
    rw [← this]
    simp only [two_lit]
  · simp only [if_neg hy, trapValue]
    rw [hc, add_zero]

theorem normSq_pos (z : ℂ) (hz : 0 < z.im) : Complex.normSq z ≠ 0 := by
  rw [Ne, Complex.normSq_eq_zero]
  intro h
  rw [h] at hz
  simp at hz

/-- the trapezoid branch of the code -/
theorem dev_trap1 (z : ℂ) (hz : 0 < z.im) (hs : ¬ Complex.normSq z < 1e-7) (hc : ¬ Close z) :
    devFaddeeva z = some (trapValue z (1 / 2) fun n => devE1.getD n 0) := by
  rw [← branch z hz (normSq_pos z hz) (1 / 2) (by norm_num) (1 / Real.pi * 0.5) (by norm_num; ring) devN1 devE1
    nn1 (fun n => devE1.getD n 0) (sum1 z)]
  rw [devFaddeeva]
  simp only [if_neg hs]
  have hc' : ¬ ((|z.im| < 0.01 ∧ |z.re| < 6.01) ∧
    (|z.re| * 2 - ⌊|z.re| * 2⌋ < 0.02 ∨ |z.re| * 2 - ⌊|z.re| * 2⌋ > 0.98)) := hc
  simp only [if_neg hc']

theorem dev_trap2 (z : ℂ) (hz : 0 < z.im) (hs : ¬ Complex.normSq z < 1e-7) (hc : Close z) :
    devFaddeeva z = some (trapValue z (53 / 100) fun n => devE2.getD n 0) := by
  rw [← branch z hz (normSq_pos z hz) (53 / 100) (by norm_num) (1 / Real.pi * 0.53) (by norm_num; ring) devN2 devE2
    nn2 (fun n => devE2.getD n 0) (sum2 z)]
  rw [devFaddeeva]
  simp only [if_neg hs]
  have hc' : ((|z.im| < 0.01 ∧ |z.re| < 6.01) ∧
    (|z.re| * 2 - ⌊|z.re| * 2⌋ < 0.02 ∨ |z.re| * 2 - ⌊|z.re| * 2⌋ > 0.98)) := hc
  simp only [if_pos hc']

theorem trapValue_close (z : ℂ) (hz : 0 < z.im) (h : ℝ) (h0 : 1 / 2 ≤ h) (h1 : h ≤ 53 / 100)
    (hh : h = 1 / 2 ∨ z.im ≤ 1) (E : ℕ → ℝ)
    (hE : ∀ n < 12, |E n - Real.exp (-(((n : ℝ) + 1) * h) ^ 2)| ≤ 1 / 10 ^ 16)
    (hnear : ∀ n : ℕ, n < 12 → 1 / 100 ≤ ‖z - (((n : ℝ) + 1) * h : ℝ)‖ ∧ 1 / 100 ≤ ‖z + (((n : ℝ) + 1) * h : ℝ)‖)
    (hfar : |z.re| ≤ 6.4 ∨ 1 / 10 ^ 9 ≤ z.im) : ‖trapValue z h E - W z‖ ≤ 1 / 10 ^ 9 := by
  obtain ⟨S, s1, s2⟩ := trapezoid z hz h (by linarith)
  have ht := trap_trunc z hz h h0 h1 E hE hnear (fun n hn => far_of z h h0 hfar n hn) S s1
  have hpi := Real.pi_gt_d20
  rw [trapValue]
  by_cases hy : z.im < 6.28318530717958
  · rw [if_pos hy]
    have hb : z.im ≤ Real.pi / h := by
      rw [le_div_iff₀ (by linarith)]
      rcases hh with rfl | hh
      · norm_num at hpi hy
        linarith
      · have : (3 : ℝ) < Real.pi := Real.pi_gt_three
        nlinarith
    have hp := trap_pole z hz h (by linarith) h1 hb S s2
    calc ‖trapSum z h E + -poleTerm z h - W z‖ = ‖(trapSum z h E - S) + (S - poleTerm z h - W z)‖ := by
          congr 1; ring
      _ ≤ ‖trapSum z h E - S‖ + ‖S - poleTerm z h - W z‖ := norm_add_le _ _
      _ ≤ 9 / 10 ^ 10 + 1 / 10 ^ 13 := add_le_add ht hp
      _ ≤ 1 / 10 ^ 9 := by norm_num
  · rw [if_neg hy, add_zero]
    have hh2 : h = 1 / 2 := by
      rcases hh with rfl | hh
      · rfl
      · exfalso; norm_num at hy; linarith
    subst hh2
    have hp := trap_far z (by norm_num at hy; linarith) S s2
    calc ‖trapSum z (1 / 2) E - W z‖ = ‖(trapSum z (1 / 2) E - S) + (S - W z)‖ := by
          congr 1; ring
      _ ≤ ‖trapSum z (1 / 2) E - S‖ + ‖S - W z‖ := norm_add_le _ _
      _ ≤ 9 / 10 ^ 10 + 1 / 10 ^ 13 := add_le_add ht hp
      _ ≤ 1 / 10 ^ 9 := by norm_num

/-! ### Small arguments -/

theorem hstep (w c : ℂ) (hw : ‖w‖ ≤ 1) (B b : ℝ) (hB : ‖c‖ ≤ B) : ‖c * w + (b : ℂ)‖ ≤ B + |b| := by
  calc ‖c * w + (b : ℂ)‖ ≤ ‖c * w‖ + ‖(b : ℂ)‖ := norm_add_le _ _
    _ ≤ B + |b| := by
      rw [norm_mul, Complex.norm_real]
      have : ‖c‖ * ‖w‖ ≤ B * 1 := mul_le_mul hB hw (norm_nonneg _) ((norm_nonneg _).trans hB)
      have e : ‖b‖ = |b| := rfl
      rw [e]
      linarith

theorem pade_c (w : ℂ) (hw : ‖w‖ ≤ 1 / 10 ^ 7) : ‖padeLoop devPadeC w - 175685635125‖ ≤ 4300 := by
  have hw1 : ‖w‖ ≤ 1 := hw.trans (by norm_num)
  have b0 : ‖((65536.0 : ℝ) : ℂ)‖ ≤ 65536 := by rw [Complex.norm_real]; norm_num
  have b1 := hstep w _ hw1 _ (-2885792.0) b0
  have b2 := hstep w _ hw1 _ 69973904.0 b1
  have b3 := hstep w _ hw1 _ (-791494704.0) b2
  have b4 := hstep w _ hw1 _ 8962513560.0 b3
  have b5 := hstep w _ hw1 _ (-32794651890.0) b4
  have e : padeLoop devPadeC w - 175685635125 = (((((((65536.0 : ℝ) : ℂ) * w + ((-2885792.0 : ℝ) : ℂ)) * w +
      ((69973904.0 : ℝ) : ℂ)) * w + ((-791494704.0 : ℝ) : ℂ)) * w + ((8962513560.0 : ℝ) : ℂ)) * w +
      ((-32794651890.0 : ℝ) : ℂ)) * w := by
    simp only [padeLoop, devPadeC, List.foldl_cons, List.foldl_nil]
    rw [show ((175685635125.0 : ℝ) : ℂ) = 175685635125 by norm_num]
    ring
  rw [e, norm_mul]
  refine (mul_le_mul b5 hw (norm_nonneg _) (by positivity)).trans ?_
  norm_num [abs_of_nonneg, abs_of_nonpos]

theorem pade_d (w : ℂ) (hw : ‖w‖ ≤ 1 / 10 ^ 7) : ‖padeLoop devPadeD w - 175685635125‖ ≤ 10600 := by
  have hw1 : ‖w‖ ≤ 1 := hw.trans (by norm_num)
  have b0 : ‖((192192.0 : ℝ) : ℂ)‖ ≤ 192192 := by rw [Complex.norm_real]; norm_num
  have b1 := hstep w _ hw1 _ 8648640.0 b0
  have b2 := hstep w _ hw1 _ 183783600.0 b1
  have b3 := hstep w _ hw1 _ 2329725600.0 b2
  have b4 := hstep w _ hw1 _ 18332414100.0 b3
  have b5 := hstep w _ hw1 _ 84329104860.0 b4
  have e : padeLoop devPadeD w - 175685635125 = (((((((192192.0 : ℝ) : ℂ) * w + ((8648640.0 : ℝ) : ℂ)) * w +
      ((183783600.0 : ℝ) : ℂ)) * w + ((2329725600.0 : ℝ) : ℂ)) * w + ((18332414100.0 : ℝ) : ℂ)) * w +
      ((84329104860.0 : ℝ) : ℂ)) * w := by
    simp only [padeLoop, devPadeD, List.foldl_cons, List.foldl_nil]
    rw [show ((175685635125.0 : ℝ) : ℂ) = 175685635125 by norm_num]
    ring
  rw [e, norm_mul]
  refine (mul_le_mul b5 hw (norm_nonneg _) (by positivity)).trans ?_
  norm_num [abs_of_nonneg, abs_of_nonpos]

theorem pade_d_big (w : ℂ) (hw : ‖w‖ ≤ 1 / 10 ^ 7) : 1.756 * 10 ^ 11 ≤ ‖padeLoop devPadeD w‖ := by
  have h := pade_d w hw
  have h2 : ‖(175685635125 : ℂ)‖ = 175685635125 := by norm_num
  have h3 := norm_sub_norm_le (175685635125 : ℂ) (padeLoop devPadeD w)
  rw [norm_sub_rev] at h3
  rw [h2] at h3
  norm_num at h3 ⊢
  linarith

/-- the value for small arguments -/
noncomputable def padeValue (z : ℂ) : ℂ :=
  1 / cexp (z * z) + Complex.mk 0.0 (2 / Real.sqrt Real.pi) * padeLoop devPadeC (z * z) /
    padeLoop devPadeD (z * z) * z * cexp (z * z)

theorem small_norm (z : ℂ) (hs : Complex.normSq z < 1e-7) : ‖z * z‖ ≤ 1 / 10 ^ 7 ∧ ‖z‖ ≤ 0.000317 := by
  rw [Complex.normSq_eq_norm_sq] at hs
  have h1 : ‖z‖ ≤ 0.000317 := by
    rw [← abs_of_nonneg (norm_nonneg z), ← abs_of_pos (by norm_num : (0 : ℝ) < 0.000317)]
    apply sq_le_sq.1
    refine hs.le.trans (by norm_num)
  refine ⟨?_, h1⟩
  rw [norm_mul, ← sq]
  refine hs.le.trans (by norm_num)

theorem dev_pade (z : ℂ) (hs : Complex.normSq z < 1e-7) : devFaddeeva z = some (padeValue z) := by
  rw [devFaddeeva]
  simp only [if_pos hs]
  have hd : padeLoop devPadeD (z * z) ≠ 0 := by
    intro h
    have := pade_d_big (z * z) (small_norm z hs).1
    rw [h, norm_zero] at this
    norm_num at this
  rw [if_neg (by push Not; exact ⟨Complex.exp_ne_zero _, hd⟩)]
  rfl

theorem inv_sqrtpi_lt : 2 / Real.sqrt Real.pi ≤ 1.2 := by
  rw [div_le_iff₀ sqrtpi_pos]
  have : (5 / 3 : ℝ) ≤ Real.sqrt Real.pi := by
    apply Real.le_sqrt_of_sq_le
    have := Real.pi_gt_three
    norm_num
    linarith
  norm_num
  linarith

theorem pade_close (z : ℂ) (hs : Complex.normSq z < 1e-7) : ‖padeValue z - W z‖ ≤ 1 / 10 ^ 9 := by
  obtain ⟨hw, hn⟩ := small_norm z hs
  set w := z * z with hwd
  have hn0 := norm_nonneg z
  have hW := W_small z (hn.trans (by norm_num))
  have hW2 : 24 * ‖z‖ ^ 3 ≤ 7.7 / 10 ^ 10 := by
    have : ‖z‖ ^ 3 ≤ 0.000317 ^ 3 := pow_le_pow_left₀ hn0 hn 3
    norm_num at this ⊢
    linarith
  have hv1 : ‖cexp w - 1‖ ≤ 2 / 10 ^ 7 := by
    have := Complex.norm_exp_sub_one_le (x := w) (hw.trans (by norm_num))
    refine this.trans ?_
    calc 2 * ‖w‖ ≤ 2 * (1 / 10 ^ 7) := by linarith
      _ = _ := by ring
  have hv2 : ‖1 / cexp w - (1 - w)‖ ≤ 1 / 10 ^ 14 := by
    have := Complex.norm_exp_sub_one_sub_id_le (x := -w) (by rw [norm_neg]; exact hw.trans (by norm_num))
    rw [norm_neg] at this
    rw [one_div, ← Complex.exp_neg]
    calc ‖cexp (-w) - (1 - w)‖ = ‖cexp (-w) - 1 - -w‖ := by congr 1; ring
      _ ≤ ‖w‖ ^ 2 := this
      _ ≤ (1 / 10 ^ 7) ^ 2 := pow_le_pow_left₀ (norm_nonneg _) hw 2
      _ = 1 / 10 ^ 14 := by norm_num
  have hvn : ‖cexp w‖ ≤ 1.001 := by
    calc ‖cexp w‖ = ‖(cexp w - 1) + 1‖ := by congr 1; ring
      _ ≤ ‖cexp w - 1‖ + ‖(1 : ℂ)‖ := norm_add_le _ _
      _ ≤ 2 / 10 ^ 7 + 1 := by rw [norm_one]; linarith
      _ ≤ 1.001 := by norm_num
  have hc := pade_c w hw
  have hd := pade_d w hw
  have hdb := pade_d_big w hw
  have hd0 : padeLoop devPadeD w ≠ 0 := by
    intro h
    rw [h, norm_zero] at hdb
    norm_num at hdb
  have hq : ‖padeLoop devPadeC w / padeLoop devPadeD w * cexp w - 1‖ ≤ 3 / 10 ^ 7 := by
    have e : padeLoop devPadeC w / padeLoop devPadeD w * cexp w - 1 =
        ((padeLoop devPadeC w - 175685635125) * cexp w + 175685635125 * (cexp w - 1) -
          (padeLoop devPadeD w - 175685635125)) / padeLoop devPadeD w := by
      field_simp
      ring
    rw [e, norm_div, div_le_iff₀ (norm_pos_iff.2 hd0)]
    have h1 : ‖(padeLoop devPadeC w - 175685635125) * cexp w‖ ≤ 4300 * 1.001 := by
      rw [norm_mul]; exact mul_le_mul hc hvn (norm_nonneg _) (by norm_num)
    have h2 : ‖(175685635125 : ℂ) * (cexp w - 1)‖ ≤ 175685635125 * (2 / 10 ^ 7) := by
      rw [norm_mul]
      exact mul_le_mul (by norm_num) hv1 (norm_nonneg _) (by norm_num)
    calc _ ≤ ‖(padeLoop devPadeC w - 175685635125) * cexp w + 175685635125 * (cexp w - 1)‖ +
          ‖padeLoop devPadeD w - 175685635125‖ := norm_sub_le _ _
      _ ≤ (‖(padeLoop devPadeC w - 175685635125) * cexp w‖ + ‖(175685635125 : ℂ) * (cexp w - 1)‖) +
          10600 := add_le_add (norm_add_le _ _) hd
      _ ≤ (4300 * 1.001 + 175685635125 * (2 / 10 ^ 7)) + 10600 := by linarith
      _ ≤ 3 / 10 ^ 7 * (1.756 * 10 ^ 11) := by norm_num
      _ ≤ 3 / 10 ^ 7 * ‖padeLoop devPadeD w‖ := by
          exact mul_le_mul_of_nonneg_left hdb (by norm_num)
  have hmk : Complex.mk 0.0 (2 / Real.sqrt Real.pi) = 2 / (Real.sqrt Real.pi : ℂ) * I := by
    rw [zero_lit]
    apply Complex.ext
    · rw [show (2 / (Real.sqrt Real.pi : ℂ)) = ((2 / Real.sqrt Real.pi : ℝ) : ℂ) by push_cast; rfl,
        Complex.re_ofReal_mul]
      simp
    · rw [show (2 / (Real.sqrt Real.pi : ℂ)) = ((2 / Real.sqrt Real.pi : ℝ) : ℂ) by push_cast; rfl,
        Complex.im_ofReal_mul]
      simp
  have hspl : padeValue z - W z = (1 / cexp w - (1 - w)) +
      2 / (Real.sqrt Real.pi : ℂ) * I * z * (padeLoop devPadeC w / padeLoop devPadeD w * cexp w - 1) -
      (W z - (1 - z ^ 2 + 2 / (Real.sqrt Real.pi : ℂ) * I * z)) := by
    rw [padeValue, hmk, ← hwd, hwd]
    ring
  have h3 : ‖2 / (Real.sqrt Real.pi : ℂ) * I * z * (padeLoop devPadeC w / padeLoop devPadeD w * cexp w - 1)‖ ≤
      1.2 * 0.000317 * (3 / 10 ^ 7) := by
    rw [norm_mul, norm_mul, norm_mul, norm_I, mul_one]
    have : ‖2 / (Real.sqrt Real.pi : ℂ)‖ ≤ 1.2 := by
      rw [norm_div, Complex.norm_of_nonneg sqrtpi_pos.le]
      simpa using inv_sqrtpi_lt
    exact mul_le_mul (mul_le_mul this hn hn0 (by norm_num)) hq (norm_nonneg _) (by norm_num)
  rw [hspl]
  calc _ ≤ ‖(1 / cexp w - (1 - w)) +
      2 / (Real.sqrt Real.pi : ℂ) * I * z * (padeLoop devPadeC w / padeLoop devPadeD w * cexp w - 1)‖ +
      ‖W z - (1 - z ^ 2 + 2 / (Real.sqrt Real.pi : ℂ) * I * z)‖ := norm_sub_le _ _
    _ ≤ (1 / 10 ^ 14 + 1.2 * 0.000317 * (3 / 10 ^ 7)) + 7.7 / 10 ^ 10 :=
      add_le_add ((norm_add_le _ _).trans (add_le_add hv2 h3)) (hW.trans hW2)
    _ ≤ 1 / 10 ^ 9 := by norm_num

/-! ### The code against the integral -/

theorem dev_close (z : ℂ) (hz : 0 < z.im) (hfar : |z.re| ≤ 6.4 ∨ 1 / 10 ^ 9 ≤ z.im) :
    ∃ w, devFaddeeva z = some w ∧ ‖w - W z‖ ≤ 1 / 10 ^ 9 := by
  by_cases hs : Complex.normSq z < 1e-7
  · exact ⟨_, dev_pade z hs, pade_close z hs⟩
  · by_cases hc : Close z
    · refine ⟨_, dev_trap2 z hz hs hc, ?_⟩
      refine trapValue_close z hz (53 / 100) (by norm_num) (le_refl _) (Or.inr ?_) _ tab2 (near2 z hc) hfar
      have h1 := hc.1.1
      have h2 := le_abs_self z.im
      norm_num at h1
      linarith
    · exact ⟨_, dev_trap1 z hz hs hc, trapValue_close z hz (1 / 2) (le_refl _) (by norm_num) (Or.inl rfl) _ tab1
        (near1 z hz hc) hfar⟩

theorem dev_defined (z : ℂ) (hz : 0 < z.im) : ∃ w, devFaddeeva z = some w := by
  by_cases hs : Complex.normSq z < 1e-7
  · exact ⟨_, dev_pade z hs⟩
  · by_cases hc : Close z
    · exact ⟨_, dev_trap2 z hz hs hc⟩
    · exact ⟨_, dev_trap1 z hz hs hc⟩

theorem host_eq (z : ℂ) : hostFaddeeva z = devFaddeeva z := rfl

end GooFit.Faddeeva
