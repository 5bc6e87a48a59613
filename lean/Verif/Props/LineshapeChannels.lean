import Verif.Lemmas.Lineshape4

/-!
# C73, C74: line shapes with several channels: Flatté, Bugg, FOCUS
-/

set_option autoImplicit false

namespace GooFit

open Spec

/-! ## C73 -/

theorem cpow_half_nonneg (x : ℝ) (hx : 0 ≤ x) : (x : ℂ) ^ (1 / 2 : ℂ) = ((√x : ℝ) : ℂ) := by
  rw [Real.sqrt_eq_rpow, Complex.ofReal_cpow hx]; norm_num

theorem cpow_half_nonpos (x : ℝ) (hx : x ≤ 0) : (x : ℂ) ^ (1 / 2 : ℂ) = Complex.I * ((√(-x) : ℝ) : ℂ) := by
  rw [Complex.ofReal_cpow_of_nonpos hx, ← Complex.ofReal_neg, cpow_half_nonneg _ (by linarith),
    show (Real.pi : ℂ) * Complex.I * (1 / 2) = Real.pi / 2 * Complex.I by ring, Complex.exp_pi_div_two_mul_I]
  ring

theorem aSqrtTerm_eq (m0 m : ℝ) : aSqrtTerm m0 m = rhoEqual ((2 * m0) ^ 2) (m ^ 2) := by
  unfold aSqrtTerm rhoEqual
  dsimp only
  have e : 1 - 2 * m0 / m * (2 * m0 / m) = 1 - (2 * m0) ^ 2 / m ^ 2 := by rw [← div_pow]; ring
  rw [e]
  split
  · rename_i h
    rw [cpow_half_nonneg _ (le_of_lt h)]
    rfl
  · rename_i h
    rw [cpow_half_nonpos _ (not_lt.1 h)]
    apply Complex.ext <;> simp

theorem buggRho2_eq (s m : ℝ) : buggRho2 s m = rhoEqual ((2 * m) ^ 2) s := by
  unfold buggRho2 rhoEqual
  dsimp only
  rw [show 1 - 4 * m * m / s = 1 - (2 * m) ^ 2 / s by ring]
  split
  · rename_i h
    rw [cpow_half_nonneg _ h, show (⟨1, 0⟩ : ℂ) = 1 from rfl, mul_one]
  · rename_i h
    rw [cpow_half_nonpos _ (not_le.1 h).le, show (⟨0, 1⟩ : ℂ) = Complex.I from rfl, mul_comm]

/-- **C73 (Flatté).**  The denominator is `m0² - s - i m0 (gπ ρππ + gK ρKK)`, with phase space averaged over the charges and
continued below each threshold. -/
theorem C73_flatte_partial (Mpair m1 m2 mass width : ℝ) (L : Nat) (FF : FormFactor) (radius : ℝ) (h1 : 0 ≤ m1) (h2 : 0 ≤ m2)
    (hM : m1 + m2 < Mpair) (hL : L ≤ 2) :
    let s := Mpair ^ 2
    let ρπ := 2 / 3 * rhoEqual ((2 * 0.139570) ^ 2) s + 1 / 3 * rhoEqual ((2 * 0.1349766) ^ 2) s
    let ρK := 1 / 2 * rhoEqual ((2 * 0.493677) ^ 2) s + 1 / 2 * rhoEqual ((2 * 0.497648) ^ 2) s
    lsFlatte Mpair m1 m2 mass width L FF radius = (√(barrierPlainSq L ((breakup Mpair m1 m2 * radius) ^ 2)) : ℂ)
      / (((mass ^ 2 - s : ℝ) : ℂ) - Complex.I * mass * ((0.165 : ℝ) * ρπ + (0.165 * 4.21 : ℝ) * ρK)) := by
  intro s ρπ ρK
  obtain ⟨e1, p1⟩ := breakupSq_eq Mpair m1 m2 h1 h2 hM
  have hff : ∀ z : ℝ, ffBL2 z L = barrierPlainSq L z := by
    intro z
    rcases L with _ | _ | _ | L
    · rfl
    · rfl
    · show 1 / (z * z + 3 * z + 9) = 1 / _
      congr 1
      ring
    · omega
  unfold lsFlatte
  dsimp only
  rw [aSqrtTerm_eq, aSqrtTerm_eq, aSqrtTerm_eq, aSqrtTerm_eq, e1, hff, mul_assoc, ← pow_two radius, ← mul_pow]
  have e2 : (⟨mass * mass - Mpair * Mpair, 0⟩ : ℂ) = ((mass ^ 2 - s : ℝ) : ℂ) := by
    apply Complex.ext
    · show mass * mass - Mpair * Mpair = mass ^ 2 - Mpair ^ 2
      ring
    · rfl
  rw [e2, show (⟨0, 1⟩ : ℂ) = Complex.I from rfl]
  congr 2
  simp only [ρπ, ρK, s]
  ring

/-- **C73 (violation).**  The width and the form factor given to a Flatté line shape have no effect, and neither have the
mass and the width given to a Bugg line shape. -/
theorem C73_violation_ignored (Mpair m1 m2 mass mass' width width' : ℝ) (L : Nat) (FF FF' : FormFactor) (radius : ℝ) :
    lsFlatte Mpair m1 m2 mass width L FF radius = lsFlatte Mpair m1 m2 mass width' L FF' radius
    ∧ lsBugg Mpair mass width = lsBugg Mpair mass' width' ∧ lsBugg3 Mpair mass width = lsBugg3 Mpair mass' width' :=
  ⟨rfl, rfl, rfl⟩

theorem buggRho2_re (s m : ℝ) (hs : 0 < s) (h : (2 * m) ^ 2 ≤ s) : (buggRho2 s m).re = √(1 - (2 * m) ^ 2 / s) := by
  have h0 : 0 ≤ 1 - (2 * m) ^ 2 / s := by rw [sub_nonneg, div_le_one hs]; exact h
  rw [buggRho2_eq]
  unfold rhoEqual
  rw [cpow_half_nonneg _ h0, Complex.ofReal_re]

theorem buggJ1_eq (s m : ℝ) (hs : 0 < s) (h : (2 * m) ^ 2 ≤ s) : buggJ1 s m = buggLoop s m := by
  unfold buggJ1 buggLoop
  dsimp only
  rw [buggRho2_re s m hs h]
  split
  · ring
  · rename_i hn
    have : √(1 - (2 * m) ^ 2 / s) = 0 := le_antisymm (not_lt.1 hn) (Real.sqrt_nonneg _)
    rw [this]
    ring

theorem rhoEqual_real (s m : ℝ) (hs : 0 < s) (h : (2 * m) ^ 2 ≤ s) :
    rhoEqual ((2 * m) ^ 2) s = ((√(1 - (2 * m) ^ 2 / s) : ℝ) : ℂ) := by
  have h0 : 0 ≤ 1 - (2 * m) ^ 2 / s := by rw [sub_nonneg, div_le_one hs]; exact h
  unfold rhoEqual
  rw [cpow_half_nonneg _ h0]

theorem rhoEqual_re_nonneg (t s : ℝ) : 0 ≤ (rhoEqual t s).re := by
  unfold rhoEqual
  rcases le_total 0 (1 - t / s) with h | h
  · rw [cpow_half_nonneg _ h, Complex.ofReal_re]; exact Real.sqrt_nonneg _
  · rw [cpow_half_nonpos _ h]; simp

theorem buggGamma_eq (s g : ℝ) : buggGamma4pi s lsMPiPlus g 0.953 2.845 (7.082 / 2.845)
    = if s < (4 * lsMPiPlus) ^ 2 then 0 else g * bugg4π s / bugg4π (0.953 ^ 2) := by
  unfold buggGamma4pi bugg4π
  have e : ∀ x : ℝ, (2.845 : ℝ) * (7.082 / 2.845 - x) = 7.082 - 2.845 * x := by intro x; ring
  rw [e, e, show 16 * lsMPiPlus * lsMPiPlus = (4 * lsMPiPlus) ^ 2 by ring, show (0.953 : ℝ) * 0.953 = 0.953 ^ 2 by ring]

theorem pion_below_M : (2 * lsMPiPlus) ^ 2 ≤ (0.953 : ℝ) ^ 2 := by unfold lsMPiPlus; norm_num

/-- **C73 (Bugg).**  Above the two-pion threshold the line shape is `√1000 / D`, with the denominator of Bugg's
parametrisation. -/
theorem C73_bugg (Mpair mass width : ℝ) (hM : 0 < Mpair) (h : (2 * lsMPiPlus) ^ 2 ≤ Mpair ^ 2) :
    lsBugg Mpair mass width = (√1000 : ℂ) / buggDenominator lsMPiPlus lsMKPlus lsMEta (0.953 * 0.011) (Mpair ^ 2) := by
  have hs : 0 < Mpair ^ 2 := by positivity
  unfold lsBugg
  dsimp only
  rw [← pow_two Mpair, show (0.953 : ℝ) * 0.953 = 0.953 ^ 2 by ring, buggRho2_re _ _ hs h, buggJ1_eq _ _ hs h,
    buggJ1_eq _ _ (by norm_num) pion_below_M, buggGamma_eq, buggRho2_eq, buggRho2_eq, div_mul_eq_mul_div, one_mul]
  congr 1
  unfold buggDenominator
  dsimp only
  rw [rhoEqual_real _ _ hs h]
  generalize Mpair ^ 2 = s at *
  have e1 : √((s - 4 * lsMKPlus * lsMKPlus) * (s - 4 * lsMKPlus * lsMKPlus)) = |s - (2 * lsMKPlus) ^ 2| := by
    rw [Real.sqrt_mul_self_eq_abs]; congr 1; ring
  have e2 : √((s - 4 * lsMEta * lsMEta) * (s - 4 * lsMEta * lsMEta)) = |s - (2 * lsMEta) ^ 2| := by
    rw [Real.sqrt_mul_self_eq_abs]; congr 1; ring
  rw [e1, e2]
  have mk0 : ∀ x : ℝ, (⟨x, 0⟩ : ℂ) = (x : ℂ) := fun _ => rfl
  rw [mk0, mk0, mk0, show (⟨0, 1⟩ : ℂ) = Complex.I from rfl]
  have hif : ((if s < (4 * lsMPiPlus) ^ 2 then 0 else (0.953 * 0.011) * bugg4π s / bugg4π (0.953 ^ 2) : ℝ) : ℂ)
      = (0.953 : ℝ) * ((if s < (4 * lsMPiPlus) ^ 2 then 0 else 0.011 * bugg4π s / bugg4π (0.953 ^ 2) : ℝ) : ℂ) := by
    rw [← Complex.ofReal_mul]
    congr 1
    split
    · simp
    · ring
  rw [hif]
  generalize ((if s < (4 * lsMPiPlus) ^ 2 then 0 else 0.011 * bugg4π s / bugg4π (0.953 ^ 2) : ℝ) : ℂ) = g4
  generalize rhoEqual ((2 * lsMKPlus) ^ 2) s = rK
  generalize rhoEqual ((2 * lsMEta) ^ 2) s = rE
  generalize √(1 - (2 * lsMPiPlus) ^ 2 / s) = rP
  generalize Real.exp (-(s - 0.953 ^ 2) / 2.426) = ex
  have e3 : (-1 * 1.3 : ℝ) = -1.3 := by norm_num
  rw [e3]
  generalize Real.exp (-1.3 * |s - (2 * lsMKPlus) ^ 2|) = exK
  generalize Real.exp (-1.3 * |s - (2 * lsMEta) ^ 2|) = exE
  generalize buggLoop s lsMPiPlus - buggLoop (0.953 ^ 2) lsMPiPlus = z
  generalize hM : (0.953 : ℝ) = M
  generalize (1.302 : ℝ) = b1
  generalize (0.340 : ℝ) = b2
  generalize (0.41 : ℝ) = sA
  generalize (0.6 : ℝ) = gK
  generalize (0.2 : ℝ) = gE
  push_cast
  ring

/-- **C73 (Bugg3).**  The same without the factor `√1000`, and with a four-pion width that lacks the factor of the mass. -/
theorem C73_bugg3_partial (Mpair mass width : ℝ) (hM : 0 < Mpair) (h : (2 * lsMPiPlus) ^ 2 ≤ Mpair ^ 2) :
    lsBugg3 Mpair mass width = 1 / buggDenominator lsMPiPlus lsMKPlus lsMEta 0.011 (Mpair ^ 2) := by
  have hs : 0 < Mpair ^ 2 := by positivity
  unfold lsBugg3
  dsimp only
  rw [← pow_two Mpair, show (0.953 : ℝ) * 0.953 = 0.953 ^ 2 by ring, buggRho2_re _ _ hs h, buggJ1_eq _ _ hs h,
    buggJ1_eq _ _ (by norm_num) pion_below_M, buggGamma_eq, buggRho2_eq, buggRho2_eq]
  congr 1
  unfold buggDenominator
  dsimp only
  rw [rhoEqual_real _ _ hs h]
  generalize Mpair ^ 2 = s at *
  have e0 : ∀ t : ℝ, (if s > t then s - t else t - s) = |s - t| := by
    intro t
    split
    · rename_i h; rw [abs_of_pos (by linarith)]
    · rename_i h; rw [abs_of_nonpos (by linarith)]; ring
  rw [e0, e0, show 4 * lsMKPlus * lsMKPlus = (2 * lsMKPlus) ^ 2 by ring, show 4 * lsMEta * lsMEta = (2 * lsMEta) ^ 2 by ring]
  have mk0 : ∀ x : ℝ, (⟨x, 0⟩ : ℂ) = (x : ℂ) := fun _ => rfl
  rw [mk0, mk0, mk0, show (⟨0, 1⟩ : ℂ) = Complex.I from rfl]
  generalize ((if s < (4 * lsMPiPlus) ^ 2 then 0 else 0.011 * bugg4π s / bugg4π (0.953 ^ 2) : ℝ) : ℂ) = g4
  generalize rhoEqual ((2 * lsMKPlus) ^ 2) s = rK
  generalize rhoEqual ((2 * lsMEta) ^ 2) s = rE
  generalize √(1 - (2 * lsMPiPlus) ^ 2 / s) = rP
  generalize Real.exp (-(s - 0.953 ^ 2) / 2.426) = ex
  have e3 : (-1 * 1.3 : ℝ) = -1.3 := by norm_num
  rw [e3]
  generalize Real.exp (-1.3 * |s - (2 * lsMKPlus) ^ 2|) = exK
  generalize Real.exp (-1.3 * |s - (2 * lsMEta) ^ 2|) = exE
  generalize buggLoop s lsMPiPlus - buggLoop (0.953 ^ 2) lsMPiPlus = z
  generalize hM : (0.953 : ℝ) = M
  generalize (1.302 : ℝ) = b1
  generalize (0.340 : ℝ) = b2
  generalize (0.41 : ℝ) = sA
  generalize (0.6 : ℝ) = gK
  generalize (0.2 : ℝ) = gE
  push_cast
  ring

theorem bugg4π_pos (s : ℝ) : 0 < bugg4π s := by
  unfold bugg4π
  have := Real.exp_pos (7.082 - 2.845 * s)
  positivity

/-- The imaginary part of the denominator is negative above the two-pion threshold. -/
theorem buggDenominator_im (g4 s : ℝ) (hg : 0 ≤ g4) (h : (2 * lsMPiPlus) ^ 2 < s) :
    (buggDenominator lsMPiPlus lsMKPlus lsMEta g4 s).im < 0 := by
  have hs : 0 < s := lt_of_le_of_lt (sq_nonneg _) h
  have hadler : 0 < (s - 0.41 * lsMPiPlus ^ 2) / (0.953 ^ 2 - 0.41 * lsMPiPlus ^ 2) := by
    refine div_pos ?_ ?_
    · nlinarith [sq_nonneg lsMPiPlus]
    · unfold lsMPiPlus; norm_num
  have hrho : 0 < √(1 - (2 * lsMPiPlus) ^ 2 / s) := by
    refine Real.sqrt_pos.2 ?_
    rw [sub_pos, div_lt_one hs]
    exact h
  have h4 : 0 ≤ (if s < (4 * lsMPiPlus) ^ 2 then 0 else g4 * bugg4π s / bugg4π (0.953 ^ 2)) := by
    split
    · exact le_refl _
    · have := bugg4π_pos s; have := bugg4π_pos (0.953 ^ 2); positivity
  unfold buggDenominator
  dsimp only
  rw [rhoEqual_real _ _ hs h.le]
  have hK := rhoEqual_re_nonneg ((2 * lsMKPlus) ^ 2) s
  have hE := rhoEqual_re_nonneg ((2 * lsMEta) ^ 2) s
  have hex := Real.exp_pos (-(s - 0.953 ^ 2) / 2.426)
  have hexK := Real.exp_pos (-1.3 * |s - (2 * lsMKPlus) ^ 2|)
  have hexE := Real.exp_pos (-1.3 * |s - (2 * lsMEta) ^ 2|)
  generalize (if s < (4 * lsMPiPlus) ^ 2 then 0 else g4 * bugg4π s / bugg4π (0.953 ^ 2)) = g at *
  generalize rhoEqual ((2 * lsMKPlus) ^ 2) s = rK at *
  generalize rhoEqual ((2 * lsMEta) ^ 2) s = rE at *
  generalize Real.exp (-1.3 * |s - (2 * lsMKPlus) ^ 2|) = exK at *
  generalize Real.exp (-1.3 * |s - (2 * lsMEta) ^ 2|) = exE at *
  generalize (s - 0.41 * lsMPiPlus ^ 2) / (0.953 ^ 2 - 0.41 * lsMPiPlus ^ 2) = ad at *
  generalize √(1 - (2 * lsMPiPlus) ^ 2 / s) = rP at *
  have hg1 : 0 < (0.953 : ℝ) * (1.302 + 0.340 * s) * Real.exp (-(s - 0.953 ^ 2) / 2.426) := by positivity
  generalize (0.953 : ℝ) * (1.302 + 0.340 * s) * Real.exp (-(s - 0.953 ^ 2) / 2.426) = g1 at *
  have t1 : 0 < g1 * ad * rP := by positivity
  have t2 : 0 ≤ 0.6 * g1 * (s / 0.953 ^ 2) * exK * rK.re := by positivity
  have t3 : 0 ≤ 0.2 * g1 * (s / 0.953 ^ 2) * exE * rE.re := by positivity
  rw [Complex.sub_im, Complex.ofReal_im, Complex.I_mul_im, Complex.add_re, Complex.add_re, Complex.add_re, Complex.re_ofReal_mul,
    Complex.re_ofReal_mul, Complex.re_ofReal_mul, Complex.ofReal_re, Complex.ofReal_re]
  linarith

theorem inv_im_pos (D : ℂ) (h : D.im < 0) : 0 < (1 / D).im := by
  rw [one_div, Complex.inv_im]
  refine div_pos (by linarith) ?_
  rw [Complex.normSq_pos]
  intro h0
  rw [h0] at h
  simp at h

/-- **C73 (sign).**  Above the two-pion threshold both line shapes have positive imaginary part: the open channels take
probability away. -/
theorem C73_bugg_positive (Mpair mass width : ℝ) (hM : 0 < Mpair) (h : (2 * lsMPiPlus) ^ 2 < Mpair ^ 2) :
    0 < (lsBugg Mpair mass width).im ∧ 0 < (lsBugg3 Mpair mass width).im := by
  rw [C73_bugg Mpair mass width hM h.le, C73_bugg3_partial Mpair mass width hM h.le]
  refine ⟨?_, inv_im_pos _ (buggDenominator_im _ _ (by norm_num) h)⟩
  rw [div_eq_mul_one_div, Complex.im_ofReal_mul]
  exact mul_pos (Real.sqrt_pos.2 (by norm_num)) (inv_im_pos _ (buggDenominator_im _ _ (by norm_num) h))

/-- **C73 (Bugg and Bugg3).**  Below the four-pion threshold the two line shapes are proportional. -/
theorem C73_bugg_same (Mpair mass width : ℝ) (hM : 0 < Mpair) (h : (2 * lsMPiPlus) ^ 2 ≤ Mpair ^ 2)
    (h4 : Mpair ^ 2 < (4 * lsMPiPlus) ^ 2) : lsBugg Mpair mass width = (√1000 : ℂ) * lsBugg3 Mpair mass width := by
  rw [C73_bugg Mpair mass width hM h, C73_bugg3_partial Mpair mass width hM h, mul_one_div]
  congr 1
  unfold buggDenominator
  dsimp only
  rw [if_pos h4, if_pos h4]

/-- **C73 (violation).**  Above it they are not: the four-pion widths differ. -/
theorem C73_violation_bugg (Mpair mass width : ℝ) (hM : 0 < Mpair) (h4 : (4 * lsMPiPlus) ^ 2 ≤ Mpair ^ 2) :
    lsBugg Mpair mass width ≠ (√1000 : ℂ) * lsBugg3 Mpair mass width := by
  have h : (2 * lsMPiPlus) ^ 2 ≤ Mpair ^ 2 := le_trans (by unfold lsMPiPlus; norm_num) h4
  rw [C73_bugg Mpair mass width hM h, C73_bugg3_partial Mpair mass width hM h, div_eq_mul_one_div]
  intro he
  have h1000 : ((√1000 : ℝ) : ℂ) ≠ 0 := by
    exact_mod_cast (Real.sqrt_pos.2 (by norm_num : (0 : ℝ) < 1000)).ne'
  have he := mul_left_cancel₀ h1000 he
  rw [one_div, one_div, inv_inj] at he
  have him := congrArg Complex.im he
  unfold buggDenominator at him
  dsimp only at him
  rw [if_neg (not_lt.2 h4), if_neg (not_lt.2 h4), Complex.sub_im, Complex.sub_im, Complex.I_mul_im, Complex.I_mul_im,
    Complex.add_re, Complex.add_re (_ + _ : ℂ) ((_ : ℝ) : ℂ), Complex.ofReal_re, Complex.ofReal_re] at him
  have h1 := bugg4π_pos (Mpair ^ 2)
  have h2 := bugg4π_pos (0.953 ^ 2)
  have h3 : 0 < bugg4π (Mpair ^ 2) / bugg4π (0.953 ^ 2) := div_pos h1 h2
  have h5 : ∀ g : ℝ, g * bugg4π (Mpair ^ 2) / bugg4π (0.953 ^ 2) = g * (bugg4π (Mpair ^ 2) / bugg4π (0.953 ^ 2)) := fun g => mul_div_assoc _ _ _
  rw [h5, h5] at him
  generalize bugg4π (Mpair ^ 2) / bugg4π (0.953 ^ 2) = r at h3 him
  linarith

example : (0 : ℝ) < 0.5 ∧ (2 * lsMPiPlus) ^ 2 < 0.5 ^ 2 ∧ (0.5 : ℝ) ^ 2 < (4 * lsMPiPlus) ^ 2 ∧ (4 * lsMPiPlus) ^ 2 ≤ (0.6 : ℝ) ^ 2 := by
  unfold lsMPiPlus
  norm_num

/-! ## C74 -/

theorem phspFocus_eq (s ma mb : ℝ) : phspFocus s ma mb = rhoMasses s ma mb := by
  unfold phspFocus rhoMasses
  dsimp only
  rw [pow_two, pow_two]

/-- Above threshold the phase space is positive. -/
theorem rhoMasses_above (s ma mb : ℝ) (ha : 0 < ma) (hb : 0 < mb) (h : (ma + mb) ^ 2 < s) :
    ∃ r : ℝ, 0 < r ∧ rhoMasses s ma mb = (r : ℂ) := by
  have hs : 0 < s := lt_of_le_of_lt (sq_nonneg _) h
  have e1 : 0 < 1 - (ma + mb) ^ 2 / s := by rw [sub_pos, div_lt_one hs]; exact h
  have e2 : 0 < 1 - (ma - mb) ^ 2 / s := by
    rw [sub_pos, div_lt_one hs]; nlinarith [mul_pos ha hb]
  unfold rhoMasses
  rw [cpow_half_nonneg _ (mul_pos e1 e2).le]
  exact ⟨_, Real.sqrt_pos.2 (mul_pos e1 e2), rfl⟩

/-- Below threshold it is imaginary. -/
theorem rhoMasses_below (s ma mb : ℝ) (h1 : (ma - mb) ^ 2 < s) (h : s < (ma + mb) ^ 2) :
    ∃ r : ℝ, 0 < r ∧ rhoMasses s ma mb = Complex.I * (r : ℂ) := by
  have hs : 0 < s := lt_of_le_of_lt (sq_nonneg _) h1
  have e1 : 1 - (ma + mb) ^ 2 / s < 0 := by rw [sub_neg, one_lt_div hs]; exact h
  have e2 : 0 < 1 - (ma - mb) ^ 2 / s := by rw [sub_pos, div_lt_one hs]; exact h1
  have e3 := mul_neg_of_neg_of_pos e1 e2
  unfold rhoMasses
  rw [cpow_half_nonpos _ e3.le]
  exact ⟨_, Real.sqrt_pos.2 (by linarith), rfl⟩

/-- The determinant of `1 - i K ρ` in two channels. -/
noncomputable def detIKρ (K11 K12 K22 : ℝ) (ρ1 ρ2 : ℂ) : ℂ :=
  (1 - Complex.I * K11 * ρ1) * (1 - Complex.I * K22 * ρ2) - (Complex.I * K12 * ρ2) * (Complex.I * K12 * ρ1)

/-- **C74 (K matrix).**  The two isospin 1/2 line shapes are the elements of `T = (1 - i K ρ)⁻¹ K` for the channels K pi and
K eta', whenever `1 - i K ρ` can be inverted: `T = K + i K ρ T`. -/
theorem C74_kmatrix (Mpair : ℝ) :
    let s := Mpair ^ 2
    let ρ1 := rhoMasses s lsMKPlus lsMPiPlus
    let ρ2 := rhoMasses s lsMKPlus lsMEtap
    let K11 := (focusK s).1
    let K12 := (focusK s).2.1
    let K22 := (focusK s).2.2
    let T11 := lsFOCUS Mpair .Kpi
    let T21 := lsFOCUS Mpair .KEta
    detIKρ K11 K12 K22 ρ1 ρ2 ≠ 0 →
    T11 = K11 + Complex.I * (K11 * ρ1 * T11 + K12 * ρ2 * T21) ∧ T21 = K12 + Complex.I * (K12 * ρ1 * T11 + K22 * ρ2 * T21) := by
  intro s ρ1 ρ2 K11 K12 K22 T11 T21 hdet
  have hdel : (1 : ℂ) - ρ1 * ρ2 * ((K11 * K22 - K12 * K12 : ℝ) : ℂ) - Complex.I * (ρ1 * (K11 : ℂ) + ρ2 * (K22 : ℂ))
      = detIKρ K11 K12 K22 ρ1 ρ2 := by
    unfold detIKρ
    push_cast
    linear_combination (-ρ1 * ρ2 * (K11 * K22 - K12 * K12)) * Complex.I_mul_I
  have h1 : T11 = ((K11 : ℂ) - Complex.I * ρ2 * ((K11 * K22 - K12 * K12 : ℝ) : ℂ)) / detIKρ K11 K12 K22 ρ1 ρ2 := by
    rw [← hdel]
    show lsFOCUS Mpair .Kpi = _
    unfold lsFOCUS
    dsimp only
    rw [phspFocus_eq, phspFocus_eq, ← pow_two]
  have h2 : T21 = (K12 : ℂ) / detIKρ K11 K12 K22 ρ1 ρ2 := by
    rw [← hdel]
    show lsFOCUS Mpair .KEta = _
    unfold lsFOCUS
    dsimp only
    rw [phspFocus_eq, phspFocus_eq, ← pow_two]
  generalize T11 = t1 at h1 ⊢
  generalize T21 = t2 at h2 ⊢
  subst h1 h2
  constructor
  · field_simp
    unfold detIKρ
    push_cast
    ring
  · field_simp
    unfold detIKρ
    push_cast
    ring

/-- **C74 (Adler zeros).**  The isospin 3/2 element vanishes at 0.27 and is elsewhere the factor linear in the squared
mass times a parabola with the published coefficients. -/
theorem C74_adler : focusK32 0.27 = 0 ∧ ∀ s : ℝ,
    let n := lsMKPlus ^ 2 + lsMPiPlus ^ 2
    focusK32 s = (s - 0.27) / n * (-0.22147 + 0.026637 * (s / n - 1) - 0.00092057 * (s / n - 1) ^ 2) := by
  constructor
  · simp [focusK32]
  · intro s n
    unfold focusK32 focusSNorm
    rw [← pow_two lsMKPlus, ← pow_two lsMPiPlus]
    show (s - 0.27) / n * (-0.22147 + 0.026637 * (s / n - 1) - 0.00092057 * ((s / n - 1) * (s / n - 1))) = _
    rw [← pow_two]

/-- **C74 (pole).**  The isospin 1/2 K matrix has one pole, with factorising residues: two couplings give all three elements,
up to a polynomial background, and all elements have the Adler zero at 0.23. -/
theorem C74_pole : ∃ g1 g2 m2 : ℝ, g1 ≠ 0 ∧ g2 ≠ 0 ∧ ∃ c : Fin 3 → Fin 3 → ℝ, ∀ s : ℝ,
    let X := s / (lsMKPlus ^ 2 + lsMPiPlus ^ 2) - 1
    let adler := (s - 0.23) / (lsMKPlus ^ 2 + lsMPiPlus ^ 2)
    let bg := fun e : Fin 3 => c e 0 + c e 1 * X + c e 2 * X ^ 2
    focusK s = (adler * (g1 * g1 / (m2 - s) + bg 0), adler * (g1 * g2 / (m2 - s) + bg 1), adler * (g2 * g2 / (m2 - s) + bg 2)) := by
  refine ⟨0.31072, -0.02323, 1.7919, by norm_num, by norm_num,
    ![![0.79299, -0.15099, 0.00811], ![0.15040, -0.038266, 0.0022596], ![0.17054, -0.0219, 0.00085655]], fun s => ?_⟩
  intro X adler bg
  unfold focusK focusSNorm
  rw [← pow_two lsMKPlus, ← pow_two lsMPiPlus]
  refine Prod.ext ?_ (Prod.ext ?_ ?_)
  · show adler * (_ / _ + 0.79299 - 0.15099 * X + 0.00811 * (X * X)) = adler * (_ / _ + (0.79299 + -0.15099 * X + 0.00811 * X ^ 2))
    ring
  · show adler * (_ / _ + 0.15040 - 0.038266 * X + 0.0022596 * (X * X)) = adler * (_ / _ + (0.15040 + -0.038266 * X + 0.0022596 * X ^ 2))
    ring
  · show adler * (_ / _ + 0.17054 - 0.0219 * X + 0.00085655 * (X * X)) = adler * (_ / _ + (0.17054 + -0.0219 * X + 0.00085655 * X ^ 2))
    ring

/-- Unitarity from the equation `T = K + i K ρ T` with real symmetric `K`. -/
theorem kmatrix_unitarity (K11 K12 K22 : ℝ) (ρ1 ρ2 t1 t2 : ℂ)
    (h1 : t1 = K11 + Complex.I * (K11 * ρ1 * t1 + K12 * ρ2 * t2)) (h2 : t2 = K12 + Complex.I * (K12 * ρ1 * t1 + K22 * ρ2 * t2)) :
    t1.im = ρ1.re * Complex.normSq t1 + ρ2.re * Complex.normSq t2 := by
  obtain ⟨a1, b1⟩ := t1
  obtain ⟨a2, b2⟩ := t2
  obtain ⟨x1, y1⟩ := ρ1
  obtain ⟨x2, y2⟩ := ρ2
  have r1 := congrArg Complex.re h1
  have i1 := congrArg Complex.im h1
  have r2 := congrArg Complex.re h2
  have i2 := congrArg Complex.im h2
  simp at r1 i1 r2 i2
  rw [Complex.normSq_apply, Complex.normSq_apply]
  dsimp only
  -- `u = e₁ + i ρ t`
  have hu : ∀ u1r u1i u2r u2i : ℝ, u1r = 1 - (x1 * b1 + y1 * a1) → u1i = x1 * a1 - y1 * b1 → u2r = -(x2 * b2 + y2 * a2) →
      u2i = x2 * a2 - y2 * b2 → a1 = K11 * u1r + K12 * u2r → b1 = K11 * u1i + K12 * u2i → a2 = K12 * u1r + K22 * u2r →
      b2 = K12 * u1i + K22 * u2i → u1r * b1 - u1i * a1 + (u2r * b2 - u2i * a2) = 0 := by
    intro u1r u1i u2r u2i _ _ _ _ e1 e2 e3 e4
    rw [e1, e2, e3, e4]
    ring
  have h := hu _ _ _ _ rfl rfl rfl rfl (by linear_combination r1) (by linear_combination i1) (by linear_combination r2)
    (by linear_combination i2)
  linear_combination h

/-- **C74 (unitarity).**  The imaginary part of the K pi amplitude is what goes to the open channels. -/
theorem C74_unitarity (Mpair : ℝ) :
    let s := Mpair ^ 2
    let ρ1 := rhoMasses s lsMKPlus lsMPiPlus
    let ρ2 := rhoMasses s lsMKPlus lsMEtap
    detIKρ (focusK s).1 (focusK s).2.1 (focusK s).2.2 ρ1 ρ2 ≠ 0 →
    (lsFOCUS Mpair .Kpi).im
      = ρ1.re * Complex.normSq (lsFOCUS Mpair .Kpi) + ρ2.re * Complex.normSq (lsFOCUS Mpair .KEta) := by
  intro s ρ1 ρ2 hdet
  obtain ⟨h1, h2⟩ := C74_kmatrix Mpair hdet
  exact kmatrix_unitarity _ _ _ _ _ _ _ h1 h2

/-- **C74 (invertible).**  Above both thresholds the matrix can be inverted. -/
theorem C74_invertible (Mpair : ℝ) (h : (lsMKPlus + lsMEtap) ^ 2 < Mpair ^ 2) :
    detIKρ (focusK (Mpair ^ 2)).1 (focusK (Mpair ^ 2)).2.1 (focusK (Mpair ^ 2)).2.2 (rhoMasses (Mpair ^ 2) lsMKPlus lsMPiPlus)
      (rhoMasses (Mpair ^ 2) lsMKPlus lsMEtap) ≠ 0 := by
  have hK : 0 < lsMKPlus := by unfold lsMKPlus; norm_num
  have hP : 0 < lsMPiPlus := by unfold lsMPiPlus; norm_num
  have hE : 0 < lsMEtap := by unfold lsMEtap; norm_num
  obtain ⟨r1, p1, e1⟩ := rhoMasses_above (Mpair ^ 2) lsMKPlus lsMPiPlus hK hP
    (lt_trans (by unfold lsMKPlus lsMPiPlus lsMEtap; norm_num) h)
  obtain ⟨r2, p2, e2⟩ := rhoMasses_above (Mpair ^ 2) lsMKPlus lsMEtap hK hE h
  rw [e1, e2]
  generalize (focusK (Mpair ^ 2)).1 = K11
  generalize (focusK (Mpair ^ 2)).2.1 = K12
  generalize (focusK (Mpair ^ 2)).2.2 = K22
  intro h0
  have hre := congrArg Complex.re h0
  have him := congrArg Complex.im h0
  unfold detIKρ at hre him
  simp at hre him
  have hx : K11 * r1 = -(K22 * r2) := by linarith
  have h3 : (K11 * r1) * (K22 * r2) ≤ 0 := by rw [hx]; nlinarith [mul_self_nonneg (K22 * r2)]
  nlinarith [mul_self_nonneg K12, mul_pos p1 p2, mul_nonneg (mul_self_nonneg K12) (mul_pos p1 p2).le]

/-- **C74 (invertible).**  Between the thresholds it can be inverted wherever the channels are coupled. -/
theorem C74_invertible_elastic (Mpair : ℝ) (h1 : (lsMKPlus + lsMPiPlus) ^ 2 < Mpair ^ 2) (h2 : Mpair ^ 2 < (lsMKPlus + lsMEtap) ^ 2)
    (hc : (focusK (Mpair ^ 2)).2.1 ≠ 0) :
    detIKρ (focusK (Mpair ^ 2)).1 (focusK (Mpair ^ 2)).2.1 (focusK (Mpair ^ 2)).2.2 (rhoMasses (Mpair ^ 2) lsMKPlus lsMPiPlus)
      (rhoMasses (Mpair ^ 2) lsMKPlus lsMEtap) ≠ 0 := by
  have hK : 0 < lsMKPlus := by unfold lsMKPlus; norm_num
  have hP : 0 < lsMPiPlus := by unfold lsMPiPlus; norm_num
  obtain ⟨r1, p1, e1⟩ := rhoMasses_above (Mpair ^ 2) lsMKPlus lsMPiPlus hK hP h1
  obtain ⟨r2, p2, e2⟩ := rhoMasses_below (Mpair ^ 2) lsMKPlus lsMEtap
    (lt_trans (by unfold lsMKPlus lsMPiPlus lsMEtap; norm_num) h1) h2
  rw [e1, e2]
  generalize (focusK (Mpair ^ 2)).1 = K11
  generalize (focusK (Mpair ^ 2)).2.1 = K12 at hc ⊢
  generalize (focusK (Mpair ^ 2)).2.2 = K22
  intro h0
  have hre := congrArg Complex.re h0
  have him := congrArg Complex.im h0
  unfold detIKρ at hre him
  simp at hre him
  have h5 : r1 * r2 * (K12 * K12) = 0 := by linear_combination him + K11 * r1 * hre
  rcases mul_eq_zero.1 h5 with h | h
  · exact absurd h (mul_pos p1 p2).ne'
  · exact hc (mul_self_eq_zero.1 h)

example : (focusK ((1 : ℝ) ^ 2)).2.1 ≠ 0 := by
  unfold focusK focusSNorm lsMKPlus lsMPiPlus
  norm_num

/-- **C74 (elastic).**  Between the thresholds the S matrix of K pi scattering is a pure phase. -/
theorem C74_elastic (Mpair : ℝ) (h1 : (lsMKPlus + lsMPiPlus) ^ 2 < Mpair ^ 2) (h2 : Mpair ^ 2 < (lsMKPlus + lsMEtap) ^ 2)
    (hdet : detIKρ (focusK (Mpair ^ 2)).1 (focusK (Mpair ^ 2)).2.1 (focusK (Mpair ^ 2)).2.2
      (rhoMasses (Mpair ^ 2) lsMKPlus lsMPiPlus) (rhoMasses (Mpair ^ 2) lsMKPlus lsMEtap) ≠ 0) :
    ‖1 + 2 * Complex.I * rhoMasses (Mpair ^ 2) lsMKPlus lsMPiPlus * lsFOCUS Mpair .Kpi‖ = 1 := by
  have hK : 0 < lsMKPlus := by unfold lsMKPlus; norm_num
  have hP : 0 < lsMPiPlus := by unfold lsMPiPlus; norm_num
  obtain ⟨r1, p1, e1⟩ := rhoMasses_above (Mpair ^ 2) lsMKPlus lsMPiPlus hK hP h1
  obtain ⟨r2, p2, e2⟩ := rhoMasses_below (Mpair ^ 2) lsMKPlus lsMEtap
    (lt_trans (by unfold lsMKPlus lsMPiPlus lsMEtap; norm_num) h1) h2
  have hu := C74_unitarity Mpair hdet
  rw [e1, e2, Complex.ofReal_re, Complex.I_mul_re, Complex.ofReal_im, neg_zero, zero_mul, add_zero, Complex.normSq_apply] at hu
  rw [e1, Complex.norm_def, Real.sqrt_eq_one, Complex.normSq_apply]
  generalize lsFOCUS Mpair .Kpi = t at hu ⊢
  obtain ⟨a, b⟩ := t
  simp at hu ⊢
  linear_combination (-4 * r1) * hu

/-- **C74 (violation).**  Between the thresholds the isospin 3/2 line shape is real, although elastic K pi scattering with
its own K matrix has a phase there (Watson's theorem): the code uses the phase space of K eta'. -/
theorem C74_violation_isospin (Mpair : ℝ) (h1 : (lsMKPlus + lsMPiPlus) ^ 2 < Mpair ^ 2)
    (h2 : Mpair ^ 2 < (lsMKPlus + lsMEtap) ^ 2) (hK32 : focusK32 (Mpair ^ 2) ≠ 0) :
    (lsFOCUS Mpair .I32).im = 0
    ∧ (1 / (1 - Complex.I * rhoMasses (Mpair ^ 2) lsMKPlus lsMPiPlus * (focusK32 (Mpair ^ 2) : ℂ))).im ≠ 0 := by
  have hK : 0 < lsMKPlus := by unfold lsMKPlus; norm_num
  have hP : 0 < lsMPiPlus := by unfold lsMPiPlus; norm_num
  obtain ⟨r1, p1, e1⟩ := rhoMasses_above (Mpair ^ 2) lsMKPlus lsMPiPlus hK hP h1
  obtain ⟨r2, p2, e2⟩ := rhoMasses_below (Mpair ^ 2) lsMKPlus lsMEtap
    (lt_trans (by unfold lsMKPlus lsMPiPlus lsMEtap; norm_num) h1) h2
  constructor
  · unfold lsFOCUS
    dsimp only
    rw [phspFocus_eq _ lsMKPlus lsMEtap, ← pow_two, e2]
    have e : (1 : ℂ) - Complex.I * (Complex.I * (r2 : ℂ)) * (focusK32 (Mpair ^ 2) : ℂ)
        = ((1 + r2 * focusK32 (Mpair ^ 2) : ℝ) : ℂ) := by
      push_cast
      linear_combination (-(r2 : ℂ) * (focusK32 (Mpair ^ 2) : ℂ)) * Complex.I_mul_I
    rw [e, ← Complex.ofReal_one, ← Complex.ofReal_div, Complex.ofReal_im]
  · rw [e1]
    have e : (1 : ℂ) - Complex.I * (r1 : ℂ) * (focusK32 (Mpair ^ 2) : ℂ) = ⟨1, -(r1 * focusK32 (Mpair ^ 2))⟩ := by
      apply Complex.ext <;> simp
    rw [e, cx_inv]
    dsimp only
    rw [neg_neg]
    refine div_ne_zero (mul_ne_zero p1.ne' hK32) ?_
    nlinarith [mul_self_nonneg (r1 * focusK32 (Mpair ^ 2))]

/-- The hypotheses at a mass of 1. -/
theorem focusK32_one : focusK32 ((1 : ℝ) ^ 2) ≠ 0 ∧ (lsMKPlus + lsMPiPlus) ^ 2 < (1 : ℝ) ^ 2 ∧ (1 : ℝ) ^ 2 < (lsMKPlus + lsMEtap) ^ 2 := by
  refine ⟨?_, ?_, ?_⟩
  · unfold focusK32 focusSNorm lsMKPlus lsMPiPlus
    norm_num
  · unfold lsMKPlus lsMPiPlus
    norm_num
  · unfold lsMKPlus lsMEtap
    norm_num

theorem etap_closed (s : ℝ) (h1 : (lsMKPlus + 0.95778) ^ 2 < s) (h2 : s < (lsMKPlus + lsMEtap) ^ 2) :
    (rhoMasses s lsMKPlus lsMEtap).re = 0 ∧ 0 < (rhoMasses s lsMKPlus 0.95778).re := by
  have hK : 0 < lsMKPlus := by unfold lsMKPlus; norm_num
  obtain ⟨r1, p1, e1⟩ := rhoMasses_above s lsMKPlus 0.95778 hK (by norm_num) h1
  obtain ⟨r2, p2, e2⟩ := rhoMasses_below s lsMKPlus lsMEtap (lt_trans (by unfold lsMKPlus lsMEtap; norm_num) h1) h2
  rw [e1, e2]
  simp [p1]

/-- **C74 (violation).**  The mass of the eta' is 0.95778; with the mass in the code the channel K eta' is still closed at
masses where it is open. -/
theorem C74_violation_etap : ∃ lo hi : ℝ, lo < hi ∧ hi - lo < 0.011 ∧ 0.0099 < hi - lo ∧ ∀ Mpair, lo < Mpair → Mpair < hi →
    (phspFocus (Mpair * Mpair) lsMKPlus lsMEtap).re = 0 ∧ 0 < (rhoMasses (Mpair ^ 2) lsMKPlus 0.95778).re := by
  refine ⟨lsMKPlus + 0.95778, lsMKPlus + lsMEtap, ?_, ?_, ?_, fun M h1 h2 => ?_⟩
  · unfold lsMEtap; norm_num
  · unfold lsMEtap; norm_num
  · unfold lsMEtap; norm_num
  · have hK : 0 < lsMKPlus := by unfold lsMKPlus; norm_num
    rw [phspFocus_eq, ← pow_two]
    exact etap_closed _ (by nlinarith) (by nlinarith)

end GooFit
