import Verif.Spec.Lineshape4
import Mathlib.MeasureTheory.Integral.IntegralEqImproper
import Mathlib.Analysis.SpecialFunctions.Trigonometric.ArctanDeriv
import Mathlib.Analysis.SpecialFunctions.Log.Deriv

/-!
# Lemmas for the line shapes
-/

set_option autoImplicit false

namespace GooFit

open Spec Filter Topology MeasureTheory

theorem cx_den (a b : ℝ) : ((a : ℝ) : ℂ) - Complex.I * ((b : ℝ) : ℂ) = ⟨a, -b⟩ := by
  apply Complex.ext <;> simp

theorem cx_smul (r a b : ℝ) : ((r : ℝ) : ℂ) * (⟨a, b⟩ : ℂ) = ⟨r * a, r * b⟩ := by
  apply Complex.ext <;> simp

theorem cx_inv (a b : ℝ) : 1 / (⟨a, b⟩ : ℂ) = ⟨a / (a * a + b * b), -b / (a * a + b * b)⟩ := by
  rw [one_div]
  apply Complex.ext
  · rw [Complex.inv_re, Complex.normSq_apply]
  · rw [Complex.inv_im, Complex.normSq_apply]

theorem breitWigner_mk (m s G : ℝ) : breitWigner m s G
    = ⟨(m ^ 2 - s) / ((m ^ 2 - s) * (m ^ 2 - s) + (m * G) * (m * G)), m * G / ((m ^ 2 - s) * (m ^ 2 - s) + (m * G) * (m * G))⟩ := by
  unfold breitWigner
  rw [cx_den, cx_inv, neg_neg, neg_mul_neg]

theorem lsPropagator_eq (k f m s G : ℝ) : lsPropagator k f m s G = (√(k * f) : ℂ) * breitWigner m s G := by
  rw [breitWigner_mk, cx_smul]
  unfold lsPropagator
  dsimp only
  rw [cx_smul]
  have e : (m * m - s) * (m * m - s) + m * G * m * G = (m ^ 2 - s) * (m ^ 2 - s) + (m * G) * (m * G) := by ring
  rw [e]
  apply Complex.ext
  · dsimp only; ring
  · dsimp only; ring

theorem breitWigner_normSq (m s G : ℝ) : Complex.normSq (breitWigner m s G) = 1 / ((m ^ 2 - s) ^ 2 + (m * G) ^ 2) := by
  unfold breitWigner
  rw [cx_den, map_div₀, map_one, Complex.normSq_apply]
  dsimp only
  congr 1
  ring

theorem breitWigner_im (m s G : ℝ) : (breitWigner m s G).im = m * G * Complex.normSq (breitWigner m s G) := by
  rw [breitWigner_normSq, breitWigner_mk]
  dsimp only
  rw [div_eq_mul_one_div]
  congr 2
  ring

theorem breakupSq_eq (m m1 m2 : ℝ) (h1 : 0 ≤ m1) (h2 : 0 ≤ m2) (h : m1 + m2 < m) :
    breakupSq (m * m) m1 m2 = breakup m m1 m2 ^ 2 ∧ 0 < breakup m m1 m2 := by
  have hm : 0 < m := by linarith
  have e1 : 0 < m ^ 2 - (m1 + m2) ^ 2 := by nlinarith
  have e2 : 0 < m ^ 2 - (m1 - m2) ^ 2 := by nlinarith
  have e3 := mul_pos e1 e2
  unfold breakupSq breakup
  constructor
  · rw [div_pow, Real.sq_sqrt e3.le]
    congr 1 <;> ring
  · exact div_pos (Real.sqrt_pos.2 e3) (by linarith)

theorem foldl_mul_range (x : ℝ) (n : Nat) : (List.range n).foldl (fun acc _ => acc * x) 1 = x ^ n := by
  induction n with
  | zero => rfl
  | succ n ih => rw [List.range_succ, List.foldl_append, ih, List.foldl_cons, List.foldl_nil, pow_succ]

theorem ffBLPrime_eq (z z0 : ℝ) (L : Nat) (hL : L ≤ 2) : ffBLPrime z z0 L = barrierNormSq L z0 z := by
  rcases L with _ | _ | _ | L
  · rfl
  · rfl
  · show (z0 * z0 + 3 * z0 + 9) / (z * z + 3 * z + 9) = ((z0 - 3) ^ 2 + 9 * z0) / ((z - 3) ^ 2 + 9 * z)
    congr 1 <;> ring
  · omega

theorem lsFormFactor_eq (FF : FormFactor) (L : Nat) (z z0 : ℝ) (hL : L ≤ 2) : lsFormFactor FF L z z0 = formFactorSq FF L z z0 := by
  unfold lsFormFactor
  rcases L with _ | _ | _ | L
  · cases FF <;> simp [formFactorSq, barrierSq, barrierNormSq, barrierPlainSq]
  · cases FF <;> simp [formFactorSq, barrierSq, barrierNormSq, barrierPlainSq, ffBL, ffBLPrime, ffBL2]
  · cases FF
    · simp [formFactorSq]
    · simp [formFactorSq, barrierSq, ffBL]
      congr 1 <;> ring
    · simp [formFactorSq, barrierNormSq, ffBLPrime]
      congr 1 <;> ring
    · simp [formFactorSq, barrierPlainSq, ffBL2]
      ring
  · omega

theorem lsGofM_eq (Mpair m1 m2 mass width : ℝ) (L : Nat) (radius : ℝ) (h1 : 0 ≤ m1) (h2 : 0 ≤ m2) (hM : m1 + m2 < Mpair)
    (h0 : m1 + m2 < mass) (hL : L ≤ 2) :
    lsGofM Mpair m1 m2 mass width L radius = runningWidth L mass width (Mpair ^ 2) (breakup Mpair m1 m2) (breakup mass m1 m2)
      (barrierNormSq L ((breakup mass m1 m2 * radius) ^ 2) ((breakup Mpair m1 m2 * radius) ^ 2)) := by
  obtain ⟨e1, p1⟩ := breakupSq_eq Mpair m1 m2 h1 h2 hM
  obtain ⟨e2, p2⟩ := breakupSq_eq mass m1 m2 h1 h2 h0
  unfold lsGofM runningWidth
  dsimp only
  rw [e1, e2, abs_of_nonneg (sq_nonneg _), foldl_mul_range, ffBLPrime_eq _ _ _ hL, Real.sqrt_sq (by linarith), ← div_pow,
    Real.sqrt_sq (div_pos p1 p2).le]
  congr 2 <;> ring

/-! ### The integral of a Breit-Wigner over the mass -/

theorem quartic_deriv (c d γ x : ℝ) (hc : 0 < c) (hd : 0 < d) (hγ : 4 * γ = c ^ 2 + d ^ 2) :
    HasDerivAt (fun x : ℝ => 1 / (2 * c * γ) * (1 / 2 * Real.log ((x ^ 2 + c * x + γ) / (x ^ 2 - c * x + γ))
      + c / d * (Real.arctan ((2 * x + c) / d) + Real.arctan ((2 * x - c) / d))))
      (1 / ((x ^ 2 + c * x + γ) * (x ^ 2 - c * x + γ))) x := by
  have hP : 0 < x ^ 2 + c * x + γ := by nlinarith [sq_nonneg (2 * x + c), sq_pos_of_pos hd]
  have hQ : 0 < x ^ 2 - c * x + γ := by nlinarith [sq_nonneg (2 * x - c), sq_pos_of_pos hd]
  have hγ0 : 0 < γ := by nlinarith [sq_pos_of_pos hd, sq_pos_of_pos hc]
  have dP : HasDerivAt (fun x : ℝ => x ^ 2 + c * x + γ) (2 * x + c) x := by
    have := (((hasDerivAt_id x).pow 2).add ((hasDerivAt_id x).const_mul c)).add_const γ
    exact this.congr_deriv (by simp)
  have dQ : HasDerivAt (fun x : ℝ => x ^ 2 - c * x + γ) (2 * x - c) x := by
    have := (((hasDerivAt_id x).pow 2).sub ((hasDerivAt_id x).const_mul c)).add_const γ
    exact this.congr_deriv (by simp)
  have dA : HasDerivAt (fun x : ℝ => (2 * x + c) / d) (2 / d) x := by
    have := (((hasDerivAt_id x).const_mul 2).add_const c).div_const d
    exact this.congr_deriv (by simp)
  have dB : HasDerivAt (fun x : ℝ => (2 * x - c) / d) (2 / d) x := by
    have := (((hasDerivAt_id x).const_mul 2).sub_const c).div_const d
    exact this.congr_deriv (by simp)
  have h := ((((dP.div dQ hQ.ne').log (div_pos hP hQ).ne').const_mul (1 / 2)).add ((dA.arctan.add dB.arctan).const_mul (c / d))).const_mul
    (1 / (2 * c * γ))
  refine h.congr_deriv ?_
  have eA : 1 + ((2 * x + c) / d) ^ 2 = 4 * (x ^ 2 + c * x + γ) / d ^ 2 := by
    rw [div_pow, eq_div_iff (by positivity), add_mul, div_mul_cancel₀ _ (by positivity)]
    linear_combination -hγ
  have eB : 1 + ((2 * x - c) / d) ^ 2 = 4 * (x ^ 2 - c * x + γ) / d ^ 2 := by
    rw [div_pow, eq_div_iff (by positivity), add_mul, div_mul_cancel₀ _ (by positivity)]
    linear_combination -hγ
  rw [eA, eB]
  have hP' := hP.ne'
  have hQ' := hQ.ne'
  simp only [Pi.div_apply]
  generalize hPP : x ^ 2 + c * x + γ = P at *
  generalize hQQ : x ^ 2 - c * x + γ = Q at *
  have e1 : 2 * c * x = P - Q := by rw [← hPP, ← hQQ]; ring
  have e2 : (x + c) * Q - (x - c) * P = 2 * c * γ := by rw [← hPP, ← hQQ]; ring
  field_simp
  linear_combination 8 * e2

theorem quartic_tendsto (c d γ : ℝ) (hc : 0 < c) (hd : 0 < d) :
    Tendsto (fun x : ℝ => 1 / (2 * c * γ) * (1 / 2 * Real.log ((x ^ 2 + c * x + γ) / (x ^ 2 - c * x + γ))
      + c / d * (Real.arctan ((2 * x + c) / d) + Real.arctan ((2 * x - c) / d)))) atTop
      (𝓝 (1 / (2 * c * γ) * (1 / 2 * Real.log 1 + c / d * (Real.pi / 2 + Real.pi / 2)))) := by
  have hi : Tendsto (fun x : ℝ => x⁻¹) atTop (𝓝 0) := tendsto_inv_atTop_zero
  have hP : Tendsto (fun x : ℝ => 1 + c * x⁻¹ + γ * (x⁻¹ * x⁻¹)) atTop (𝓝 (1 + c * 0 + γ * (0 * 0))) :=
    (tendsto_const_nhds.add (hi.const_mul c)).add ((hi.mul hi).const_mul γ)
  have hQ : Tendsto (fun x : ℝ => 1 - c * x⁻¹ + γ * (x⁻¹ * x⁻¹)) atTop (𝓝 (1 - c * 0 + γ * (0 * 0))) :=
    (tendsto_const_nhds.sub (hi.const_mul c)).add ((hi.mul hi).const_mul γ)
  have hR : Tendsto (fun x : ℝ => (x ^ 2 + c * x + γ) / (x ^ 2 - c * x + γ)) atTop (𝓝 1) := by
    have h := hP.div hQ (by norm_num)
    have e : (1 + c * 0 + γ * (0 * 0)) / (1 - c * 0 + γ * (0 * 0)) = (1 : ℝ) := by norm_num
    rw [e] at h
    refine h.congr' ?_
    filter_upwards [eventually_gt_atTop (0 : ℝ)] with x hx
    have e1 : x ^ 2 + c * x + γ = x ^ 2 * (1 + c * x⁻¹ + γ * (x⁻¹ * x⁻¹)) := by field_simp
    have e2 : x ^ 2 - c * x + γ = x ^ 2 * (1 - c * x⁻¹ + γ * (x⁻¹ * x⁻¹)) := by field_simp
    show (1 + c * x⁻¹ + γ * (x⁻¹ * x⁻¹)) / (1 - c * x⁻¹ + γ * (x⁻¹ * x⁻¹)) = _
    rw [e1, e2, mul_div_mul_left _ _ (by positivity)]
  have hA : Tendsto (fun x : ℝ => Real.arctan ((2 * x + c) / d)) atTop (𝓝 (Real.pi / 2)) := by
    refine (tendsto_nhds_of_tendsto_nhdsWithin Real.tendsto_arctan_atTop).comp ?_
    exact ((tendsto_id.const_mul_atTop (by norm_num : (0 : ℝ) < 2)).atTop_add tendsto_const_nhds).atTop_div_const hd
  have hB : Tendsto (fun x : ℝ => Real.arctan ((2 * x - c) / d)) atTop (𝓝 (Real.pi / 2)) := by
    refine (tendsto_nhds_of_tendsto_nhdsWithin Real.tendsto_arctan_atTop).comp ?_
    have := ((tendsto_id.const_mul_atTop (by norm_num : (0 : ℝ) < 2)).atTop_add (tendsto_const_nhds (x := -c))).atTop_div_const hd
    exact this
  exact (((hR.log (by norm_num)).const_mul (1 / 2)).add ((hA.add hB).const_mul (c / d))).const_mul _

/-- The integral of the square of a Breit-Wigner with constant width over all masses. -/
theorem bw_integral (M G : ℝ) (hM : 0 < M) (hG : 0 < G) :
    let γ := M * √(M ^ 2 + G ^ 2)
    ∫ x in Set.Ioi (0 : ℝ), 1 / ((M ^ 2 - x ^ 2) ^ 2 + (M * G) ^ 2) = Real.pi * √(M ^ 2 + γ) / (2 * √2 * (M * G * γ)) := by
  intro γ
  have hγsq : γ ^ 2 = M ^ 2 * (M ^ 2 + G ^ 2) := by
    show (M * √(M ^ 2 + G ^ 2)) ^ 2 = _
    rw [mul_pow, Real.sq_sqrt (by positivity)]
  have hγ0 : 0 < γ := mul_pos hM (Real.sqrt_pos.2 (by positivity))
  have hγM : M ^ 2 < γ := by
    have : (M ^ 2) ^ 2 < γ ^ 2 := by rw [hγsq]; nlinarith [mul_pos hM hG]
    exact lt_of_pow_lt_pow_left₀ 2 hγ0.le this
  set c := √(2 * (γ + M ^ 2)) with hcdef
  set d := √(2 * (γ - M ^ 2)) with hddef
  have hc : 0 < c := Real.sqrt_pos.2 (by positivity)
  have hd : 0 < d := Real.sqrt_pos.2 (by linarith)
  have hc2 : c ^ 2 = 2 * (γ + M ^ 2) := Real.sq_sqrt (by positivity)
  have hd2 : d ^ 2 = 2 * (γ - M ^ 2) := Real.sq_sqrt (by linarith)
  have hγcd : 4 * γ = c ^ 2 + d ^ 2 := by rw [hc2, hd2]; ring
  have hfac : ∀ x : ℝ, (M ^ 2 - x ^ 2) ^ 2 + (M * G) ^ 2 = (x ^ 2 + c * x + γ) * (x ^ 2 - c * x + γ) := by
    intro x
    linear_combination x ^ 2 * hc2 - hγsq
  have hint := integral_Ioi_of_hasDerivAt_of_nonneg' (a := (0 : ℝ)) (fun x _ => quartic_deriv c d γ x hc hd hγcd)
    (fun x _ => by
      have hP : 0 < (x ^ 2 + c * x + γ) * (x ^ 2 - c * x + γ) := by
        rw [← hfac]; have := mul_pos hM hG; positivity
      positivity) (quartic_tendsto c d γ hc hd)
  rw [integral_congr_ae (ae_of_all _ fun x => by rw [hfac x])]
  rw [hint]
  have hcd : c * d = 2 * (M * G) := by
    have h1 : (c * d) ^ 2 = (2 * (M * G)) ^ 2 := by
      rw [mul_pow, hc2, hd2]; linear_combination 4 * hγsq
    have := mul_pos hM hG
    exact (pow_left_inj₀ (mul_pos hc hd).le (by positivity) (by norm_num)).1 h1
  have hcs : c = √2 * √(M ^ 2 + γ) := by
    rw [hcdef, Real.sqrt_mul (by norm_num), add_comm]
  have h2 : √2 * √2 = (2 : ℝ) := Real.mul_self_sqrt (by norm_num)
  have hdiv : (γ / γ : ℝ) = 1 := div_self hγ0.ne'
  have e0 : ((0 : ℝ) ^ 2 + c * 0 + γ) / (0 ^ 2 - c * 0 + γ) = 1 := by
    rw [show (0 : ℝ) ^ 2 + c * 0 + γ = γ by ring, show (0 : ℝ) ^ 2 - c * 0 + γ = γ by ring, hdiv]
  have e1 : Real.arctan ((2 * 0 - c) / d) = -Real.arctan ((2 * 0 + c) / d) := by
    rw [show (2 * 0 - c) / d = -((2 * 0 + c) / d) by ring, Real.arctan_neg]
  rw [e0, e1, Real.log_one]
  have hMG : M * G = c * d / 2 := by linarith
  rw [hMG, show √(M ^ 2 + γ) = c / √2 by rw [hcs]; field_simp]
  have h20 : (0 : ℝ) < √2 := Real.sqrt_pos.2 (by norm_num)
  field_simp
  rw [Real.sq_sqrt (by norm_num)]
  ring

end GooFit
