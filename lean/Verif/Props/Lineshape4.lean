import Verif.Lemmas.Lineshape4
import Mathlib.Analysis.Real.Pi.Bounds

/-!
# C71, C72: Breit-Wigner line shapes, LASS and GLASS of four-body amplitudes
-/

set_option autoImplicit false

namespace GooFit

open Spec MeasureTheory

/-! ## C71 -/

/-- **C71 (RBW).**  For spins 0 to 2, every choice of form factor and every mass above threshold the line shape is a
Breit-Wigner with running width, times the root of the form factor and of the constant `k`. -/
theorem C71_rbw_partial (Mpair m1 m2 mass width : ℝ) (L : Nat) (FF : FormFactor) (radius : ℝ) (h1 : 0 ≤ m1) (h2 : 0 ≤ m2)
    (hM : m1 + m2 < Mpair) (h0 : m1 + m2 < mass) (hL : L ≤ 2) :
    let q := breakup Mpair m1 m2
    let q0 := breakup mass m1 m2
    let z := (q * radius) ^ 2
    let z0 := (q0 * radius) ^ 2
    lsRBW Mpair m1 m2 mass width L FF radius = (√(rbwK mass width * formFactorSq FF L z z0) : ℂ)
      * breitWigner mass (Mpair ^ 2) (runningWidth L mass width (Mpair ^ 2) q q0 (barrierNormSq L z0 z)) := by
  intro q q0 z z0
  obtain ⟨e1, p1⟩ := breakupSq_eq Mpair m1 m2 h1 h2 hM
  obtain ⟨e2, p2⟩ := breakupSq_eq mass m1 m2 h1 h2 h0
  unfold lsRBW
  dsimp only
  rw [e1, e2, if_neg (not_lt.2 (sq_nonneg _)), lsPropagator_eq, lsFormFactor_eq _ _ _ _ hL,
    lsGofM_eq Mpair m1 m2 mass width L radius h1 h2 hM h0 hL,
    show breakup Mpair m1 m2 ^ 2 * (radius * radius) = z by simp only [z, q]; ring,
    show breakup mass m1 m2 ^ 2 * (radius * radius) = z0 by simp only [z0, q0]; ring, ← pow_two Mpair]

/-- **C71 (SBW).**  The same with constant width. -/
theorem C71_sbw_partial (Mpair m1 m2 mass width : ℝ) (L : Nat) (FF : FormFactor) (radius : ℝ) (h1 : 0 ≤ m1) (h2 : 0 ≤ m2)
    (hM : m1 + m2 < Mpair) (h0 : m1 + m2 < mass) (hL : L ≤ 2) :
    lsSBW Mpair m1 m2 mass width L FF radius
      = (√(sbwK mass width * formFactorSq FF L ((breakup Mpair m1 m2 * radius) ^ 2) ((breakup mass m1 m2 * radius) ^ 2)) : ℂ)
      * breitWigner mass (Mpair ^ 2) width := by
  obtain ⟨e1, p1⟩ := breakupSq_eq Mpair m1 m2 h1 h2 hM
  obtain ⟨e2, p2⟩ := breakupSq_eq mass m1 m2 h1 h2 h0
  unfold lsSBW
  dsimp only
  rw [e1, e2, if_neg (not_lt.2 (sq_nonneg _)), lsPropagator_eq, lsFormFactor_eq _ _ _ _ hL, ← pow_two Mpair]
  congr 4
  congr 1 <;> ring

/-- **C71 (at the nominal mass).**  There the width is the nominal one and the amplitude is imaginary. -/
theorem C71_pole (m1 m2 mass width : ℝ) (L : Nat) (FF : FormFactor) (radius : ℝ) (h1 : 0 ≤ m1) (h2 : 0 ≤ m2)
    (h0 : m1 + m2 < mass) (hw : 0 < width) (hL : L ≤ 2) :
    let z0 := (breakup mass m1 m2 * radius) ^ 2
    lsRBW mass m1 m2 mass width L FF radius
      = Complex.I * (√(rbwK mass width * formFactorSq FF L z0 z0) / (mass * width) : ℝ) := by
  intro z0
  have h := C71_rbw_partial mass m1 m2 mass width L FF radius h1 h2 h0 h0 hL
  dsimp only at h
  rw [h]
  obtain ⟨_, p2⟩ := breakupSq_eq mass m1 m2 h1 h2 h0
  have hm : 0 < mass := by linarith
  have hz : 0 ≤ z0 := sq_nonneg _
  have hF : barrierNormSq L z0 z0 = 1 := by
    rcases L with _ | _ | _ | L
    · rfl
    · exact div_self (by positivity)
    · exact div_self (by nlinarith [sq_nonneg (z0 - 3)])
    · omega
  have hG : runningWidth L mass width (mass ^ 2) (breakup mass m1 m2) (breakup mass m1 m2) (barrierNormSq L z0 z0) = width := by
    unfold runningWidth
    rw [hF, div_self p2.ne', one_pow, Real.sqrt_sq hm.le, div_self hm.ne']
    ring
  rw [hG, breitWigner_mk, sub_self, zero_div, zero_mul, zero_add]
  change ((√(rbwK mass width * formFactorSq FF L z0 z0) : ℝ) : ℂ) * _ = _
  generalize √(rbwK mass width * formFactorSq FF L z0 z0) = c
  rw [cx_smul]
  have hmw := mul_pos hm hw
  apply Complex.ext
  · simp only [Complex.mul_re, Complex.I_re, Complex.I_im, Complex.ofReal_re, Complex.ofReal_im]
    ring
  · simp only [Complex.mul_im, Complex.I_re, Complex.I_im, Complex.ofReal_re, Complex.ofReal_im]
    field_simp
    simp

/-- **C71 (unitarity).**  The phase of the amplitude is the one that unitarity requires of a resonance in one channel: with
the factor `c` that the amplitude has in front, `Im A = m0 Γ |A|² / c`. -/
theorem C71_unitarity (Mpair m1 m2 mass width : ℝ) (L : Nat) (FF : FormFactor) (radius : ℝ) (h1 : 0 ≤ m1) (h2 : 0 ≤ m2)
    (hM : m1 + m2 < Mpair) (h0 : m1 + m2 < mass) (hL : L ≤ 2) :
    let q := breakup Mpair m1 m2
    let q0 := breakup mass m1 m2
    let z := (q * radius) ^ 2
    let z0 := (q0 * radius) ^ 2
    let A := lsRBW Mpair m1 m2 mass width L FF radius
    √(rbwK mass width * formFactorSq FF L z z0) * A.im
      = mass * runningWidth L mass width (Mpair ^ 2) q q0 (barrierNormSq L z0 z) * Complex.normSq A := by
  intro q q0 z z0 A
  have hA := C71_rbw_partial Mpair m1 m2 mass width L FF radius h1 h2 hM h0 hL
  dsimp only at hA
  have : A = _ := hA
  rw [this, Complex.im_ofReal_mul, breitWigner_im, map_mul, Complex.normSq_ofReal]
  ring

theorem rbwK_sq (mass width : ℝ) (hm : 0 < mass) : rbwK mass width
    = 2 * √2 / Real.pi * (mass * width * (mass * √(mass ^ 2 + width ^ 2))) / √(mass ^ 2 + mass * √(mass ^ 2 + width ^ 2)) := by
  unfold rbwK
  dsimp only
  rw [← pow_two, ← pow_two]
  ring

theorem sbwK_sq (mass width : ℝ) (hm : 0 < mass) : sbwK mass width
    = mass * width * (mass * √(mass ^ 2 + width ^ 2)) / √(mass ^ 2 + mass * √(mass ^ 2 + width ^ 2)) := by
  unfold sbwK
  dsimp only
  rw [Real.sqrt_mul (by positivity), Real.sqrt_mul_self hm.le, ← pow_two, ← pow_two]

/-- **C71 (normalisation).**  The constant `k` of RBW normalises the square of a Breit-Wigner with constant width, as a
density in the mass. -/
theorem C71_norm_rbw (mass width : ℝ) (hm : 0 < mass) (hw : 0 < width) :
    ∫ m in Set.Ioi (0 : ℝ), rbwK mass width * Complex.normSq (breitWigner mass (m ^ 2) width) = 1 := by
  have h := bw_integral mass width hm hw
  dsimp only at h
  rw [integral_const_mul]
  simp only [breitWigner_normSq]
  rw [h, rbwK_sq mass width hm]
  have hγ : 0 < √(mass ^ 2 + width ^ 2) := Real.sqrt_pos.2 (by positivity)
  have h1 : 0 < √(mass ^ 2 + mass * √(mass ^ 2 + width ^ 2)) := Real.sqrt_pos.2 (by positivity)
  have h2 : (0 : ℝ) < √2 := Real.sqrt_pos.2 (by norm_num)
  have := Real.pi_pos
  field_simp

/-- **C71 (normalisation).**  An S wave SBW has the same integral whatever the mass and the width, which is not one. -/
theorem C71_norm_sbw (m1 m2 mass width : ℝ) (FF : FormFactor) (radius : ℝ) (hm : 0 < mass) (hw : 0 < width) :
    ∫ m in Set.Ioi (0 : ℝ), Complex.normSq (lsSBW m m1 m2 mass width 0 FF radius) = Real.pi / (2 * √2) := by
  have e : ∀ m : ℝ, Complex.normSq (lsSBW m m1 m2 mass width 0 FF radius)
      = sbwK mass width * (1 / ((mass ^ 2 - m ^ 2) ^ 2 + (mass * width) ^ 2)) := by
    intro m
    unfold lsSBW
    dsimp only
    have hk : 0 ≤ sbwK mass width := by
      rw [sbwK_sq mass width hm]; positivity
    have hf : lsFormFactor FF 0 (breakupSq (m * m) m1 m2 * (radius * radius))
        ((if breakupSq (mass * mass) m1 m2 < 0 then 0 else breakupSq (mass * mass) m1 m2) * (radius * radius)) = 1 := by
      unfold lsFormFactor
      rw [if_neg (by simp)]
    rw [hf, lsPropagator_eq, map_mul, Complex.normSq_ofReal, breitWigner_normSq, mul_one, Real.mul_self_sqrt hk, ← pow_two]
  have h := bw_integral mass width hm hw
  dsimp only at h
  simp only [e]
  rw [integral_const_mul, h, sbwK_sq mass width hm]
  have hγ : 0 < √(mass ^ 2 + width ^ 2) := Real.sqrt_pos.2 (by positivity)
  have h1 : 0 < √(mass ^ 2 + mass * √(mass ^ 2 + width ^ 2)) := Real.sqrt_pos.2 (by positivity)
  have h2 : (0 : ℝ) < √2 := Real.sqrt_pos.2 (by norm_num)
  field_simp

/-- **C71 (not resonant).**  The root of the form factor, and one. -/
theorem C71_nonres (Mpair m1 m2 : ℝ) (L : Nat) (radius : ℝ) (h1 : 0 ≤ m1) (h2 : 0 ≤ m2) (hM : m1 + m2 < Mpair) (hL : L ≤ 2) :
    lsNonRes Mpair m1 m2 L radius = (√(barrierPlainSq L ((breakup Mpair m1 m2 * radius) ^ 2)) : ℝ) ∧ lsOne Mpair m1 m2 = 1 := by
  obtain ⟨e1, p1⟩ := breakupSq_eq Mpair m1 m2 h1 h2 hM
  refine ⟨?_, rfl⟩
  unfold lsNonRes
  dsimp only
  rw [show (⟨1, 0⟩ : ℂ) = 1 from rfl, one_mul, e1, mul_assoc, ← pow_two, ← mul_pow]
  congr 2
  rcases L with _ | _ | _ | L
  · rfl
  · rfl
  · show 1 / (_ * _ + 3 * _ + 9) = 1 / _
    congr 1
    ring
  · omega

/-- **C71 (violation).**  A resonance of spin 3 without form factor has no width: the amplitude is real, with a pole. -/
theorem C71_violation_spin (Mpair m1 m2 mass width radius : ℝ) :
    lsRBW Mpair m1 m2 mass width 3 .One radius = ((√(rbwK mass width) / (mass ^ 2 - Mpair ^ 2) : ℝ) : ℂ) := by
  have hG : lsGofM Mpair m1 m2 mass width 3 radius = 0 := by
    unfold lsGofM
    dsimp only
    rw [show ∀ z z0 : ℝ, ffBLPrime z z0 3 = 0 from fun _ _ => rfl, mul_zero]
  unfold lsRBW
  dsimp only
  have hf : ∀ z z0 : ℝ, lsFormFactor .One 3 z z0 = 1 := by
    intro z z0
    unfold lsFormFactor
    rw [if_neg (by simp)]
  rw [hG, hf, lsPropagator_eq, mul_one, breitWigner_mk, cx_smul, mul_zero, mul_zero, add_zero, zero_div, mul_zero, ← pow_two Mpair]
  apply Complex.ext
  · rw [Complex.ofReal_re]
    dsimp only
    by_cases h : mass ^ 2 - Mpair ^ 2 = 0
    · rw [h]; simp
    · field_simp
  · rw [Complex.ofReal_im]

example : (0 : ℝ) ≤ 0.14 ∧ (0.14 : ℝ) + 0.14 < 0.7 ∧ (0.14 : ℝ) + 0.14 < 0.775 ∧ (0 : ℝ) < 0.149 := by norm_num

/-! ## C72 -/

/-- `sin δ e^{iδ}` for `tan δ = n / d`. -/
theorem sin_exp_quot (n d : ℝ) (h : n ≠ 0 ∨ d ≠ 0) :
    ((Real.sin (atanQuot n d) : ℝ) : ℂ) * ⟨Real.cos (atanQuot n d), Real.sin (atanQuot n d)⟩ = (n : ℂ) / ⟨d, -n⟩ := by
  rw [div_eq_mul_one_div, cx_inv, cx_smul, cx_smul]
  by_cases hd : d = 0
  · have hn : n ≠ 0 := h.resolve_right (by simp [hd])
    unfold atanQuot
    rw [if_pos hd, hd]
    rcases lt_or_gt_of_ne hn with hneg | hpos
    · rw [Real.sign_of_neg hneg]
      apply Complex.ext <;> simp <;> field_simp
    · rw [Real.sign_of_pos hpos]
      apply Complex.ext <;> simp <;> field_simp
  · unfold atanQuot
    rw [if_neg hd, Real.sin_arctan, Real.cos_arctan]
    have hp : 0 < 1 + (n / d) ^ 2 := by positivity
    have hs : √(1 + (n / d) ^ 2) ≠ 0 := (Real.sqrt_pos.2 hp).ne'
    have hsq : √(1 + (n / d) ^ 2) * √(1 + (n / d) ^ 2) = 1 + (n / d) ^ 2 := Real.mul_self_sqrt hp.le
    have hdn : d * d + -n * -n ≠ 0 := by
      have := mul_self_pos.2 hd
      nlinarith [mul_self_nonneg n]
    apply Complex.ext
    · dsimp only
      rw [div_mul_div_comm, hsq, mul_one]
      have : 1 + (n / d) ^ 2 = (d * d + -n * -n) / (d * d) := by field_simp
      rw [this]
      field_simp
    · dsimp only
      rw [div_mul_div_comm, hsq]
      have : 1 + (n / d) ^ 2 = (d * d + -n * -n) / (d * d) := by field_simp
      rw [this]
      field_simp

/-- The phase factor of the background. -/
theorem lass_phase (c : ℝ) : (⟨(c * c - 1) / (1 + c * c), 2 * c / (1 + c * c)⟩ : ℂ) = ((c : ℂ) + Complex.I) / ((c : ℂ) - Complex.I) := by
  have hp : 1 + c * c ≠ 0 := by nlinarith [mul_self_nonneg c]
  have hne : ((c : ℂ) - Complex.I) ≠ 0 := by
    intro h
    have := congrArg Complex.im h
    simp at this
  rw [eq_div_iff hne]
  apply Complex.ext
  · simp
    field_simp
    ring
  · simp
    field_simp
    ring

theorem lass_bg (c q : ℝ) (hq : q ≠ 0) : (⟨q * c, -1 * q⟩ : ℂ) = ((q * c : ℝ) : ℂ) - Complex.I * (q : ℂ) := by
  apply Complex.ext <;> simp

/-- The code, in terms of the two parts of the LASS amplitude: the resonance has an additional factor `√k`. -/
theorem lsLASS_eq (Mpair m1 m2 mass width : ℝ) (FF : FormFactor) (radius : ℝ) (h1 : 0 ≤ m1) (h2 : 0 ≤ m2)
    (hM : m1 + m2 < Mpair) (h0 : m1 + m2 < mass) (hw : 0 < width) :
    let q := breakup Mpair m1 m2
    let q0 := breakup mass m1 m2
    let cot := 1 / (2.07 * q) + 3.32 * q / 2
    ((mass ^ 2 * width / q0 : ℝ) : ℂ) * lsLASS Mpair m1 m2 mass width 0 FF radius
      = (Mpair : ℂ) / ((q * cot : ℝ) - Complex.I * (q : ℂ))
        + ((cot : ℂ) + Complex.I) / ((cot : ℂ) - Complex.I) * ((mass * width * (mass / q0) : ℝ) : ℂ)
        * ((√(rbwK mass width) : ℂ) * breitWigner mass (Mpair ^ 2) (runningWidth 0 mass width (Mpair ^ 2) q q0 1)) := by
  intro q q0 cot
  obtain ⟨e1, p1⟩ := breakupSq_eq Mpair m1 m2 h1 h2 hM
  obtain ⟨e2, p2⟩ := breakupSq_eq mass m1 m2 h1 h2 h0
  have hm : 0 < mass := by linarith
  have hq : 0 < q := p1
  have hq0 : 0 < q0 := p2
  have hR := C71_rbw_partial Mpair m1 m2 mass width 0 FF radius h1 h2 hM h0 (by norm_num)
  dsimp only at hR
  have hff : ∀ z z0 : ℝ, formFactorSq FF 0 z z0 = 1 := by intro z z0; cases FF <;> rfl
  rw [hff, mul_one] at hR
  unfold lsLASS
  dsimp only
  rw [hR, e1, e2, abs_of_nonneg (sq_nonneg _), Real.sqrt_sq p1.le, Real.sqrt_sq p2.le]
  change ((mass ^ 2 * width / q0 : ℝ) : ℂ) * (((Mpair * q0 / (mass * mass * width) : ℝ) : ℂ)
    / (⟨q * ((2 + 2.07 * 3.32 * q ^ 2) / (2 * 2.07 * q)), -1 * q⟩ : ℂ) + _) = _
  have hcot : (2 + 2.07 * 3.32 * q ^ 2) / (2 * 2.07 * q) = cot := by
    show _ = 1 / (2.07 * q) + 3.32 * q / 2
    rw [show (2.07 : ℝ) = 207 / 100 by norm_num, show (3.32 : ℝ) = 332 / 100 by norm_num]
    field_simp
  rw [hcot, lass_phase, lass_bg _ _ hq.ne']
  have hc : ((mass ^ 2 * width / q0 : ℝ) : ℂ) = ((mass * width * (mass / q0) : ℝ) : ℂ) := by
    congr 1; ring
  have hSF : ((mass ^ 2 * width / q0 : ℝ) : ℂ) * ((Mpair * q0 / (mass * mass * width) : ℝ) : ℂ) = (Mpair : ℂ) := by
    rw [← Complex.ofReal_mul]
    congr 1
    field_simp
  rw [mul_add, ← mul_div_assoc, hSF, hc]
  show _ + _ * (_ * (_ * breitWigner mass (Mpair ^ 2) (runningWidth 0 mass width (Mpair ^ 2) q q0 1))) = _
  ring

/-- The S matrix of background and resonance, when the resonance has an additional factor `κ`. -/
theorem lass_S (c q q0 m0 Γ0 m κ : ℝ) (hq : 0 < q) (hq0 : 0 < q0) (hm : 0 < m) (hm0 : 0 < m0) (hΓ : 0 < Γ0) :
    let G := m0 * runningWidth 0 m0 Γ0 (m ^ 2) q q0 1
    let A := m0 ^ 2 - m ^ 2
    Complex.normSq (smatrix (m ^ 2) q ((m : ℂ) / ((q * c : ℝ) - Complex.I * (q : ℂ))
        + ((c : ℂ) + Complex.I) / ((c : ℂ) - Complex.I) * ((m0 * Γ0 * (m0 / q0) : ℝ) : ℂ)
        * ((κ : ℂ) * breitWigner m0 (m ^ 2) (runningWidth 0 m0 Γ0 (m ^ 2) q q0 1))))
      = (A ^ 2 + (2 * κ - 1) ^ 2 * G ^ 2) / (A ^ 2 + G ^ 2) ∧ 0 < G := by
  intro G A
  have hG : m0 * Γ0 * (m0 / q0) * (q / m) = G := by
    show _ = m0 * (Γ0 * (q / q0) ^ (2 * 0 + 1) * (m0 / √(m ^ 2)) * 1)
    rw [Real.sqrt_sq hm.le]
    ring
  have hGpos : 0 < G := by rw [← hG]; positivity
  refine ⟨?_, hGpos⟩
  have hcI : ((c : ℂ) - Complex.I) ≠ 0 := by
    intro h
    have := congrArg Complex.im h
    simp at this
  have hqC : (q : ℂ) ≠ 0 := by exact_mod_cast hq.ne'
  have hmC : (m : ℂ) ≠ 0 := by exact_mod_cast hm.ne'
  have hD : (⟨A, -G⟩ : ℂ) ≠ 0 := by
    intro h
    have := congrArg Complex.im h
    simp at this
    linarith
  have hBW : breitWigner m0 (m ^ 2) (runningWidth 0 m0 Γ0 (m ^ 2) q q0 1) = 1 / (⟨A, -G⟩ : ℂ) := by
    unfold breitWigner
    rw [cx_den]
  have hS : smatrix (m ^ 2) q ((m : ℂ) / ((q * c : ℝ) - Complex.I * (q : ℂ))
        + ((c : ℂ) + Complex.I) / ((c : ℂ) - Complex.I) * ((m0 * Γ0 * (m0 / q0) : ℝ) : ℂ)
        * ((κ : ℂ) * breitWigner m0 (m ^ 2) (runningWidth 0 m0 Γ0 (m ^ 2) q q0 1)))
      = ((c : ℂ) + Complex.I) / ((c : ℂ) - Complex.I) * (⟨A, (2 * κ - 1) * G⟩ / ⟨A, -G⟩) := by
    unfold smatrix
    rw [Real.sqrt_sq hm.le, hBW]
    have e1 : ((q * c : ℝ) : ℂ) - Complex.I * (q : ℂ) = (q : ℂ) * ((c : ℂ) - Complex.I) := by push_cast; ring
    have e2 : (⟨A, (2 * κ - 1) * G⟩ : ℂ) = ⟨A, -G⟩ + 2 * Complex.I * (κ : ℂ) * (G : ℂ) := by
      apply Complex.ext <;> simp
      ring
    have e3 : ((m0 * Γ0 * (m0 / q0) : ℝ) : ℂ) * ((q / m : ℝ) : ℂ) = (G : ℂ) := by
      rw [← Complex.ofReal_mul, hG]
    rw [e1, e2, mul_add, ← e3]
    have e4 : ((q / m : ℝ) : ℂ) = (q : ℂ) / (m : ℂ) := by push_cast; rfl
    rw [e4]
    generalize (⟨A, -G⟩ : ℂ) = D at hD ⊢
    generalize ((m0 * Γ0 * (m0 / q0) : ℝ) : ℂ) = w
    field_simp
    ring
  rw [hS, map_mul, map_div₀, map_div₀]
  have e5 : Complex.normSq ((c : ℂ) + Complex.I) = Complex.normSq ((c : ℂ) - Complex.I) := by
    simp [Complex.normSq_apply]
  rw [e5, div_self (by rwa [Ne, Complex.normSq_eq_zero]), one_mul, Complex.normSq_apply, Complex.normSq_apply]
  dsimp only
  congr 1 <;> ring

/-- **C72 (the LASS amplitude is elastic).**  The parametrisation itself is a pure phase. -/
theorem C72_spec_unitary (a r m0 Γ0 m q q0 : ℝ) (hq : 0 < q) (hq0 : 0 < q0) (hm : 0 < m) (hm0 : 0 < m0) (hΓ : 0 < Γ0) :
    ‖smatrix (m ^ 2) q (lassAmplitude a r m0 Γ0 m q q0)‖ = 1 := by
  have h := lass_S (1 / (a * q) + r * q / 2) q q0 m0 Γ0 m 1 hq hq0 hm hm0 hΓ
  obtain ⟨h, hG⟩ := h
  rw [Complex.ofReal_one, one_mul, show (2 * 1 - 1 : ℝ) ^ 2 = 1 by norm_num, one_mul, div_self (by positivity)] at h
  have : Complex.normSq (smatrix (m ^ 2) q (lassAmplitude a r m0 Γ0 m q q0)) = 1 := h
  rw [Complex.norm_def, this, Real.sqrt_one]

/-- **C72 (LASS).**  If the constant `k` of RBW happens to be one, the line shape is the LASS amplitude with scattering length
2.07 and effective range 3.32 in units of `q0 / (m0² Γ0)`. -/
theorem C72_lass_partial (Mpair m1 m2 mass width : ℝ) (FF : FormFactor) (radius : ℝ) (h1 : 0 ≤ m1) (h2 : 0 ≤ m2)
    (hM : m1 + m2 < Mpair) (h0 : m1 + m2 < mass) (hw : 0 < width) (hk : rbwK mass width = 1) :
    ((mass ^ 2 * width / breakup mass m1 m2 : ℝ) : ℂ) * lsLASS Mpair m1 m2 mass width 0 FF radius
      = lassAmplitude 2.07 3.32 mass width Mpair (breakup Mpair m1 m2) (breakup mass m1 m2) := by
  have h := lsLASS_eq Mpair m1 m2 mass width FF radius h1 h2 hM h0 hw
  dsimp only at h
  rw [h, hk, Real.sqrt_one, Complex.ofReal_one, one_mul]
  rfl

/-- **C72 (violation).**  In all other cases it is not elastic at any mass: the resonance is too strong or too weak compared
to the background. -/
theorem C72_violation_lass (Mpair m1 m2 mass width : ℝ) (FF : FormFactor) (radius : ℝ) (h1 : 0 ≤ m1) (h2 : 0 ≤ m2)
    (hM : m1 + m2 < Mpair) (h0 : m1 + m2 < mass) (hw : 0 < width) (hk : rbwK mass width ≠ 1) :
    ‖smatrix (Mpair ^ 2) (breakup Mpair m1 m2)
      (((mass ^ 2 * width / breakup mass m1 m2 : ℝ) : ℂ) * lsLASS Mpair m1 m2 mass width 0 FF radius)‖ ≠ 1 := by
  have h := lsLASS_eq Mpair m1 m2 mass width FF radius h1 h2 hM h0 hw
  dsimp only at h
  have hm : 0 < mass := by linarith
  have hq := (breakupSq_eq Mpair m1 m2 h1 h2 hM).2
  have hq0 := (breakupSq_eq mass m1 m2 h1 h2 h0).2
  have hkpos : 0 < rbwK mass width := by
    rw [rbwK_sq mass width hm]
    have := Real.pi_pos
    have hγ : 0 < √(mass ^ 2 + width ^ 2) := Real.sqrt_pos.2 (by positivity)
    have h1 : 0 < √(mass ^ 2 + mass * √(mass ^ 2 + width ^ 2)) := Real.sqrt_pos.2 (by positivity)
    have h2 : (0 : ℝ) < √2 := Real.sqrt_pos.2 (by norm_num)
    positivity
  rw [h]
  obtain ⟨hS, hG⟩ := lass_S (1 / (2.07 * breakup Mpair m1 m2) + 3.32 * breakup Mpair m1 m2 / 2) (breakup Mpair m1 m2)
    (breakup mass m1 m2) mass width Mpair (√(rbwK mass width)) hq hq0 (by linarith) hm hw
  intro hone
  rw [Complex.normSq_eq_norm_sq, hone, one_pow] at hS
  have hpos : 0 < (mass ^ 2 - Mpair ^ 2) ^ 2 + (mass * runningWidth 0 mass width (Mpair ^ 2) (breakup Mpair m1 m2)
    (breakup mass m1 m2) 1) ^ 2 := by positivity
  rw [eq_div_iff hpos.ne', one_mul] at hS
  have hG2 := (sq_pos_of_pos hG).ne'
  have hsq : (2 * √(rbwK mass width) - 1) ^ 2 = 1 := by
    have : ((2 * √(rbwK mass width) - 1) ^ 2 - 1) * (mass * runningWidth 0 mass width (Mpair ^ 2) (breakup Mpair m1 m2)
      (breakup mass m1 m2) 1) ^ 2 = 0 := by linear_combination -hS
    rcases mul_eq_zero.1 this with h | h
    · linarith
    · exact absurd h hG2
  have hr := Real.sqrt_pos.2 hkpos
  have : √(rbwK mass width) = 1 := by nlinarith
  rw [Real.sqrt_eq_one] at this
  exact hk this

/-- The case of the examples of GooFit, the K*0(1430): `k` is below one. -/
theorem rbwK_k1430 : rbwK 1.425 0.27 ≠ 1 := by
  rw [rbwK_sq _ _ (by norm_num)]
  have g1 : √((1.425 : ℝ) ^ 2 + 0.27 ^ 2) < 1.4504 := (Real.sqrt_lt' (by norm_num)).2 (by norm_num)
  have g0 : 1.45 < √((1.425 : ℝ) ^ 2 + 0.27 ^ 2) := (Real.lt_sqrt (by norm_num)).2 (by norm_num)
  generalize √((1.425 : ℝ) ^ 2 + 0.27 ^ 2) = g at g0 g1
  have t0 : 2 < √((1.425 : ℝ) ^ 2 + 1.425 * g) := (Real.lt_sqrt (by norm_num)).2 (by norm_num; linarith)
  generalize √((1.425 : ℝ) ^ 2 + 1.425 * g) = t at t0
  have w1 : √2 < (1.5 : ℝ) := (Real.sqrt_lt' (by norm_num)).2 (by norm_num)
  have hpi := Real.pi_gt_three
  have hlt : 2 * √2 / Real.pi * (1.425 * 0.27 * (1.425 * g)) / t < 1 := by
    rw [div_lt_one (by linarith)]
    have h1 : 2 * √2 / Real.pi < 1 := by rw [div_lt_one (by linarith)]; linarith
    have h2 : (0 : ℝ) < 1.425 * 0.27 * (1.425 * g) := by nlinarith
    nlinarith
  exact hlt.ne

example : ∃ mass width : ℝ, 0.634 < mass ∧ 0 < width ∧ rbwK mass width = 1 := by
  have h2 : (0 : ℝ) < √2 := Real.sqrt_pos.2 (by norm_num)
  have hpi := Real.pi_gt_three
  have ht : (0 : ℝ) < √(1 + √2) := Real.sqrt_pos.2 (by positivity)
  have key : ∀ l : ℝ, 0 < l → rbwK l l = l ^ 3 * (4 / (Real.pi * √(1 + √2))) := by
    intro l hl
    rw [rbwK_sq l l hl, show l ^ 2 + l ^ 2 = 2 * l ^ 2 by ring, Real.sqrt_mul (by norm_num), Real.sqrt_sq hl.le,
      show l ^ 2 + l * (√2 * l) = l ^ 2 * (1 + √2) by ring, Real.sqrt_mul (by positivity), Real.sqrt_sq hl.le]
    have := Real.mul_self_sqrt (show (0 : ℝ) ≤ 2 by norm_num)
    field_simp
    rw [Real.sq_sqrt (by norm_num)]
    ring
  have hc : 0 < Real.pi * √(1 + √2) / 4 := by positivity
  have hc1 : 1 < Real.pi * √(1 + √2) / 4 := by
    have : (1.5 : ℝ) < √(1 + √2) := by
      rw [Real.lt_sqrt (by norm_num)]
      have : (1.4 : ℝ) < √2 := (Real.lt_sqrt (by norm_num)).2 (by norm_num)
      norm_num at this ⊢
      linarith
    nlinarith
  refine ⟨(Real.pi * √(1 + √2) / 4) ^ (1 / 3 : ℝ), (Real.pi * √(1 + √2) / 4) ^ (1 / 3 : ℝ), ?_, by positivity, ?_⟩
  · have := Real.one_lt_rpow hc1 (show (0 : ℝ) < 1 / 3 by norm_num)
    linarith
  · rw [key _ (by positivity), ← Real.rpow_natCast, ← Real.rpow_mul hc.le]
    norm_num
    field_simp

/-- The exponentials of GLASS. -/
theorem glass_alg (a b : ℝ) : (⟨Real.cos (a + 2 * b), Real.sin (a + 2 * b)⟩ : ℂ)
    = ⟨Real.cos a, Real.sin a⟩ * (1 + 2 * Complex.I * (((Real.sin b : ℝ) : ℂ) * ⟨Real.cos b, Real.sin b⟩)) := by
  have h := Real.sin_sq_add_cos_sq b
  rw [Real.cos_add, Real.sin_add, Real.cos_two_mul, Real.sin_two_mul, cx_smul]
  generalize Real.cos a = ca
  generalize Real.sin a = sa
  generalize Real.cos b = cb at *
  generalize Real.sin b = sb at *
  apply Complex.ext
  · simp
    linear_combination 2 * ca * h
  · simp
    linear_combination 2 * sa * h

theorem one_add_sin (b : ℝ) : Complex.normSq (1 + 2 * Complex.I * (((Real.sin b : ℝ) : ℂ) * ⟨Real.cos b, Real.sin b⟩)) = 1 := by
  have h := Real.sin_sq_add_cos_sq b
  rw [Complex.normSq_apply, cx_smul]
  generalize Real.cos b = cb at *
  generalize Real.sin b = sb at *
  simp
  linear_combination 4 * sb ^ 2 * h

/-- `rho` is the inverse of the phase space. -/
theorem glass_rho (Mpair m1 m2 : ℝ) (h1 : 0 ≤ m1) (h2 : 0 ≤ m2) (hM : m1 + m2 < Mpair) :
    1 / √(breakupSq (Mpair * Mpair) m1 m2 / (Mpair * Mpair)) = Mpair / breakup Mpair m1 m2 := by
  obtain ⟨e1, p1⟩ := breakupSq_eq Mpair m1 m2 h1 h2 hM
  have hm : 0 < Mpair := by linarith
  rw [e1, ← pow_two, ← div_pow, Real.sqrt_sq (div_pos p1 hm).le, one_div_div]

/-- **C72 (GLASS).**  With `F = 1` the line shape is elastic for all spins, phases and effective-range parameters, at every
mass above threshold. -/
theorem C72_glass (Mpair m1 m2 mass width : ℝ) (L : Nat) (radius a r phiF phiR : ℝ) (h1 : 0 ≤ m1) (h2 : 0 ≤ m2)
    (hM : m1 + m2 < Mpair) :
    ‖smatrix (Mpair ^ 2) (breakup Mpair m1 m2) (lsGLASS Mpair m1 m2 mass width L radius a r phiF phiR 1)‖ = 1 := by
  have hm : 0 < Mpair := by linarith
  have hq := (breakupSq_eq Mpair m1 m2 h1 h2 hM).2
  unfold lsGLASS
  dsimp only
  rw [glass_rho Mpair m1 m2 h1 h2 hM]
  generalize phiF + atanQuot _ _ = b
  generalize phiR + atanQuot _ _ = c
  rw [one_mul, one_mul, glass_alg]
  have hqm : ((breakup Mpair m1 m2 / √(Mpair ^ 2) : ℝ) : ℂ) * ((Mpair / breakup Mpair m1 m2 : ℝ) : ℂ) = 1 := by
    rw [Real.sqrt_sq hm.le, ← Complex.ofReal_mul, div_mul_div_comm, mul_comm Mpair, div_self (mul_pos hq hm).ne', Complex.ofReal_one]
  have key : smatrix (Mpair ^ 2) (breakup Mpair m1 m2) ((((Real.sin b : ℝ) : ℂ) * ⟨Real.cos b, Real.sin b⟩
      + ((Real.sin c : ℝ) : ℂ) * (⟨Real.cos c, Real.sin c⟩ * (1 + 2 * Complex.I * (((Real.sin b : ℝ) : ℂ) * ⟨Real.cos b, Real.sin b⟩))))
      * ((Mpair / breakup Mpair m1 m2 : ℝ) : ℂ))
      = (1 + 2 * Complex.I * (((Real.sin b : ℝ) : ℂ) * ⟨Real.cos b, Real.sin b⟩))
        * (1 + 2 * Complex.I * (((Real.sin c : ℝ) : ℂ) * ⟨Real.cos c, Real.sin c⟩)) := by
    unfold smatrix
    generalize ((Real.sin b : ℝ) : ℂ) * (⟨Real.cos b, Real.sin b⟩ : ℂ) = x
    generalize hy : (⟨Real.cos c, Real.sin c⟩ : ℂ) = y
    generalize ((Real.sin c : ℝ) : ℂ) = t
    linear_combination (2 * Complex.I * (x + t * (y * (1 + 2 * Complex.I * x)))) * hqm
  rw [key, norm_mul]
  have n1 : ∀ b : ℝ, ‖(1 + 2 * Complex.I * (((Real.sin b : ℝ) : ℂ) * ⟨Real.cos b, Real.sin b⟩) : ℂ)‖ = 1 := by
    intro b
    have h := one_add_sin b
    rw [Complex.norm_def, h, Real.sqrt_one]
  rw [n1, n1, one_mul]

/-- **C72 (GLASS and LASS).**  With `F = 1` and both phases zero an S wave GLASS is the LASS amplitude. -/
theorem C72_glass_lass (Mpair m1 m2 mass width radius a r : ℝ) (h1 : 0 ≤ m1) (h2 : 0 ≤ m2)
    (hM : m1 + m2 < Mpair) (h0 : m1 + m2 < mass) (hw : 0 < width) (ha : 0 < a) :
    lsGLASS Mpair m1 m2 mass width 0 radius a r 0 0 1
      = lassAmplitude a r mass width Mpair (breakup Mpair m1 m2) (breakup mass m1 m2) := by
  obtain ⟨e1, p1⟩ := breakupSq_eq Mpair m1 m2 h1 h2 hM
  obtain ⟨e2, p2⟩ := breakupSq_eq mass m1 m2 h1 h2 h0
  have hm : 0 < Mpair := by linarith
  have hm0 : 0 < mass := by linarith
  have hG := lsGofM_eq Mpair m1 m2 mass width 0 radius h1 h2 hM h0 (by norm_num)
  rw [show ∀ z z0 : ℝ, barrierNormSq 0 z z0 = 1 from fun _ _ => rfl] at hG
  unfold lsGLASS lassAmplitude
  dsimp only
  rw [glass_rho Mpair m1 m2 h1 h2 hM, hG, e1, Real.sqrt_sq p1.le, zero_add, zero_add, one_mul, one_mul]
  generalize breakup Mpair m1 m2 = q at *
  generalize breakup mass m1 m2 = q0 at *
  have hGG : mass * width * (mass / q0) * (q / Mpair) = mass * runningWidth 0 mass width (Mpair ^ 2) q q0 1 := by
    show _ = mass * (width * (q / q0) ^ (2 * 0 + 1) * (mass / √(Mpair ^ 2)) * 1)
    rw [Real.sqrt_sq hm.le]
    ring
  have hGpos : 0 < mass * runningWidth 0 mass width (Mpair ^ 2) q q0 1 := by rw [← hGG]; positivity
  have hy : 2 * a * q ≠ 0 := by positivity
  rw [glass_alg, ← mul_assoc ((Real.sin (atanQuot (mass * _) _) : ℝ) : ℂ), sin_exp_quot _ _ (Or.inl hy),
    sin_exp_quot _ _ (Or.inl hGpos.ne')]
  generalize hGdef : mass * runningWidth 0 mass width (Mpair ^ 2) q q0 1 = G at *
  have hBW : breitWigner mass (Mpair ^ 2) (runningWidth 0 mass width (Mpair ^ 2) q q0 1) = 1 / (⟨mass * mass - Mpair * Mpair, -G⟩ : ℂ) := by
    unfold breitWigner
    rw [cx_den, hGdef, pow_two, pow_two]
  rw [hBW]
  have hD : (⟨mass * mass - Mpair * Mpair, -G⟩ : ℂ) ≠ 0 := by
    intro h
    have := congrArg Complex.im h
    simp at this
    linarith
  generalize (⟨mass * mass - Mpair * Mpair, -G⟩ : ℂ) = D at hD ⊢
  have hcot : (2 + a * r * q ^ 2) = 2 * a * q * (1 / (a * q) + r * q / 2) := by field_simp
  generalize 1 / (a * q) + r * q / 2 = cot at *
  have hcI : ((cot : ℂ) - Complex.I) ≠ 0 := by
    intro h
    have := congrArg Complex.im h
    simp at this
  have e3 : (⟨2 + a * r * q ^ 2, -(2 * a * q)⟩ : ℂ) = ((2 * a * q : ℝ) : ℂ) * ((cot : ℂ) - Complex.I) := by
    rw [hcot]
    apply Complex.ext <;> simp
  rw [e3]
  have hyC : ((2 * a * q : ℝ) : ℂ) ≠ 0 := by exact_mod_cast hy
  have hqC : (q : ℂ) ≠ 0 := by exact_mod_cast p1.ne'
  have hmC : (Mpair : ℂ) ≠ 0 := by exact_mod_cast hm.ne'
  have e4 : ((q * cot : ℝ) : ℂ) - Complex.I * (q : ℂ) = (q : ℂ) * ((cot : ℂ) - Complex.I) := by push_cast; ring
  have e5 : (G : ℂ) = ((mass * width * (mass / q0) : ℝ) : ℂ) * ((q / Mpair : ℝ) : ℂ) := by
    rw [← Complex.ofReal_mul, hGG]
  have e6 : ((q / Mpair : ℝ) : ℂ) = (q : ℂ) / (Mpair : ℂ) := by push_cast; rfl
  have e7 : ((Mpair / q : ℝ) : ℂ) = (Mpair : ℂ) / (q : ℂ) := by push_cast; rfl
  rw [e4, e5, e6, e7]
  generalize ((mass * width * (mass / q0) : ℝ) : ℂ) = w
  generalize ((2 * a * q : ℝ) : ℂ) = y at *
  field_simp
  ring

end GooFit
