import Verif.Lemmas.KMatrixDet
import Mathlib.Tactic.FinCases
import Mathlib.Algebra.BigOperators.Field
import Mathlib.Tactic.NormNum
import Mathlib.Tactic.FieldSimp
import Mathlib.LinearAlgebra.Matrix.ToLinearEquiv

/-!
# C55: the K-matrix amplitude solves the coupled-channel equation

A user of `Lineshapes::kMatrix` or `Resonances::kMatrix` relies on the amplitude
being `Σ_v [(1 - i K ρ)⁻¹]_{1v} P_v` for the parameters they passed.
-/

set_option autoImplicit false

namespace GooFit

open Spec Matrix

section Field
variable {C : Type} [Field C] [DecidableEq C]

/-- **C55 (the inverse).**  For matrices of every size over every field, and for
every content of the caller's array: the inverse used by the K-matrix amplitude
is the inverse of the matrix when all leading principal minors differ from zero,
and is not finite (`none`) otherwise. -/
theorem C55_lu_inverse (n : Nat) (A F : Arr2 C) :
    (LeadingMinors A n → ∃ G, luInverse A n F = some G ∧
      block A n * block G n = 1 ∧ block G n * block A n = 1 ∧ block G n = (block A n)⁻¹) ∧
    (¬ LeadingMinors A n → luInverse A n F = none) := by
  have hiff := pivots_iff (luDecomposition_spec A n)
  constructor
  · intro h
    have hp := hiff.2 h
    refine ⟨luBack (luDecomposition A n).1 (luLinv (luDecomposition A n).2 n) n F, ?_, ?_, ?_, ?_⟩
    · unfold luInverse
      exact if_neg (by rintro ⟨i, hi, h0⟩; exact hp i (List.mem_range.1 hi) h0)
    · exact luBack_inverse A F n hp
    · exact mul_eq_one_comm.1 (luBack_inverse A F n hp)
    · exact (inv_eq_right_inv (luBack_inverse A F n hp)).symm
  · intro h
    unfold luInverse
    refine if_pos ?_
    by_contra hc
    refine h (hiff.1 fun i hi h0 => hc ⟨i, List.mem_range.2 hi, h0⟩)

/-- **C55 (the cofactor inverse).**  `inverse` returns the inverse exactly when
the determinant differs from zero, for matrices of every size and whatever the
uninitialised work arrays contain. -/
theorem C55_cofactor_inverse (n : Nat) (hn : 1 ≤ n) (junk A : Arr2 C) :
    ((block A n).det ≠ 0 → ∃ G, inverseM junk A n = some G ∧
      block A n * block G n = 1 ∧ block G n = (block A n)⁻¹) ∧
    ((block A n).det = 0 → inverseM junk A n = none) := by
  have hd := determinantN_eq junk n hn A
  constructor
  · intro h
    have hG : block (fun i j => if i < n ∧ j < n then adjointM junk A n i j / determinantN junk n A
        else junk i j) n = (block A n)⁻¹ := by
      ext i j
      rw [Matrix.inv_def, ← adjointM_eq junk A n hn]
      simp only [block, Matrix.of_apply, i.2, j.2, and_self, if_true, Matrix.smul_apply,
        smul_eq_mul, Ring.inverse_eq_inv']
      rw [hd, div_eq_inv_mul]
      rfl
    refine ⟨fun i j => if i < n ∧ j < n then adjointM junk A n i j / determinantN junk n A
        else junk i j, ?_, ?_, hG⟩
    · unfold inverseM
      exact if_neg (by rw [hd]; exact h)
    · rw [hG, Matrix.mul_nonsing_inv _ (isUnit_iff_ne_zero.2 h)]
  · intro h
    unfold inverseM
    exact if_pos (by rw [hd]; exact h)

end Field

/-- **C55, violation.**  The inverse used by the amplitude has no pivoting: for
every size from two up there is an invertible matrix it fails on. -/
theorem C55_violation_pivot (n : Nat) (hn : 2 ≤ n) :
    ∃ A : Arr2 ℚ, IsUnit (block A n) ∧ ∀ F, luInverse A n F = none := by
  -- the exchange of the first two indices
  let σ : Nat → Nat := fun i => if i = 0 then 1 else if i = 1 then 0 else i
  have hσ : ∀ i, i < n → σ i < n := by intro i hi; simp only [σ]; split <;> [omega; split <;> omega]
  have hσσ : ∀ i, σ (σ i) = i := by
    intro i; simp only [σ]; by_cases h0 : i = 0
    · simp [h0]
    · by_cases h1 : i = 1
      · simp [h1]
      · simp [h0, h1]
  refine ⟨fun i j => if σ i = j then 1 else 0, ?_, ?_⟩
  · have : block (fun i j => if σ i = j then (1 : ℚ) else 0) n
        * block (fun i j => if σ i = j then (1 : ℚ) else 0) n = 1 := by
      ext i j
      rw [Matrix.mul_apply]
      simp only [block, Matrix.of_apply]
      rw [Finset.sum_eq_single (⟨σ i, hσ i i.2⟩ : Fin n)]
      · simp only [if_true, one_mul, hσσ, Matrix.one_apply, Fin.ext_iff]
      · intro b _ hb
        rw [if_neg (fun h => hb (Fin.ext h.symm)), zero_mul]
      · intro h; exact absurd (Finset.mem_univ _) h
    exact IsUnit.of_mul_eq_one _ this
  · intro F
    refine (C55_lu_inverse n _ F).2 (fun h => h 1 le_rfl (by omega) ?_)
    simp [block, σ]

/-- The matrix of `getPropagator` written with Mathlib's matrices. -/
theorem block_tMatrix (kM : Arr2 ℝ) (rho : Nat → ℂ) (a : ℝ) (m : Nat) :
    block (tMatrix kM rho a) m
      = 1 - Complex.I • ((a • block kM m).map (fun x : ℝ => (x : ℂ))
          * diagonal (fun j : Fin m => rho j)) := by
  ext i j
  simp only [block, tMatrix, Matrix.of_apply, Matrix.sub_apply, Matrix.smul_apply,
    Matrix.mul_diagonal, Matrix.map_apply, Matrix.one_apply, smul_eq_mul, Fin.ext_iff]
  have : (⟨0, a⟩ : ℂ) = Complex.I * (a : ℂ) := by
    apply Complex.ext <;> simp
  rw [this]
  push_cast
  ring

/-- `1 - i K ρ` has no kernel when `K` is real and symmetric and `ρ` is real and
not negative. -/
theorem open_channels_det {m : Nat} (K : Matrix (Fin m) (Fin m) ℝ) (hK : K.IsSymm)
    (r : Fin m → ℝ) (hr : ∀ j, 0 ≤ r j) :
    (1 - Complex.I • (K.map (fun x : ℝ => (x : ℂ)) * diagonal (fun j => (r j : ℂ)))).det ≠ 0 := by
  intro h0
  obtain ⟨v, hv0, hv⟩ := Matrix.exists_mulVec_eq_zero_iff.2 h0
  -- v = i K w with w = ρ v
  have hvi : ∀ i, v i = Complex.I * ∑ j, (K i j : ℂ) * ((r j : ℂ) * v j) := by
    intro i
    have := congrFun hv i
    rw [Matrix.sub_mulVec, Matrix.one_mulVec, Matrix.smul_mulVec, Pi.sub_apply, Pi.smul_apply,
      Pi.zero_apply, sub_eq_zero, smul_eq_mul] at this
    rw [this]
    congr 1
    simp only [Matrix.mulVec, dotProduct, Matrix.mul_diagonal, Matrix.map_apply]
    exact Finset.sum_congr rfl fun j _ => by ring
  -- the quadratic form of K at w is real
  have hquad : (∑ i, (starRingEnd ℂ) ((r i : ℂ) * v i) * ∑ j, (K i j : ℂ) * ((r j : ℂ) * v j)).im = 0 := by
    apply Complex.conj_eq_iff_im.1
    rw [map_sum]
    simp only [map_mul, map_sum, Complex.conj_conj, Complex.conj_ofReal, Finset.mul_sum]
    rw [Finset.sum_comm]
    refine Finset.sum_congr rfl fun i _ => Finset.sum_congr rfl fun j _ => ?_
    rw [show K j i = K i j from by rw [← hK.apply i j]]
    ring
  have hsum : (∑ i, (starRingEnd ℂ) ((r i : ℂ) * v i) * v i)
      = Complex.I * ∑ i, (starRingEnd ℂ) ((r i : ℂ) * v i) * ∑ j, (K i j : ℂ) * ((r j : ℂ) * v j) := by
    rw [Finset.mul_sum]
    refine Finset.sum_congr rfl fun i _ => ?_
    conv_lhs => rw [hvi i]
    conv_rhs => rw [hvi i]
    ring
  have hre : (∑ i, (starRingEnd ℂ) ((r i : ℂ) * v i) * v i).re = ∑ i, r i * Complex.normSq (v i) := by
    rw [Complex.re_sum]
    refine Finset.sum_congr rfl fun i _ => ?_
    rw [map_mul, Complex.conj_ofReal, mul_assoc, Complex.re_ofReal_mul, mul_comm _ (v i),
      Complex.mul_conj, Complex.ofReal_re]
  have hzero : ∑ i, r i * Complex.normSq (v i) = 0 := by
    rw [← hre, hsum, Complex.mul_re, Complex.I_re, Complex.I_im, hquad]; ring
  have hterm := (Finset.sum_eq_zero_iff_of_nonneg
    (fun i _ => mul_nonneg (hr i) (Complex.normSq_nonneg _))).1 hzero
  have hw : ∀ i, (r i : ℂ) * v i = 0 := by
    intro i
    rcases mul_eq_zero.1 (hterm i (Finset.mem_univ i)) with h | h
    · rw [h]; simp
    · rw [Complex.normSq_eq_zero.1 h, mul_zero]
  refine hv0 (funext fun i => ?_)
  rw [hvi i]
  simp [hw]

/-- **C55 (open channels).**  With a real symmetric K-matrix of any size and all
channels open (real phase space, zero allowed), the propagator always exists and
is `(1 - i a K ρ)⁻¹`: no pivot can vanish. -/
theorem C55_open_channels (n : Nat) (kM : Arr2 ℝ) (hsym : ∀ i j, kM i j = kM j i)
    (r : Nat → ℝ) (hr : ∀ j, 0 ≤ r j) (a : ℝ) (F : Arr2 ℂ) :
    ∃ G, getPropagator kM (fun j => (r j : ℂ)) a n F = some G ∧
      block G n = (1 - Complex.I • ((a • block kM n).map (fun x : ℝ => (x : ℂ))
          * diagonal (fun j : Fin n => (r j : ℂ))))⁻¹ ∧
      block G n * (1 - Complex.I • ((a • block kM n).map (fun x : ℝ => (x : ℂ))
          * diagonal (fun j : Fin n => (r j : ℂ)))) = 1 := by
  classical
  have hl : LeadingMinors (tMatrix kM (fun j => (r j : ℂ)) a) n := by
    intro m _ _
    rw [block_tMatrix]
    refine open_channels_det _ ?_ (fun j => r j) (fun j => hr j)
    ext i j
    simp only [block, Matrix.transpose_apply, Matrix.smul_apply, Matrix.of_apply]
    rw [hsym]
  obtain ⟨G, h1, -, h2, h3⟩ := (C55_lu_inverse n (tMatrix kM (fun j => (r j : ℂ)) a) F).1 hl
  refine ⟨G, ?_, ?_, ?_⟩
  · unfold getPropagator
    convert h1
  · rw [h3, block_tMatrix]
  · rw [block_tMatrix] at h2; exact h2

/-! ## The amplitude -/

theorem phspTwoBody_eq (s a b : ℝ) : phspTwoBody s a b = rhoTwo a b s := by
  unfold phspTwoBody rhoTwo
  generalize 1 - (a + b) ^ 2 / s = x
  by_cases h : x > 0
  · rw [if_pos h]
    have : ((1 / 2 : ℂ)) = ((1 / 2 : ℝ) : ℂ) := by push_cast; rfl
    rw [this, ← Complex.ofReal_cpow h.le, ← Real.sqrt_eq_rpow]
    apply Complex.ext <;> simp
  · rw [if_neg h]
    have hx : x ≤ 0 := not_lt.1 h
    rw [Complex.ofReal_cpow_of_nonpos hx]
    have h2 : ((-(x : ℂ)) ^ (1 / 2 : ℂ)) = ((√(-x) : ℝ) : ℂ) := by
      rw [Real.sqrt_eq_rpow, Complex.ofReal_cpow (by linarith)]
      push_cast; rfl
    rw [h2]
    have h3 : Complex.exp (Real.pi * Complex.I * (1 / 2)) = Complex.I := by
      rw [show (Real.pi : ℂ) * Complex.I * (1 / 2) = ((Real.pi : ℂ) / 2) * Complex.I by ring,
        Complex.exp_mul_I, Complex.cos_pi_div_two, Complex.sin_pi_div_two]
      simp
    rw [h3]
    apply Complex.ext <;> simp

/-- **C55 (phase space).**  The square of a two-body factor is `1 - (a+b)²/s`
at every energy; above threshold it is real and not negative. -/
theorem C55_phase_space (s a b : ℝ) :
    phspTwoBody s a b = rhoTwo a b s ∧
    phspTwoBody s a b ^ 2 = ((1 - (a + b) ^ 2 / s : ℝ) : ℂ) ∧
    (0 < s → (a + b) ^ 2 ≤ s → ∃ r : ℝ, 0 ≤ r ∧ phspTwoBody s a b = (r : ℂ)) := by
  refine ⟨phspTwoBody_eq s a b, ?_, ?_⟩
  · rw [phspTwoBody_eq]
    unfold rhoTwo
    rw [← Complex.cpow_nat_mul]
    simp
  · intro hs hab
    unfold phspTwoBody
    have hx : 0 ≤ 1 - (a + b) ^ 2 / s := by
      have := (div_le_one hs).2 hab
      linarith
    by_cases h : 1 - (a + b) ^ 2 / s > 0
    · exact ⟨√(1 - (a + b) ^ 2 / s), Real.sqrt_nonneg _, by rw [if_pos h]; apply Complex.ext <;> simp⟩
    · refine ⟨0, le_rfl, ?_⟩
      have : 1 - (a + b) ^ 2 / s = 0 := le_antisymm (not_lt.1 h) hx
      rw [if_neg h, this]
      apply Complex.ext <;> simp

theorem kPhaseSpace_eq (s : ℝ) (j : Fin 5) :
    kPhaseSpace s j = kRho mPiPlus mKPlus mEta mEtap s j := by
  have h4 : phspFourPi s = rhoFourPi mPiPlus s := by
    unfold phspFourPi rhoFourPi
    by_cases h1 : s > 1
    · rw [if_pos h1, if_pos h1, phspTwoBody_eq]
    · rw [if_neg h1, if_neg h1]
      have hq : fourPiPoly s = 0.00051 - 0.01933 * s + 0.13851 * s ^ 2 - 0.20840 * s ^ 3
          - 0.29744 * s ^ 4 + 0.13655 * s ^ 5 + 1.07885 * s ^ 6 := by
        unfold fourPiPoly; ring
      rw [← hq]
      generalize fourPiPoly s = q
      by_cases h : q ≥ 0
      · rw [if_pos h, if_pos h]; apply Complex.ext <;> simp
      · rw [if_neg h, if_neg h]; apply Complex.ext <;> simp
  fin_cases j
  · exact phspTwoBody_eq s _ _
  · exact phspTwoBody_eq s _ _
  · exact h4
  · exact phspTwoBody_eq s _ _
  · exact phspTwoBody_eq s _ _

/-- The parameter list of the amplitude a user builds for the model `d`. -/
noncomputable def kArgs (d : KModel) : List ℝ :=
  registerKParams d.sA0 d.sA d.s0prod d.s0scat
    (List.ofFn fun i => (d.beta i).re) (List.ofFn fun i => (d.beta i).im)
    (List.ofFn fun i => (d.fprod i).re) (List.ofFn fun i => (d.fprod i).im)
    (List.ofFn d.fscat) d.poleList

/-- **C55 (parameters).**  Every parameter is read back from the place the
constructor registered it at. -/
theorem C55_parameters (d : KModel) :
    (readKParams (kArgs d)).sA0 = d.sA0 ∧ (readKParams (kArgs d)).sA = d.sA ∧
    (readKParams (kArgs d)).s0prod = d.s0prod ∧ (readKParams (kArgs d)).s0scatt = d.s0scat ∧
    (∀ i : Fin 5, (readKParams (kArgs d)).fscat i = d.fscat i) ∧
    (∀ i : Fin 5, (readKParams (kArgs d)).beta i = d.beta i) ∧
    (∀ i : Fin 5, (readKParams (kArgs d)).fprod i = d.fprod i) ∧
    (∀ i j : Fin 5, (readKParams (kArgs d)).couplings i j = d.g i j) ∧
    (∀ i : Fin 5, (readKParams (kArgs d)).pmasses i = d.mass i) := by
  refine ⟨rfl, rfl, rfl, rfl, fun i => ?_, fun i => ?_, fun i => ?_, fun i j => ?_, fun i => ?_⟩
  · fin_cases i <;> rfl
  · fin_cases i <;> rfl
  · fin_cases i <;> rfl
  · fin_cases i <;> fin_cases j <;> rfl
  · fin_cases i <;> rfl

theorem kEntry (d : KModel) (s : ℝ) (i j : Fin 5) :
    adlerTerm (readKParams (kArgs d)) s * constructKMatrix (readKParams (kArgs d)) s i j
      = d.K mPiPlus s i j := by
  obtain ⟨h1, h2, -, h4, h5, -, -, h8, h9⟩ := C55_parameters d
  have hsum : (List.range 5).foldl (fun a k => a + (readKParams (kArgs d)).couplings k i
        * (readKParams (kArgs d)).couplings k j / ((readKParams (kArgs d)).pmasses k ^ 2 - s)) 0
      = ∑ a, d.g a i * d.g a j / (d.mass a ^ 2 - s) := by
    rw [foldl_add_range, zero_add, Finset.sum_range]
    exact Finset.sum_congr rfl fun a _ => by rw [h8, h8, h9]
  have hf : (if (i : Nat) = 0 ∨ (j : Nat) = 0 then (readKParams (kArgs d)).fscat (i + j) else 0)
      = if i = 0 then d.fscat j else if j = 0 then d.fscat i else 0 := by
    by_cases hi : i = 0
    · rw [if_pos (Or.inl (by rw [hi]; rfl)), if_pos hi, hi]
      simp only [Fin.val_zero, zero_add]
      exact h5 j
    · rw [if_neg hi]
      have hi' : (i : Nat) ≠ 0 := fun h => hi (Fin.ext h)
      by_cases hj : j = 0
      · rw [if_pos (Or.inr (by rw [hj]; rfl)), if_pos hj, hj]
        simp only [Fin.val_zero, add_zero]
        exact h5 i
      · have hj' : (j : Nat) ≠ 0 := fun h => hj (Fin.ext h)
        rw [if_neg (by simp [hi', hj']), if_neg hj]
  have hk : constructKMatrix (readKParams (kArgs d)) s i j
      = ∑ a, d.g a i * d.g a j / (d.mass a ^ 2 - s)
        + (if i = 0 then d.fscat j else if j = 0 then d.fscat i else 0)
            * ((1 - d.s0scat) / (s - d.s0scat)) := by
    unfold constructKMatrix
    dsimp only
    rw [hsum, ← hf, h4]
    split
    · rw [mul_div_assoc]
    · simp
  rw [hk]
  unfold adlerTerm KModel.K
  rw [h1, h2]
  ring

theorem kOutput_eq (d : KModel) (s : ℝ) (F : Arr2 ℂ) :
    kOutput (readKParams (kArgs d)) s F = ∑ v : Fin 5, F 0 v * d.P s v := by
  obtain ⟨-, -, h3, -, -, h6, h7, h8, h9⟩ := C55_parameters d
  have hterm : kOutput (readKParams (kArgs d)) s F
      = ∑ p : Fin 5, (d.beta p * ((∑ i : Fin 5, F 0 i * (d.g p i : ℂ)) / ((d.mass p ^ 2 - s : ℝ) : ℂ))
          + d.fprod p * (F 0 p * ((1 - d.s0prod : ℝ) : ℂ) / ((s - d.s0prod : ℝ) : ℂ))) := by
    unfold kOutput
    dsimp only
    simp only [foldl_add_range, zero_add, add_assoc]
    rw [Finset.sum_range]
    refine Finset.sum_congr rfl fun p _ => ?_
    rw [h3, h6, h7, h9, Finset.sum_range]
    congr 3
    exact Finset.sum_congr rfl fun i _ => by rw [h8]
  rw [hterm, Finset.sum_add_distrib]
  unfold KModel.P
  simp only [mul_add, Finset.sum_add_distrib]
  congr 1
  · simp only [Finset.mul_sum, Finset.sum_div]
    rw [Finset.sum_comm]
    exact Finset.sum_congr rfl fun v _ => Finset.sum_congr rfl fun p _ => by ring
  · refine Finset.sum_congr rfl fun v _ => ?_
    push_cast
    ring

theorem kT_eq (d : KModel) (s : ℝ) (m : Nat) (hm : m ≤ 5) :
    block (tMatrix (constructKMatrix (readKParams (kArgs d)) s) (kPhaseSpace s)
        (adlerTerm (readKParams (kArgs d)) s)) m
      = block (d.T mPiPlus (kRho mPiPlus mKPlus mEta mEtap s) s) m := by
  ext i j
  have hi : (i : Nat) < 5 := lt_of_lt_of_le i.2 hm
  have hj : (j : Nat) < 5 := lt_of_lt_of_le j.2 hm
  have h1 := kEntry d s ⟨i, hi⟩ ⟨j, hj⟩
  have h2 := kPhaseSpace_eq s ⟨j, hj⟩
  dsimp only at h1 h2
  simp only [block, Matrix.of_apply, KModel.T, dif_pos (And.intro hi hj), Matrix.sub_apply,
    Matrix.smul_apply, Matrix.mul_diagonal, Matrix.map_apply, Matrix.one_apply, smul_eq_mul,
    Fin.mk.injEq, tMatrix]
  rw [← h1, ← h2]
  have : (⟨0, adlerTerm (readKParams (kArgs d)) s⟩ : ℂ)
      = Complex.I * (adlerTerm (readKParams (kArgs d)) s : ℂ) := by
    apply Complex.ext <;> simp
  rw [this]
  push_cast
  ring

theorem block_T (d : KModel) (rho : Chan → ℂ) (mpi s : ℝ) :
    block (d.T mpi rho s) 5
      = 1 - Complex.I • ((d.K mpi s).map (fun x : ℝ => (x : ℂ)) * diagonal rho) := by
  ext i j
  simp [block, KModel.T]

/-- **C55 (the amplitude, wherever the elimination succeeds).**  For every
K-matrix model and every energy at which the leading minors of `1 - i K ρ`
differ from zero, the amplitude is `Σ_v [(1 - i K ρ)⁻¹]_{1v} P_v`; where one of
them vanishes the code has no finite answer. -/
theorem C55_amplitude (d : KModel) (s : ℝ) :
    (LeadingMinors (d.T mPiPlus (kRho mPiPlus mKPlus mEta mEtap s) s) 5 →
      kMatrixAmp (readKParams (kArgs d)) s
        = some (d.amplitude mPiPlus (kRho mPiPlus mKPlus mEta mEtap s) s)) ∧
    (¬ LeadingMinors (d.T mPiPlus (kRho mPiPlus mKPlus mEta mEtap s) s) 5 →
      kMatrixAmp (readKParams (kArgs d)) s = none) := by
  classical
  have hiff : LeadingMinors (tMatrix (constructKMatrix (readKParams (kArgs d)) s) (kPhaseSpace s)
        (adlerTerm (readKParams (kArgs d)) s)) 5
      ↔ LeadingMinors (d.T mPiPlus (kRho mPiPlus mKPlus mEta mEtap s) s) 5 := by
    constructor <;> intro h m h1 h2
    · rw [← kT_eq d s m h2]; exact h m h1 h2
    · rw [kT_eq d s m h2]; exact h m h1 h2
  have hlu := C55_lu_inverse 5 (tMatrix (constructKMatrix (readKParams (kArgs d)) s) (kPhaseSpace s)
        (adlerTerm (readKParams (kArgs d)) s)) zero2
  have hgp : getPropagator (constructKMatrix (readKParams (kArgs d)) s) (kPhaseSpace s)
        (adlerTerm (readKParams (kArgs d)) s) 5 zero2
      = luInverse (tMatrix (constructKMatrix (readKParams (kArgs d)) s) (kPhaseSpace s)
        (adlerTerm (readKParams (kArgs d)) s)) 5 zero2 := by
    unfold getPropagator
    congr
  constructor
  · intro h
    obtain ⟨G, h1, -, -, h3⟩ := hlu.1 (hiff.2 h)
    unfold kMatrixAmp
    rw [hgp, h1, Option.map_some, kOutput_eq]
    congr 1
    unfold KModel.amplitude
    refine Finset.sum_congr rfl fun v _ => ?_
    rw [← block_T, ← kT_eq d s 5 le_rfl, ← h3]
    rfl
  · intro h
    unfold kMatrixAmp
    rw [hgp, hlu.2 (fun h' => h (hiff.1 h')), Option.map_none]

/-- **C55 (above the thresholds).**  At every energy above the ηη' threshold the
amplitude of the lineshape and of the resonance is
`Σ_v [(1 - i K ρ)⁻¹]_{1v} P_v`, for every choice of parameters. -/
theorem C55_amplitude_open (d : KModel) (m : ℝ) (hm : (mEta + mEtap) ^ 2 ≤ m ^ 2) :
    kMatrixLineshape (kArgs d) m
      = some (d.amplitude mPiPlus (kRho mPiPlus mKPlus mEta mEtap (m ^ 2)) (m ^ 2)) ∧
    (∀ m12 m13, kMatrixResonance (kArgs d) 2 m12 m13 (m ^ 2) = kMatrixLineshape (kArgs d) m) ∧
    (∀ m12 m23, kMatrixResonance (kArgs d) 1 m12 (m ^ 2) m23 = kMatrixLineshape (kArgs d) m) ∧
    (∀ m13 m23, kMatrixResonance (kArgs d) 0 (m ^ 2) m13 m23 = kMatrixLineshape (kArgs d) m) := by
  refine ⟨?_, fun _ _ => rfl, fun _ _ => rfl, fun _ _ => rfl⟩
  refine (C55_amplitude d (m ^ 2)).1 ?_
  set s := m ^ 2 with hs
  have h2 : (2.29 : ℝ) ≤ s := by
    refine le_trans ?_ hm
    unfold mEta mEtap; norm_num
  have hpos : 0 < s := by linarith
  have hreal : ∀ j : Fin 5, ∃ r : ℝ, 0 ≤ r ∧ kRho mPiPlus mKPlus mEta mEtap s j = (r : ℂ) := by
    have hb : ∀ a b : ℝ, (a + b) ^ 2 ≤ 2.29 → ∃ r : ℝ, 0 ≤ r ∧ rhoTwo a b s = (r : ℂ) := by
      intro a b hab
      rw [← phspTwoBody_eq]
      exact (C55_phase_space s a b).2.2 hpos (hab.trans h2)
    intro j
    fin_cases j
    · exact hb _ _ (by unfold mPiPlus; norm_num)
    · exact hb _ _ (by unfold mKPlus; norm_num)
    · show ∃ r : ℝ, 0 ≤ r ∧ rhoFourPi mPiPlus s = (r : ℂ)
      unfold rhoFourPi
      rw [if_pos (by linarith)]
      exact hb _ _ (by unfold mPiPlus; norm_num)
    · exact hb _ _ (by unfold mEta; norm_num)
    · show ∃ r : ℝ, 0 ≤ r ∧ rhoTwo mEta mEtap s = (r : ℂ)
      rw [← phspTwoBody_eq]
      exact (C55_phase_space s _ _).2.2 hpos hm
  choose r hr0 hr using hreal
  intro k _ hk
  have hblk : block (d.T mPiPlus (kRho mPiPlus mKPlus mEta mEtap s) s) k
      = 1 - Complex.I • (((d.K mPiPlus s).submatrix (Fin.castLE hk) (Fin.castLE hk)).map
          (fun x : ℝ => (x : ℂ)) * diagonal (fun j => ((r (Fin.castLE hk j) : ℝ) : ℂ))) := by
    ext i j
    have hi : (i : Nat) < 5 := lt_of_lt_of_le i.2 hk
    have hj : (j : Nat) < 5 := lt_of_lt_of_le j.2 hk
    simp only [block, Matrix.of_apply, KModel.T, dif_pos (And.intro hi hj), Matrix.sub_apply,
      Matrix.smul_apply, Matrix.mul_diagonal, Matrix.map_apply, Matrix.one_apply, smul_eq_mul,
      Fin.mk.injEq, Matrix.submatrix_apply, hr, Fin.ext_iff]
    rfl
  rw [hblk]
  refine open_channels_det _ ?_ _ (fun j => hr0 _)
  refine Matrix.IsSymm.submatrix ?_ _
  ext i j
  simp only [Matrix.transpose_apply, KModel.K]
  congr 1
  congr 1
  · exact Finset.sum_congr rfl fun a _ => by rw [mul_comm (d.g a j)]
  · congr 1
    by_cases hi : i = 0 <;> by_cases hj : j = 0 <;> simp [hi, hj]

/-- One pole of mass `mK` coupled with strength `mK` to the K K̄ and ηη channels. -/
noncomputable def pivotModel : KModel where
  mass _ := mKPlus
  g a v := if a = 0 ∧ (v = 1 ∨ v = 3) then mKPlus else 0
  fscat _ := 0
  s0scat := 0
  sA := 0
  sA0 := 0
  beta _ := 1
  fprod _ := 0
  s0prod := 0

theorem pivotModel_T :
    ∃ r : ℝ, r ≠ 0 ∧
      block (pivotModel.T mPiPlus (kRho mPiPlus mKPlus mEta mEtap (2 * mKPlus ^ 2)) (2 * mKPlus ^ 2)) 5
        = !![1, 0, 0, 0, 0; 0, 0, 0, -(r : ℂ), 0; 0, 0, 1, 0, 0; 0, -1, 0, 1 - (r : ℂ), 0;
            0, 0, 0, 0, 1] := by
  have hK2 : mKPlus ^ 2 ≠ 0 := by unfold mKPlus; norm_num
  have hK2s : (2 * mKPlus ^ 2 : ℝ) ≠ 0 := by unfold mKPlus; norm_num
  have hKent : ∀ u v : Fin 5, pivotModel.K mPiPlus (2 * mKPlus ^ 2) u v
      = if (u = 1 ∨ u = 3) ∧ (v = 1 ∨ v = 3) then -1 else 0 := by
    intro u v
    have hfac : (1 - pivotModel.sA0) / (2 * mKPlus ^ 2 - pivotModel.sA0)
        * (2 * mKPlus ^ 2 - pivotModel.sA * mPiPlus ^ 2 / 2) = 1 := by
      simp only [pivotModel]
      rw [zero_mul, zero_div, sub_zero, sub_zero, one_div, inv_mul_cancel₀ hK2s]
    unfold KModel.K
    rw [hfac, mul_one, Fin.sum_univ_five]
    have hd : mKPlus * mKPlus / (mKPlus ^ 2 - 2 * mKPlus ^ 2) = -1 := by
      rw [show mKPlus ^ 2 - 2 * mKPlus ^ 2 = -(mKPlus ^ 2) by ring, div_neg, ← pow_two,
        div_self hK2]
    by_cases hu : u = 1 ∨ u = 3 <;> by_cases hv : v = 1 ∨ v = 3 <;>
      simp [pivotModel, hu, hv, hd]
  have hr1 : kRho mPiPlus mKPlus mEta mEtap (2 * mKPlus ^ 2) 1 = Complex.I := by
    show rhoTwo mKPlus mKPlus (2 * mKPlus ^ 2) = _
    rw [← phspTwoBody_eq]
    unfold phspTwoBody
    have : 1 - (mKPlus + mKPlus) ^ 2 / (2 * mKPlus ^ 2) = -1 := by
      rw [show (mKPlus + mKPlus) ^ 2 = 2 * (2 * mKPlus ^ 2) by ring, mul_div_assoc,
        div_self hK2s]
      norm_num
    rw [this, if_neg (by norm_num)]
    apply Complex.ext <;> simp
  obtain ⟨r, hr0, hr3⟩ : ∃ r : ℝ, r ≠ 0 ∧
      kRho mPiPlus mKPlus mEta mEtap (2 * mKPlus ^ 2) 3 = (r : ℂ) * Complex.I := by
    refine ⟨√(-(1 - (mEta + mEta) ^ 2 / (2 * mKPlus ^ 2))), ?_, ?_⟩
    · refine Real.sqrt_ne_zero'.2 ?_
      unfold mEta mKPlus; norm_num
    · show rhoTwo mEta mEta (2 * mKPlus ^ 2) = _
      rw [← phspTwoBody_eq]
      unfold phspTwoBody
      rw [if_neg (by unfold mEta mKPlus; norm_num)]
      apply Complex.ext <;> simp
  refine ⟨r, hr0, ?_⟩
  rw [block_T]
  have hent : ∀ i j : Fin 5, (1 - Complex.I • ((pivotModel.K mPiPlus (2 * mKPlus ^ 2)).map
        (fun x : ℝ => (x : ℂ)) * diagonal (kRho mPiPlus mKPlus mEta mEtap (2 * mKPlus ^ 2)))) i j
      = (if i = j then 1 else 0) - Complex.I * (((if (i = 1 ∨ i = 3) ∧ (j = 1 ∨ j = 3) then -1 else 0 : ℝ) : ℂ)
          * kRho mPiPlus mKPlus mEta mEtap (2 * mKPlus ^ 2) j) := by
    intro i j
    simp only [Matrix.sub_apply, Matrix.smul_apply, Matrix.mul_diagonal, Matrix.map_apply,
      Matrix.one_apply, smul_eq_mul, hKent]
  have hII : Complex.I * (r * Complex.I) = -(r : ℂ) := by
    rw [mul_comm (r : ℂ), ← mul_assoc, Complex.I_mul_I]; ring
  ext i j
  rw [hent]
  fin_cases i <;> fin_cases j <;>
    simp [hr1, hr3, Complex.I_mul_I, hII, sub_eq_add_neg]

/-- **C55, violation (the amplitude).**  A K-matrix model and an energy in the
physical ππ region (0.698 GeV) at which `1 - i K ρ` is invertible, so the
amplitude is well defined, but the code divides by a zero pivot. -/
theorem C55_violation_amplitude :
    (2 * mPiPlus) ^ 2 < 2 * mKPlus ^ 2 ∧
    IsUnit (1 - Complex.I • ((pivotModel.K mPiPlus (2 * mKPlus ^ 2)).map (fun x : ℝ => (x : ℂ))
        * diagonal (kRho mPiPlus mKPlus mEta mEtap (2 * mKPlus ^ 2)))) ∧
    kMatrixAmp (readKParams (kArgs pivotModel)) (2 * mKPlus ^ 2) = none := by
  obtain ⟨r, hr0, hT⟩ := pivotModel_T
  refine ⟨by unfold mPiPlus mKPlus; norm_num, ?_, ?_⟩
  · rw [← block_T, hT]
    have hr : (r : ℂ) ≠ 0 := by exact_mod_cast hr0
    refine IsUnit.of_mul_eq_one !![1, 0, 0, 0, 0; 0, ((r : ℂ) - 1) / r, 0, -1, 0; 0, 0, 1, 0, 0;
      0, -1 / (r : ℂ), 0, 0, 0; 0, 0, 0, 0, 1] ?_
    ext i j
    fin_cases i <;> fin_cases j <;>
      simp [Matrix.mul_apply, Fin.sum_univ_five] <;> field_simp <;> ring
  · refine (C55_amplitude pivotModel _).2 (fun h => h 2 (by norm_num) (by norm_num) ?_)
    have hent : ∀ i j : Fin 2, block (pivotModel.T mPiPlus
        (kRho mPiPlus mKPlus mEta mEtap (2 * mKPlus ^ 2)) (2 * mKPlus ^ 2)) 2 i j
        = block (pivotModel.T mPiPlus
        (kRho mPiPlus mKPlus mEta mEtap (2 * mKPlus ^ 2)) (2 * mKPlus ^ 2)) 5
          (Fin.castLE (by norm_num) i) (Fin.castLE (by norm_num) j) := fun i j => rfl
    rw [Matrix.det_fin_two, hent, hent, hent, hent, hT]
    simp

/-! ## Non-vacuity -/

/-- The hypothesis of `C55_amplitude_open` is met, e.g. at 2 GeV. -/
example : (mEta + mEtap) ^ 2 ≤ (2 : ℝ) ^ 2 := by unfold mEta mEtap; norm_num

/-- `LeadingMinors` is met by a matrix that is neither diagonal nor triangular. -/
example : LeadingMinors (fun i j => if i = j then (2 : ℚ) else 1) 2 := by
  intro m h1 h2
  rcases (by omega : m = 1 ∨ m = 2) with rfl | rfl
  · simp [block]
  · simp [block, Matrix.det_fin_two]; norm_num

end GooFit
