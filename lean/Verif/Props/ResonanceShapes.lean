import Verif.Props.Resonance
import Mathlib.Analysis.SpecialFunctions.Log.Deriv
import Mathlib.Analysis.SpecialFunctions.Sqrt
import Mathlib.Analysis.Complex.Trigonometric
import Mathlib.Analysis.Complex.ExponentialBounds

/-!
# C58-C61: Gounaris-Sakurai, LASS, Flatté and rho-omega shapes
-/

set_option autoImplicit false

namespace GooFit

open Spec

/-! ## C58: Gounaris-Sakurai -/

theorem gsPi_pos : 0 < gsPi := by norm_num [gsPi]

theorem I_mul_real (v : ℝ) : Complex.I * (v : ℂ) = ⟨0, v⟩ := by
  apply Complex.ext <;> simp

/-- Momentum of two particles of equal mass above threshold. -/
theorem cmmom_equal (m s : ℝ) (hs : 4 * m ^ 2 < s) :
    twoBodyCMmom s m m = √(s - 4 * m ^ 2) / 2 := by
  have hs0 : 0 < s := by nlinarith [sq_nonneg m]
  have h1 : 1 - (m + m) * (m + m) / s = (s - 4 * m ^ 2) / s := by field_simp; ring
  have h2 : 0 ≤ (s - 4 * m ^ 2) / s := div_nonneg (by linarith) hs0.le
  unfold twoBodyCMmom
  dsimp only
  rw [h1, if_pos h2, sub_self, mul_zero, zero_div, sub_zero, if_pos zero_le_one, Real.sqrt_one,
    mul_one, Real.sqrt_div (by linarith)]
  have := Real.sqrt_pos.2 hs0
  field_simp
  ring

/-- **C58 (the derivative).**  For daughters of equal mass, above threshold, the
function used as the derivative of `h` is its derivative. -/
theorem C58_derivative (m s : ℝ) (hm : 0 < m) (hs : 4 * m ^ 2 < s) :
    HasDerivAt (fun t => hFun t m m) (dhdsFun s m m) s := by
  have hs0 : 0 < s := by nlinarith [sq_nonneg m]
  have hk0 : 0 < s - 4 * m ^ 2 := by linarith
  set k := √(s - 4 * m ^ 2) / 2 with hk
  have hkpos : 0 < k := by have := Real.sqrt_pos.2 hk0; positivity
  have hr : 0 < √s := Real.sqrt_pos.2 hs0
  have hr2 : √s ^ 2 = s := Real.sq_sqrt hs0.le
  have hpi := gsPi_pos
  -- derivative of the explicit function
  have dk : HasDerivAt (fun t => √(t - 4 * m ^ 2) / 2) (1 / (8 * k)) s := by
    have h1 : HasDerivAt (fun t : ℝ => t - 4 * m ^ 2) 1 s := (hasDerivAt_id' s).sub_const _
    have h2 := (h1.sqrt hk0.ne').div_const 2
    refine h2.congr_deriv ?_
    have hk2 : √(s - 4 * m ^ 2) = 2 * k := by rw [hk]; ring
    rw [hk2]; field_simp; norm_num
  have dr : HasDerivAt (fun t => √t) (1 / (2 * √s)) s := Real.hasDerivAt_sqrt hs0.ne'
  have dq := dk.div dr hr.ne'
  have dl := ((dr.add (dk.const_mul 2)).div_const (m + m)).log (by
    have : 0 < (√s + 2 * k) / (m + m) := by positivity
    exact this.ne')
  have dd := (dq.const_mul (2 / gsPi)).mul dl
  have heq : (fun t => hFun t m m) =ᶠ[nhds s] fun t => 2 / gsPi * (√(t - 4 * m ^ 2) / 2 / √t)
      * Real.log ((√t + 2 * (√(t - 4 * m ^ 2) / 2)) / (m + m)) := by
    filter_upwards [Ioi_mem_nhds hs] with t ht
    unfold hFun
    dsimp only
    rw [cmmom_equal m t ht]
  refine HasDerivAt.congr_of_eventuallyEq ?_ heq
  refine HasDerivAt.congr_deriv dd ?_
  unfold dhdsFun hFun
  dsimp only
  rw [cmmom_equal m s hs]
  simp only [← hk, Pi.add_apply, Pi.mul_apply, Pi.div_apply]
  generalize Real.log ((√s + 2 * k) / (m + m)) = L
  rw [← hr2]
  simp only [Real.sqrt_sq hr.le]
  generalize √s = r at hr
  clear hr2 dl dd dq dr dk heq hk
  have : r + 2 * k ≠ 0 := by positivity
  rw [show (8.0 : ℝ) = 8 by norm_num, show (2.0 : ℝ) = 2 by norm_num, show (1.0 : ℝ) = 1 by norm_num]
  field_simp
  ring

/-- Above threshold `hFun` and the momentum of equal daughters in one statement,
as used below. -/
theorem gs_mass_shift (m m0 Γ0 : ℝ) (hm : 0 < m) (h0 : 4 * m ^ 2 < m0 ^ 2) :
    HasDerivAt (fun t => fsFun t (m0 ^ 2) Γ0 m m) 0 (m0 ^ 2) := by
  have dh := C58_derivative m (m0 ^ 2) hm h0
  have hk0 : 0 < m0 ^ 2 - 4 * m ^ 2 := by linarith
  have hk2 (t : ℝ) (ht : 4 * m ^ 2 < t) : twoBodyCMmom t m m * twoBodyCMmom t m m = (t - 4 * m ^ 2) / 4 := by
    rw [cmmom_equal m t ht, div_mul_div_comm, Real.mul_self_sqrt (by linarith)]; norm_num
  have dk : HasDerivAt (fun t : ℝ => (t - 4 * m ^ 2) / 4) (1 / 4) (m0 ^ 2) :=
    ((hasDerivAt_id' (m0 ^ 2)).sub_const _).div_const 4
  have dd := ((dk.mul (dh.sub_const (hFun (m0 ^ 2) m m))).add
    ((((hasDerivAt_id' (m0 ^ 2)).const_sub (m0 ^ 2)).mul_const ((m0 ^ 2 - 4 * m ^ 2) / 4)).mul_const
      (dhdsFun (m0 ^ 2) m m))).const_mul
      (Γ0 * m0 ^ 2 / (twoBodyCMmom (m0 ^ 2) m m * twoBodyCMmom (m0 ^ 2) m m * twoBodyCMmom (m0 ^ 2) m m))
  refine HasDerivAt.congr_of_eventuallyEq (HasDerivAt.congr_deriv dd ?_) ?_
  · simp only [sub_self]; ring
  · filter_upwards [Ioi_mem_nhds h0] with t ht
    unfold fsFun
    dsimp only [Pi.add_apply, Pi.mul_apply]
    rw [hk2 t ht, hk2 _ h0]

/-- **C58 (partial).**  For a resonance that decays to daughters 2 and 3, of equal
mass, the denominator of the Gounaris-Sakurai amplitude crosses its zero at the
nominal mass with the slope of a Breit-Wigner: the mass shift `f` vanishes there
together with its derivative.  The amplitude there is imaginary,
`i (1 + d Γ0/m0) / (m0 Γ0)` times the angular factor, with normalised form
factors.  Missing: pairs other than 2-3, for which the masses of daughters 2 and 3
are used all the same (`C58_violation_pair`), and the flag for symmetric
amplitudes (`C58_violation_symmetric`). -/
theorem C58_gs_partial (m m0 Γ0 : ℝ) (hm : 0 < m) (hm0 : 0 < m0) (h0 : 4 * m ^ 2 < m0 ^ 2) :
    (fsFun (m0 ^ 2) (m0 ^ 2) Γ0 m m = 0
    ∧ HasDerivAt (fun s => m0 ^ 2 - s + fsFun s (m0 ^ 2) Γ0 m m) (-1) (m0 ^ 2))
    ∧ ∀ (c : DalitzCtx) (L : Nat) (sym : Bool) (m12 m13 : ℝ), c.d2 = m → c.d3 = m →
        resGS c L 2 true sym m0 Γ0 m12 m13 (m0 ^ 2)
          = Complex.I * (((1 + gsD gsPi m m0 (√(m0 ^ 2 - 4 * m ^ 2) / 2) * Γ0 / m0) / (m0 * Γ0) : ℝ) : ℂ)
            * (spinFactorDalitz L c.mother c.d1 m m m12 m13 (m0 ^ 2) 2 : ℝ) := by
  have hf0 : fsFun (m0 ^ 2) (m0 ^ 2) Γ0 m m = 0 := by unfold fsFun; dsimp only; ring
  refine ⟨⟨hf0, ?_⟩, ?_⟩
  · have := ((hasDerivAt_id' (m0 ^ 2)).const_sub (m0 ^ 2)).add (gs_mass_shift m m0 Γ0 hm h0)
    exact this.congr_deriv (by ring)
  · intro c L sym m12 m13 h2 h3
    have hk := cmmom_equal m (m0 ^ 2) h0
    have hkpos : 0 < √(m0 ^ 2 - 4 * m ^ 2) / 2 := by
      have := Real.sqrt_pos.2 (show 0 < m0 ^ 2 - 4 * m ^ 2 by linarith); positivity
    have hd : dFun (m0 ^ 2) m m = gsD gsPi m m0 (√(m0 ^ 2 - 4 * m ^ 2) / 2) := by
      have hpi := gsPi_pos
      unfold dFun gsD
      dsimp only
      rw [hk, Real.sqrt_sq hm0.le, show (m + m) = 2 * m by ring]
      generalize √(m0 ^ 2 - 4 * m ^ 2) / 2 = k at *
      rw [show (3.0 : ℝ) = 3 by norm_num, show (4.0 : ℝ) = 4 by norm_num]
      field_simp
      ring
    unfold resGS
    simp only [pairMassSq, pairDaug1, pairDaug2, pairBachelor, h2, h3, ← pow_two]
    norm_num only
    simp only [if_true, if_false]
    rw [frFactor_self, frFactorMother_self, Real.sqrt_one, hf0, hd, hk, div_self hkpos.ne',
      Real.sqrt_sq hm0.le, one_pow]
    generalize gsD gsPi m m0 (√(m0 ^ 2 - 4 * m ^ 2) / 2) = d
    congr 1
    rw [I_mul_real]
    apply Complex.ext
    · simp
    · simp
      by_cases hΓ : Γ0 = 0
      · simp [hΓ]
      · field_simp

/-- A rho meson: daughters of mass 3/10, nominal mass 1. -/
example (Γ0 : ℝ) := C58_gs_partial (3 / 10) 1 Γ0 (by norm_num) one_pos (by norm_num)

/-- The functions of the program are those of the textbook. -/
theorem hFun_eq (m s : ℝ) (hs : 4 * m ^ 2 < s) : hFun s m m = gsH gsPi m s := by
  unfold hFun gsH
  dsimp only
  rw [cmmom_equal m s hs, two_mul m]

theorem gsH_deriv (m s : ℝ) (hm : 0 < m) (hs : 4 * m ^ 2 < s) : deriv (gsH gsPi m) s = dhdsFun s m m := by
  refine HasDerivAt.deriv ((C58_derivative m s hm hs).congr_of_eventuallyEq ?_)
  filter_upwards [Ioi_mem_nhds hs] with t ht
  exact (hFun_eq m t ht).symm

theorem fsFun_eq (m m0 Γ0 s : ℝ) (hm : 0 < m) (hs : 4 * m ^ 2 < s) (h0 : 4 * m ^ 2 < m0 ^ 2) :
    fsFun s (m0 ^ 2) Γ0 m m = gsF gsPi m m0 Γ0 s := by
  unfold fsFun gsF
  dsimp only
  rw [hFun_eq m s hs, hFun_eq m _ h0, gsH_deriv m _ hm h0, cmmom_equal m s hs, cmmom_equal m _ h0]
  ring

theorem dFun_eq (m m0 : ℝ) (hm : 0 < m) (hm0 : 0 < m0) (h0 : 4 * m ^ 2 < m0 ^ 2) :
    dFun (m0 ^ 2) m m = gsD gsPi m m0 (√(m0 ^ 2 - 4 * m ^ 2) / 2) := by
  have hkpos : 0 < √(m0 ^ 2 - 4 * m ^ 2) / 2 := by
    have := Real.sqrt_pos.2 (show 0 < m0 ^ 2 - 4 * m ^ 2 by linarith); positivity
  have hpi := gsPi_pos
  unfold dFun gsD
  dsimp only
  rw [cmmom_equal m (m0 ^ 2) h0, Real.sqrt_sq hm0.le, show (m + m) = 2 * m by ring]
  generalize √(m0 ^ 2 - 4 * m ^ 2) / 2 = k at *
  rw [show (3.0 : ℝ) = 3 by norm_num, show (4.0 : ℝ) = 4 by norm_num]
  field_simp
  ring

/-- **C58, partial (the amplitude).**  For a P-wave resonance that decays to
daughters 2 and 3, of equal mass, with normalised form factors, the amplitude is
the one of Gounaris and Sakurai with the width `Γ0 (k/k0)³` times the squared
barrier factor, times the barrier factors and the angular factor.  Missing: the
running width lacks the factor `m0/√s` (`C58_violation_width`); the other pairs
(`C58_violation_pair`). -/
theorem C58_amplitude_partial (c : DalitzCtx) (sym : Bool) (m m0 Γ0 m12 m13 s : ℝ) (hm : 0 < m) (hd2 : c.d2 = m)
    (hd3 : c.d3 = m) (hd1 : 0 ≤ c.d1) (hs : 4 * m ^ 2 < s) (hm0 : 0 < m0) (h0 : 4 * m ^ 2 < m0 ^ 2)
    (hin : √s + c.d1 < c.mother) (hin0 : m0 + c.d1 < c.mother) :
    let k := √(s - 4 * m ^ 2) / 2
    let k0 := √(m0 ^ 2 - 4 * m ^ 2) / 2
    let F2 := barrierNormSq 1 ((c.radius * k0) ^ 2) ((c.radius * k) ^ 2)
    let FM2 := barrierNormSq 1 ((c.motherRadius * (m0 ^ 2 / (2 * c.mother))) ^ 2)
      ((c.motherRadius * (s / (2 * c.mother))) ^ 2)
    resGS c 1 2 true sym m0 Γ0 m12 m13 s
      = gounarisSakurai gsPi m m0 Γ0 s (Γ0 * (k / k0) ^ 3 * F2) * (√F2 : ℝ) * (√FM2 : ℝ)
        * (spinFactorDalitz 1 c.mother c.d1 m m m12 m13 s 2 : ℝ) := by
  intro k k0 F2 FM2
  have hs0 : 0 < s := by nlinarith [sq_nonneg m]
  have hF : frFactorOf c 1 true k0 k = F2 := (C57_form_factor 1 (by omega) c.radius k k0).1
  have hFM : frFactorMotherOf c 1 true s (m0 ^ 2) c.d1 = FM2 := by
    unfold frFactorMotherOf
    rw [if_pos (by norm_num), if_pos rfl, mothermom_eq s c.mother _ hs0 hd1 hin,
      mothermom_eq (m0 ^ 2) c.mother _ (by positivity) hd1 (by rw [Real.sqrt_sq hm0.le]; exact hin0)]
    exact (C57_form_factor 1 (by omega) c.motherRadius (s / (2 * c.mother)) (m0 ^ 2 / (2 * c.mother))).1
  unfold resGS
  simp only [pairMassSq, pairDaug1, pairDaug2, pairBachelor, hd2, hd3, ← pow_two]
  norm_num only
  simp only [if_true, if_false]
  rw [dFun_eq m m0 hm hm0 h0, fsFun_eq m m0 Γ0 s hm hs h0, cmmom_equal m s hs, cmmom_equal m _ h0]
  rw [show frFactorOf c 1 true (√(m0 ^ 2 - 4 * m ^ 2) / 2) (√(s - 4 * m ^ 2) / 2) = F2 from hF, hFM,
    Real.sqrt_sq hm0.le]
  congr 3
  unfold gounarisSakurai
  rw [mul_assoc m0 Γ0, mul_assoc m0 (Γ0 * _)]
  show (⟨_ / ((m0 ^ 2 - s + gsF gsPi m m0 Γ0 s) ^ 2 + (m0 * (Γ0 * (k / k0) ^ 3 * F2)) ^ 2)
    * (m0 ^ 2 - s + gsF gsPi m m0 Γ0 s), _ / ((m0 ^ 2 - s + gsF gsPi m m0 Γ0 s) ^ 2
    + (m0 * (Γ0 * (k / k0) ^ 3 * F2)) ^ 2) * (m0 * (Γ0 * (k / k0) ^ 3 * F2))⟩ : ℂ) = _
  generalize m0 ^ 2 - s + gsF gsPi m m0 Γ0 s = E
  generalize m0 * (Γ0 * (k / k0) ^ 3 * F2) = F
  generalize 1 + gsD gsPi m m0 (√(m0 ^ 2 - 4 * m ^ 2) / 2) * Γ0 / m0 = D
  apply Complex.ext
  · rw [Complex.div_re]
    simp [Complex.normSq_apply]
    ring
  · rw [Complex.div_im]
    simp [Complex.normSq_apply]
    ring

/-- **C58, violation (width).**  Away from the nominal mass the amplitude is not the
one of Gounaris and Sakurai with the running width `Γ0 (k/k0)³ (m0/√s)` times the
squared barrier factor (the width the Breit-Wigner amplitude uses): the program
leaves out `m0/√s`. -/
theorem C58_violation_width (c : DalitzCtx) (sym : Bool) (m m0 Γ0 m12 m13 s : ℝ) (hm : 0 < m) (hd2 : c.d2 = m)
    (hd3 : c.d3 = m) (hd1 : 0 ≤ c.d1) (hs : 4 * m ^ 2 < s) (hm0 : 0 < m0) (h0 : 4 * m ^ 2 < m0 ^ 2)
    (hin : √s + c.d1 < c.mother) (hin0 : m0 + c.d1 < c.mother) (hΓ : Γ0 ≠ 0) (hne : s ≠ m0 ^ 2)
    (hD : 1 + gsD gsPi m m0 (√(m0 ^ 2 - 4 * m ^ 2) / 2) * Γ0 / m0 ≠ 0)
    (hspin : spinFactorDalitz 1 c.mother c.d1 m m m12 m13 s 2 ≠ 0) :
    let k := √(s - 4 * m ^ 2) / 2
    let k0 := √(m0 ^ 2 - 4 * m ^ 2) / 2
    let F2 := barrierNormSq 1 ((c.radius * k0) ^ 2) ((c.radius * k) ^ 2)
    let FM2 := barrierNormSq 1 ((c.motherRadius * (m0 ^ 2 / (2 * c.mother))) ^ 2)
      ((c.motherRadius * (s / (2 * c.mother))) ^ 2)
    resGS c 1 2 true sym m0 Γ0 m12 m13 s
      ≠ gounarisSakurai gsPi m m0 Γ0 s (runningWidth 1 m0 Γ0 s k k0 F2) * (√F2 : ℝ) * (√FM2 : ℝ)
        * (spinFactorDalitz 1 c.mother c.d1 m m m12 m13 s 2 : ℝ) := by
  intro k k0 F2 FM2 heq
  have hs0 : 0 < s := by nlinarith [sq_nonneg m]
  have hk : 0 < k := by
    have := Real.sqrt_pos.2 (show 0 < s - 4 * m ^ 2 by linarith)
    show 0 < √(s - 4 * m ^ 2) / 2
    positivity
  have hk0 : 0 < k0 := by
    have := Real.sqrt_pos.2 (show 0 < m0 ^ 2 - 4 * m ^ 2 by linarith)
    show 0 < √(m0 ^ 2 - 4 * m ^ 2) / 2
    positivity
  have hF2 : 0 < F2 := by
    show 0 < (1 + (c.radius * k0) ^ 2) / (1 + (c.radius * k) ^ 2)
    positivity
  have hFM2 : 0 < FM2 := by
    show 0 < (1 + (c.motherRadius * (m0 ^ 2 / (2 * c.mother))) ^ 2) / (1 + (c.motherRadius * (s / (2 * c.mother))) ^ 2)
    positivity
  rw [C58_amplitude_partial c sym m m0 Γ0 m12 m13 s hm hd2 hd3 hd1 hs hm0 h0 hin hin0] at heq
  have h1 := mul_right_cancel₀ (Complex.ofReal_ne_zero.2 hspin) heq
  have h2 := mul_right_cancel₀ (Complex.ofReal_ne_zero.2 (Real.sqrt_pos.2 hFM2).ne') h1
  have h3 := mul_right_cancel₀ (Complex.ofReal_ne_zero.2 (Real.sqrt_pos.2 hF2).ne') h2
  unfold gounarisSakurai at h3
  rw [div_eq_mul_inv, div_eq_mul_inv] at h3
  have h4 := inv_injective (mul_left_cancel₀ (Complex.ofReal_ne_zero.2 hD) h3)
  have h5 := congrArg Complex.im h4
  simp only [Complex.sub_im, Complex.ofReal_im, Complex.mul_im, Complex.I_re, Complex.I_im, Complex.ofReal_re,
    zero_mul, one_mul, zero_sub, zero_add, neg_inj] at h5
  unfold runningWidth at h5
  have hx : 0 < √s := Real.sqrt_pos.2 hs0
  have h6 : m0 / √s = 1 := by
    have hA : m0 * Γ0 * (k / k0) ^ 3 * F2 ≠ 0 := by
      have : k / k0 ≠ 0 := (div_pos hk hk0).ne'
      positivity
    refine mul_left_cancel₀ hA ?_
    show m0 * Γ0 * (k / k0) ^ 3 * F2 * (m0 / √s) = m0 * Γ0 * (k / k0) ^ 3 * F2 * 1
    have h7 : m0 * (Γ0 * (k / k0) ^ 3 * F2) = m0 * (Γ0 * (k / k0) ^ 3 * (m0 / √s) * F2) := h5
    linear_combination -h7
  rw [div_eq_one_iff_eq hx.ne'] at h6
  apply hne
  rw [h6, Real.sq_sqrt hs0.le]

/-- A rho meson of mass 1 at `s = 9/4` in the decay of a meson of mass 4. -/
example : ∃ m12 m13 : ℝ, spinFactorDalitz 1 4 (3 / 10) (3 / 10) (3 / 10) m12 m13 (9 / 4) 2 ≠ 0
    ∧ 1 + gsD gsPi (3 / 10) 1 (√(1 ^ 2 - 4 * (3 / 10) ^ 2) / 2) * (1 / 10) / 1 ≠ 0 := by
  refine ⟨1, 2, by norm_num [spinFactorDalitz], ?_⟩
  have hpi := gsPi_pos
  have hk : √(1 ^ 2 - 4 * (3 / 10) ^ 2 : ℝ) / 2 = 2 / 5 := by
    rw [show (1 ^ 2 - 4 * (3 / 10) ^ 2 : ℝ) = (4 / 5) ^ 2 by norm_num, Real.sqrt_sq (by norm_num)]; norm_num
  rw [hk]
  unfold gsD
  have hl : 2 / 3 ≤ Real.log ((1 + 2 * (2 / 5)) / (2 * (3 / 10))) := by
    have := Real.one_sub_inv_le_log_of_pos (show (0 : ℝ) < (1 + 2 * (2 / 5)) / (2 * (3 / 10)) by norm_num)
    refine le_trans ?_ this
    norm_num
  generalize Real.log ((1 + 2 * (2 / 5)) / (2 * (3 / 10))) = L at hl
  have : 3 / gsPi * ((3 / 10) ^ 2 / (2 / 5) ^ 2) * L + 1 / (2 * gsPi * (2 / 5))
      - (3 / 10) ^ 2 * 1 / (gsPi * (2 / 5) ^ 3) = (27 / 16 * L - 5 / 32) / gsPi := by
    field_simp
    ring
  rw [this]
  have : 0 < (27 / 16 * L - 5 / 32) / gsPi := div_pos (by linarith) hpi
  positivity

/-- Momentum of a massless and a massive daughter at `s = 1`. -/
theorem cmmom_massless (x : ℝ) (h0 : 0 ≤ x) (h1 : x ≤ 1) :
    twoBodyCMmom 1 0 x = (1 - x ^ 2) / 2 ∧ twoBodyCMmom 1 x 0 = (1 - x ^ 2) / 2 := by
  have h2 : 0 ≤ 1 - x ^ 2 := by nlinarith
  have key : twoBodyCMmom 1 0 x = (1 - x ^ 2) / 2 := by
    unfold twoBodyCMmom
    dsimp only
    rw [if_pos (by nlinarith), if_pos (by nlinarith), Real.sqrt_one]
    have e1 : 1 - (0 + x) * (0 + x) / 1 = 1 - x ^ 2 := by ring
    have e2 : 1 - (0 - x) * (0 - x) / 1 = 1 - x ^ 2 := by ring
    rw [e1, e2, mul_assoc, Real.mul_self_sqrt h2]
    ring
  exact ⟨key, by rw [twoBodyCMmom_comm]; exact key⟩

/-- **C58, violation (pair).**  The same decay, the same resonance and the same
event, with the daughters renumbered cyclically, give another amplitude: the mass
shift and the constant `d` of the amplitude of a resonance in daughters 1 and 2
are computed with the masses of daughters 2 and 3. -/
theorem C58_violation_pair :
    ∃ (M R Rm m1 m2 m3 m0 Γ0 m12 m13 m23 : ℝ) (norm sym : Bool),
      resGS ⟨M, m1, m2, m3, R, Rm⟩ 0 0 norm sym m0 Γ0 m12 m13 m23
        ≠ resGS ⟨M, m3, m1, m2, R, Rm⟩ 0 2 norm sym m0 Γ0 m13 m23 m12 := by
  refine ⟨3, 1, 1, 1 / 2, 0, 1 / 4, 1, 1, 1, 4, 4, true, false, ?_⟩
  have hpi := gsPi_pos
  have hA : dFun 1 0 (1 / 4) < 1.4 / gsPi := by
    have hlog : Real.log (31 / 4) < 2.1 := by
      have h8 : Real.log (31 / 4) < Real.log (2 ^ 3) := Real.log_lt_log (by norm_num) (by norm_num)
      rw [Real.log_pow] at h8
      have := Real.log_two_lt_d9
      push_cast at h8
      linarith
    have e : dFun 1 0 (1 / 4) = (16 / 75 * Real.log (31 / 4) + 16 / 15 - 512 / 3375) / gsPi := by
      unfold dFun
      dsimp only
      rw [(cmmom_massless (1 / 4) (by norm_num) (by norm_num)).1, Real.sqrt_one]
      rw [show (1 + 2 * ((1 - (1 / 4 : ℝ) ^ 2) / 2)) / (0 + 1 / 4) = 31 / 4 by norm_num]
      generalize Real.log (31 / 4) = l
      rw [show (3.0 : ℝ) = 3 by norm_num, show (4.0 : ℝ) = 4 by norm_num]
      field_simp
      ring
    rw [e]
    exact div_lt_div_of_pos_right (by linarith) hpi
  have hB : 1.4 / gsPi < dFun 1 (1 / 2) 0 := by
    have hlog : 1 < Real.log (7 / 2) := by
      rw [Real.lt_log_iff_exp_lt (by norm_num)]
      have := Real.exp_one_lt_d9
      linarith
    have e : dFun 1 (1 / 2) 0 = (4 / 3 * Real.log (7 / 2) + 4 / 3 - 32 / 27) / gsPi := by
      unfold dFun
      dsimp only
      rw [(cmmom_massless (1 / 2) (by norm_num) (by norm_num)).2, Real.sqrt_one]
      rw [show (1 + 2 * ((1 - (1 / 2 : ℝ) ^ 2) / 2)) / (1 / 2 + 0) = 7 / 2 by norm_num]
      generalize Real.log (7 / 2) = l
      rw [show (3.0 : ℝ) = 3 by norm_num, show (4.0 : ℝ) = 4 by norm_num]
      field_simp
      ring
    rw [e]
    exact div_lt_div_of_pos_right (by linarith) hpi
  have hf (a b : ℝ) : fsFun 1 1 1 a b = 0 := by unfold fsFun; dsimp only; ring
  have hq := (cmmom_massless (1 / 2) (by norm_num) (by norm_num)).2
  have hlt := hA.trans hB
  intro h
  have him := congrArg Complex.im h
  norm_num [resGS, pairMassSq, pairDaug1, pairDaug2, pairBachelor, frFactorOf, frFactorMotherOf,
    spinFactorDalitz, hf] at him
  norm_num at hq hlt
  rw [hq] at him
  norm_num at him
  linarith

/-- **C58, violation (symmetric amplitudes).**  With identical daughters 2 and 3
and the flag for a symmetric amplitude, exchanging the two identical daughters
changes the amplitude. -/
theorem C58_violation_symmetric :
    ∃ (M R Rm m1 m m0 Γ0 m12 m13 m23 : ℝ) (norm : Bool),
      resGS ⟨M, m1, m, m, R, Rm⟩ 0 0 norm true m0 Γ0 m12 m13 m23
        ≠ resGS ⟨M, m1, m, m, R, Rm⟩ 0 0 norm true m0 Γ0 m13 m12 m23 := by
  refine ⟨3, 1, 1, 1 / 10, 1 / 10, 1, 0, 1 / 2, 1 / 4, 8, true, ?_⟩
  intro h
  have hre := congrArg Complex.re h
  norm_num [resGS, pairMassSq, frFactorOf, frFactorMotherOf, spinFactorDalitz, fsFun] at hre

/-! ## C60: Flatté -/

theorem flatteRho_eq (w t s : ℝ) (hs : 0 < s) :
    ((flatteRho w t s).1 : ℂ) + Complex.I * ((flatteRho w t s).2 : ℝ) = (w : ℂ) * rhoEqual t s := by
  unfold flatteRho rhoEqual
  have half (x : ℝ) (hx : 0 ≤ x) : (x : ℂ) ^ (1 / 2 : ℂ) = ((√x : ℝ) : ℂ) := by
    rw [Real.sqrt_eq_rpow, Complex.ofReal_cpow hx]; norm_num
  by_cases h : s ≥ t
  · have h0 : 0 ≤ 1 - t / s := by rw [sub_nonneg, div_le_one hs]; exact h
    rw [if_pos h, half _ h0]
    simp
  · have h0 : 1 - t / s ≤ 0 := by rw [sub_nonpos, one_le_div hs]; exact (not_le.1 h).le
    have h1 : (0 : ℝ) ≤ -1 + t / s := by linarith
    rw [if_neg h, Complex.ofReal_cpow_of_nonpos h0, ← Complex.ofReal_neg,
      show -(1 - t / s) = -1 + t / s by ring, half _ h1,
      show (Real.pi : ℂ) * Complex.I * (1 / 2) = Real.pi / 2 * Complex.I by ring, Complex.exp_pi_div_two_mul_I]
    push_cast
    ring

theorem inv_conj (A B : ℝ) : (⟨A * (1 / (A * A + B * B)), B * (1 / (A * A + B * B))⟩ : ℂ) = 1 / ⟨A, -B⟩ := by
  rw [one_div (⟨A, -B⟩ : ℂ), Complex.inv_def]
  apply Complex.ext <;> simp [Complex.normSq_apply]

theorem flatte_alg (m0 g1 g2 s : ℝ) (a b c d : ℝ × ℝ) :
    (⟨((m0 * m0 - s) + m0 * ((a.2 + b.2) * g1 + (c.2 + d.2) * g2))
      * (1 / (((m0 * m0 - s) + m0 * ((a.2 + b.2) * g1 + (c.2 + d.2) * g2))
          * ((m0 * m0 - s) + m0 * ((a.2 + b.2) * g1 + (c.2 + d.2) * g2))
        + (m0 * ((a.1 + b.1) * g1 + (c.1 + d.1) * g2)) * (m0 * ((a.1 + b.1) * g1 + (c.1 + d.1) * g2)))),
      (m0 * ((a.1 + b.1) * g1 + (c.1 + d.1) * g2))
      * (1 / (((m0 * m0 - s) + m0 * ((a.2 + b.2) * g1 + (c.2 + d.2) * g2))
          * ((m0 * m0 - s) + m0 * ((a.2 + b.2) * g1 + (c.2 + d.2) * g2))
        + (m0 * ((a.1 + b.1) * g1 + (c.1 + d.1) * g2)) * (m0 * ((a.1 + b.1) * g1 + (c.1 + d.1) * g2))))⟩ : ℂ)
    = 1 / (((m0 ^ 2 - s : ℝ) : ℂ) - Complex.I * m0 * (g1 * (((a.1 : ℂ) + Complex.I * (a.2 : ℝ))
        + ((b.1 : ℂ) + Complex.I * (b.2 : ℝ))) + (g2 : ℂ) * (((c.1 : ℂ) + Complex.I * (c.2 : ℝ))
        + ((d.1 : ℂ) + Complex.I * (d.2 : ℝ))))) := by
  rw [inv_conj]
  congr 1
  apply Complex.ext
  · simp [pow_two, -mul_eq_mul_left_iff]; ring
  · simp [pow_two, -mul_eq_mul_left_iff]; ring

/-- **C60 (one pair).**  The Flatté amplitude is
`1 / (m0² - s - i m0 (g1 ρ_ππ + g2 ρ_KK))` with the phase space of charged and
neutral pions (2/3, 1/3) and of charged and neutral kaons (1/2, 1/2), continued
below each threshold. -/
theorem C60_flatte (m0 g1 r m12 m13 m23 : ℝ) (cyc : Nat) (hs : 0 < pairMassSq cyc m12 m13 m23) :
    let s := pairMassSq cyc m12 m13 m23
    let ρπ := 2 / 3 * rhoEqual ((2 * 0.13957018) ^ 2) s + 1 / 3 * rhoEqual ((2 * 0.1349766) ^ 2) s
    let ρK := 1 / 2 * rhoEqual ((2 * 0.493677) ^ 2) s + 1 / 2 * rhoEqual ((2 * 0.497614) ^ 2) s
    resFlatte cyc false m0 g1 r m12 m13 m23
      = 1 / (((m0 ^ 2 - s : ℝ) : ℂ) - Complex.I * m0 * (g1 * ρπ + r * g1 * ρK)) := by
  intro s ρπ ρK
  have hs' : 0 < s := hs
  unfold resFlatte
  simp only [Bool.false_eq_true, if_false, zero_add]
  unfold flatteTerm
  dsimp only
  have e1 := flatteRho_eq (2 / 3) (4 * 0.13957018 * 0.13957018) s hs'
  have e2 := flatteRho_eq (1 / 3) (4 * 0.1349766 * 0.1349766) s hs'
  have e3 := flatteRho_eq 0.5 (4 * 0.493677 * 0.493677) s hs'
  have e4 := flatteRho_eq 0.5 (4 * 0.497614 * 0.497614) s hs'
  rw [show (4 * 0.13957018 * 0.13957018 : ℝ) = (2 * 0.13957018) ^ 2 by norm_num] at e1 ⊢
  rw [show (4 * 0.1349766 * 0.1349766 : ℝ) = (2 * 0.1349766) ^ 2 by norm_num] at e2 ⊢
  rw [show (4 * 0.493677 * 0.493677 : ℝ) = (2 * 0.493677) ^ 2 by norm_num] at e3 ⊢
  rw [show (4 * 0.497614 * 0.497614 : ℝ) = (2 * 0.497614) ^ 2 by norm_num] at e4 ⊢
  rw [show (0.5 : ℝ) = 1 / 2 by norm_num] at *
  rw [show (1.0 : ℝ) = 1 by norm_num]
  rw [flatte_alg, e1, e2, e3, e4]
  simp only [ρπ, ρK]
  push_cast
  rfl

/-- **C60 (identical daughters 2 and 3).**  With the flag for a symmetric Dalitz
plot, a resonance in daughters 1-2 or 1-3 contributes the sum over both pairings,
so that the amplitude does not change when the two are exchanged. -/
theorem C60_symmetric (m0 g1 r m12 m13 m23 : ℝ) (cyc : Nat) (hc : cyc = 0 ∨ cyc = 1) :
    resFlatte cyc true m0 g1 r m12 m13 m23 = resFlatte cyc true m0 g1 r m13 m12 m23
    ∧ resFlatte cyc true m0 g1 r m12 m13 m23
      = resFlatte 0 false m0 g1 r m12 m13 m23 + resFlatte 1 false m0 g1 r m12 m13 m23 := by
  rcases hc with rfl | rfl
  · simp [resFlatte, pairMassSq, add_comm]
  · simp [resFlatte, pairMassSq, add_comm]

/-- At the mass of the f0(980), above the pion and below the kaon thresholds. -/
example := C60_flatte 0.965 0.165 4.21 0.95 1 1 0 (by norm_num [pairMassSq])

/-! ## C59: LASS -/

theorem norm_phase (x : ℝ) : ‖(⟨Real.cos x, Real.sin x⟩ : ℂ)‖ = 1 := by
  rw [← Real.sqrt_sq (norm_nonneg _), Complex.sq_norm, Complex.normSq_apply]
  show √(Real.cos x * Real.cos x + Real.sin x * Real.sin x) = 1
  rw [← pow_two, ← pow_two, Real.cos_sq_add_sin_sq, Real.sqrt_one]

theorem norm_conj_pair (c : ℝ) : ‖(⟨c, -1⟩ : ℂ)‖ = ‖(⟨c, 1⟩ : ℂ)‖ := by
  rw [← Complex.norm_conj]; congr 1; apply Complex.ext <;> simp

theorem norm_pair_ne (c : ℝ) : ‖(⟨c, 1⟩ : ℂ)‖ ≠ 0 := by
  rw [norm_ne_zero_iff]
  intro h; have := congrArg Complex.im h; simp at this

/-- The S matrix of the LASS amplitude of an S wave, with the background at full
strength, as a product of phases and one factor for the resonance. -/
theorem lass_smatrix (m0 Γ0 a r R phiB : ℝ) (s q q0 : ℝ) (hm : 0 < m0) (hs : 0 < s) (hq : 0 < q) :
    let c := 1 / (a * q) + 1 / 2 * r * q
    smatrix s q (lassT ⟨m0, Γ0, a, r, R, 0, 1, phiB⟩ 0 s q q0 1) * ⟨c, -1⟩
      = (⟨Real.cos (2 * phiB), Real.sin (2 * phiB)⟩ : ℂ) * ⟨c, 1⟩
        * (1 + 2 * Complex.I * ((q / √s * R * (m0 ^ 2 * Γ0 / q0) : ℝ) : ℂ)
            / ⟨m0 ^ 2 - s, m0 * (Γ0 * (q / q0) / √s)⟩) := by
  intro c
  have hr : 0 < √s := Real.sqrt_pos.2 hs
  have hc2 : lassCot ⟨m0, Γ0, a, r, R, 0, 1, phiB⟩ q = (c, q * c) := by
    unfold lassCot
    simp only [c, Prod.mk.injEq]
    rw [show (1.0 : ℝ) = 1 by norm_num, show (0.5 : ℝ) = 1 / 2 by norm_num]
    refine ⟨rfl, ?_⟩
    by_cases ha : a = 0
    · subst ha; simp; ring
    · field_simp
  unfold lassT smatrix
  dsimp only
  rw [hc2]
  dsimp only
  have hd : (⟨q * c, -q⟩ : ℂ) = (q : ℂ) * ⟨c, -1⟩ := by apply Complex.ext <;> simp
  have hn : (⟨q * c, q⟩ : ℂ) = (q : ℂ) * ⟨c, 1⟩ := by apply Complex.ext <;> simp
  have hz : (⟨c, -1⟩ : ℂ) ≠ 0 := by
    intro h; have := congrArg Complex.im h; simp at this
  have hqc : (q : ℂ) ≠ 0 := by exact_mod_cast hq.ne'
  have hrc : ((√s : ℝ) : ℂ) ≠ 0 := by exact_mod_cast hr.ne'
  have htrig : (⟨c, -1⟩ : ℂ) + 2 * Complex.I * (⟨Real.cos phiB, Real.sin phiB⟩ : ℂ)
      * ((Real.cos phiB + c * Real.sin phiB : ℝ) : ℂ)
      = (⟨Real.cos (2 * phiB), Real.sin (2 * phiB)⟩ : ℂ) * ⟨c, 1⟩ := by
    rw [Real.cos_two_mul, Real.sin_two_mul]
    have h1 := Real.sin_sq_add_cos_sq phiB
    generalize Real.sin phiB = y at *
    generalize Real.cos phiB = x at *
    apply Complex.ext
    · simp; linear_combination -2 * c * h1
    · simp; ring
  rw [hd, hn, ← pow_two, Real.sqrt_sq hm.le, zero_add]
  generalize (⟨Real.cos (2 * phiB), Real.sin (2 * phiB)⟩ : ℂ) = e2 at *
  generalize (⟨Real.cos phiB, Real.sin phiB⟩ : ℂ) = e1 at *
  generalize ((Real.cos phiB + c * Real.sin phiB : ℝ) : ℂ) = k at *
  rw [show Γ0 * (q / q0) ^ (2 * 0 + 1) * 1 / √s = Γ0 * (q / q0) / √s by norm_num]
  generalize (⟨m0 ^ 2 - s, m0 * (Γ0 * (q / q0) / √s)⟩ : ℂ) = P
  generalize (⟨c, 1⟩ : ℂ) = w at *
  generalize (⟨c, -1⟩ : ℂ) = z at *
  push_cast
  generalize ((√s : ℝ) : ℂ) = t at *
  rw [one_div P, div_eq_mul_inv _ P]
  generalize P⁻¹ = u
  generalize (m0 : ℂ) ^ 2 * Γ0 / q0 = g
  have hLHS : (1 + 2 * Complex.I * (q / t) * (e2 * R * (u * g * (q * w / (q * z))) + e1 * 1 * k * t / (q * z))) * z
      = (z + 2 * Complex.I * e1 * k) + 2 * Complex.I * (q / t) * R * g * u * e2 * w := by
    field_simp
    ring
  rw [hLHS, htrig]
  ring

/-- **C59 (partial).**  Without the resonance, the LASS amplitude of an S wave is
elastic: its S matrix is a pure phase, at every mass above threshold and for every
scattering length, effective range and phase.  Missing: the same with the
resonance (`C59_violation_unitarity`). -/
theorem C59_background_partial (m0 Γ0 a r phiB : ℝ) (s q q0 : ℝ) (hm : 0 < m0) (hs : 0 < s) (hq : 0 < q) :
    ‖smatrix s q (lassT ⟨m0, Γ0, a, r, 0, 0, 1, phiB⟩ 0 s q q0 1)‖ = 1 := by
  have h := lass_smatrix m0 Γ0 a r 0 phiB s q q0 hm hs hq
  dsimp only at h
  rw [mul_zero, zero_mul, Complex.ofReal_zero, mul_zero, zero_div, add_zero, mul_one] at h
  have h2 := congrArg norm h
  rw [norm_mul, norm_mul, norm_conj_pair, norm_phase, one_mul] at h2
  exact mul_right_cancel₀ (norm_pair_ne _) (h2.trans (one_mul _).symm)

/-- **C59, violation (unitarity).**  With the resonance at full strength the S
matrix is larger than one at every mass above threshold and for all parameters:
the imaginary part of the propagator has the wrong sign (LASS.cu:105; compare
RBW.cu:71-74). -/
theorem C59_violation_unitarity (m0 Γ0 a r phiB : ℝ) (s q q0 : ℝ) (hm : 0 < m0) (hΓ : 0 < Γ0) (hs : 0 < s)
    (hq : 0 < q) (hq0 : 0 < q0) :
    1 < ‖smatrix s q (lassT ⟨m0, Γ0, a, r, 1, 0, 1, phiB⟩ 0 s q q0 1)‖ := by
  have h := lass_smatrix m0 Γ0 a r 1 phiB s q q0 hm hs hq
  dsimp only at h
  have h2 := congrArg norm h
  rw [norm_mul, norm_mul, norm_mul, norm_conj_pair, norm_phase, one_mul, mul_comm] at h2
  rw [mul_left_cancel₀ (norm_pair_ne _) h2]
  have hr : 0 < √s := Real.sqrt_pos.2 hs
  have hX : 0 < q / √s * 1 * (m0 ^ 2 * Γ0 / q0) := by positivity
  have hB : 0 < m0 * (Γ0 * (q / q0) / √s) := by positivity
  generalize q / √s * 1 * (m0 ^ 2 * Γ0 / q0) = X at *
  generalize m0 * (Γ0 * (q / q0) / √s) = B at *
  generalize m0 ^ 2 - s = A
  have hP : (⟨A, B⟩ : ℂ) ≠ 0 := by
    intro h; have := congrArg Complex.im h; simp at this; exact hB.ne' this
  have e : (1 : ℂ) + 2 * Complex.I * (X : ℂ) / ⟨A, B⟩ = ⟨A, B + 2 * X⟩ / ⟨A, B⟩ := by
    rw [eq_div_iff hP, add_mul, div_mul_cancel₀ _ hP]
    apply Complex.ext <;> simp
  rw [e, norm_div, one_lt_div (norm_pos_iff.2 hP)]
  apply lt_of_pow_lt_pow_left₀ 2 (norm_nonneg _)
  rw [Complex.sq_norm, Complex.sq_norm, Complex.normSq_apply, Complex.normSq_apply]
  show A * A + B * B < A * A + (B + 2 * X) * (B + 2 * X)
  nlinarith [mul_pos hX hB, mul_pos hX hX]

/-- Parameters of the K*(1430), at a mass of 1.2 GeV. -/
example := C59_violation_unitarity 1.425 0.27 2.07 3.32 0 1.44 0.45 0.62 (by norm_num) (by norm_num) (by norm_num)
  (by norm_num) (by norm_num)

/-- **C59, violation (daughters).**  The same decay, resonance and event, with the
daughters renumbered cyclically, give another amplitude: for a resonance in
daughters 1 and 3 the momenta are computed with the masses of daughters 1 and 2. -/
theorem C59_violation_daughters :
    ∃ (M R Rm m1 m2 m3 m12 m13 m23 : ℝ) (p : LassPars) (norm : Bool),
      resLASS ⟨M, m1, m2, m3, R, Rm⟩ 0 1 norm p m12 m13 m23
        ≠ resLASS ⟨M, m3, m1, m2, R, Rm⟩ 0 0 norm p m13 m23 m12 := by
  refine ⟨3, 1, 1, 0, 1 / 2, 0, 4, 1, 4, ⟨1, 1, 1, 0, 0, 0, 1, 0⟩, true, ?_⟩
  have hA := (cmmom_massless (1 / 2) (by norm_num) (by norm_num)).1
  have hB := (cmmom_massless 0 (by norm_num) (by norm_num)).1
  norm_num at hA hB
  intro h
  have hre := congrArg Complex.re h
  norm_num [resLASS, pairMassSq, pairDaug1, lassDaug2, pairBachelor, frFactorOf, frFactorMotherOf,
    spinFactorDalitz, lassT, lassCot, hA, hB, Complex.div_re, Complex.normSq_apply] at hre

/-- **C59 (names, partial).**  A resonance in daughters 1-2 gives the same
amplitude as the same resonance in daughters 2-3 of the renumbered decay.  Missing:
the pair 1-3 (`C59_violation_daughters`). -/
theorem C59_relabel_partial (M m1 m2 m3 R Rm : ℝ) (L : Nat) (hL : L ≤ 2) (norm : Bool) (p : LassPars)
    (m12 m13 m23 : ℝ) :
    resLASS ⟨M, m3, m1, m2, R, Rm⟩ L 2 norm p m13 m23 m12
      = resLASS ⟨M, m1, m2, m3, R, Rm⟩ L 0 norm p m12 m13 m23 := by
  unfold resLASS
  rw [spinFactor_core L hL, spinFactor_core L hL]
  rfl

/-- The LASS amplitude before the form factors, in terms of the phase `δ` of the background. -/
theorem lassT_phase (p : LassPars) (L : Nat) (s q q0 fr δ : ℝ) (hm : 0 < p.mass) (hq : 0 < q) (hsin : Real.sin δ ≠ 0)
    (hcot : Real.cos δ / Real.sin δ = 1 / (p.a * q) + p.r * q / 2) :
    lassT p L s q q0 fr
      = (p.R : ℂ) * Complex.exp ((p.phiR + 2 * p.phiB : ℝ) * Complex.I) * Complex.exp ((2 * δ : ℝ) * Complex.I)
          * ((p.mass ^ 2 * p.width / q0 : ℝ) : ℂ)
          / (((p.mass ^ 2 - s : ℝ) : ℂ) + Complex.I * ((runningWidth L p.mass p.width s q q0 fr : ℝ) : ℂ))
        + (p.B : ℂ) * Complex.exp ((δ + p.phiB : ℝ) * Complex.I) * ((Real.sin (δ + p.phiB) * √s / q : ℝ) : ℂ) := by
  have hexp : ∀ x : ℝ, Complex.exp ((x : ℝ) * Complex.I) = ⟨Real.cos x, Real.sin x⟩ := by
    intro x
    apply Complex.ext
    · exact Complex.exp_ofReal_mul_I_re x
    · exact Complex.exp_ofReal_mul_I_im x
  have hc2 : lassCot p q = (Real.cos δ / Real.sin δ, q * (Real.cos δ / Real.sin δ)) := by
    rw [hcot]
    unfold lassCot
    rw [show (1.0 : ℝ) = 1 by norm_num, show (0.5 : ℝ) = 1 / 2 by norm_num]
    simp only [Prod.mk.injEq]
    refine ⟨by ring, ?_⟩
    by_cases ha : p.a = 0
    · rw [ha]; simp; ring
    · field_simp
  unfold lassT
  dsimp only
  rw [hc2, hexp, hexp, hexp]
  dsimp only
  have h1 := Real.sin_sq_add_cos_sq δ
  have hqc : (q : ℂ) ≠ 0 := by exact_mod_cast hq.ne'
  have hsc : ((Real.sin δ : ℝ) : ℂ) ≠ 0 := by exact_mod_cast hsin
  have hne : (⟨Real.cos δ, -Real.sin δ⟩ : ℂ) ≠ 0 := by
    intro h
    have := congrArg Complex.im h
    simp at this
    exact hsin this
  have hunit : (⟨Real.cos δ, Real.sin δ⟩ : ℂ) * ⟨Real.cos δ, -Real.sin δ⟩ = 1 := by
    apply Complex.ext
    · simp; linear_combination h1
    · simp; ring
  have hd : (⟨q * (Real.cos δ / Real.sin δ), -q⟩ : ℂ) = ((q / Real.sin δ : ℝ) : ℂ) * ⟨Real.cos δ, -Real.sin δ⟩ := by
    apply Complex.ext
    · rw [Complex.re_ofReal_mul]; ring
    · rw [Complex.im_ofReal_mul]; field_simp
  have hn : (⟨q * (Real.cos δ / Real.sin δ), q⟩ : ℂ) = ((q / Real.sin δ : ℝ) : ℂ) * ⟨Real.cos δ, Real.sin δ⟩ := by
    apply Complex.ext
    · rw [Complex.re_ofReal_mul]; ring
    · rw [Complex.im_ofReal_mul]; field_simp
  have h2δ : (⟨Real.cos (2 * δ), Real.sin (2 * δ)⟩ : ℂ) = ⟨Real.cos δ, Real.sin δ⟩ * ⟨Real.cos δ, Real.sin δ⟩ := by
    rw [Real.cos_two_mul, Real.sin_two_mul]
    apply Complex.ext
    · simp; linear_combination h1
    · simp; ring
  have hsum : (⟨Real.cos (δ + p.phiB), Real.sin (δ + p.phiB)⟩ : ℂ) = ⟨Real.cos δ, Real.sin δ⟩ * ⟨Real.cos p.phiB, Real.sin p.phiB⟩ := by
    rw [Real.cos_add, Real.sin_add]
    apply Complex.ext
    · simp
    · simp; ring
  have hden : (⟨p.mass * p.mass - s, √(p.mass * p.mass) * (p.width * (q / q0) ^ (2 * L + 1) * fr / √s)⟩ : ℂ)
      = ((p.mass ^ 2 - s : ℝ) : ℂ) + Complex.I * ((runningWidth L p.mass p.width s q q0 fr : ℝ) : ℂ) := by
    have hmk : ∀ A B : ℝ, (⟨A, B⟩ : ℂ) = (A : ℂ) + Complex.I * (B : ℂ) := by
      intro A B
      apply Complex.ext <;> simp
    rw [Real.sqrt_mul_self hm.le, hmk]
    unfold runningWidth
    congr 3 <;> ring
  rw [hden, hd, hn, h2δ, hsum, pow_two]
  have hinv : (⟨Real.cos δ, -Real.sin δ⟩ : ℂ)⁻¹ = ⟨Real.cos δ, Real.sin δ⟩ := by
    exact (eq_inv_of_mul_eq_one_left hunit).symm
  have hback : Real.cos p.phiB + Real.cos δ / Real.sin δ * Real.sin p.phiB = Real.sin (δ + p.phiB) / Real.sin δ := by
    rw [Real.sin_add]
    field_simp
  rw [hback]
  generalize ((p.mass * p.mass - s : ℝ) : ℂ) + Complex.I * ((runningWidth L p.mass p.width s q q0 fr : ℝ) : ℂ) = P
  simp only [div_eq_mul_inv, mul_inv, hinv, one_mul]
  generalize (⟨Real.cos δ, Real.sin δ⟩ : ℂ) = e
  generalize Real.sin (δ + p.phiB) = S
  generalize Real.sin δ = sd at *
  generalize √s = w
  push_cast
  field_simp

/-- **C59 (partial), the amplitude.**  In the rest frame of the pair 1-2 or 2-3, with normalised form factors (or spin 0), the LASS
amplitude is the resonance with phase `φ_R + 2 φ_B + 2 δ_B` plus the background `sin(δ_B + φ_B) e^{i (δ_B + φ_B)}`, times the
barrier factors and Zemach's angular factor; `δ_B` is given by scattering length and effective range.  Missing: the imaginary part
of the propagator is `+ Γ` instead of `- m0 Γ` (`C59_violation_unitarity`), and the pair 1-3. -/
theorem C59_amplitude_partial (d : ThreeBody) (cyc L : Nat) (hc : cyc = 0 ∨ cyc = 2) (hL : L ≤ 2) (norm : Bool)
    (hn : norm = true ∨ L = 0) (M R Rm : ℝ) (p : LassPars) (hm : ∀ i, 0 ≤ d.m i) (hM : M ^ 2 = d.M2)
    (hrest : d.p (pairIdx cyc).1 + d.p (pairIdx cyc).2.1 = 0)
    (hE : 0 < d.E (pairIdx cyc).1 + d.E (pairIdx cyc).2.1)
    (hin : √(d.s (pairIdx cyc).1 (pairIdx cyc).2.1) + d.m (pairIdx cyc).2.2 < M)
    (hm0 : 0 < p.mass) (hin0 : p.mass + d.m (pairIdx cyc).2.2 < M)
    (k0 : Mom) (hk0 : energy (d.m (pairIdx cyc).1) k0 + energy (d.m (pairIdx cyc).2.1) (-k0) = p.mass)
    (hq' : 0 < √(Mom.sq (d.p (pairIdx cyc).1))) (δ : ℝ) (hsin : Real.sin δ ≠ 0)
    (hcot : Real.cos δ / Real.sin δ
      = 1 / (p.a * √(Mom.sq (d.p (pairIdx cyc).1))) + p.r * √(Mom.sq (d.p (pairIdx cyc).1)) / 2) :
    let s := d.s (pairIdx cyc).1 (pairIdx cyc).2.1
    let q := √(Mom.sq (d.p (pairIdx cyc).1))
    let q0 := √(Mom.sq k0)
    let F2 := barrierNormSq L ((R * q0) ^ 2) ((R * q) ^ 2)
    let FM2 := barrierNormSq L ((Rm * (p.mass ^ 2 / (2 * M))) ^ 2) ((Rm * (s / (2 * M))) ^ 2)
    resLASS (decayCtx d M R Rm) L cyc norm p (d.s 0 1) (d.s 0 2) (d.s 1 2)
      = ((p.R : ℂ) * Complex.exp ((p.phiR + 2 * p.phiB : ℝ) * Complex.I) * Complex.exp ((2 * δ : ℝ) * Complex.I)
          * ((p.mass ^ 2 * p.width / q0 : ℝ) : ℂ)
          / (((p.mass ^ 2 - s : ℝ) : ℂ) + Complex.I * ((runningWidth L p.mass p.width s q q0 F2 : ℝ) : ℂ))
        + (p.B : ℂ) * Complex.exp ((δ + p.phiB : ℝ) * Complex.I) * ((Real.sin (δ + p.phiB) * √s / q : ℝ) : ℂ))
        * (√F2 : ℝ) * (√FM2 : ℝ) * (zemach L (d.p (pairIdx cyc).1) (d.p (pairIdx cyc).2.2) : ℝ) := by
  intro s q q0 F2 FM2
  have hc3 : cyc < 3 := by omega
  have hs := pairMassSq_d d cyc hc3
  have ha := C57_angular d cyc L hc3 hL M hM hrest hE
  have hb : d.p (pairIdx cyc).2.1 = -d.p (pairIdx cyc).1 := by
    rw [← add_eq_zero_iff_eq_neg, add_comm]; exact hrest
  have hEb : d.E (pairIdx cyc).2.1 = energy (d.m (pairIdx cyc).2.1) (d.p (pairIdx cyc).1) := by
    unfold ThreeBody.E energy; rw [hb, Mom.sq_neg']
  have hE' : 0 < energy (d.m (pairIdx cyc).1) (d.p (pairIdx cyc).1)
      + energy (d.m (pairIdx cyc).2.1) (d.p (pairIdx cyc).1) := by rw [← hEb]; exact hE
  have hspos : 0 < s := by
    show 0 < d.s _ _
    rw [restframe_s d _ _ hrest]; positivity
  have hpair : ∀ s : ℝ, twoBodyCMmom s (pairDaug1 (decayCtx d M R Rm) cyc) (lassDaug2 (decayCtx d M R Rm) cyc)
      = twoBodyCMmom s (d.m (pairIdx cyc).1) (d.m (pairIdx cyc).2.1) := by
    intro t
    rcases hc with h | h <;> subst h <;> rfl
  have hq : twoBodyCMmom s (d.m (pairIdx cyc).1) (d.m (pairIdx cyc).2.1) = q := by
    show twoBodyCMmom (d.s _ _) _ _ = _
    rw [restframe_s d _ _ hrest]
    exact twoBodyCMmom_eq _ _ (hm _) (hm _) _ hE'
  have hq0 : twoBodyCMmom (p.mass * p.mass) (d.m (pairIdx cyc).1) (d.m (pairIdx cyc).2.1) = q0 := by
    have := C57_momentum _ _ (hm (pairIdx cyc).1) (hm (pairIdx cyc).2.1) k0 (by rw [hk0]; exact hm0)
    rw [hk0] at this
    rw [← pow_two]; exact this
  have hbach : pairBachelor (decayCtx d M R Rm) cyc = d.m (pairIdx cyc).2.2 := by
    rcases hc with h | h <;> subst h <;> rfl
  have hF : frFactorOf (decayCtx d M R Rm) L norm q0 q = F2 := by
    unfold frFactorOf
    by_cases h0 : L = 0
    · subst h0; rfl
    · rw [if_pos (Ne.symm h0)]
      have hnt : norm = true := hn.resolve_right h0
      rw [hnt]
      exact (C57_form_factor L (by omega) R q q0).1
  have hFM : frFactorMotherOf (decayCtx d M R Rm) L norm s (p.mass * p.mass) (d.m (pairIdx cyc).2.2) = FM2 := by
    unfold frFactorMotherOf
    by_cases h0 : L = 0
    · subst h0; rfl
    · rw [if_pos (Ne.symm h0)]
      have hnt : norm = true := hn.resolve_right h0
      rw [hnt]
      show dampingFactorSquareNorm (twoBodyCMMothermom (p.mass * p.mass) M _) L Rm
        / dampingFactorSquareNorm (twoBodyCMMothermom s M _) L Rm = FM2
      rw [mothermom_eq s M _ hspos (hm _) hin,
        mothermom_eq (p.mass * p.mass) M _ (by positivity) (hm _) (by rw [Real.sqrt_mul_self hm0.le]; exact hin0)]
      have := (C57_form_factor L (by omega) Rm (s / (2 * M)) (p.mass ^ 2 / (2 * M))).1
      rw [← pow_two]
      exact this
  unfold resLASS
  dsimp only
  rw [hs, hpair, hpair, hbach]
  change lassT p L s (twoBodyCMmom s _ _) (twoBodyCMmom (p.mass * p.mass) _ _) (frFactorOf _ _ _ _ (twoBodyCMmom s _ _))
    * (√(frFactorOf _ _ _ _ (twoBodyCMmom s _ _)) : ℝ) * (√(frFactorMotherOf _ _ _ s _ _) : ℝ) * _ = _
  rw [hq, hq0, hF, hFM, lassT_phase p L s q q0 F2 δ hm0 hq' hsin hcot]
  change _ * _ * _ * ((spinFactorDalitz L M (d.m 0) (d.m 1) (d.m 2) (d.s 0 1) (d.s 0 2) (d.s 1 2) cyc : ℝ) : ℂ) = _
  rw [ha]

/-- The hypotheses are met by `lightDecay`, with `a = 1` and `r = -8`, for which the phase is 90 degrees. -/
example (L : Nat) (hL : L ≤ 2) := C59_amplitude_partial lightDecay 0 L (Or.inl rfl) hL true (Or.inl rfl) 2 1 1
  ⟨1, 1 / 10, 1, -8, 1, 0, 1, 0⟩ (fun _ => le_rfl) lightDecay_M lightDecay_rest
  (by show 0 < lightDecay.E 0 + lightDecay.E 1; rw [lightDecay_E.1, lightDecay_E.2.1]; norm_num)
  (by show √(lightDecay.s 0 1) + 0 < 2; rw [lightDecay_s, Real.sqrt_one]; norm_num)
  one_pos (by show 1 + (0 : ℝ) < 2; norm_num) (lightDecay.p 0)
  (by
    have h1 := lightDecay_E.1
    have h2 := lightDecay_E.2.1
    have h3 : lightDecay.p 1 = -lightDecay.p 0 := by
      rw [← add_eq_zero_iff_eq_neg, add_comm]; exact lightDecay_rest
    unfold ThreeBody.E at h1 h2
    rw [h3] at h2
    show energy (lightDecay.m 0) _ + energy (lightDecay.m 1) _ = 1
    rw [h1, h2]; norm_num)
  (by
    show 0 < √(Mom.sq (lightDecay.p 0))
    rw [show Mom.sq (lightDecay.p 0) = (1 / 2) ^ 2 by simp [lightDecay, Mom.sq, Fin.sum_univ_three], Real.sqrt_sq (by norm_num)]
    norm_num)
  (Real.pi / 2) (by rw [Real.sin_pi_div_two]; norm_num)
  (by
    show _ = 1 / (1 * √(Mom.sq (lightDecay.p 0))) + -8 * √(Mom.sq (lightDecay.p 0)) / 2
    rw [show Mom.sq (lightDecay.p 0) = (1 / 2) ^ 2 by simp [lightDecay, Mom.sq, Fin.sum_univ_three], Real.sqrt_sq (by norm_num),
      Real.cos_pi_div_two]
    norm_num)

/-! ## C61: rho-omega mixing -/

/-- **C61 (partial).**  The amplitude is the Gounaris-Sakurai amplitude of the rho
when the mixing vanishes, and in general that amplitude times one plus
`B Δ (m_ρ + m_ω)` times the Breit-Wigner amplitude of the omega.  For a spinless
pair the latter is the textbook propagator.  Missing: for spin 1 the second factor
contains the angular and form factors once more (`C61_violation_angular`). -/
theorem C61_mixing_partial (c : DalitzCtx) (L cyc : Nat) (norm sym : Bool) (p : RhoOmegaPars) (m12 m13 m23 : ℝ) :
    resRhoOmega c L cyc norm sym p m12 m13 m23
      = resGS c L cyc norm sym p.rhoMass p.rhoWidth m12 m13 m23
        * (1 + (⟨p.re, p.im⟩ : ℂ) * ((p.delta * (p.rhoMass + p.omegaMass) : ℝ) : ℂ)
            * resRBW c L cyc norm false p.omegaMass p.omegaWidth m12 m13 m23)
    ∧ (p.delta = 0 ∨ (p.re = 0 ∧ p.im = 0) → resRhoOmega c L cyc norm sym p m12 m13 m23
      = resGS c L cyc norm sym p.rhoMass p.rhoWidth m12 m13 m23) := by
  have h1 : resRhoOmega c L cyc norm sym p m12 m13 m23
      = resGS c L cyc norm sym p.rhoMass p.rhoWidth m12 m13 m23
        * (1 + (⟨p.re, p.im⟩ : ℂ) * ((p.delta * (p.rhoMass + p.omegaMass) : ℝ) : ℂ)
            * resRBW c L cyc norm false p.omegaMass p.omegaWidth m12 m13 m23) := by
    unfold resRhoOmega resRBW
    simp only [Bool.false_eq_true, if_false]
    rw [plainBWGo, plainBWGo, zero_add, add_comm 1]
    rfl
  refine ⟨h1, ?_⟩
  rw [h1]
  rintro (h | ⟨ha, hb⟩)
  · rw [h]; simp
  · rw [ha, hb, show (⟨0, 0⟩ : ℂ) = 0 from rfl]; simp

/-- **C61, violation (angle).**  For a spin-1 pair at a fixed mass, doubling the
angular factor does not double the amplitude. -/
theorem C61_violation_angular :
    ∃ (c : DalitzCtx) (p : RhoOmegaPars) (m12 m13 m23 m13' m23' : ℝ),
      m13 + m23 = m13' + m23' ∧
      spinFactorDalitz 1 c.mother c.d1 c.d2 c.d3 m12 m13' m23' 0
        = 2 * spinFactorDalitz 1 c.mother c.d1 c.d2 c.d3 m12 m13 m23 0 ∧
      resRhoOmega c 1 0 true false p m12 m13' m23' ≠ 2 * resRhoOmega c 1 0 true false p m12 m13 m23 := by
  refine ⟨⟨2, 0, 0, 0, 0, 0⟩, ⟨2, 0, 2, 0, 1, 0, 1⟩, 1, 1, 2, 1 / 2, 5 / 2, by norm_num, ?_, ?_⟩
  · norm_num [spinFactorDalitz]
  · intro h
    have hre := congrArg Complex.re h
    norm_num [resRhoOmega, rbwTerm, resGS, pairMassSq, frFactorOf, frFactorMotherOf, dampingFactorSquareNorm,
      spinFactorDalitz, fsFun] at hre

/-! ### The two amplitudes without a line shape -/

/-- **C57 (Gaussian amplitude).**  The amplitude of a `Resonances::Gauss` is real: the normal density of the mass of its
pair, up to the constant `√(2π)`. -/
theorem C57_gauss (cyc : Nat) (M w m12 m13 m23 : ℝ) :
    resGauss cyc M w m12 m13 m23
      = ((Real.exp (-(√(pairMassSq cyc m12 m13 m23) - M) ^ 2 / (2 * w ^ 2)) / w : ℝ) : ℂ) := by
  unfold resGauss
  apply Complex.ext
  · simp only [Complex.ofReal_re]
    congr 2
    rw [div_mul_div_comm, show (-0.5 : ℝ) = -(1 / 2) by norm_num]
    rcases eq_or_ne w 0 with h | h
    · subst h; simp
    · field_simp
  · simp only [Complex.ofReal_im]

example : resGauss 0 1 2 1 5 6 = ((1 / 2 : ℝ) : ℂ) := by rw [C57_gauss]; simp [pairMassSq]

/-- **C57 (constant amplitude).**  The amplitude of a `Resonances::NonRes` is one everywhere. -/
theorem C57_nonres : resNonRes = 1 := rfl

end GooFit
