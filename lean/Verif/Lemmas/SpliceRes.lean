import Verif.Model.SpliceRes
import Verif.Lemmas.ExtRes
import Verif.Spec.Acceptance
import Mathlib.Analysis.SpecialFunctions.Integrals.Basic

/-!
# Moments of a normal distribution between two points
-/

set_option autoImplicit false

namespace GooFit

open MeasureTheory Set Spec

theorem smallPhi_cont : Continuous smallPhi := by
  unfold smallPhi
  fun_prop

theorem smallPhi_deriv (v : ℝ) : HasDerivAt smallPhi (-(v * smallPhi v)) v := by
  have h : HasDerivAt (fun v : ℝ => -0.5 * v * v) (-v) v := by
    refine (((hasDerivAt_id v).const_mul (-0.5)).mul (hasDerivAt_id v)).congr_deriv ?_
    simp only [id]
    norm_num
    ring
  refine (h.exp.const_mul (√(0.5 * (1 / Real.pi)))).congr_deriv ?_
  unfold smallPhi
  ring

/-- Moments of the standard normal distribution between two points. -/
noncomputable def mom (n : ℕ) (a b : ℝ) : ℝ := ∫ v in a..b, v ^ n * smallPhi v

theorem mom_int (n : ℕ) (a b : ℝ) : IntervalIntegrable (fun v => v ^ n * smallPhi v) volume a b :=
  ((continuous_pow n).mul smallPhi_cont).intervalIntegrable a b

theorem mom_one (a b : ℝ) : mom 1 a b = -smallPhi b + smallPhi a := by
  unfold mom
  rw [intervalIntegral.integral_eq_sub_of_hasDerivAt (f := fun v => -smallPhi v)
    (fun v _ => ((smallPhi_deriv v).neg).congr_deriv (by ring)) (mom_int 1 a b)]
  ring

theorem mom_rec (n : ℕ) (a b : ℝ) :
    mom (n + 2) a b = -smallPhi b * b ^ (n + 1) + smallPhi a * a ^ (n + 1) + ((n : ℝ) + 1) * mom n a b := by
  have hd : ∀ v ∈ uIcc a b, HasDerivAt (fun v => -(v ^ (n + 1) * smallPhi v))
      (v ^ (n + 2) * smallPhi v - ((n : ℝ) + 1) * (v ^ n * smallPhi v)) v := by
    intro v _
    refine (((hasDerivAt_pow (n + 1) v).mul (smallPhi_deriv v)).neg).congr_deriv ?_
    push_cast
    ring
  have hi := (mom_int (n + 2) a b).sub ((mom_int n a b).const_mul ((n : ℝ) + 1))
  have h := intervalIntegral.integral_eq_sub_of_hasDerivAt hd hi
  rw [intervalIntegral.integral_sub (mom_int (n + 2) a b) ((mom_int n a b).const_mul ((n : ℝ) + 1)),
    intervalIntegral.integral_const_mul] at h
  unfold mom
  linarith

theorem bigPhi_deriv (v : ℝ) : HasDerivAt bigPhi (smallPhi v) v := by
  have hc : Continuous (fun v : ℝ => Real.exp (-v ^ 2)) := by fun_prop
  have h0 := (hc.integral_hasStrictDerivAt 0 (v / √2.)).hasDerivAt
  have h1 : HasDerivAt (fun v : ℝ => v / √2.) (1 / √2.) v := (hasDerivAt_id v).div_const _
  have h2 := (((h0.comp v h1).const_mul (2 / √Real.pi)).const_add 1.).const_mul (0.5 : ℝ)
  refine h2.congr_deriv ?_
  unfold smallPhi
  have e1 : -(v / √2.) ^ 2 = -0.5 * v * v := by
    rw [div_pow, Real.sq_sqrt (by norm_num)]
    norm_num
    ring
  rw [e1]
  have e2 : (0.5 : ℝ) * (1 / Real.pi) = (1 / √2. * (1 / √Real.pi)) ^ 2 := by
    rw [mul_pow, div_pow, div_pow, Real.sq_sqrt (by norm_num), Real.sq_sqrt Real.pi_pos.le]
    norm_num
  rw [e2, Real.sqrt_sq (by positivity)]
  norm_num
  ring

theorem mom_zero (a b : ℝ) : mom 0 a b = bigPhi b - bigPhi a := by
  unfold mom
  rw [intervalIntegral.integral_eq_sub_of_hasDerivAt (f := bigPhi)
    (fun v _ => (bigPhi_deriv v).congr_deriv (by ring)) (mom_int 0 a b)]

theorem dfLoop_mul (j : ℕ) : ∀ r : ℝ, dfLoop j r = r * dfLoop j 1 := by
  induction j using Nat.twoStepInduction with
  | zero => intro r; simp [dfLoop]
  | one => intro r; simp [dfLoop]
  | more j ih _ =>
    intro r
    simp only [dfLoop]
    rw [ih, ih (1 * _)]
    ring

theorem doubleFac_zero : doubleFac 0 = 1 := by unfold doubleFac dfLoop; norm_num

theorem doubleFac_one : doubleFac 1 = 1 := by unfold doubleFac dfLoop; norm_num

theorem doubleFac_succ (j : ℕ) : doubleFac (j + 2) = ((j : ℝ) + 2) * doubleFac j := by
  have e : (1. : ℝ) = 1 := by norm_num
  unfold doubleFac
  rw [e]
  show dfLoop j (1 * ((j + 2 : ℕ) : ℝ)) = _
  rw [dfLoop_mul]
  push_cast
  ring

theorem doubleFac_pos (j : ℕ) : 0 < doubleFac j := by
  induction j using Nat.twoStepInduction with
  | zero => rw [doubleFac_zero]; norm_num
  | one => rw [doubleFac_one]; norm_num
  | more j ih _ => rw [doubleFac_succ]; positivity

theorem factorialEven_eq (k : ℕ) (a b : ℝ) : factorialEven (2 * k + 2) a b = mom (2 * k + 2) a b := by
  induction k with
  | zero =>
    rw [mom_rec, mom_zero]
    unfold factorialEven
    norm_num [doubleFac_one]
    ring
  | succ k ih =>
    rw [show 2 * (k + 1) + 2 = (2 * k + 2) + 2 by ring, mom_rec, ← ih]
    unfold factorialEven
    dsimp only
    rw [show (2 * k + 2 + 2 - 2) / 2 = k + 1 by omega, show (2 * k + 2 - 2) / 2 = k by omega,
      Finset.sum_range_succ _ (k + 1)]
    have h := doubleFac_succ (2 * k + 1)
    have hp := doubleFac_pos (2 * k + 1)
    rw [show 2 * (k + 1) + 1 = 2 * k + 1 + 2 by ring, h, show 2 * k + 2 + 1 = 2 * k + 1 + 2 by ring]
    push_cast
    have hq : (2 * (k : ℝ) + 1 + 2) ≠ 0 := by positivity
    rw [show (1. : ℝ) = 1 by norm_num]
    generalize (∑ j ∈ Finset.range (k + 1), 1 / doubleFac (2 * j + 1)
      * (-smallPhi b * b ^ (2 * j + 1) + smallPhi a * a ^ (2 * j + 1))) = S
    field_simp
    ring

theorem factorialOdd_eq (k : ℕ) (a b : ℝ) : factorialOdd (2 * k + 1) a b = mom (2 * k + 1) a b := by
  induction k with
  | zero =>
    rw [mom_one]
    unfold factorialOdd
    norm_num [doubleFac_zero]
  | succ k ih =>
    rw [show 2 * (k + 1) + 1 = (2 * k + 1) + 2 by ring, mom_rec, ← ih]
    unfold factorialOdd
    dsimp only
    rw [show (2 * k + 1 + 2 - 1) / 2 = k + 1 by omega, show (2 * k + 1 - 1) / 2 = k by omega,
      Finset.sum_range_succ _ (k + 1)]
    have h := doubleFac_succ (2 * k)
    have hp := doubleFac_pos (2 * k)
    rw [show 2 * (k + 1) = 2 * k + 2 by ring, h, show 2 * k + 1 + 1 = 2 * k + 2 by ring]
    push_cast
    have hq : (2 * (k : ℝ) + 2) ≠ 0 := by positivity
    rw [show (1. : ℝ) = 1 by norm_num]
    generalize (∑ j ∈ Finset.range (k + 1), 1 / doubleFac (2 * j)
      * (-smallPhi b * b ^ (2 * j) + smallPhi a * a ^ (2 * j))) = S
    field_simp
    ring

theorem evaluateConvo_eq (n : ℕ) (a b : ℝ) : evaluateConvo n a b = mom n a b := by
  unfold evaluateConvo
  split_ifs with h0 h1 h2
  · subst h0; exact (mom_zero a b).symm
  · subst h1; exact (mom_one a b).symm
  · obtain ⟨k, rfl⟩ : ∃ k, n = 2 * k + 2 := ⟨(n - 2) / 2, by omega⟩
    exact factorialEven_eq k a b
  · obtain ⟨k, rfl⟩ : ∃ k, n = 2 * k + 1 := ⟨(n - 1) / 2, by omega⟩
    exact factorialOdd_eq k a b

theorem facLoop_eq (j : ℕ) : ∀ r : ℝ, facLoop j r = r * (j.factorial : ℝ) := by
  induction j with
  | zero => intro r; simp [facLoop]
  | succ j ih => intro r; simp only [facLoop]; rw [ih, Nat.factorial_succ]; push_cast; ring

theorem factorialOf_eq (j : ℕ) : factorialOf j = (j.factorial : ℝ) := by
  unfold factorialOf
  split_ifs with h
  · subst h; norm_num
  · rw [facLoop_eq]; norm_num

theorem binomCoeff_eq {n k : ℕ} (h : k ≤ n) : binomCoeff n k = (n.choose k : ℝ) := by
  unfold binomCoeff
  rw [factorialOf_eq, factorialOf_eq, factorialOf_eq, Nat.cast_choose ℝ h]

theorem powSeq_eq (u : ℝ) (i : ℕ) : powSeq u i = (-u) ^ i := by
  induction i with
  | zero => simp only [powSeq]; norm_num
  | succ i ih => simp only [powSeq]; rw [ih, pow_succ]

/-- The sum over the binomial coefficients is the moment about `u`. -/
theorem binom_mom (n : ℕ) (u a b : ℝ) :
    ∑ k ∈ Finset.range (n + 1), binomCoeff n k * evaluateConvo (n - k) a b * powSeq u k
      = ∫ v in a..b, (v - u) ^ n * smallPhi v := by
  have e : ∀ v : ℝ, (v - u) ^ n * smallPhi v
      = ∑ k ∈ Finset.range (n + 1), ((n.choose k : ℝ) * (-u) ^ k) * (v ^ (n - k) * smallPhi v) := by
    intro v
    rw [sub_eq_neg_add, add_pow, Finset.sum_mul]
    exact Finset.sum_congr rfl fun k _ => by ring
  simp only [e]
  rw [intervalIntegral.integral_finset_sum fun k _ => ((mom_int (n - k) a b).const_mul _)]
  refine Finset.sum_congr rfl fun k hk => ?_
  rw [intervalIntegral.integral_const_mul, binomCoeff_eq (by simpa [Nat.lt_succ_iff] using hk), evaluateConvo_eq,
    powSeq_eq]
  unfold mom
  ring

/-- The integral over true times between `a` and `b` of a power, damped and folded. -/
noncomputable def pieceMom (n : ℕ) (k σ T a b : ℝ) : ℝ :=
  ∫ t in a..b, t ^ n * (Real.exp (-k * t) * normalDensity σ (T - t))

theorem splice_point {σ : ℝ} (hσ : 0 < σ) (T k t : ℝ) :
    Real.exp (-k * t) * normalDensity σ (T - t)
      = Real.exp (-0.5 * (T * T * (1 / σ * (1 / σ)) - (σ * k - T / σ) * (σ * k - T / σ)))
        * (1 / σ * smallPhi (t / σ + (σ * k - T / σ))) := by
  unfold normalDensity smallPhi
  rw [← gaussRes_norm σ hσ]
  have e : Real.exp (-k * t) * Real.exp (-(T - t) ^ 2 / (2 * σ ^ 2))
      = Real.exp (-0.5 * (T * T * (1 / σ * (1 / σ)) - (σ * k - T / σ) * (σ * k - T / σ)))
        * Real.exp (-0.5 * (t / σ + (σ * k - T / σ)) * (t / σ + (σ * k - T / σ))) := by
    rw [← Real.exp_add, ← Real.exp_add]
    congr 1
    rw [show (-0.5 : ℝ) = -(1 / 2) by norm_num]
    field_simp
    ring
  calc _ = √(0.5 * (1 / Real.pi)) * (1 / σ) * (Real.exp (-k * t) * Real.exp (-(T - t) ^ 2 / (2 * σ ^ 2))) := by ring
    _ = _ := by rw [e]; ring

theorem pieceMom_eq {σ : ℝ} (hσ : 0 < σ) (n : ℕ) (T k a b : ℝ) :
    pieceMom n k σ T a b
      = Real.exp (-0.5 * (T * T * (1 / σ * (1 / σ)) - (σ * k - T / σ) * (σ * k - T / σ)))
        * (σ ^ n * ∫ v in (a / σ + (σ * k - T / σ))..(b / σ + (σ * k - T / σ)),
          (v - (σ * k - T / σ)) ^ n * smallPhi v) := by
  have h := intervalIntegral.integral_comp_div_add (a := a) (b := b)
    (fun v => (v - (σ * k - T / σ)) ^ n * smallPhi v) hσ.ne' (σ * k - T / σ)
  have h' : ∫ v in (a / σ + (σ * k - T / σ))..(b / σ + (σ * k - T / σ)), (v - (σ * k - T / σ)) ^ n * smallPhi v
      = σ⁻¹ * ∫ t in a..b, (t / σ + (σ * k - T / σ) - (σ * k - T / σ)) ^ n * smallPhi (t / σ + (σ * k - T / σ)) := by
    rw [h, smul_eq_mul, inv_mul_cancel_left₀ hσ.ne']
  rw [h', ← intervalIntegral.integral_const_mul, ← intervalIntegral.integral_const_mul,
    ← intervalIntegral.integral_const_mul]
  unfold pieceMom
  refine intervalIntegral.integral_congr fun t _ => ?_
  rw [splice_point hσ, add_sub_cancel_right, div_pow]
  field_simp

theorem pieceMom_int {σ : ℝ} (n : ℕ) (k T a b : ℝ) :
    IntervalIntegrable (fun t => t ^ n * (Real.exp (-k * t) * normalDensity σ (T - t))) volume a b := by
  refine Continuous.intervalIntegrable ?_ a b
  unfold normalDensity
  fun_prop

theorem splice_u {σ : ℝ} (hσ : 0 < σ) (k T : ℝ) :
    (2 * k - 2 * T * (1. / σ * (1. / σ))) / (2. * (1. / σ)) = σ * k - T / σ := by
  rw [show (1. : ℝ) = 1 by norm_num, show (2. : ℝ) = 2 by norm_num]
  field_simp

/-- `evaluateAcceptance` with the arrays of `evaluateKnot`. -/
theorem evaluateAcceptance_eq {σ : ℝ} (hσ : 0 < σ) (n : ℕ) (T k a b : ℝ) :
    Real.exp (-0.5 * (T * T * (1. / σ * (1. / σ)) - (σ * k - T / σ) * (σ * k - T / σ)))
      * evaluateAcceptance n (1. / σ) (fun i => evaluateConvo i (1. / σ * a + (σ * k - T / σ)) (1. / σ * b + (σ * k - T / σ)))
        (powSeq (σ * k - T / σ))
      = pieceMom n k σ T a b := by
  rw [pieceMom_eq hσ]
  unfold evaluateAcceptance
  rw [binom_mom, show (1. : ℝ) = 1 by norm_num, one_div_one_div, one_div_mul_eq_div, one_div_mul_eq_div]
  ring

theorem evaluateAcceptanceGn_eq {σ : ℝ} (hσ : 0 < σ) (n j : ℕ) (T k a b : ℝ) :
    Real.exp (-0.5 * (T * T * (1. / σ * (1. / σ)) - (σ * k - T / σ) * (σ * k - T / σ)))
      * evaluateAcceptanceGn n j (1. / σ) (fun i => evaluateConvo i (1. / σ * a + (σ * k - T / σ)) (1. / σ * b + (σ * k - T / σ)))
        (powSeq (σ * k - T / σ))
      = pieceMom (n + j) k σ T a b / σ ^ n := by
  rw [pieceMom_eq hσ]
  unfold evaluateAcceptanceGn
  rw [binom_mom, show (1. : ℝ) = 1 by norm_num, one_div_one_div, one_div_mul_eq_div, one_div_mul_eq_div]
  have : σ ^ n ≠ 0 := by positivity
  rw [eq_div_iff this, pow_add]
  ring

/-- A cubic polynomial times a power, damped and folded, between two times. -/
theorem cubic_piece {σ : ℝ} (c : Cubic) (n : ℕ) (k T a b : ℝ) :
    ∫ t in a..b, cubic c.a0 c.a1 c.a2 c.a3 t * t ^ n * (Real.exp (-k * t) * normalDensity σ (T - t))
      = c.a0 * pieceMom n k σ T a b + c.a1 * pieceMom (n + 1) k σ T a b + c.a2 * pieceMom (n + 2) k σ T a b
        + c.a3 * pieceMom (n + 3) k σ T a b := by
  have i := fun m => (pieceMom_int (σ := σ) m k T a b)
  unfold pieceMom
  rw [← intervalIntegral.integral_const_mul, ← intervalIntegral.integral_const_mul,
    ← intervalIntegral.integral_const_mul, ← intervalIntegral.integral_const_mul,
    ← intervalIntegral.integral_add ((i _).const_mul _) ((i _).const_mul _),
    ← intervalIntegral.integral_add (((i _).const_mul _).add ((i _).const_mul _)) ((i _).const_mul _),
    ← intervalIntegral.integral_add ((((i _).const_mul _).add ((i _).const_mul _)).add ((i _).const_mul _)) ((i _).const_mul _)]
  refine intervalIntegral.integral_congr fun t _ => ?_
  unfold cubic
  ring

/-- `evaluateKnot` computes the folded hyperbolic functions between two knots. -/
theorem evaluateKnot_eq {σ : ℝ} (hσ : 0 < σ) (P1 P3 τ a b : ℝ) (c : Cubic) (T y : ℝ) :
    evaluateKnot P1 P3 (1. / τ) a b c T σ y
      = (P1 + ∫ t in a..b, cubic c.a0 c.a1 c.a2 c.a3 t
            * (Real.exp (-(t / τ)) * Real.cosh (y * (t / τ)) * normalDensity σ (T - t)),
         P3 + ∫ t in a..b, cubic c.a0 c.a1 c.a2 c.a3 t
            * (Real.exp (-(t / τ)) * Real.sinh (y * (t / τ)) * normalDensity σ (T - t))) := by
  have e1 : (1. : ℝ) = 1 := by norm_num
  have hk : ∀ k, IntervalIntegrable (fun t => cubic c.a0 c.a1 c.a2 c.a3 t * t ^ 0
      * (Real.exp (-k * t) * normalDensity σ (T - t))) volume a b := by
    intro k
    refine Continuous.intervalIntegrable ?_ a b
    unfold normalDensity cubic
    fun_prop
  have hc : ∫ t in a..b, cubic c.a0 c.a1 c.a2 c.a3 t
            * (Real.exp (-(t / τ)) * Real.cosh (y * (t / τ)) * normalDensity σ (T - t))
      = 1 / 2 * (∫ t in a..b, cubic c.a0 c.a1 c.a2 c.a3 t * t ^ 0
          * (Real.exp (-(1 / τ * (1 - y)) * t) * normalDensity σ (T - t)))
        + 1 / 2 * (∫ t in a..b, cubic c.a0 c.a1 c.a2 c.a3 t * t ^ 0
          * (Real.exp (-(1 / τ * (1 + y)) * t) * normalDensity σ (T - t))) := by
    rw [← intervalIntegral.integral_const_mul, ← intervalIntegral.integral_const_mul,
      ← intervalIntegral.integral_add ((hk _).const_mul _) ((hk _).const_mul _)]
    refine intervalIntegral.integral_congr fun t _ => ?_
    have h := cosh_split τ y 0 t
    rw [show -(1 / τ + 0) * t = -(t / τ) by ring, show -(1 / τ - y * (1 / τ) + 0) * t = -(1 / τ * (1 - y)) * t by ring,
      show -(1 / τ + y * (1 / τ) + 0) * t = -(1 / τ * (1 + y)) * t by ring] at h
    rw [h]
    ring
  have hs : ∫ t in a..b, cubic c.a0 c.a1 c.a2 c.a3 t
            * (Real.exp (-(t / τ)) * Real.sinh (y * (t / τ)) * normalDensity σ (T - t))
      = 1 / 2 * (∫ t in a..b, cubic c.a0 c.a1 c.a2 c.a3 t * t ^ 0
          * (Real.exp (-(1 / τ * (1 - y)) * t) * normalDensity σ (T - t)))
        - 1 / 2 * (∫ t in a..b, cubic c.a0 c.a1 c.a2 c.a3 t * t ^ 0
          * (Real.exp (-(1 / τ * (1 + y)) * t) * normalDensity σ (T - t))) := by
    rw [← intervalIntegral.integral_const_mul, ← intervalIntegral.integral_const_mul,
      ← intervalIntegral.integral_sub ((hk _).const_mul _) ((hk _).const_mul _)]
    refine intervalIntegral.integral_congr fun t _ => ?_
    have h := sinh_split τ y 0 t
    rw [show -(1 / τ + 0) * t = -(t / τ) by ring, show -(1 / τ - y * (1 / τ) + 0) * t = -(1 / τ * (1 - y)) * t by ring,
      show -(1 / τ + y * (1 / τ) + 0) * t = -(1 / τ * (1 + y)) * t by ring] at h
    rw [h]
    ring
  rw [hc, hs, cubic_piece, cubic_piece]
  have hpre : (0.5 : ℝ) / (1. / σ) / σ = 1 / 2 := by
    rw [e1, show (0.5 : ℝ) = 1 / 2 by norm_num]; field_simp
  unfold evaluateKnot
  dsimp only
  have um : (2 * (1. / τ) * (1. - y) - 2 * T * (1. / σ * (1. / σ))) / (2. * (1. / σ)) = σ * (1 / τ * (1 - y)) - T / σ := by
    rw [← splice_u hσ]
    congr 1
    rw [e1]
    ring
  have up : (2 * (1. / τ) * (1. + y) - 2 * T * (1. / σ * (1. / σ))) / (2. * (1. / σ)) = σ * (1 / τ * (1 + y)) - T / σ := by
    rw [← splice_u hσ]
    congr 1
    rw [e1]
    ring
  rw [um, up, hpre]
  simp only [← evaluateAcceptance_eq hσ]
  simp only [Nat.zero_add, Nat.reduceAdd]
  generalize Real.exp (-0.5 * (T * T * (1. / σ * (1. / σ))
    - (σ * (1 / τ * (1 - y)) - T / σ) * (σ * (1 / τ * (1 - y)) - T / σ))) = Em
  generalize Real.exp (-0.5 * (T * T * (1. / σ * (1. / σ))
    - (σ * (1 / τ * (1 + y)) - T / σ) * (σ * (1 / τ * (1 + y)) - T / σ))) = Ep
  generalize evaluateAcceptance = G
  generalize 1. / σ * a + (σ * (1 / τ * (1 - y)) - T / σ) = w1
  generalize 1. / σ * b + (σ * (1 / τ * (1 - y)) - T / σ) = w2
  generalize 1. / σ * a + (σ * (1 / τ * (1 + y)) - T / σ) = w3
  generalize 1. / σ * b + (σ * (1 / τ * (1 + y)) - T / σ) = w4
  generalize σ * (1 / τ * (1 - y)) - T / σ = w5
  generalize σ * (1 / τ * (1 + y)) - T / σ = w6
  generalize 1. / σ = r
  rw [e1]
  refine Prod.ext ?_ ?_ <;> dsimp only <;> ring

/-- `evaluateKnotSinCos` computes the integrals of the given series between two
knots. -/
theorem evaluateKnotSinCos_eq {σ : ℝ} (hσ : 0 < σ) (P2 P4 τ a b : ℝ) (c : Cubic) (T x : ℝ) :
    evaluateKnotSinCos P2 P4 (1. / τ) a b c T σ x
      = (P2 + ∫ t in a..b, cubic c.a0 c.a1 c.a2 c.a3 t
            * (Real.exp (-(t / τ)) * (1 - (x * (t / τ)) ^ 2 / 2 + (x / τ * σ) ^ 4 * (x * (t / τ)) ^ 4 / 24)
              * normalDensity σ (T - t)),
         P4 + ∫ t in a..b, cubic c.a0 c.a1 c.a2 c.a3 t
            * (Real.exp (-(t / τ)) * (x * (t / τ) - (x / τ * σ) * (x * (t / τ)) ^ 3 / 6
                + (x / τ * σ) ^ 11 * (x * (t / τ)) ^ 5 / 120)
              * normalDensity σ (T - t))) := by
  have e1 : (1. : ℝ) = 1 := by norm_num
  have hk : ∀ n, IntervalIntegrable (fun t => cubic c.a0 c.a1 c.a2 c.a3 t * t ^ n
      * (Real.exp (-(1 / τ) * t) * normalDensity σ (T - t))) volume a b := by
    intro n
    refine Continuous.intervalIntegrable ?_ a b
    unfold normalDensity cubic
    fun_prop
  have he : ∀ t, Real.exp (-(t / τ)) = Real.exp (-(1 / τ) * t) := by intro t; congr 1; ring
  have hc : ∫ t in a..b, cubic c.a0 c.a1 c.a2 c.a3 t
            * (Real.exp (-(t / τ)) * (1 - (x * (t / τ)) ^ 2 / 2 + (x / τ * σ) ^ 4 * (x * (t / τ)) ^ 4 / 24)
              * normalDensity σ (T - t))
      = (∫ t in a..b, cubic c.a0 c.a1 c.a2 c.a3 t * t ^ 0 * (Real.exp (-(1 / τ) * t) * normalDensity σ (T - t)))
        + -((x / τ) ^ 2 / 2) * (∫ t in a..b, cubic c.a0 c.a1 c.a2 c.a3 t * t ^ 2
          * (Real.exp (-(1 / τ) * t) * normalDensity σ (T - t)))
        + (x / τ * σ) ^ 4 * (x / τ) ^ 4 / 24 * (∫ t in a..b, cubic c.a0 c.a1 c.a2 c.a3 t * t ^ 4
          * (Real.exp (-(1 / τ) * t) * normalDensity σ (T - t))) := by
    rw [← intervalIntegral.integral_const_mul, ← intervalIntegral.integral_const_mul,
      ← intervalIntegral.integral_add (hk _) ((hk _).const_mul _),
      ← intervalIntegral.integral_add ((hk _).add ((hk _).const_mul _)) ((hk _).const_mul _)]
    refine intervalIntegral.integral_congr fun t _ => ?_
    rw [he]
    ring
  have hs : ∫ t in a..b, cubic c.a0 c.a1 c.a2 c.a3 t
            * (Real.exp (-(t / τ)) * (x * (t / τ) - (x / τ * σ) * (x * (t / τ)) ^ 3 / 6
                + (x / τ * σ) ^ 11 * (x * (t / τ)) ^ 5 / 120)
              * normalDensity σ (T - t))
      = x / τ * (∫ t in a..b, cubic c.a0 c.a1 c.a2 c.a3 t * t ^ 1 * (Real.exp (-(1 / τ) * t) * normalDensity σ (T - t)))
        + -((x / τ * σ) * (x / τ) ^ 3 / 6) * (∫ t in a..b, cubic c.a0 c.a1 c.a2 c.a3 t * t ^ 3
          * (Real.exp (-(1 / τ) * t) * normalDensity σ (T - t)))
        + (x / τ * σ) ^ 11 * (x / τ) ^ 5 / 120 * (∫ t in a..b, cubic c.a0 c.a1 c.a2 c.a3 t * t ^ 5
          * (Real.exp (-(1 / τ) * t) * normalDensity σ (T - t))) := by
    rw [← intervalIntegral.integral_const_mul, ← intervalIntegral.integral_const_mul,
      ← intervalIntegral.integral_const_mul,
      ← intervalIntegral.integral_add ((hk _).const_mul _) ((hk _).const_mul _),
      ← intervalIntegral.integral_add (((hk _).const_mul _).add ((hk _).const_mul _)) ((hk _).const_mul _)]
    refine intervalIntegral.integral_congr fun t _ => ?_
    rw [he]
    ring
  rw [hc, hs]
  simp only [cubic_piece]
  have hpre : (1. : ℝ) / (1. / σ) / σ = 1 := by rw [e1]; field_simp
  have hcf : x * (1. / τ) / (1. / σ) = x / τ * σ := by rw [e1]; field_simp
  have hu : (2 * (1. / τ) - 2 * T * (1. / σ * (1. / σ))) / (2. * (1. / σ)) = σ * (1 / τ) - T / σ := by
    rw [← splice_u hσ, e1]
  have hG : ∀ n j, evaluateAcceptanceGn n j (1. / σ) (fun i => evaluateConvo i (1. / σ * a + (σ * (1 / τ) - T / σ))
        (1. / σ * b + (σ * (1 / τ) - T / σ))) (powSeq (σ * (1 / τ) - T / σ))
      = pieceMom (n + j) (1 / τ) σ T a b / (σ ^ n
        * Real.exp (-0.5 * (T * T * (1. / σ * (1. / σ)) - (σ * (1 / τ) - T / σ) * (σ * (1 / τ) - T / σ)))) := by
    intro n j
    have hE := Real.exp_pos (-0.5 * (T * T * (1. / σ * (1. / σ)) - (σ * (1 / τ) - T / σ) * (σ * (1 / τ) - T / σ)))
    rw [← div_div, ← evaluateAcceptanceGn_eq hσ, mul_div_cancel_left₀ _ hE.ne']
  unfold evaluateKnotSinCos
  dsimp only
  rw [hpre, hcf, hu]
  simp only [hG]
  have hE := (Real.exp_pos (-0.5 * (T * T * (1. / σ * (1. / σ)) - (σ * (1 / τ) - T / σ) * (σ * (1 / τ) - T / σ)))).ne'
  generalize Real.exp (-0.5 * (T * T * (1. / σ * (1. / σ)) - (σ * (1 / τ) - T / σ) * (σ * (1 / τ) - T / σ))) = E at *
  simp only [Nat.zero_add, Nat.reduceAdd]
  generalize x / τ = w
  generalize (fun n => pieceMom n (1 / τ) σ T a b) = Q
  have n1 : (0.5 : ℝ) = 1 / 2 := by norm_num
  have n2 : (1. : ℝ) / 24. = 1 / 24 := by norm_num
  have n3 : (1. : ℝ) / 6. = 1 / 6 := by norm_num
  have n4 : (1. : ℝ) / 120. = 1 / 120 := by norm_num
  rw [n1, n2, n3, n4]
  refine Prod.ext ?_ ?_ <;> dsimp only <;> field_simp <;> ring

/-- `myGaussianHigh` adds the folded functions after the last knot. -/
theorem myGaussianHigh_eq {τ T x y σ s t0 C : ℝ} (P : ℝ × ℝ × ℝ × ℝ) (hσ : 0 < σ) (ht : 0 ≤ t0) :
    myGaussianHigh P τ T x y σ s t0 C
      = (P.1 + C * Real.exp (s * t0) * (foldFrom t0 τ T x y σ s).1,
         P.2.1 + C * Real.exp (s * t0) * (foldFrom t0 τ T x y σ s).2.1,
         P.2.2.1 + C * Real.exp (s * t0) * (foldFrom t0 τ T x y σ s).2.2.1,
         P.2.2.2 + C * Real.exp (s * t0) * (foldFrom t0 τ T x y σ s).2.2.2) := by
  rw [foldFrom_eq hσ ht]
  have e1 : (1. : ℝ) / (σ * √2) * t0 = t0 / (σ * √2) := by norm_num; ring
  unfold myGaussianHigh
  dsimp only
  rw [ext_u σ T τ s hσ, ext_um σ T τ y s hσ, ext_up σ T τ y s hσ, ext_C σ T hσ, e1]
  simp only [gm_one, gm_two, gm_three]
  simp only [← gm_zero_erfc]
  simp only [← ext_pre σ T _ hσ]
  generalize √(0.5 * (1 / Real.pi)) * (1 / σ) = N
  generalize (1.0 : ℝ) / (2 / √Real.pi) = q
  simp only [add_comm (ulow σ T _) (t0 / (σ * √2))]
  generalize Real.exp (-(T ^ 2 / (2 * σ ^ 2)) + ulow σ T (1 / τ + s) * ulow σ T (1 / τ + s)) = E0
  generalize Real.exp (-(T ^ 2 / (2 * σ ^ 2)) + ulow σ T (1 / τ - y * (1 / τ) + s) * ulow σ T (1 / τ - y * (1 / τ) + s)) = E1
  generalize Real.exp (-(T ^ 2 / (2 * σ ^ 2)) + ulow σ T (1 / τ + y * (1 / τ) + s) * ulow σ T (1 / τ + y * (1 / τ) + s)) = E2
  generalize ulow σ T (1 / τ - y * (1 / τ) + s) = um
  generalize ulow σ T (1 / τ + y * (1 / τ) + s) = up
  generalize ulow σ T (1 / τ + s) = u
  generalize t0 / (σ * √2) = d
  rw [show (0.5 : ℝ) = 1 / 2 by norm_num, show (1.0 / 6.0 : ℝ) = 1 / 6 by norm_num]
  rw [show -1 * (d + u) * (d + u) = -(d + u) ^ 2 by ring]
  refine Prod.ext ?_ (Prod.ext ?_ (Prod.ext ?_ ?_)) <;> dsimp only <;> ring

/-- The cubic of a piece. -/
noncomputable def SpliceTab.piece (t : SpliceTab) (i : ℕ) (u : ℝ) : ℝ :=
  cubic (t.spline i).a0 (t.spline i).a1 (t.spline i).a2 (t.spline i).a3 u

/-- The four functions that are folded between the knots. -/
noncomputable def knotFuns (τ x y σ t : ℝ) : ℝ × ℝ × ℝ × ℝ :=
  (Real.exp (-(t / τ)) * Real.cosh (y * (t / τ)),
   Real.exp (-(t / τ)) * (1 - (x * (t / τ)) ^ 2 / 2 + (x / τ * σ) ^ 4 * (x * (t / τ)) ^ 4 / 24),
   Real.exp (-(t / τ)) * Real.sinh (y * (t / τ)),
   Real.exp (-(t / τ)) * (x * (t / τ) - (x / τ * σ) * (x * (t / τ)) ^ 3 / 6
                + (x / τ * σ) ^ 11 * (x * (t / τ)) ^ 5 / 120))

theorem spliceFold_eq {σ : ℝ} (hσ : 0 < σ) (t : SpliceTab) (τ T x y : ℝ) (m : ℕ) :
    (List.range m).foldl (spliceTurn t (1. / τ) T x y σ) (0., 0., 0., 0.)
      = (∑ i ∈ Finset.range m, ∫ u in (t.knots i)..(t.knots (i + 1)),
            t.piece i u * ((knotFuns τ x y σ u).1 * normalDensity σ (T - u)),
         ∑ i ∈ Finset.range m, ∫ u in (t.knots i)..(t.knots (i + 1)),
            t.piece i u * ((knotFuns τ x y σ u).2.1 * normalDensity σ (T - u)),
         ∑ i ∈ Finset.range m, ∫ u in (t.knots i)..(t.knots (i + 1)),
            t.piece i u * ((knotFuns τ x y σ u).2.2.1 * normalDensity σ (T - u)),
         ∑ i ∈ Finset.range m, ∫ u in (t.knots i)..(t.knots (i + 1)),
            t.piece i u * ((knotFuns τ x y σ u).2.2.2 * normalDensity σ (T - u))) := by
  induction m with
  | zero => simp; norm_num
  | succ m ih =>
    rw [List.range_succ, List.foldl_append, ih]
    simp only [List.foldl_cons, List.foldl_nil, Finset.sum_range_succ]
    unfold spliceTurn
    rw [evaluateKnot_eq hσ, evaluateKnotSinCos_eq hσ]
    rfl

theorem gaussianSplice_eq {σ : ℝ} (hσ : 0 < σ) (t : SpliceTab) (τ T x y : ℝ) :
    gaussianSplice t τ T x y σ
      = (∑ i ∈ Finset.range (t.nKnots - 1), ∫ u in (t.knots i)..(t.knots (i + 1)),
            t.piece i u * ((knotFuns τ x y σ u).1 * normalDensity σ (T - u)),
         ∑ i ∈ Finset.range (t.nKnots - 1), ∫ u in (t.knots i)..(t.knots (i + 1)),
            t.piece i u * ((knotFuns τ x y σ u).2.1 * normalDensity σ (T - u)),
         ∑ i ∈ Finset.range (t.nKnots - 1), ∫ u in (t.knots i)..(t.knots (i + 1)),
            t.piece i u * ((knotFuns τ x y σ u).2.2.1 * normalDensity σ (T - u)),
         ∑ i ∈ Finset.range (t.nKnots - 1), ∫ u in (t.knots i)..(t.knots (i + 1)),
            t.piece i u * ((knotFuns τ x y σ u).2.2.2 * normalDensity σ (T - u))) :=
  spliceFold_eq hσ t τ T x y _

/-- The rate between the knots. -/
noncomputable def knotRate (c1 c2 c3 c4 τ x y σ t : ℝ) : ℝ :=
  c1 * (knotFuns τ x y σ t).1 + c2 * (knotFuns τ x y σ t).2.1 - 2 * c3 * (knotFuns τ x y σ t).2.2.1
    - 2 * c4 * (knotFuns τ x y σ t).2.2.2

theorem knotRate_cont (c1 c2 c3 c4 τ x y σ : ℝ) : Continuous (knotRate c1 c2 c3 c4 τ x y σ) := by
  unfold knotRate knotFuns
  dsimp only
  fun_prop

theorem piece_cont (t : SpliceTab) (i : ℕ) : Continuous (t.piece i) := by
  unfold SpliceTab.piece cubic
  fun_prop

theorem normalDensity_cont (σ : ℝ) : Continuous (normalDensity σ) := by
  unfold normalDensity
  fun_prop

/-- The four sums together. -/
theorem knotRate_sum (t : SpliceTab) (c1 c2 c3 c4 τ x y σ T a b : ℝ) (i : ℕ) :
    ∫ u in a..b, t.piece i u * (knotRate c1 c2 c3 c4 τ x y σ u * normalDensity σ (T - u))
      = c1 * (∫ u in a..b, t.piece i u * ((knotFuns τ x y σ u).1 * normalDensity σ (T - u)))
        + c2 * (∫ u in a..b, t.piece i u * ((knotFuns τ x y σ u).2.1 * normalDensity σ (T - u)))
        - 2 * c3 * (∫ u in a..b, t.piece i u * ((knotFuns τ x y σ u).2.2.1 * normalDensity σ (T - u)))
        - 2 * c4 * (∫ u in a..b, t.piece i u * ((knotFuns τ x y σ u).2.2.2 * normalDensity σ (T - u))) := by
  have hp := piece_cont t i
  have hN := normalDensity_cont σ
  have k1 : Continuous (fun u => t.piece i u * ((knotFuns τ x y σ u).1 * normalDensity σ (T - u))) := by
    unfold knotFuns; dsimp only; fun_prop
  have k2 : Continuous (fun u => t.piece i u * ((knotFuns τ x y σ u).2.1 * normalDensity σ (T - u))) := by
    unfold knotFuns; dsimp only; fun_prop
  have k3 : Continuous (fun u => t.piece i u * ((knotFuns τ x y σ u).2.2.1 * normalDensity σ (T - u))) := by
    unfold knotFuns; dsimp only; fun_prop
  have k4 : Continuous (fun u => t.piece i u * ((knotFuns τ x y σ u).2.2.2 * normalDensity σ (T - u))) := by
    unfold knotFuns; dsimp only; fun_prop
  have i1 := (k1.intervalIntegrable (μ := volume) a b).const_mul c1
  have i2 := (k2.intervalIntegrable (μ := volume) a b).const_mul c2
  have i3 := (k3.intervalIntegrable (μ := volume) a b).const_mul (2 * c3)
  have i4 := (k4.intervalIntegrable (μ := volume) a b).const_mul (2 * c4)
  rw [← intervalIntegral.integral_const_mul, ← intervalIntegral.integral_const_mul,
    ← intervalIntegral.integral_const_mul, ← intervalIntegral.integral_const_mul,
    ← intervalIntegral.integral_add i1 i2, ← intervalIntegral.integral_sub (i1.add i2) i3,
    ← intervalIntegral.integral_sub ((i1.add i2).sub i3) i4]
  refine intervalIntegral.integral_congr fun u _ => ?_
  unfold knotRate
  ring

/-! ## Piecewise functions -/

/-- The integral of a function given piecewise is the sum over the pieces. -/
theorem byPieces_split (knot : ℕ → ℝ) (piece : ℕ → ℝ → ℝ) (f : ℝ → ℝ) (hp : ∀ i, Continuous (piece i))
    (hf : Continuous f) (m : ℕ) (hk : ∀ i < m, knot i ≤ knot (i + 1)) :
    knot 0 ≤ knot m
    ∧ IntegrableOn (fun t => byPieces knot piece m t * f t) (Ioc (knot 0) (knot m))
    ∧ ∫ t in Ioc (knot 0) (knot m), byPieces knot piece m t * f t
      = ∑ i ∈ Finset.range m, ∫ t in (knot i)..(knot (i + 1)), piece i t * f t := by
  induction m with
  | zero => simp
  | succ m ih =>
    obtain ⟨h0, h1, h2⟩ := ih fun i hi => hk i (by omega)
    have hm := hk m (by omega)
    have eL : EqOn (fun t => byPieces knot piece m t * f t) (fun t => byPieces knot piece (m + 1) t * f t)
        (Ioc (knot 0) (knot m)) := by
      intro t ht
      simp only [byPieces]
      rw [if_neg (not_lt.2 ht.2)]
    have eR : EqOn (fun t => piece m t * f t) (fun t => byPieces knot piece (m + 1) t * f t)
        (Ioc (knot m) (knot (m + 1))) := by
      intro t ht
      simp only [byPieces]
      rw [if_pos ht.1]
    have iL := h1.congr_fun eL measurableSet_Ioc
    have hc := ((hp m).mul hf).intervalIntegrable (μ := volume) (knot m) (knot (m + 1))
    have iR := ((intervalIntegrable_iff_integrableOn_Ioc_of_le hm).1 hc).congr_fun eR measurableSet_Ioc
    refine ⟨h0.trans hm, ?_, ?_⟩
    · rw [← Ioc_union_Ioc_eq_Ioc h0 hm]
      exact iL.union iR
    · rw [← Ioc_union_Ioc_eq_Ioc h0 hm,
        setIntegral_union (Ioc_disjoint_Ioc_of_le le_rfl) measurableSet_Ioc iL iR, Finset.sum_range_succ, ← h2,
        ← setIntegral_congr_fun measurableSet_Ioc eL, ← setIntegral_congr_fun measurableSet_Ioc eR,
        intervalIntegral.integral_of_le hm]

theorem byPieces_before (knot : ℕ → ℝ) (piece : ℕ → ℝ → ℝ) (t : ℝ) (m : ℕ) (hk : ∀ i < m, knot i ≤ knot (i + 1))
    (ht : t ≤ knot 0) : byPieces knot piece m t = 0 := by
  have mono : ∀ j, j ≤ m → knot 0 ≤ knot j := by
    intro j
    induction j with
    | zero => intro _; exact le_rfl
    | succ j ih => intro hj; exact (ih (by omega)).trans (hk j (by omega))
  induction m with
  | zero => rfl
  | succ m ih =>
    simp only [byPieces]
    rw [if_neg (not_lt.2 (ht.trans (mono m (by omega)))),
      ih (fun i hi => hk i (by omega)) (fun j hj => mono j (by omega))]

/-- A function given piecewise, followed by an exponential, times `f` between the knots and
`g` after them. -/
theorem piecesThenExp_split (knot : ℕ → ℝ) (piece : ℕ → ℝ → ℝ) (f g : ℝ → ℝ) (hp : ∀ i, Continuous (piece i))
    (hf : Continuous f) (m : ℕ) (hk : ∀ i < m, knot i ≤ knot (i + 1)) (L s : ℝ)
    (hg : IntegrableOn (fun t => Real.exp (-s * t) * g t) (Ioi (knot m))) (a : ℝ) (ha : a ≤ knot 0) :
    IntegrableOn (fun t => piecesThenExp knot piece m L s t * (if knot m < t then g t else f t)) (Ioi a)
    ∧ ∫ t in Ioi a, piecesThenExp knot piece m L s t * (if knot m < t then g t else f t)
      = (∑ i ∈ Finset.range m, ∫ t in (knot i)..(knot (i + 1)), piece i t * f t)
        + L * Real.exp (s * knot m) * ∫ t in Ioi (knot m), Real.exp (-s * t) * g t := by
  obtain ⟨h0, h1, h2⟩ := byPieces_split knot piece f hp hf m hk
  have e0 : EqOn (fun _ : ℝ => (0 : ℝ)) (fun t => piecesThenExp knot piece m L s t * (if knot m < t then g t else f t))
      (Ioc a (knot 0)) := by
    intro t ht
    unfold piecesThenExp
    dsimp only
    rw [if_neg (not_lt.2 (ht.2.trans h0)), byPieces_before knot piece t m hk ht.2, zero_mul]
  have eL : EqOn (fun t => byPieces knot piece m t * f t)
      (fun t => piecesThenExp knot piece m L s t * (if knot m < t then g t else f t)) (Ioc (knot 0) (knot m)) := by
    intro t ht
    unfold piecesThenExp
    dsimp only
    rw [if_neg (not_lt.2 ht.2), if_neg (not_lt.2 ht.2)]
  have eR : EqOn (fun t => L * Real.exp (s * knot m) * (Real.exp (-s * t) * g t))
      (fun t => piecesThenExp knot piece m L s t * (if knot m < t then g t else f t)) (Ioi (knot m)) := by
    intro t ht
    unfold piecesThenExp
    dsimp only
    rw [if_pos (show knot m < t from ht), if_pos (show knot m < t from ht)]
    have : Real.exp (-s * (t - knot m)) = Real.exp (s * knot m) * Real.exp (-s * t) := by
      rw [← Real.exp_add]; congr 1; ring
    rw [this]
    ring
  have i0 := (integrableOn_zero (μ := volume) (s := Ioc a (knot 0)) (ε' := ℝ)).congr_fun e0 measurableSet_Ioc
  have iL := h1.congr_fun eL measurableSet_Ioc
  have iR : IntegrableOn (fun t => L * Real.exp (s * knot m) * (Real.exp (-s * t) * g t)) (Ioi (knot m)) :=
    hg.const_mul _
  have iR' := iR.congr_fun eR measurableSet_Ioi
  constructor
  · rw [← Ioc_union_Ioi_eq_Ioi (ha.trans h0), ← Ioc_union_Ioc_eq_Ioc ha h0]
    exact (i0.union iL).union iR'
  · rw [← Ioc_union_Ioi_eq_Ioi (ha.trans h0), setIntegral_union (Ioc_disjoint_Ioi le_rfl) measurableSet_Ioi
      (by rw [← Ioc_union_Ioc_eq_Ioc ha h0]; exact i0.union iL) iR', ← Ioc_union_Ioc_eq_Ioc ha h0,
      setIntegral_union (Ioc_disjoint_Ioc_of_le le_rfl) measurableSet_Ioc i0 iL,
      ← setIntegral_congr_fun measurableSet_Ioc e0, ← setIntegral_congr_fun measurableSet_Ioc eL,
      ← setIntegral_congr_fun measurableSet_Ioi eR, h2, integral_const_mul]
    simp

/-! ## The normalisation -/

/-- The integral of a damped power between two times. -/
noncomputable def expMom (n : ℕ) (q a b : ℝ) : ℝ := ∫ t in a..b, t ^ n * Real.exp (-q * t)

theorem expMom_int (n : ℕ) (q a b : ℝ) : IntervalIntegrable (fun t => t ^ n * Real.exp (-q * t)) volume a b := by
  refine Continuous.intervalIntegrable ?_ a b
  fun_prop

theorem expMom_zero {q : ℝ} (hq : q ≠ 0) (a b : ℝ) :
    expMom 0 q a b = -(1 / q) * (Real.exp (-q * b) - Real.exp (-q * a)) := by
  unfold expMom
  rw [intervalIntegral.integral_eq_sub_of_hasDerivAt (f := fun t => -(1 / q) * Real.exp (-q * t)) (fun t _ => ?_)
    (expMom_int 0 q a b)]
  · ring
  · have h := (((hasDerivAt_id t).const_mul (-q)).exp).const_mul (-(1 / q))
    simp only [id] at h
    refine h.congr_deriv ?_
    field_simp

theorem expMom_succ {q : ℝ} (hq : q ≠ 0) (n : ℕ) (a b : ℝ) :
    expMom (n + 1) q a b = -(1 / q) * (b ^ (n + 1) * Real.exp (-q * b) - a ^ (n + 1) * Real.exp (-q * a))
      + ((n : ℝ) + 1) / q * expMom n q a b := by
  have hd : ∀ t ∈ uIcc a b, HasDerivAt (fun t => -(1 / q) * (t ^ (n + 1) * Real.exp (-q * t)))
      (t ^ (n + 1) * Real.exp (-q * t) - ((n : ℝ) + 1) / q * (t ^ n * Real.exp (-q * t))) t := by
    intro t _
    have he := ((hasDerivAt_id t).const_mul (-q)).exp
    simp only [id] at he
    refine (((hasDerivAt_pow (n + 1) t).mul he).const_mul (-(1 / q))).congr_deriv ?_
    push_cast
    field_simp
    ring
  have h := intervalIntegral.integral_eq_sub_of_hasDerivAt hd
    ((expMom_int (n + 1) q a b).sub ((expMom_int n q a b).const_mul _))
  rw [intervalIntegral.integral_sub (expMom_int (n + 1) q a b) ((expMom_int n q a b).const_mul _),
    intervalIntegral.integral_const_mul] at h
  unfold expMom
  linarith

theorem normTermY_eq {Γ ty : ℝ} (hq : Γ * ty ≠ 0) (a b : ℝ) (pow : ℕ → ℝ) (hpow : ∀ i, pow i = (Γ * ty) ^ i) (k : ℕ) :
    normTermY a b ty Γ k pow = expMom k (Γ * ty) a b := by
  have e1 : (-1. : ℝ) = -1 := by norm_num
  have ex : ∀ t : ℝ, -t * Γ * ty = -(Γ * ty) * t := fun t => by ring
  induction k with
  | zero =>
    rw [expMom_zero hq]
    unfold normTermY
    simp only [Nat.zero_add, Finset.sum_range_one, factorialOf_eq, hpow, e1, ex]
    simp only [pow_one, Nat.factorial_zero, Nat.cast_one, Nat.sub_zero, pow_zero, one_mul]
    ring
  | succ k ih =>
    rw [expMom_succ hq, ← ih]
    unfold normTermY
    rw [Finset.sum_range_succ' _ (k + 1), Finset.mul_sum, add_comm]
    congr 1
    · simp only [hpow, factorialOf_eq, e1, ex, Nat.sub_zero, Nat.zero_add, pow_one]
      have : ((k + 1).factorial : ℝ) ≠ 0 := by positivity
      field_simp
    · refine Finset.sum_congr rfl fun i hi => ?_
      have hi' : i ≤ k := by simpa [Nat.lt_succ_iff] using hi
      simp only [hpow, factorialOf_eq, e1, ex, Nat.add_sub_add_right, Nat.factorial_succ k]
      push_cast
      have : ((k - i).factorial : ℝ) ≠ 0 := by positivity
      rw [pow_succ (Γ * ty) (i + 1)]
      have hq1 : (Γ * ty) ^ (i + 1) ≠ 0 := pow_ne_zero _ hq
      generalize (Γ * ty) ^ (i + 1) = Q at *
      generalize Γ * ty = q at *
      field_simp

theorem powGammaY_eq (Γ ty : ℝ) (i : ℕ) : powGammaY Γ ty i = (Γ * ty) ^ i := by
  induction i with
  | zero => simp only [powGammaY]; norm_num
  | succ i ih => simp only [powGammaY]; rw [ih, pow_succ]; ring

theorem powGamma_eq (Γ : ℝ) (i : ℕ) : powGamma Γ i = (Γ * 1.) ^ i := by
  induction i with
  | zero => simp only [powGamma]; norm_num
  | succ i ih =>
    simp only [powGamma]
    rw [ih, pow_succ, show (1. : ℝ) = 1 by norm_num]
    ring

/-- The four functions that are integrated between the knots. -/
noncomputable def serFuns (τ x y t : ℝ) : ℝ × ℝ × ℝ × ℝ :=
  (Real.exp (-(t / τ)) * Real.cosh (y * (t / τ)),
   Real.exp (-(t / τ)) * (1 - (x * (t / τ)) ^ 2 / 2 + (x * (t / τ)) ^ 4 / 24),
   Real.exp (-(t / τ)) * Real.sinh (y * (t / τ)),
   Real.exp (-(t / τ)) * (x * (t / τ) - (x * (t / τ)) ^ 3 / 6 + (x * (t / τ)) ^ 5 / 120))

/-- A cubic polynomial times a power, damped, between two times. -/
theorem cubic_expMom (c : Cubic) (n : ℕ) (q a b : ℝ) :
    ∫ t in a..b, cubic c.a0 c.a1 c.a2 c.a3 t * t ^ n * Real.exp (-q * t)
      = c.a0 * expMom n q a b + c.a1 * expMom (n + 1) q a b + c.a2 * expMom (n + 2) q a b
        + c.a3 * expMom (n + 3) q a b := by
  have i := fun m => (expMom_int m q a b)
  unfold expMom
  rw [← intervalIntegral.integral_const_mul, ← intervalIntegral.integral_const_mul,
    ← intervalIntegral.integral_const_mul, ← intervalIntegral.integral_const_mul,
    ← intervalIntegral.integral_add ((i _).const_mul _) ((i _).const_mul _),
    ← intervalIntegral.integral_add (((i _).const_mul _).add ((i _).const_mul _)) ((i _).const_mul _),
    ← intervalIntegral.integral_add ((((i _).const_mul _).add ((i _).const_mul _)).add ((i _).const_mul _)) ((i _).const_mul _)]
  refine intervalIntegral.integral_congr fun t _ => ?_
  unfold cubic
  ring

theorem normPiece_eq {τ : ℝ} (hτ : τ ≠ 0) (a b x y : ℝ) (hm : 1 - y ≠ 0) (hp : y + 1 ≠ 0) (c : Cubic) :
    normPiece a b (1. / τ) x y c
      = (∫ t in a..b, cubic c.a0 c.a1 c.a2 c.a3 t * (serFuns τ x y t).1,
         ∫ t in a..b, cubic c.a0 c.a1 c.a2 c.a3 t * (serFuns τ x y t).2.1,
         ∫ t in a..b, cubic c.a0 c.a1 c.a2 c.a3 t * (serFuns τ x y t).2.2.1,
         ∫ t in a..b, cubic c.a0 c.a1 c.a2 c.a3 t * (serFuns τ x y t).2.2.2) := by
  have e1 : (1. : ℝ) = 1 := by norm_num
  have hG : (1 / τ : ℝ) ≠ 0 := one_div_ne_zero hτ
  have hk : ∀ n q, IntervalIntegrable (fun t => cubic c.a0 c.a1 c.a2 c.a3 t * t ^ n * Real.exp (-q * t)) volume a b := by
    intro n q
    refine Continuous.intervalIntegrable ?_ a b
    unfold cubic
    fun_prop
  have he : ∀ t, Real.exp (-(t / τ)) = Real.exp (-(1 / τ) * t) := by intro t; congr 1; ring
  have f1 : ∫ t in a..b, cubic c.a0 c.a1 c.a2 c.a3 t * (serFuns τ x y t).1
      = 1 / 2 * (∫ t in a..b, cubic c.a0 c.a1 c.a2 c.a3 t * t ^ 0 * Real.exp (-(1 / τ * (1 - y)) * t))
        + 1 / 2 * (∫ t in a..b, cubic c.a0 c.a1 c.a2 c.a3 t * t ^ 0 * Real.exp (-(1 / τ * (y + 1)) * t)) := by
    rw [← intervalIntegral.integral_const_mul, ← intervalIntegral.integral_const_mul,
      ← intervalIntegral.integral_add ((hk _ _).const_mul _) ((hk _ _).const_mul _)]
    refine intervalIntegral.integral_congr fun t _ => ?_
    have h := cosh_split τ y 0 t
    rw [show -(1 / τ + 0) * t = -(t / τ) by ring, show -(1 / τ - y * (1 / τ) + 0) * t = -(1 / τ * (1 - y)) * t by ring,
      show -(1 / τ + y * (1 / τ) + 0) * t = -(1 / τ * (y + 1)) * t by ring] at h
    unfold serFuns
    dsimp only
    rw [h]
    ring
  have f3 : ∫ t in a..b, cubic c.a0 c.a1 c.a2 c.a3 t * (serFuns τ x y t).2.2.1
      = 1 / 2 * (∫ t in a..b, cubic c.a0 c.a1 c.a2 c.a3 t * t ^ 0 * Real.exp (-(1 / τ * (1 - y)) * t))
        - 1 / 2 * (∫ t in a..b, cubic c.a0 c.a1 c.a2 c.a3 t * t ^ 0 * Real.exp (-(1 / τ * (y + 1)) * t)) := by
    rw [← intervalIntegral.integral_const_mul, ← intervalIntegral.integral_const_mul,
      ← intervalIntegral.integral_sub ((hk _ _).const_mul _) ((hk _ _).const_mul _)]
    refine intervalIntegral.integral_congr fun t _ => ?_
    have h := sinh_split τ y 0 t
    rw [show -(1 / τ + 0) * t = -(t / τ) by ring, show -(1 / τ - y * (1 / τ) + 0) * t = -(1 / τ * (1 - y)) * t by ring,
      show -(1 / τ + y * (1 / τ) + 0) * t = -(1 / τ * (y + 1)) * t by ring] at h
    unfold serFuns
    dsimp only
    rw [h]
    ring
  have f2 : ∫ t in a..b, cubic c.a0 c.a1 c.a2 c.a3 t * (serFuns τ x y t).2.1
      = (∫ t in a..b, cubic c.a0 c.a1 c.a2 c.a3 t * t ^ 0 * Real.exp (-(1 / τ) * t))
        + -((x / τ) ^ 2 / 2) * (∫ t in a..b, cubic c.a0 c.a1 c.a2 c.a3 t * t ^ 2 * Real.exp (-(1 / τ) * t))
        + (x / τ) ^ 4 / 24 * (∫ t in a..b, cubic c.a0 c.a1 c.a2 c.a3 t * t ^ 4 * Real.exp (-(1 / τ) * t)) := by
    rw [← intervalIntegral.integral_const_mul, ← intervalIntegral.integral_const_mul,
      ← intervalIntegral.integral_add (hk _ _) ((hk _ _).const_mul _),
      ← intervalIntegral.integral_add ((hk _ _).add ((hk _ _).const_mul _)) ((hk _ _).const_mul _)]
    refine intervalIntegral.integral_congr fun t _ => ?_
    unfold serFuns
    dsimp only
    rw [he]
    ring
  have f4 : ∫ t in a..b, cubic c.a0 c.a1 c.a2 c.a3 t * (serFuns τ x y t).2.2.2
      = x / τ * (∫ t in a..b, cubic c.a0 c.a1 c.a2 c.a3 t * t ^ 1 * Real.exp (-(1 / τ) * t))
        + -((x / τ) ^ 3 / 6) * (∫ t in a..b, cubic c.a0 c.a1 c.a2 c.a3 t * t ^ 3 * Real.exp (-(1 / τ) * t))
        + (x / τ) ^ 5 / 120 * (∫ t in a..b, cubic c.a0 c.a1 c.a2 c.a3 t * t ^ 5 * Real.exp (-(1 / τ) * t)) := by
    rw [← intervalIntegral.integral_const_mul, ← intervalIntegral.integral_const_mul,
      ← intervalIntegral.integral_const_mul,
      ← intervalIntegral.integral_add ((hk _ _).const_mul _) ((hk _ _).const_mul _),
      ← intervalIntegral.integral_add (((hk _ _).const_mul _).add ((hk _ _).const_mul _)) ((hk _ _).const_mul _)]
    refine intervalIntegral.integral_congr fun t _ => ?_
    unfold serFuns
    dsimp only
    rw [he]
    ring
  have nm : ∀ k, normTermY a b (1. - y) (1. / τ) k (powGammaY (1. / τ) (1. - y)) = expMom k (1 / τ * (1 - y)) a b := by
    intro k
    rw [e1, normTermY_eq (mul_ne_zero hG hm) _ _ _ (powGammaY_eq _ _)]
  have np : ∀ k, normTermY a b (y + 1.) (1. / τ) k (powGammaY (1. / τ) (y + 1.)) = expMom k (1 / τ * (y + 1)) a b := by
    intro k
    rw [e1, normTermY_eq (mul_ne_zero hG hp) _ _ _ (powGammaY_eq _ _)]
  have no : ∀ k, normTermY a b 1. (1. / τ) k (powGamma (1. / τ)) = expMom k (1 / τ) a b := by
    intro k
    rw [normTermY_eq (by rw [e1, mul_one]; exact hG) _ _ _ (powGamma_eq _), e1, mul_one]
  rw [f1, f2, f3, f4]
  simp only [cubic_expMom]
  unfold normPiece
  dsimp only
  simp only [nm, np, no]
  have n0 : x * (1. / τ) = x / τ := by rw [e1]; ring
  have n1 : (0.5 : ℝ) = 1 / 2 := by norm_num
  have n2 : (1. : ℝ) / 24. = 1 / 24 := by norm_num
  have n3 : (1. : ℝ) / 6. = 1 / 6 := by norm_num
  have n4 : (1. : ℝ) / 120. = 1 / 120 := by norm_num
  rw [n0, n1, n2, n3, n4]
  simp only [Nat.zero_add, Nat.reduceAdd]
  refine Prod.ext ?_ (Prod.ext ?_ (Prod.ext ?_ ?_)) <;> dsimp only <;> ring

end GooFit
