import Verif.Props.BasicReal
import Verif.Props.Poly
import Verif.Model.Integrate
import Verif.Model.Norm
import Mathlib.Analysis.SpecialFunctions.Integrals.Basic
import Mathlib.Analysis.SpecialFunctions.Gaussian.GaussianIntegral
import Mathlib.Analysis.SpecialFunctions.Arsinh
import Mathlib.MeasureTheory.Function.JacobianOneDim
import Mathlib.Analysis.Real.Pi.Bounds
/-!
# C38: analytic integrals

`IsFunction T env a x f` says that the PDF built by the call `a` evaluates to `f X` wherever its
observable `x` has the value `X`.
-/
set_option autoImplicit false
namespace GooFit
open Spec FpOps MeasureTheory

variable (T : HistTables ℝ) (env : Env ℝ)

/-- The PDFs that declare an analytic integral. -/
theorem C38_declared (a : BasicCall ℝ) : a.hasAnalyticIntegral = true ↔
    (∃ x α, a = .exp x α) ∨ (∃ x w, a = .expPoly x [w]) ∨ (∃ x x0, a = .expPolyOffset x [] x0) ∨
    (∃ x x0 up, a = .step x x0 up) ∨ (∃ x m s, a = .gaussian x m s) ∨
    (∃ x m s g d, a = .johnsonSU x m s g d) := by
  cases a
  case expPoly x ws =>
    rcases ws with _ | ⟨w, _ | ⟨v, ws⟩⟩ <;> simp [BasicCall.hasAnalyticIntegral, BasicCall.params]
  case expPolyOffset x ws o =>
    rcases ws with _ | ⟨w, ws⟩ <;> simp [BasicCall.hasAnalyticIntegral, BasicCall.params]
  all_goals simp [BasicCall.hasAnalyticIntegral, BasicCall.params]

theorem exp_integral (x α : Nat) (lo hi : ℝ) :
    (BasicCall.exp x α).integrate env.val lo hi = ∫ X in lo..hi, Real.exp (env.val α * X) := by
  show expIntegrate (env.val α) lo hi = _
  unfold expIntegrate
  by_cases h0 : env.val α = 0
  · rw [if_pos ((real_eq _ _).mpr (by rw [h0, real_lit, Rat.cast_zero])), h0]
    simp [real_sub]
  · rw [if_neg (fun h => h0 (by have := (real_eq _ _).mp h; rw [real_lit, Rat.cast_zero] at this; exact this.symm))]
    rw [intervalIntegral.integral_comp_mul_left (fun X => Real.exp X) h0, integral_exp]
    simp only [real_sub, real_div, real_exp, real_mul, smul_eq_mul]
    field_simp

/-- **C38 for ExpPdf(x, α)**, every `α` and range. -/
theorem C38_exp (x α : Nat) (lo hi : ℝ) :
    ∃ f, IsFunction T env (.exp x α) x f ∧
      (BasicCall.exp x α).integrate env.val lo hi = ∫ X in lo..hi, f X :=
  ⟨fun X => Real.exp (env.val α * X), fun e X h => C43_exp T env e x α X h, exp_integral env x α lo hi⟩

/-- **C38** and the stored normalisation: for a PDF of one observable whose declared integral is the integral of its
values, what `normalize` stores makes the integral of the value times the stored number one, whenever the integral is
not zero. -/
theorem C38_unit (integrate : ℝ → ℝ → ℝ) (f : ℝ → ℝ) (lo hi : ℝ) (bins : Nat)
    (hI : integrate lo hi = ∫ X in lo..hi, f X) (h0 : (∫ X in lo..hi, f X) ≠ 0) :
    ∃ I n, normalizeAnalytic integrate [(lo, hi, bins)] = .ok I n ∧ I = ∫ X in lo..hi, f X ∧
      ∫ X in lo..hi, f X * n = 1 := by
  refine ⟨_, _, rfl, ?_, ?_⟩
  · simp only [List.foldl_cons, List.foldl_nil, one_mul, hI]
  · simp only [List.foldl_cons, List.foldl_nil, one_mul, hI]
    rw [intervalIntegral.integral_mul_const, mul_one_div_cancel h0]

/-- ExpPdf over any range of positive length meets the hypotheses: its normalised values integrate to one. -/
example (x α bins : Nat) (lo hi : ℝ) (h : lo < hi) : ∃ f, IsFunction T env (.exp x α) x f ∧
    ∃ I n, normalizeAnalytic ((BasicCall.exp x α).integrate env.val) [(lo, hi, bins)] = .ok I n ∧
      I = ∫ X in lo..hi, f X ∧ ∫ X in lo..hi, f X * n = 1 := by
  refine ⟨fun X => Real.exp (env.val α * X), fun e X h => C43_exp T env e x α X h,
    C38_unit _ _ lo hi bins (exp_integral env x α lo hi) (ne_of_gt ?_)⟩
  exact intervalIntegral.intervalIntegral_pos_of_pos (by apply Continuous.intervalIntegrable; fun_prop)
    (fun X => Real.exp_pos _) h

private theorem step_up_integral (x0 lo hi : ℝ) (h1 : lo ≤ x0) (h2 : x0 ≤ hi) :
    ∫ X in lo..hi, (if x0 < X then (1 : ℝ) else 0) = hi - x0 := by
  have e1 : ∫ X in lo..x0, (if x0 < X then (1 : ℝ) else 0) = 0 := by
    rw [intervalIntegral.integral_congr (g := fun _ => (0 : ℝ))]
    · simp
    · intro X hX
      rw [Set.uIcc_of_le h1] at hX
      simp [not_lt.mpr hX.2]
  have e2 : ∫ X in x0..hi, (if x0 < X then (1 : ℝ) else 0) = hi - x0 := by
    rw [intervalIntegral.integral_of_le h2, setIntegral_congr_fun (g := fun _ => (1 : ℝ)) measurableSet_Ioc,
      ← intervalIntegral.integral_of_le h2]
    · simp
    · intro X hX
      simp [hX.1]
  have hm : ∀ a b : ℝ, IntervalIntegrable (fun X => if x0 < X then (1 : ℝ) else 0) volume a b := by
    intro a b
    apply (Monotone.intervalIntegrable _)
    intro u v huv
    by_cases hu : x0 < u
    · simp [hu, lt_of_lt_of_le hu huv]
    · simp only [hu, if_false]
      split <;> norm_num
  rw [← intervalIntegral.integral_add_adjacent_intervals (hm lo x0) (hm x0 hi), e1, e2, zero_add]

private theorem step_down_integral (x0 lo hi : ℝ) (h1 : lo ≤ x0) (h2 : x0 ≤ hi) :
    ∫ X in lo..hi, (if x0 < X then (0 : ℝ) else 1) = x0 - lo := by
  have hf : (fun X : ℝ => if x0 < X then (0 : ℝ) else 1) =
      fun X => 1 - (if x0 < X then (1 : ℝ) else 0) := by
    funext X; split <;> norm_num
  have hm : ∀ a b : ℝ, IntervalIntegrable (fun X => if x0 < X then (1 : ℝ) else 0) volume a b := by
    intro a b
    apply (Monotone.intervalIntegrable _)
    intro u v huv
    by_cases hu : x0 < u
    · simp [hu, lt_of_lt_of_le hu huv]
    · simp only [hu, if_false]
      split <;> norm_num
  rw [hf, intervalIntegral.integral_sub (by simp) (hm lo hi), step_up_integral x0 lo hi h1 h2]
  simp

/-- **C38 for StepPdf(x, x₀)**, in both directions, when the step lies in the range. Missing: steps
outside the range, where it fails (`C38_violation_step`). -/
theorem C38_step_partial (x x0 : Nat) (up : Int) (lo hi : ℝ) (h1 : lo ≤ env.val x0)
    (h2 : env.val x0 ≤ hi) :
    ∃ f, IsFunction T env (.step x x0 up) x f ∧
      (BasicCall.step x x0 up).integrate env.val lo hi = ∫ X in lo..hi, f X := by
  refine ⟨_, fun e X h => C43_step T env e x x0 up X h, ?_⟩
  show stepIntegrate (env.val x0) (toInt (ofInt up : ℝ)) lo hi = _
  rw [exact_real, stepIntegrate]
  by_cases hu : up = 1
  · simp only [hu, if_true, real_sub]
    rw [step_up_integral _ _ _ h1 h2]
  · rw [if_neg (fun h => hu h.symm)]
    simp only [hu, if_false, real_sub]
    rw [step_down_integral _ _ _ h1 h2]

/-- **C38, violated for StepPdf** when the step lies below the range. -/
theorem C38_violation_step (x x0 : Nat) (lo hi : ℝ) (h1 : env.val x0 < lo) (h2 : lo ≤ hi) :
    ∃ f, IsFunction T env (.step x x0 1) x f ∧
      (BasicCall.step x x0 1).integrate env.val lo hi ≠ ∫ X in lo..hi, f X := by
  refine ⟨_, fun e X h => C43_step T env e x x0 1 X h, ?_⟩
  have hI : ∫ X in lo..hi, (if (1 : Int) = 1 then (if env.val x0 < X then (1 : ℝ) else 0)
      else (if env.val x0 < X then 0 else 1)) = hi - lo := by
    rw [intervalIntegral.integral_congr (g := fun _ => (1 : ℝ))]
    · simp
    · intro X hX
      rw [Set.uIcc_of_le h2] at hX
      simp [lt_of_lt_of_le h1 hX.1]
  rw [hI]
  show stepIntegrate (env.val x0) (toInt (ofInt 1 : ℝ)) lo hi ≠ _
  rw [exact_real, stepIntegrate, if_pos rfl, real_sub]
  intro h
  linarith

/-- **C38, violated for ExpPdf with a list of one coefficient**: it declares an analytic integral, but
the function is the constant `exp α₀` while `integrate` treats `α₀` as a slope. -/
theorem C38_violation_expPoly (x w : Nat) (hw : env.val w = 1) :
    (BasicCall.expPoly (F := ℝ) x [w]).hasAnalyticIntegral = true ∧
    ∃ f, IsFunction T env (.expPoly x [w]) x f ∧
      (BasicCall.expPoly x [w]).integrate env.val 0 1 ≠ ∫ X in (0 : ℝ)..1, f X := by
  refine ⟨rfl, _, fun e X h => C37_expPoly T env e x [w] X h, ?_⟩
  show expIntegrate (env.val w) 0 1 ≠ _
  unfold expIntegrate
  rw [hw, if_neg (fun h => by have := (real_eq _ _).mp h; rw [real_lit, Rat.cast_zero] at this; norm_num at this)]
  simp [hw, real_sub, real_div, real_exp, real_mul]

/-! ### Gaussian -/

private theorem gauss_integrable (m s : ℝ) (hs : 0 < s) :
    Integrable (fun X : ℝ => Real.exp (-(X - m) ^ 2 / (2 * s ^ 2))) := by
  have h := (integrable_exp_neg_mul_sq (b := 1 / (2 * s ^ 2)) (by positivity)).comp_sub_right m
  refine h.congr (Filter.Eventually.of_forall fun X => ?_)
  simp only
  congr 1
  ring

private theorem gauss_integral (m s : ℝ) (hs : 0 < s) :
    ∫ X : ℝ, Real.exp (-(X - m) ^ 2 / (2 * s ^ 2)) = s * Real.sqrt (2 * Real.pi) := by
  have e : ∀ X : ℝ, Real.exp (-(X - m) ^ 2 / (2 * s ^ 2)) =
      (fun t : ℝ => Real.exp (-(1 / (2 * s ^ 2)) * t ^ 2)) (X - m) := by
    intro X
    simp only
    congr 1
    ring
  simp_rw [e]
  rw [integral_sub_right_eq_self (fun t : ℝ => Real.exp (-(1 / (2 * s ^ 2)) * t ^ 2)), integral_gaussian,
    show Real.pi / (1 / (2 * s ^ 2)) = s ^ 2 * (2 * Real.pi) by field_simp,
    Real.sqrt_mul (sq_nonneg s), Real.sqrt_sq hs.le]

private theorem root_pi : (FpMath.sqrt (FpMath.atan2 (lit 0) (FpMath.neg (lit 1))) : ℝ) = Real.sqrt Real.pi := by
  show Real.sqrt (Complex.arg ⟨-((1 : ℚ) : ℝ), ((0 : ℚ) : ℝ)⟩) = _
  have : (⟨-((1 : ℚ) : ℝ), ((0 : ℚ) : ℝ)⟩ : ℂ) = -1 := by
    apply Complex.ext <;> simp
  rw [this, Complex.arg_neg_one]

/-- **C38, partial, for GaussianPdf**: for positive `σ` the value returned is, up to the rounding of
the literal for `√2` (relative error below `10⁻¹⁵`), the integral over the whole line. Missing: the
requested range is ignored, see `C38_violation_gaussian`. -/
theorem C38_gaussian_partial (x m s : Nat) (lo hi : ℝ) (hs : 0 < env.val s) :
    ∃ f, IsFunction T env (.gaussian x m s) x f ∧
      (BasicCall.gaussian x m s).integrate env.val lo hi * (Real.sqrt 2 / 1.4142135623730951) = ∫ X, f X := by
  refine ⟨_, fun e X h => C43_gaussian T env e x m s X h, ?_⟩
  rw [gauss_integral _ _ hs]
  show gaussianIntegrate (env.val s) * _ = _
  unfold gaussianIntegrate
  rw [root_pi, real_mul, real_mul, real_lit, Real.sqrt_mul (by norm_num)]
  push_cast
  norm_num
  ring

/-- **C38, violated for GaussianPdf** on every finite range. -/
theorem C38_violation_gaussian (x m s : Nat) (lo hi : ℝ) (hs : 0 < env.val s) (hlh : lo ≤ hi) :
    ∃ f, IsFunction T env (.gaussian x m s) x f ∧
      ∫ X in lo..hi, f X < (BasicCall.gaussian x m s).integrate env.val lo hi := by
  refine ⟨_, fun e X h => C43_gaussian T env e x m s X h, ?_⟩
  have h1 : ∫ X in lo..hi, Real.exp (-(X - env.val m) ^ 2 / (2 * env.val s ^ 2)) ≤
      env.val s * Real.sqrt (2 * Real.pi) := by
    rw [← gauss_integral (env.val m) _ hs, intervalIntegral.integral_of_le hlh]
    exact setIntegral_le_integral (gauss_integrable _ _ hs)
      (Filter.Eventually.of_forall fun X => (Real.exp_pos _).le)
  refine lt_of_le_of_lt h1 ?_
  show _ < gaussianIntegrate (env.val s)
  unfold gaussianIntegrate
  rw [root_pi, real_mul, real_mul, real_lit, Real.sqrt_mul (by norm_num)]
  have hp : 0 < Real.sqrt Real.pi := Real.sqrt_pos.mpr Real.pi_pos
  have h2 : Real.sqrt 2 < ((14142135623730951 / 10000000000000000 : ℚ) : ℝ) := by
    rw [Real.sqrt_lt' (by norm_num)]
    norm_num
  exact mul_lt_mul_of_pos_left (mul_lt_mul_of_pos_right h2 hp) hs

/-! ### JohnsonSU -/

private noncomputable def johnsonArg (m s g d X : ℝ) : ℝ := g + d * Real.arsinh ((X - m) / s)

private theorem johnsonArg_deriv (m s g d X : ℝ) :
    HasDerivAt (johnsonArg m s g d) (d * ((Real.sqrt (1 + ((X - m) / s) ^ 2))⁻¹ * (1 / s))) X := by
  have h1 : HasDerivAt (fun X : ℝ => (X - m) / s) (1 / s) X := ((hasDerivAt_id X).sub_const m).div_const s
  have h2 := (Real.hasDerivAt_arsinh ((X - m) / s)).comp X h1
  exact (h2.const_mul d).const_add g

private theorem johnson_form (m s g d X : ℝ) :
    d / (s * 2.506628 * Real.sqrt (1 + ((X - m) / s) ^ 2)) *
        Real.exp (-(g + d * Real.log ((X - m) / s + Real.sqrt (1 + ((X - m) / s) ^ 2))) ^ 2 / 2) =
      1 / 2.506628 * (d * ((Real.sqrt (1 + ((X - m) / s) ^ 2))⁻¹ * (1 / s)) *
        Real.exp (-(johnsonArg m s g d X) ^ 2 / 2)) := by
  have : Real.log ((X - m) / s + Real.sqrt (1 + ((X - m) / s) ^ 2)) = Real.arsinh ((X - m) / s) := rfl
  rw [this, johnsonArg]
  ring

/-- **C38, partial, for JohnsonSUPdf**: for positive `σ` and `δ` the integral over the whole line is
the returned 1 up to the rounding of the literal for `√(2π)` (less than one part in a million).
Missing: the requested range is ignored, see `C38_violation_johnsonSU`. -/
theorem C38_johnsonSU_partial (x m s g d : Nat) (lo hi : ℝ) (hs : 0 < env.val s) (hd : 0 < env.val d) :
    ∃ f, IsFunction T env (.johnsonSU x m s g d) x f ∧
      (BasicCall.johnsonSU x m s g d).integrate env.val lo hi * (Real.sqrt (2 * Real.pi) / 2.506628) =
        ∫ X, f X ∧
      1 < Real.sqrt (2 * Real.pi) / 2.506628 ∧ Real.sqrt (2 * Real.pi) / 2.506628 < 1.000001 := by
  refine ⟨_, fun e X h => C43_johnsonSU T env e x m s g d X h, ?_, ?_, ?_⟩
  · simp_rw [johnson_form]
    rw [integral_const_mul]
    have hinj : Set.InjOn (johnsonArg (env.val m) (env.val s) (env.val g) (env.val d)) Set.univ := by
      intro a _ b _ hab
      simp only [johnsonArg] at hab
      have h1 := Real.arsinh_injective (mul_left_cancel₀ hd.ne' (add_left_cancel hab))
      have h2 := (div_left_inj' hs.ne').mp h1
      linarith
    have himg : (johnsonArg (env.val m) (env.val s) (env.val g) (env.val d)) '' Set.univ = Set.univ := by
      rw [Set.image_univ, Set.range_eq_univ]
      intro t
      refine ⟨env.val m + env.val s * Real.sinh ((t - env.val g) / env.val d), ?_⟩
      simp only [johnsonArg]
      rw [add_sub_cancel_left, mul_div_cancel_left₀ _ hs.ne', Real.arsinh_sinh]
      field_simp
      ring
    have hcv := integral_image_eq_integral_abs_deriv_smul MeasurableSet.univ
      (fun X _ => (johnsonArg_deriv (env.val m) (env.val s) (env.val g) (env.val d) X).hasDerivWithinAt)
      hinj (fun t => Real.exp (-t ^ 2 / 2))
    rw [himg, setIntegral_univ, setIntegral_univ] at hcv
    have hpos : ∀ X : ℝ, |env.val d * ((Real.sqrt (1 + ((X - env.val m) / env.val s) ^ 2))⁻¹ *
        (1 / env.val s))| = env.val d * ((Real.sqrt (1 + ((X - env.val m) / env.val s) ^ 2))⁻¹ *
        (1 / env.val s)) := fun X => abs_of_nonneg (by positivity)
    simp only [hpos, smul_eq_mul] at hcv
    rw [← hcv]
    have hg := gauss_integral 0 1 one_pos
    simp only [sub_zero, one_pow, mul_one, one_mul] at hg
    rw [hg]
    show (lit 1 : ℝ) * _ = _
    rw [real_lit]
    push_cast
    ring
  · rw [lt_div_iff₀ (by norm_num), one_mul, Real.lt_sqrt (by norm_num)]
    have := Real.pi_gt_d6
    norm_num
    linarith
  · rw [div_lt_iff₀ (by norm_num), Real.sqrt_lt' (by norm_num)]
    have := Real.pi_lt_d6
    norm_num
    linarith

/-- **C38, violated for JohnsonSUPdf**: on every range shorter than `2σ/δ` the integral is below the
returned 1. -/
theorem C38_violation_johnsonSU (x m s g d : Nat) (lo hi : ℝ) (hs : 0 < env.val s) (hd : 0 < env.val d)
    (hlh : lo ≤ hi) (hshort : (hi - lo) * env.val d ≤ 2 * env.val s) :
    ∃ f, IsFunction T env (.johnsonSU x m s g d) x f ∧
      ∫ X in lo..hi, f X < (BasicCall.johnsonSU x m s g d).integrate env.val lo hi := by
  refine ⟨_, fun e X h => C43_johnsonSU T env e x m s g d X h, ?_⟩
  simp_rw [johnson_form]
  have hle : ∀ X : ℝ, 1 / 2.506628 * (env.val d * ((Real.sqrt (1 + ((X - env.val m) / env.val s) ^ 2))⁻¹ *
      (1 / env.val s)) * Real.exp (-(johnsonArg (env.val m) (env.val s) (env.val g) (env.val d) X) ^ 2 / 2)) ≤
      1 / 2.506628 * (env.val d / env.val s) := by
    intro X
    have h1 : (Real.sqrt (1 + ((X - env.val m) / env.val s) ^ 2))⁻¹ ≤ 1 := by
      apply inv_le_one_of_one_le₀
      rw [Real.one_le_sqrt]
      have := sq_nonneg ((X - env.val m) / env.val s)
      linarith
    have h2 : Real.exp (-(johnsonArg (env.val m) (env.val s) (env.val g) (env.val d) X) ^ 2 / 2) ≤ 1 := by
      rw [Real.exp_le_one_iff]
      have := sq_nonneg (johnsonArg (env.val m) (env.val s) (env.val g) (env.val d) X)
      linarith
    have h3 : 0 ≤ (Real.sqrt (1 + ((X - env.val m) / env.val s) ^ 2))⁻¹ := by positivity
    apply mul_le_mul_of_nonneg_left _ (by norm_num)
    calc env.val d * ((Real.sqrt (1 + ((X - env.val m) / env.val s) ^ 2))⁻¹ * (1 / env.val s)) *
          Real.exp (-(johnsonArg (env.val m) (env.val s) (env.val g) (env.val d) X) ^ 2 / 2)
        ≤ env.val d * (1 * (1 / env.val s)) * 1 := by
          apply mul_le_mul _ h2 (Real.exp_pos _).le (by positivity)
          apply mul_le_mul_of_nonneg_left _ hd.le
          exact mul_le_mul_of_nonneg_right h1 (by positivity)
      _ = env.val d / env.val s := by ring
  have hcont : Continuous (fun X : ℝ => 1 / 2.506628 * (env.val d *
      ((Real.sqrt (1 + ((X - env.val m) / env.val s) ^ 2))⁻¹ * (1 / env.val s)) *
        Real.exp (-(johnsonArg (env.val m) (env.val s) (env.val g) (env.val d) X) ^ 2 / 2))) := by
    have hA : Continuous (johnsonArg (env.val m) (env.val s) (env.val g) (env.val d)) :=
      continuous_iff_continuousAt.mpr fun X => (johnsonArg_deriv _ _ _ _ X).continuousAt
    have hB : Continuous (fun X : ℝ => (Real.sqrt (1 + ((X - env.val m) / env.val s) ^ 2))⁻¹) := by
      apply Continuous.inv₀
      · fun_prop
      · intro X
        positivity
    fun_prop
  have := intervalIntegral.integral_mono (μ := volume) hlh (hcont.intervalIntegrable lo hi)
    (continuous_const.intervalIntegrable lo hi) hle
  refine lt_of_le_of_lt this ?_
  rw [intervalIntegral.integral_const]
  show _ < (lit 1 : ℝ)
  rw [real_lit, smul_eq_mul]
  have h4 : (hi - lo) * (env.val d / env.val s) ≤ 2 := by
    rw [mul_div_assoc', div_le_iff₀ hs]
    exact hshort
  push_cast
  nlinarith

/-- The hypotheses can be met: mean 0, width 1, all other parameters 1, range [0,1]. -/
example : ∃ env : Env ℝ, 0 < env.val 1 ∧ (1 - 0) * env.val 2 ≤ 2 * env.val 1 ∧ env.val 0 = 0 :=
  ⟨⟨fun v => v, fun _ => 0⟩, by norm_num⟩

end GooFit
