import Mathlib.Analysis.SpecialFunctions.Gaussian.PoissonSummation
import Mathlib.Analysis.SpecialFunctions.ImproperIntegrals
import Mathlib.MeasureTheory.Integral.DominatedConvergence
import Mathlib.MeasureTheory.Integral.Prod
/-!
# The trapezoid rule for the complex error function

Analysis behind C82: the sum of the trapezoid rule for `(i/π) ∫ exp(-t²)/(z - t) dt` with step `h`
and what is missing from it (Poisson summation).
-/
set_option autoImplicit false
namespace GooFit.Faddeeva
open MeasureTheory Complex Set

/-- `exp(izv) exp(-(v/2 + a)²)` -/
noncomputable def kern (z : ℂ) (a v : ℝ) : ℂ :=
  cexp (-(1 / 4 : ℂ) * (v : ℂ) ^ 2 + (I * z - a) * v + (-(a : ℂ) ^ 2))

theorem kern_integrable (z : ℂ) (a : ℝ) : Integrable (kern z a) := by
  have := integrable_cexp_quadratic (b := (1 / 4 : ℂ)) (by norm_num) (I * z - a) (-(a : ℂ) ^ 2)
  exact this

theorem kern_norm (z : ℂ) (a v : ℝ) :
    ‖kern z a v‖ = Real.exp (-(1 / 4) * v ^ 2 + (-z.im - a) * v - a ^ 2) := by
  rw [kern, Complex.norm_exp]
  congr 1
  have h1 : (-(1 / 4 : ℂ) * (v : ℂ) ^ 2) = ((-(1 / 4) * v ^ 2 : ℝ) : ℂ) := by push_cast; ring
  have h2 : (-(a : ℂ) ^ 2) = ((-a ^ 2 : ℝ) : ℂ) := by push_cast; ring
  rw [h1, h2]
  simp only [add_re, ofReal_re, mul_re, sub_re, I_re, I_im, zero_mul, one_mul, ofReal_im, mul_zero,
    sub_zero, sub_im]
  ring

/-- the part of the trapezoid sum belonging to the frequency `a` -/
noncomputable def J (z : ℂ) (a : ℝ) : ℂ := 1 / (Real.sqrt Real.pi : ℂ) * ∫ v in Ioi (0 : ℝ), kern z a v

/-- the half-line representation of the complex error function -/
noncomputable def W (z : ℂ) : ℂ := J z 0

theorem sqrtpi_pos : 0 < Real.sqrt Real.pi := Real.sqrt_pos.2 Real.pi_pos

theorem gauss_half : ∫ v in Ioi (0 : ℝ), Real.exp (-(1 / 4) * v ^ 2) = Real.sqrt Real.pi := by
  rw [integral_gaussian_Ioi]
  rw [show Real.pi / (1 / 4) = 2 ^ 2 * Real.pi by ring, Real.sqrt_mul (by norm_num),
    Real.sqrt_sq (by norm_num)]
  ring

theorem gauss_int : IntegrableOn (fun v : ℝ => Real.exp (-(1 / 4) * v ^ 2)) (Ioi 0) :=
  (integrable_exp_neg_mul_sq (b := 1 / 4) (by norm_num)).integrableOn

/-- a bound by a Gaussian gives a bound on the integral -/
theorem half_bound (f : ℝ → ℂ) (C : ℝ)
    (h : ∀ v ∈ Ioi (0 : ℝ), ‖f v‖ ≤ C * Real.exp (-(1 / 4) * v ^ 2)) :
    ‖1 / (Real.sqrt Real.pi : ℂ) * ∫ v in Ioi (0 : ℝ), f v‖ ≤ C := by
  have h1 : ‖∫ v in Ioi (0 : ℝ), f v‖ ≤ ∫ v in Ioi (0 : ℝ), C * Real.exp (-(1 / 4) * v ^ 2) := by
    apply norm_integral_le_of_norm_le (gauss_int.const_mul C)
    filter_upwards [ae_restrict_mem measurableSet_Ioi] with v hv using h v hv
  rw [integral_const_mul, gauss_half] at h1
  rw [norm_mul, norm_div, norm_one, Complex.norm_of_nonneg sqrtpi_pos.le, one_div,
    inv_mul_le_iff₀ sqrtpi_pos]
  linarith

theorem J_bound_pos (z : ℂ) (hz : 0 < z.im) (a : ℝ) (ha : 0 ≤ a) : ‖J z a‖ ≤ Real.exp (-a ^ 2) := by
  apply half_bound
  intro v hv
  rw [kern_norm, ← Real.exp_add]
  apply Real.exp_le_exp.2
  have hv : 0 < v := hv
  nlinarith [mul_pos hz hv, mul_nonneg ha hv.le]

theorem J_bound_far (z : ℂ) (a : ℝ) (ha : -a ≤ z.im) : ‖J z a‖ ≤ Real.exp (-a ^ 2) := by
  apply half_bound
  intro v hv
  rw [kern_norm, ← Real.exp_add]
  apply Real.exp_le_exp.2
  have hv : 0 < v := hv
  nlinarith [mul_nonneg (sub_nonneg.2 ha) hv.le]

/-- the integral over the whole line -/
theorem kern_integral (z : ℂ) (a : ℝ) :
    1 / (Real.sqrt Real.pi : ℂ) * ∫ v : ℝ, kern z a v = 2 * cexp (-z ^ 2) * cexp (-2 * I * z * a) := by
  have h := integral_cexp_quadratic (b := -(1 / 4 : ℂ)) (by norm_num) (I * z - a) (-(a : ℂ) ^ 2)
  have h' : ∫ v : ℝ, kern z a v = (Real.pi / -(-(1 / 4 : ℂ))) ^ (1 / 2 : ℂ) *
      cexp (-(a : ℂ) ^ 2 - (I * z - a) ^ 2 / (4 * -(1 / 4 : ℂ))) := h
  rw [h']
  have hs : (Real.pi / -(-(1 / 4 : ℂ))) ^ (1 / 2 : ℂ) = 2 * (Real.sqrt Real.pi : ℂ) := by
    rw [show (Real.pi / -(-(1 / 4 : ℂ)) : ℂ) = ((2 ^ 2 * Real.pi : ℝ) : ℂ) by push_cast; ring]
    rw [show (1 / 2 : ℂ) = ((1 / 2 : ℝ) : ℂ) by push_cast; ring,
      ← Complex.ofReal_cpow (by positivity), ← Real.sqrt_eq_rpow,
      Real.sqrt_mul (by norm_num), Real.sqrt_sq (by norm_num)]
    push_cast
    ring
  rw [hs]
  have hsp : (Real.sqrt Real.pi : ℂ) ≠ 0 := by
    exact_mod_cast sqrtpi_pos.ne'
  have he : (-(a : ℂ) ^ 2 - (I * z - a) ^ 2 / (4 * -(1 / 4 : ℂ))) = -z ^ 2 + -2 * I * z * a := by
    have : (4 * -(1 / 4 : ℂ)) = -1 := by norm_num
    rw [this]
    have hI : I ^ 2 = -1 := I_sq
    linear_combination z ^ 2 * hI
  rw [he, Complex.exp_add]
  field_simp

/-- what the half line leaves over -/
theorem J_neg (z : ℂ) (a : ℝ) (ha : z.im ≤ a) :
    ‖J z (-a) - 2 * cexp (-z ^ 2) * cexp (2 * I * z * a)‖ ≤ Real.exp (-a ^ 2) := by
  have hw := kern_integral z (-a)
  have he : cexp (-2 * I * z * ((-a : ℝ) : ℂ)) = cexp (2 * I * z * a) := by
    congr 1; push_cast; ring
  rw [he] at hw
  rw [← hw, J]
  have hsplit : (∫ v : ℝ, kern z (-a) v) = (∫ v in Iic (0 : ℝ), kern z (-a) v) +
      ∫ v in Ioi (0 : ℝ), kern z (-a) v :=
    (intervalIntegral.integral_Iic_add_Ioi (kern_integrable z (-a)).integrableOn
      (kern_integrable z (-a)).integrableOn).symm
  rw [hsplit, mul_add, sub_add_cancel_right, norm_neg]
  have hflip : (∫ v in Iic (0 : ℝ), kern z (-a) v) = ∫ v in Ioi (0 : ℝ), kern z (-a) (-v) := by
    have := integral_comp_neg_Ioi (c := 0) (f := kern z (-a))
    rw [this, neg_zero]
  rw [hflip]
  apply half_bound
  intro v hv
  rw [kern_norm, ← Real.exp_add]
  apply Real.exp_le_exp.2
  have hv : 0 < v := hv
  nlinarith [mul_nonneg (sub_nonneg.2 ha) hv.le]

/-- the whole line bounds the half line -/
theorem kern_norm_int (z : ℂ) (a : ℝ) :
    ∫ v in Ioi (0 : ℝ), ‖kern z a v‖ ≤ 2 * Real.sqrt Real.pi * Real.exp (z.im ^ 2 + 2 * z.im * a) := by
  have h1 : ∫ v in Ioi (0 : ℝ), ‖kern z a v‖ ≤ ∫ v : ℝ, ‖kern z a v‖ :=
    setIntegral_le_integral (kern_integrable z a).norm (Filter.Eventually.of_forall fun v => norm_nonneg _)
  refine h1.trans (le_of_eq ?_)
  -- the norm of the kernel is the kernel at `i Im z`
  have h2 : ∀ v : ℝ, ((‖kern z a v‖ : ℝ) : ℂ) = kern (I * z.im) a v := by
    intro v
    rw [kern_norm, kern, Complex.ofReal_exp]
    congr 1
    push_cast
    have hI : I ^ 2 = -1 := I_sq
    linear_combination (-(z.im : ℂ) * v) * hI
  have h3 := kern_integral (I * z.im) a
  have h4 : (∫ v : ℝ, kern (I * z.im) a v) = ((∫ v : ℝ, ‖kern z a v‖ : ℝ) : ℂ) := by
    rw [← integral_complex_ofReal]
    congr 1
    funext v
    exact (h2 v).symm
  rw [h4, mul_assoc, ← Complex.exp_add] at h3
  have h5 : -(I * (z.im : ℂ)) ^ 2 + -2 * I * (I * z.im) * a = ((z.im ^ 2 + 2 * z.im * a : ℝ) : ℂ) := by
    push_cast
    have hI : I ^ 2 = -1 := I_sq
    linear_combination (-(z.im : ℂ) ^ 2 - 2 * z.im * a) * hI
  rw [h5, ← Complex.ofReal_exp] at h3
  have h6 : (1 / Real.sqrt Real.pi) * (∫ v : ℝ, ‖kern z a v‖) =
      2 * Real.exp (z.im ^ 2 + 2 * z.im * a) := by
    exact_mod_cast h3
  have h7 := sqrtpi_pos
  rw [one_div, inv_mul_eq_iff_eq_mul₀ h7.ne'] at h6
  linarith

theorem kern_norm_int_pos (z : ℂ) (hz : 0 < z.im) (a : ℝ) (ha : 0 ≤ a) :
    ∫ v in Ioi (0 : ℝ), ‖kern z a v‖ ≤ Real.sqrt Real.pi * Real.exp (-a ^ 2) := by
  have h : ∫ v in Ioi (0 : ℝ), ‖kern z a v‖ ≤
      ∫ v in Ioi (0 : ℝ), Real.exp (-a ^ 2) * Real.exp (-(1 / 4) * v ^ 2) := by
    apply setIntegral_mono_on (kern_integrable z a).norm.integrableOn (gauss_int.const_mul _)
      measurableSet_Ioi
    intro v hv
    rw [kern_norm, ← Real.exp_add]
    apply Real.exp_le_exp.2
    have hv : 0 < v := hv
    nlinarith [mul_pos hz hv, mul_nonneg ha hv.le]
  rw [integral_const_mul, gauss_half] at h
  linarith

end GooFit.Faddeeva
