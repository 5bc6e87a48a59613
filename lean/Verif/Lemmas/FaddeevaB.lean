import Verif.Lemmas.FaddeevaA
/-!
# The trapezoid rule for the complex error function: Poisson summation
-/
set_option autoImplicit false
namespace GooFit.Faddeeva
open MeasureTheory Complex Set

theorem ray_re (z : ℂ) (hz : 0 < z.im) (t : ℝ) : (I * (z - t)).re < 0 := by
  simp [mul_re]
  exact hz

theorem sub_ne (z : ℂ) (hz : 0 < z.im) (t : ℝ) : z - t ≠ 0 := by
  intro h
  have := congrArg Complex.im h
  simp at this
  linarith

/-- `1/(z - t)` as an integral over a half line -/
theorem ray_integral (z : ℂ) (hz : 0 < z.im) (t : ℝ) :
    ∫ v in Ioi (0 : ℝ), cexp (I * (z - t) * v) = I / (z - t) := by
  rw [integral_exp_mul_complex_Ioi (ray_re z hz t)]
  have h := sub_ne z hz t
  simp only [ofReal_zero, mul_zero, Complex.exp_zero]
  rw [div_eq_div_iff (mul_ne_zero I_ne_zero h) h]
  have hI : I ^ 2 = -1 := I_sq
  linear_combination (-(z - t)) * hI

theorem ray_norm (z : ℂ) (t v : ℝ) : ‖cexp (I * (z - t) * v)‖ = Real.exp (-z.im * v) := by
  rw [Complex.norm_exp]
  congr 1
  simp [mul_re]

theorem ray_norm_int (z : ℂ) (hz : 0 < z.im) :
    ∫ v in Ioi (0 : ℝ), Real.exp (-z.im * v) = 1 / z.im := by
  rw [integral_exp_mul_Ioi (by linarith)]
  simp

theorem exp_lt_one' {x : ℝ} (h : x < 0) : Real.exp x < 1 := by
  rw [← Real.exp_zero]
  exact Real.exp_lt_exp.2 h

theorem summable_gauss (c : ℝ) (hc : 0 < c) : Summable fun n : ℤ => Real.exp (-(c * (n : ℝ) ^ 2)) := by
  have hn : Summable fun n : ℕ => Real.exp (-(c * (n : ℝ) ^ 2)) := by
    have hg : Summable fun n : ℕ => (Real.exp (-c)) ^ n :=
      summable_geometric_of_lt_one (Real.exp_pos _).le (exp_lt_one' (by linarith))
    refine Summable.of_nonneg_of_le (fun n => (Real.exp_pos _).le) (fun n => ?_) hg
    rw [← Real.exp_nat_mul]
    apply Real.exp_le_exp.2
    have : (n : ℝ) ≤ (n : ℝ) ^ 2 := by
      have : n ≤ n ^ 2 := Nat.le_self_pow (by norm_num) n
      exact_mod_cast this
    nlinarith
  apply Summable.of_nat_of_neg
  · simpa using hn
  · simpa using hn

/-- one node of the trapezoid rule -/
noncomputable def node (z : ℂ) (h : ℝ) (n : ℤ) : ℂ :=
  (h / Real.pi : ℂ) * (cexp (-((n : ℂ) * h) ^ 2) * (I / (z - (n * h : ℝ))))

/-- Poisson summation under the integral. -/
theorem theta (z : ℂ) (h : ℝ) (hh : 0 < h) (v : ℝ) :
    ∑' n : ℤ, (h / Real.pi : ℂ) * (cexp (-((n : ℂ) * h) ^ 2) * cexp (I * (z - (n * h : ℝ)) * v)) =
      1 / (Real.sqrt Real.pi : ℂ) * ∑' k : ℤ, kern z (Real.pi * k / h) v := by
  have hpi : (Real.pi : ℂ) ≠ 0 := by exact_mod_cast Real.pi_ne_zero
  have hhc : (h : ℂ) ≠ 0 := by exact_mod_cast hh.ne'
  have ha : (0 : ℝ) < ((h ^ 2 / Real.pi : ℝ) : ℂ).re := by
    rw [ofReal_re]
    exact div_pos (pow_pos hh 2) Real.pi_pos
  have hP := Complex.tsum_exp_neg_quadratic ha (-(I * v * h) / (2 * Real.pi))
  have h1 : ∀ n : ℤ, (h / Real.pi : ℂ) * (cexp (-((n : ℂ) * h) ^ 2) * cexp (I * (z - (n * h : ℝ)) * v)) =
      (h / Real.pi * cexp (I * z * v)) *
        cexp (-Real.pi * ((h ^ 2 / Real.pi : ℝ) : ℂ) * n ^ 2 + 2 * Real.pi * (-(I * v * h) / (2 * Real.pi)) * n) := by
    intro n
    rw [mul_assoc (h / Real.pi : ℂ), ← Complex.exp_add, ← Complex.exp_add]
    congr 2
    push_cast
    field_simp
    ring
  simp_rw [h1]
  rw [tsum_mul_left, hP]
  have hsq : ((h ^ 2 / Real.pi : ℝ) : ℂ) ^ (1 / 2 : ℂ) = (h / Real.sqrt Real.pi : ℂ) := by
    rw [show (1 / 2 : ℂ) = ((1 / 2 : ℝ) : ℂ) by push_cast; ring,
      ← Complex.ofReal_cpow (by positivity), ← Real.sqrt_eq_rpow,
      Real.sqrt_div (by positivity), Real.sqrt_sq hh.le]
    push_cast
    ring
  rw [hsq]
  have h2 : ∀ k : ℤ, kern z (Real.pi * k / h) v = cexp (I * z * v) *
      cexp (-Real.pi / ((h ^ 2 / Real.pi : ℝ) : ℂ) * (k + I * (-(I * v * h) / (2 * Real.pi))) ^ 2) := by
    intro k
    rw [kern, ← Complex.exp_add]
    congr 1
    have hI : I * (-(I * v * h) / (2 * Real.pi)) = v * h / (2 * Real.pi) := by
      have hI : I ^ 2 = -1 := I_sq
      field_simp
      linear_combination (-(v : ℂ)) * hI
    rw [hI]
    push_cast
    field_simp
    ring
  simp_rw [h2]
  rw [tsum_mul_left]
  have hs : (Real.sqrt Real.pi : ℂ) ≠ 0 := by exact_mod_cast sqrtpi_pos.ne'
  have hs2 : (Real.sqrt Real.pi : ℂ) ^ 2 = Real.pi := by
    exact_mod_cast Real.sq_sqrt Real.pi_pos.le
  generalize (∑' n : ℤ, cexp (-Real.pi / ((h ^ 2 / Real.pi : ℝ) : ℂ) * (n + I * (-(I * v * h) / (2 * Real.pi))) ^ 2)) = T
  rw [← hs2]
  field_simp

theorem kern_summable (z : ℂ) (hz : 0 < z.im) (h : ℝ) (hh : 0 < h) :
    Summable fun k : ℤ => ∫ v in Ioi (0 : ℝ), ‖kern z (Real.pi * k / h) v‖ := by
  have hb : 0 < Real.pi / h := div_pos Real.pi_pos hh
  apply Summable.of_nat_of_neg
  · have hs : Summable fun n : ℕ => Real.sqrt Real.pi * Real.exp (-((Real.pi / h) ^ 2 * (n : ℝ) ^ 2)) := by
      apply Summable.mul_left
      have := (summable_gauss ((Real.pi / h) ^ 2) (by positivity))
      exact (this.comp_injective (i := fun n : ℕ => (n : ℤ)) Nat.cast_injective).congr (fun n => by simp)
    refine Summable.of_nonneg_of_le (fun n => integral_nonneg fun v => norm_nonneg _) (fun n => ?_) hs
    have := kern_norm_int_pos z hz (Real.pi * (n : ℤ) / h) (by positivity)
    refine this.trans (le_of_eq ?_)
    congr 2
    push_cast
    ring
  · have hg : Summable fun n : ℕ => 2 * Real.sqrt Real.pi * Real.exp (z.im ^ 2) *
        (Real.exp (-(2 * z.im * (Real.pi / h)))) ^ n :=
      (summable_geometric_of_lt_one (Real.exp_pos _).le
        (exp_lt_one' (by have := mul_pos hz hb; linarith))).mul_left _
    refine Summable.of_nonneg_of_le (fun n => integral_nonneg fun v => norm_nonneg _) (fun n => ?_) hg
    have := kern_norm_int z (Real.pi * (-(n : ℤ) : ℤ) / h)
    refine this.trans (le_of_eq ?_)
    rw [← Real.exp_nat_mul, mul_assoc (2 * Real.sqrt Real.pi), ← Real.exp_add]
    congr 2
    push_cast
    ring

/-- **The trapezoid rule**: the nodes and the frequencies have the same sum. -/
theorem trapezoid (z : ℂ) (hz : 0 < z.im) (h : ℝ) (hh : 0 < h) :
    ∃ S : ℂ, HasSum (node z h) S ∧ HasSum (fun k : ℤ => J z (Real.pi * k / h)) S := by
  have hK := hasSum_integral_of_summable_integral_norm (μ := volume.restrict (Ioi (0 : ℝ)))
    (F := fun (k : ℤ) v => kern z (Real.pi * k / h) v)
    (fun k => (kern_integrable z _).integrableOn) (kern_summable z hz h hh)
  have hK' := hK.mul_left (1 / (Real.sqrt Real.pi : ℂ))
  refine ⟨_, ?_, hK'⟩
  have hnorm : ∀ (n : ℤ) (v : ℝ),
      ‖(h / Real.pi : ℂ) * (cexp (-((n : ℂ) * h) ^ 2) * cexp (I * (z - (n * h : ℝ)) * v))‖ =
        (h / Real.pi * Real.exp (-(h ^ 2 * (n : ℝ) ^ 2))) * Real.exp (-z.im * v) := by
    intro n v
    rw [norm_mul, norm_mul, ray_norm]
    have h1 : (h / Real.pi : ℂ) = ((h / Real.pi : ℝ) : ℂ) := by push_cast; ring
    have h2 : -((n : ℂ) * h) ^ 2 = ((-(h ^ 2 * (n : ℝ) ^ 2) : ℝ) : ℂ) := by push_cast; ring
    rw [h1, h2, Complex.norm_of_nonneg (by positivity), ← Complex.ofReal_exp,
      Complex.norm_of_nonneg (Real.exp_pos _).le]
    ring
  have hF := hasSum_integral_of_summable_integral_norm (μ := volume.restrict (Ioi (0 : ℝ)))
    (F := fun (n : ℤ) (v : ℝ) =>
      (h / Real.pi : ℂ) * (cexp (-((n : ℂ) * h) ^ 2) * cexp (I * (z - (n * h : ℝ)) * v)))
    (fun n => ((integrableOn_exp_mul_complex_Ioi (ray_re z hz _) 0).const_mul _).const_mul _)
    (by
      simp_rw [hnorm, integral_const_mul, ray_norm_int z hz]
      apply Summable.mul_right
      apply Summable.mul_left
      exact summable_gauss (h ^ 2) (by positivity))
  have e1 : (fun n : ℤ => ∫ v in Ioi (0 : ℝ),
      (h / Real.pi : ℂ) * (cexp (-((n : ℂ) * h) ^ 2) * cexp (I * (z - (n * h : ℝ)) * v))) = node z h := by
    funext n
    rw [integral_const_mul, integral_const_mul, ray_integral z hz, node]
  rw [e1] at hF
  have e2 : (∫ v in Ioi (0 : ℝ), ∑' n : ℤ,
      (h / Real.pi : ℂ) * (cexp (-((n : ℂ) * h) ^ 2) * cexp (I * (z - (n * h : ℝ)) * v))) =
      1 / (Real.sqrt Real.pi : ℂ) * ∫ v in Ioi (0 : ℝ), ∑' k : ℤ, kern z (Real.pi * k / h) v := by
    rw [← integral_const_mul]
    congr 1
    funext v
    exact theta z h hh v
  rw [e2] at hF
  exact hF

/-- the complex error function as an integral over the real line and over the half line -/
theorem W_eq (z : ℂ) (hz : 0 < z.im) :
    I / Real.pi * ∫ t : ℝ, cexp (-(t : ℂ) ^ 2) / (z - t) = W z := by
  have h1 : ∀ t : ℝ, I * (cexp (-(t : ℂ) ^ 2) / (z - t)) =
      ∫ v in Ioi (0 : ℝ), cexp (-(t : ℂ) ^ 2) * cexp (I * (z - t) * v) := by
    intro t
    rw [integral_const_mul, ray_integral z hz]
    ring
  have h2 : I * ∫ t : ℝ, cexp (-(t : ℂ) ^ 2) / (z - t) =
      ∫ t : ℝ, ∫ v in Ioi (0 : ℝ), cexp (-(t : ℂ) ^ 2) * cexp (I * (z - t) * v) := by
    rw [← integral_const_mul]
    simp_rw [h1]
  have hint : Integrable (Function.uncurry fun (t v : ℝ) =>
      cexp (-(t : ℂ) ^ 2) * cexp (I * (z - t) * v)) (volume.prod (volume.restrict (Ioi (0 : ℝ)))) := by
    have ha : Integrable (fun t : ℝ => Real.exp (-(1 : ℝ) * t ^ 2)) :=
      integrable_exp_neg_mul_sq (by norm_num)
    have hb : Integrable (fun v : ℝ => Real.exp (-z.im * v)) (volume.restrict (Ioi (0 : ℝ))) :=
      integrableOn_exp_mul_Ioi (by linarith) 0
    have hp := ha.mul_prod hb
    refine (integrable_norm_iff ?_).1 (hp.congr ?_)
    · apply Continuous.aestronglyMeasurable
      simp only [Function.uncurry_def]
      fun_prop
    · refine Filter.Eventually.of_forall fun p => ?_
      simp only [Function.uncurry]
      rw [norm_mul, ray_norm]
      congr 1
      rw [show -((p.1 : ℝ) : ℂ) ^ 2 = ((-(1 : ℝ) * p.1 ^ 2 : ℝ) : ℂ) by push_cast; ring,
        ← Complex.ofReal_exp, Complex.norm_of_nonneg (Real.exp_pos _).le]
  rw [integral_integral_swap hint] at h2
  have h3 : ∀ v : ℝ, ∫ t : ℝ, cexp (-(t : ℂ) ^ 2) * cexp (I * (z - t) * v) =
      (Real.sqrt Real.pi : ℂ) * kern z 0 v := by
    intro v
    have hf := fourierIntegral_gaussian (b := 1) (by norm_num) (-(v : ℂ))
    have e : ∀ t : ℝ, cexp (-(t : ℂ) ^ 2) * cexp (I * (z - t) * v) =
        cexp (I * z * v) * (cexp (I * -(v : ℂ) * t) * cexp (-1 * (t : ℂ) ^ 2)) := by
      intro t
      rw [← Complex.exp_add, ← Complex.exp_add, ← Complex.exp_add]
      congr 1
      ring
    simp_rw [e]
    rw [integral_const_mul, hf]
    have hs : ((Real.pi : ℂ) / 1) ^ (1 / 2 : ℂ) = (Real.sqrt Real.pi : ℂ) := by
      rw [div_one, show (1 / 2 : ℂ) = ((1 / 2 : ℝ) : ℂ) by push_cast; ring,
        ← Complex.ofReal_cpow Real.pi_pos.le, ← Real.sqrt_eq_rpow]
    rw [hs, kern, mul_left_comm, ← Complex.exp_add]
    congr 2
    push_cast
    ring
  simp_rw [h3] at h2
  rw [integral_const_mul] at h2
  rw [div_mul_eq_mul_div, h2, W, J]
  have hs : (Real.sqrt Real.pi : ℂ) ≠ 0 := by exact_mod_cast sqrtpi_pos.ne'
  have hs2 : (Real.sqrt Real.pi : ℂ) ^ 2 = Real.pi := by
    exact_mod_cast Real.sq_sqrt Real.pi_pos.le
  rw [← hs2]
  field_simp

end GooFit.Faddeeva
