import Verif.Model.Mixing
import Verif.Spec.Mixing
import Verif.Lemmas.GaussRes
import Verif.Props.Mixing
import Verif.Lemmas.TrigBounds

/-!
# C63: decay-time resolution with three Gaussians
-/

set_option autoImplicit false

namespace GooFit

open Spec MeasureTheory Set

theorem gaussRes_u (σ T k : ℝ) (hσ : 0 < σ) :
    0.5 * (σ * √2) * (k - T / σ ^ 2) = ulow σ T k := by
  unfold ulow
  have h2 : √2 ^ 2 = (2 : ℝ) := Real.sq_sqrt (by norm_num)
  have hs : √2 ≠ (0 : ℝ) := by positivity
  have : σ / √2 = 0.5 * (σ * √2) := by
    rw [show (0.5 : ℝ) = 1 / 2 by norm_num, div_eq_iff hs]
    calc σ = 1 / 2 * σ * 2 := by ring
      _ = 1 / 2 * σ * √2 ^ 2 := by rw [h2]
      _ = _ := by ring
  rw [this]

theorem gaussRes_norm (σ : ℝ) (hσ : 0 < σ) :
    √(0.5 * (1 / Real.pi)) * (1 / σ) = 1 / (σ * √(2 * Real.pi)) := by
  have : (0.5 : ℝ) * (1 / Real.pi) = (2 * Real.pi)⁻¹ := by
    rw [show (0.5 : ℝ) = 1 / 2 by norm_num]
    field_simp
  rw [this, Real.sqrt_inv]
  have : √(2 * Real.pi) ≠ 0 := by positivity
  field_simp

/-- Folding one exponential. -/
theorem fold_exp {σ : ℝ} (hσ : 0 < σ) (T k : ℝ) :
    smear (fun t => Real.exp (-k * t)) (normalDensity σ) T
      = 1 / (σ * √(2 * Real.pi)) * ((σ * √2) * Real.exp (-(T ^ 2 / (2 * σ ^ 2)) + ulow σ T k ^ 2)
        * gm 0 (ulow σ T k)) := by
  have h := fold_eq hσ T k (fun _ => 1)
  simp only [mul_one, one_mul] at h
  rw [h]
  simp only [gm, pow_zero, one_mul]
  ring

theorem smear_add {σ : ℝ} (f g : ℝ → ℝ) (T : ℝ)
    (hf : IntegrableOn (fun t => f t * normalDensity σ (T - t)) (Ioi 0))
    (hg : IntegrableOn (fun t => g t * normalDensity σ (T - t)) (Ioi 0)) (a b : ℝ) :
    smear (fun t => a * f t + b * g t) (normalDensity σ) T
      = a * smear f (normalDensity σ) T + b * smear g (normalDensity σ) T := by
  unfold smear
  rw [← integral_const_mul, ← integral_const_mul, ← integral_add (hf.const_mul a) (hg.const_mul b)]
  congr 1
  funext t
  ring

/-- **C63 (one Gaussian).**  The four numbers the resolution function computes for a
Gaussian of width `σ > 0` are the functions `cosh (y t/τ)`, `cos (x t/τ)`,
`sinh (y t/τ)` and `sin (x t/τ)` of the true time, times `exp (-(1/τ + s) t)`, folded
with that Gaussian, where the cosine and the sine are replaced by the first two
terms of their power series. -/
theorem C63_gaussian_partial (τ T x y σ s : ℝ) (hσ : 0 < σ) :
    gaussRes τ T x y σ s
      = (smear (fun t => Real.exp (-(1 / τ + s) * t) * Real.cosh (y * (t / τ))) (normalDensity σ) T,
         smear (fun t => Real.exp (-(1 / τ + s) * t) * (1 - (x * (t / τ)) ^ 2 / 2)) (normalDensity σ) T,
         smear (fun t => Real.exp (-(1 / τ + s) * t) * Real.sinh (y * (t / τ))) (normalDensity σ) T,
         smear (fun t => Real.exp (-(1 / τ + s) * t) * (x * (t / τ) - (x * (t / τ)) ^ 3 / 6))
          (normalDensity σ) T) := by
  have eC : 0.5 * T * T * (1 / σ * (1 / σ)) = T ^ 2 / (2 * σ ^ 2) := by
    rw [show (0.5 : ℝ) = 1 / 2 by norm_num]; field_simp
  have eu : ∀ k, 0.5 * (σ * √2) * (k + -T * (1 / σ * (1 / σ))) = ulow σ T k := by
    intro k
    rw [← gaussRes_u σ T k hσ]
    congr 1
    field_simp
    ring
  have eu0 : 0.5 * (σ * √2) * (1 / τ + -T * (1 / σ * (1 / σ)) + s) = ulow σ T (1 / τ + s) := by
    rw [← eu]; congr 1; ring
  have eup : 0.5 * (σ * √2) * (1 / τ + -T * (1 / σ * (1 / σ)) - y * (1 / τ) + s)
      = ulow σ T (1 / τ - y * (1 / τ) + s) := by
    rw [← eu]; congr 1; ring
  have eum : 0.5 * (σ * √2) * (1 / τ + -T * (1 / σ * (1 / σ)) + y * (1 / τ) + s)
      = ulow σ T (1 / τ + y * (1 / τ) + s) := by
    rw [← eu]; congr 1; ring
  have hI := fold_int hσ T
  have f1 : (fun t => Real.exp (-(1 / τ + s) * t) * Real.cosh (y * (t / τ)))
      = fun t => 1 / 2 * Real.exp (-(1 / τ - y * (1 / τ) + s) * t)
        + 1 / 2 * Real.exp (-(1 / τ + y * (1 / τ) + s) * t) := by
    funext t
    have e1 : -(1 / τ - y * (1 / τ) + s) * t = -(1 / τ + s) * t + y * (t / τ) := by ring
    have e2 : -(1 / τ + y * (1 / τ) + s) * t = -(1 / τ + s) * t + -(y * (t / τ)) := by ring
    rw [Real.cosh_eq, e1, e2, Real.exp_add, Real.exp_add]
    ring
  have f3 : (fun t => Real.exp (-(1 / τ + s) * t) * Real.sinh (y * (t / τ)))
      = fun t => 1 / 2 * Real.exp (-(1 / τ - y * (1 / τ) + s) * t)
        + (-1 / 2) * Real.exp (-(1 / τ + y * (1 / τ) + s) * t) := by
    funext t
    have e1 : -(1 / τ - y * (1 / τ) + s) * t = -(1 / τ + s) * t + y * (t / τ) := by ring
    have e2 : -(1 / τ + y * (1 / τ) + s) * t = -(1 / τ + s) * t + -(y * (t / τ)) := by ring
    rw [Real.sinh_eq, e1, e2, Real.exp_add, Real.exp_add]
    ring
  have g2 : ∀ u, (∫ v in Ioi u, (1 - (x * (σ * √2 * (v - u) / τ)) ^ 2 / 2) * Real.exp (-v ^ 2))
      = gm 0 u - 0.5 * ((x * (1 / τ) * (σ * √2)) * (x * (1 / τ) * (σ * √2))
        * (gm 2 u - u * gm 1 u * 2 + u * u * gm 0 u)) := by
    intro u
    have h := poly_tail (1 - (x * (1 / τ) * (σ * √2)) ^ 2 * u ^ 2 / 2) ((x * (1 / τ) * (σ * √2)) ^ 2 * u)
      (-((x * (1 / τ) * (σ * √2)) ^ 2) / 2) 0 u
    rw [show (0.5 : ℝ) = 1 / 2 by norm_num]
    calc _ = _ := by
            congr 1
            funext v
            ring
      _ = _ := h
      _ = _ := by ring
  have g4 : ∀ u, (∫ v in Ioi u, (x * (σ * √2 * (v - u) / τ) - (x * (σ * √2 * (v - u) / τ)) ^ 3 / 6)
        * Real.exp (-v ^ 2))
      = x * (1 / τ) * (σ * √2) * (gm 1 u - u * gm 0 u)
        - 1.0 / 6.0 * ((x * (1 / τ) * (σ * √2)) * (x * (1 / τ) * (σ * √2)) * (x * (1 / τ) * (σ * √2))
        * (gm 3 u - u * gm 2 u * 3 + u * u * gm 1 u * 3 - u * (u * u) * gm 0 u)) := by
    intro u
    generalize hR : x * (1 / τ) * (σ * √2) = R
    have h := poly_tail (-(R * u) + R ^ 3 * u ^ 3 / 6) (R - R ^ 3 * u ^ 2 / 2) (R ^ 3 * u / 2) (-(R ^ 3) / 6) u
    rw [show (1.0 : ℝ) / 6.0 = 1 / 6 by norm_num]
    calc _ = _ := by
            congr 1
            funext v
            have : x * (σ * √2 * (v - u) / τ) = R * (v - u) := by rw [← hR]; ring
            rw [this]
            ring
      _ = _ := h
      _ = _ := by ring
  have i1 : ∀ u, 0.5 * Real.exp (-(u * u)) = gm 1 u := by
    intro u; rw [gm_one, show (0.5 : ℝ) = 1 / 2 by norm_num, ← pow_two]; ring
  have i2 : ∀ u, gm 1 u * u + 0.5 * gm 0 u = gm 2 u := by
    intro u; rw [gm_two, gm_one, show (0.5 : ℝ) = 1 / 2 by norm_num]; ring
  have i3 : ∀ u, gm 1 u * (u * u + 1) = gm 3 u := by
    intro u; rw [gm_three, gm_one]; ring
  unfold gaussRes
  dsimp only
  rw [f1, f3, smear_add _ _ _ (hI _) (hI _), smear_add _ _ _ (hI _) (hI _), fold_eq hσ, fold_eq hσ, g2, g4,
    fold_exp hσ, fold_exp hσ]
  rw [eu0, eup, eum, eC, gaussRes_norm σ hσ]
  simp only [mul_assoc (σ * √2 * Real.exp _) (1.0 / (2 / √Real.pi)), gm_zero_erfc, i1, i2, i3]
  refine Prod.ext ?_ (Prod.ext ?_ (Prod.ext ?_ ?_))
  · dsimp only
    rw [show (0.5 : ℝ) = 1 / 2 by norm_num]
    simp only [pow_two]
    ring
  · dsimp only
    generalize (0.5 : ℝ) = q
    simp only [pow_two]
    ring
  · dsimp only
    rw [show (0.5 : ℝ) = 1 / 2 by norm_num]
    simp only [pow_two]
    ring
  · dsimp only
    generalize (1.0 / 6.0 : ℝ) = q
    simp only [pow_two]
    ring

/-- Integrability of powers of the time, damped and folded. -/
theorem fold_int_pow {σ : ℝ} (hσ : 0 < σ) (T k : ℝ) (n : ℕ) :
    IntegrableOn (fun t => Real.exp (-k * t) * t ^ n * normalDensity σ (T - t)) (Ioi 0) := by
  have h := (fold_int hσ T (k - 1)).const_mul (n.factorial : ℝ)
  refine Integrable.mono' h ?_ ?_
  · have hc : Continuous (fun t => Real.exp (-k * t) * t ^ n * normalDensity σ (T - t)) := by
      unfold normalDensity
      fun_prop
    exact hc.aestronglyMeasurable
  · refine (ae_restrict_iff' measurableSet_Ioi).2 (Filter.Eventually.of_forall fun t ht => ?_)
    have ht0 : 0 ≤ t := le_of_lt ht
    have hn : 0 ≤ normalDensity σ (T - t) := by unfold normalDensity; positivity
    rw [Real.norm_of_nonneg (by positivity)]
    have hp := Real.pow_div_factorial_le_exp t ht0 n
    rw [div_le_iff₀ (by positivity)] at hp
    have e : Real.exp (-(k - 1) * t) = Real.exp (-k * t) * Real.exp t := by
      rw [← Real.exp_add]; congr 1; ring
    rw [e]
    calc Real.exp (-k * t) * t ^ n * normalDensity σ (T - t)
        ≤ Real.exp (-k * t) * (Real.exp t * n.factorial) * normalDensity σ (T - t) := by gcongr
      _ = _ := by ring

/-- The same with a continuous bounded factor. -/
theorem fold_int_bdd {σ : ℝ} (hσ : 0 < σ) (T k : ℝ) (g : ℝ → ℝ) (hg : Continuous g) (hb : ∀ t, |g t| ≤ 1) :
    IntegrableOn (fun t => Real.exp (-k * t) * g t * normalDensity σ (T - t)) (Ioi 0) := by
  refine Integrable.mono' (fold_int hσ T k) ?_ (Filter.Eventually.of_forall fun t => ?_)
  · have hc : Continuous (fun t => Real.exp (-k * t) * g t * normalDensity σ (T - t)) := by
      unfold normalDensity
      fun_prop
    exact hc.aestronglyMeasurable
  · have hn : 0 ≤ normalDensity σ (T - t) := by unfold normalDensity; positivity
    rw [norm_mul, norm_mul, Real.norm_of_nonneg hn, Real.norm_of_nonneg (Real.exp_pos _).le, Real.norm_eq_abs]
    have : Real.exp (-k * t) * |g t| ≤ Real.exp (-k * t) := by
      have := mul_le_mul_of_nonneg_left (hb t) (Real.exp_pos (-k * t)).le
      rwa [mul_one] at this
    exact mul_le_mul_of_nonneg_right this hn

/-- **C63 (size of the error).**  The two approximated numbers differ from the folded
cosine and sine by no more than the folded remainders of the power series. -/
theorem C63_error_bound (τ T x y σ s : ℝ) (hσ : 0 < σ) :
    |(gaussRes τ T x y σ s).2.1
        - smear (fun t => Real.exp (-(1 / τ + s) * t) * Real.cos (x * (t / τ))) (normalDensity σ) T|
      ≤ smear (fun t => Real.exp (-(1 / τ + s) * t) * ((x * (t / τ)) ^ 4 / 24)) (normalDensity σ) T
    ∧ |(gaussRes τ T x y σ s).2.2.2
        - smear (fun t => Real.exp (-(1 / τ + s) * t) * Real.sin (x * (t / τ))) (normalDensity σ) T|
      ≤ smear (fun t => Real.exp (-(1 / τ + s) * t) * (|x * (t / τ)| ^ 5 / 120)) (normalDensity σ) T := by
  rw [C63_gaussian_partial _ _ _ _ _ _ hσ]
  dsimp only
  have hn : ∀ u, 0 ≤ normalDensity σ u := fun u => by unfold normalDensity; positivity
  have hp := fold_int_pow hσ T (1 / τ + s)
  constructor
  · unfold smear
    have i1 : IntegrableOn (fun t => Real.exp (-(1 / τ + s) * t) * (1 - (x * (t / τ)) ^ 2 / 2)
        * normalDensity σ (T - t)) (Ioi 0) := by
      refine ((hp 0).sub ((hp 2).const_mul ((x / τ) ^ 2 / 2))).congr (Filter.Eventually.of_forall fun t => ?_)
      simp only [Pi.sub_apply]
      ring
    have i2 := fold_int_bdd hσ T (1 / τ + s) (fun t => Real.cos (x * (t / τ))) (by fun_prop)
      (fun t => Real.abs_cos_le_one _)
    have i3 : IntegrableOn (fun t => Real.exp (-(1 / τ + s) * t) * ((x * (t / τ)) ^ 4 / 24)
        * normalDensity σ (T - t)) (Ioi 0) := by
      refine ((hp 4).const_mul ((x / τ) ^ 4 / 24)).congr (Filter.Eventually.of_forall fun t => ?_)
      dsimp only
      ring
    rw [← integral_sub i1 i2, ← Real.norm_eq_abs]
    refine (norm_integral_le_integral_norm _).trans (integral_mono_of_nonneg
      (Filter.Eventually.of_forall ?_) i3 (Filter.Eventually.of_forall ?_))
    · intro t
      exact norm_nonneg _
    intro t
    dsimp only
    rw [← sub_mul, ← mul_sub, norm_mul, norm_mul, Real.norm_of_nonneg (hn _),
      Real.norm_of_nonneg (Real.exp_pos _).le, Real.norm_eq_abs]
    have := cos_remainder (x * (t / τ))
    have := hn (T - t)
    gcongr
  · unfold smear
    have i1 : IntegrableOn (fun t => Real.exp (-(1 / τ + s) * t) * (x * (t / τ) - (x * (t / τ)) ^ 3 / 6)
        * normalDensity σ (T - t)) (Ioi 0) := by
      refine (((hp 1).const_mul (x / τ)).sub ((hp 3).const_mul ((x / τ) ^ 3 / 6))).congr
        (Filter.Eventually.of_forall fun t => ?_)
      simp only [Pi.sub_apply]
      ring
    have i2 := fold_int_bdd hσ T (1 / τ + s) (fun t => Real.sin (x * (t / τ))) (by fun_prop)
      (fun t => Real.abs_sin_le_one _)
    have i3 : IntegrableOn (fun t => Real.exp (-(1 / τ + s) * t) * (|x * (t / τ)| ^ 5 / 120)
        * normalDensity σ (T - t)) (Ioi 0) := by
      refine ((hp 5).const_mul (|x / τ| ^ 5 / 120)).congr ?_
      refine (ae_restrict_iff' measurableSet_Ioi).2 (Filter.Eventually.of_forall fun t ht => ?_)
      dsimp only
      rw [show x * (t / τ) = x / τ * t by ring, abs_mul, abs_of_pos (show 0 < t from ht)]
      ring
    rw [← integral_sub i1 i2, ← Real.norm_eq_abs]
    refine (norm_integral_le_integral_norm _).trans (integral_mono_of_nonneg
      (Filter.Eventually.of_forall ?_) i3 (Filter.Eventually.of_forall ?_))
    · intro t
      exact norm_nonneg _
    intro t
    dsimp only
    rw [← sub_mul, ← mul_sub, norm_mul, norm_mul, Real.norm_of_nonneg (hn _),
      Real.norm_of_nonneg (Real.exp_pos _).le, Real.norm_eq_abs]
    have := sin_remainder (x * (t / τ))
    have := hn (T - t)
    gcongr

/-- The rate with the sine and the cosine cut after two terms. -/
noncomputable def truncRate (c1 c2 c3 c4 τ x y s t : ℝ) : ℝ :=
  c1 * (Real.exp (-(1 / τ + s) * t) * Real.cosh (y * (t / τ)))
    + c2 * (Real.exp (-(1 / τ + s) * t) * (1 - (x * (t / τ)) ^ 2 / 2))
    + (-2 * c3) * (Real.exp (-(1 / τ + s) * t) * Real.sinh (y * (t / τ)))
    + (-2 * c4) * (Real.exp (-(1 / τ + s) * t) * (x * (t / τ) - (x * (t / τ)) ^ 3 / 6))

theorem cosh_split (τ y s t : ℝ) : Real.exp (-(1 / τ + s) * t) * Real.cosh (y * (t / τ))
    = 1 / 2 * Real.exp (-(1 / τ - y * (1 / τ) + s) * t) + 1 / 2 * Real.exp (-(1 / τ + y * (1 / τ) + s) * t) := by
  have e1 : -(1 / τ - y * (1 / τ) + s) * t = -(1 / τ + s) * t + y * (t / τ) := by ring
  have e2 : -(1 / τ + y * (1 / τ) + s) * t = -(1 / τ + s) * t + -(y * (t / τ)) := by ring
  rw [Real.cosh_eq, e1, e2, Real.exp_add, Real.exp_add]
  ring

theorem sinh_split (τ y s t : ℝ) : Real.exp (-(1 / τ + s) * t) * Real.sinh (y * (t / τ))
    = 1 / 2 * Real.exp (-(1 / τ - y * (1 / τ) + s) * t) - 1 / 2 * Real.exp (-(1 / τ + y * (1 / τ) + s) * t) := by
  have e1 : -(1 / τ - y * (1 / τ) + s) * t = -(1 / τ + s) * t + y * (t / τ) := by ring
  have e2 : -(1 / τ + y * (1 / τ) + s) * t = -(1 / τ + s) * t + -(y * (t / τ)) := by ring
  rw [Real.sinh_eq, e1, e2, Real.exp_add, Real.exp_add]
  ring

theorem trunc_fold_int {σ : ℝ} (hσ : 0 < σ) (T τ x y s : ℝ) :
    IntegrableOn (fun t => Real.exp (-(1 / τ + s) * t) * Real.cosh (y * (t / τ)) * normalDensity σ (T - t)) (Ioi 0)
    ∧ IntegrableOn (fun t => Real.exp (-(1 / τ + s) * t) * (1 - (x * (t / τ)) ^ 2 / 2) * normalDensity σ (T - t)) (Ioi 0)
    ∧ IntegrableOn (fun t => Real.exp (-(1 / τ + s) * t) * Real.sinh (y * (t / τ)) * normalDensity σ (T - t)) (Ioi 0)
    ∧ IntegrableOn (fun t => Real.exp (-(1 / τ + s) * t) * (x * (t / τ) - (x * (t / τ)) ^ 3 / 6)
        * normalDensity σ (T - t)) (Ioi 0) := by
  have hI := fold_int hσ T
  have hp := fold_int_pow hσ T (1 / τ + s)
  refine ⟨?_, ?_, ?_, ?_⟩
  · refine (((hI (1 / τ - y * (1 / τ) + s)).const_mul (1 / 2)).add
      ((hI (1 / τ + y * (1 / τ) + s)).const_mul (1 / 2))).congr (Filter.Eventually.of_forall fun t => ?_)
    simp only [Pi.add_apply]
    rw [cosh_split]
    ring
  · refine ((hp 0).sub ((hp 2).const_mul ((x / τ) ^ 2 / 2))).congr (Filter.Eventually.of_forall fun t => ?_)
    simp only [Pi.sub_apply]
    ring
  · refine (((hI (1 / τ - y * (1 / τ) + s)).const_mul (1 / 2)).sub
      ((hI (1 / τ + y * (1 / τ) + s)).const_mul (1 / 2))).congr (Filter.Eventually.of_forall fun t => ?_)
    simp only [Pi.sub_apply]
    rw [sinh_split]
    ring
  · refine (((hp 1).const_mul (x / τ)).sub ((hp 3).const_mul ((x / τ) ^ 3 / 6))).congr
      (Filter.Eventually.of_forall fun t => ?_)
    simp only [Pi.sub_apply]
    ring

theorem trunc_fold {σ : ℝ} (hσ : 0 < σ) (c1 c2 c3 c4 T τ x y s : ℝ) :
    IntegrableOn (fun t => truncRate c1 c2 c3 c4 τ x y s t * normalDensity σ (T - t)) (Ioi 0)
    ∧ smear (truncRate c1 c2 c3 c4 τ x y s) (normalDensity σ) T
      = c1 * (gaussRes τ T x y σ s).1 + c2 * (gaussRes τ T x y σ s).2.1
        - 2 * c3 * (gaussRes τ T x y σ s).2.2.1 - 2 * c4 * (gaussRes τ T x y σ s).2.2.2 := by
  obtain ⟨h1, h2, h3, h4⟩ := trunc_fold_int hσ T τ x y s
  have g1 := h1.const_mul c1
  have g2 := h2.const_mul c2
  have g3 := h3.const_mul (-2 * c3)
  have g4 := h4.const_mul (-2 * c4)
  constructor
  · refine (((g1.add g2).add g3).add g4).congr (Filter.Eventually.of_forall fun t => ?_)
    simp only [Pi.add_apply, truncRate]
    ring
  · rw [C63_gaussian_partial _ _ _ _ _ _ hσ]
    dsimp only
    unfold smear
    have e12 := integral_add g1 g2
    have e123 := integral_add (g1.add g2) g3
    have e1234 := integral_add ((g1.add g2).add g3) g4
    simp only [Pi.add_apply, integral_const_mul] at e12 e123 e1234
    have : ∀ t, truncRate c1 c2 c3 c4 τ x y s t * normalDensity σ (T - t)
        = c1 * (Real.exp (-(1 / τ + s) * t) * Real.cosh (y * (t / τ)) * normalDensity σ (T - t))
        + c2 * (Real.exp (-(1 / τ + s) * t) * (1 - (x * (t / τ)) ^ 2 / 2) * normalDensity σ (T - t))
        + -2 * c3 * (Real.exp (-(1 / τ + s) * t) * Real.sinh (y * (t / τ)) * normalDensity σ (T - t))
        + -2 * c4 * (Real.exp (-(1 / τ + s) * t) * (x * (t / τ) - (x * (t / τ)) ^ 3 / 6)
          * normalDensity σ (T - t)) := by
      intro t; unfold truncRate; ring
    simp only [this]
    rw [e1234, e123, e12]
    ring

/-- The whole resolution function as a folding. -/
theorem threeGauss_eq (p : ThreeGaussPars) (c1 c2 c3 c4 τ T x y σ : ℝ)
    (h1 : 0 < p.coreScale * p.commonWidth * σ) (h2 : 0 < p.tailScale * p.commonWidth2 * σ)
    (h3 : 0 < p.outlScale * p.commonWidth2 * σ) :
    threeGaussResolution p c1 c2 c3 c4 τ T x y σ
      = p.coreFraction * smear (truncRate c1 c2 c3 c4 τ x y p.selbias)
          (normalDensity (p.coreScale * p.commonWidth * σ)) (T - (p.coreBias + p.commonBias) * σ)
        + p.tailFraction * smear (truncRate c1 c2 c3 c4 τ x y p.selbias)
          (normalDensity (p.tailScale * p.commonWidth2 * σ)) (T - (p.tailBias + p.commonBias2) * σ)
        + (1 - p.coreFraction - p.tailFraction) * smear (truncRate c1 c2 c3 c4 τ x y p.selbias)
          (normalDensity (p.outlScale * p.commonWidth2 * σ)) (T - (p.outlBias + p.commonBias2) * σ) := by
  rw [(trunc_fold h1 _ _ _ _ _ _ _ _ _).2, (trunc_fold h2 _ _ _ _ _ _ _ _ _).2, (trunc_fold h3 _ _ _ _ _ _ _ _ _).2]
  unfold threeGaussResolution
  dsimp only
  ring

/-- **C63, partial (three Gaussians).**  For `x = 0` and positive widths, the value
for an event with amplitudes `A` and `B`, measured at time `T` with error `σ`, is the
decay rate, times the factor `exp (-s t)` of the selection, folded with the sum of
the three Gaussians.  Missing: `x ≠ 0`, where the sine and the cosine are cut
(`C63_violation_norm`, `C63_violation_negative`). -/
theorem C63_resolution_partial (p : ThreeGaussPars) (A B : ℂ) (τ T y σ : ℝ)
    (h1 : 0 < p.coreScale * p.commonWidth * σ) (h2 : 0 < p.tailScale * p.commonWidth2 * σ)
    (h3 : 0 < p.outlScale * p.commonWidth2 * σ) :
    threeGaussResolution p (Complex.normSq A + Complex.normSq B) (Complex.normSq A - Complex.normSq B)
        (A * starRingEnd ℂ B).re (A * starRingEnd ℂ B).im τ T 0 y σ
      = smear (fun t => Real.exp (-p.selbias * t) * decayRate A B τ 0 y t)
          (threeNormals p.coreFraction p.tailFraction (1 - p.coreFraction - p.tailFraction)
            ((p.coreBias + p.commonBias) * σ) ((p.tailBias + p.commonBias2) * σ)
            ((p.outlBias + p.commonBias2) * σ) (p.coreScale * p.commonWidth * σ)
            (p.tailScale * p.commonWidth2 * σ) (p.outlScale * p.commonWidth2 * σ)) T := by
  have hr : (fun t => Real.exp (-p.selbias * t) * decayRate A B τ 0 y t)
      = truncRate (Complex.normSq A + Complex.normSq B) (Complex.normSq A - Complex.normSq B)
        (A * starRingEnd ℂ B).re (A * starRingEnd ℂ B).im τ 0 y p.selbias := by
    funext t
    rw [← C62_rate]
    unfold truthResolution truncRate
    dsimp only
    have e : Real.exp (-(1 / τ + p.selbias) * t) = Real.exp (-p.selbias * t) * Real.exp (-(t / τ)) := by
      rw [← Real.exp_add]; congr 1; ring
    rw [e, zero_mul, Real.cos_zero, Real.sin_zero]
    ring
  rw [threeGauss_eq p _ _ _ _ _ _ _ _ _ h1 h2 h3, hr]
  generalize Complex.normSq A + Complex.normSq B = c1
  generalize Complex.normSq A - Complex.normSq B = c2
  generalize (A * starRingEnd ℂ B).re = c3
  generalize (A * starRingEnd ℂ B).im = c4
  have i1 := ((trunc_fold h1 c1 c2 c3 c4 (T - (p.coreBias + p.commonBias) * σ) τ 0 y p.selbias).1).const_mul
    p.coreFraction
  have i2 := ((trunc_fold h2 c1 c2 c3 c4 (T - (p.tailBias + p.commonBias2) * σ) τ 0 y p.selbias).1).const_mul
    p.tailFraction
  have i3 := ((trunc_fold h3 c1 c2 c3 c4 (T - (p.outlBias + p.commonBias2) * σ) τ 0 y p.selbias).1).const_mul
    (1 - p.coreFraction - p.tailFraction)
  have e12 := integral_add i1 i2
  have e123 := integral_add (i1.add i2) i3
  simp only [Pi.add_apply, integral_const_mul] at e12 e123
  unfold smear
  rw [← e12, ← e123]
  congr 1
  funext t
  unfold threeNormals
  rw [show T - (p.coreBias + p.commonBias) * σ - t = T - t - (p.coreBias + p.commonBias) * σ by ring,
    show T - (p.tailBias + p.commonBias2) * σ - t = T - t - (p.tailBias + p.commonBias2) * σ by ring,
    show T - (p.outlBias + p.commonBias2) * σ - t = T - t - (p.outlBias + p.commonBias2) * σ by ring]
  ring

/-- A resolution with three different Gaussians. -/
example (A B : ℂ) (T : ℝ) := C63_resolution_partial ⟨4 / 5, 1 / 10, 0, 1, 0, 2, 1 / 100, 3, 0, 0, 1, 0, 1⟩ A B (41 / 100) T
  (1 / 100) (1 / 20) (by norm_num) (by norm_num) (by norm_num)

/-- Powers of the time against a damped exponential. -/
theorem pow_exp_val {k : ℝ} (hk : 0 < k) (n : ℕ) :
    IntegrableOn (fun t => Real.exp (-k * t) * t ^ n) (Ioi 0)
    ∧ ∫ t in Ioi 0, Real.exp (-k * t) * t ^ n = n.factorial / k ^ (n + 1) := by
  constructor
  · have h := integrableOn_rpow_mul_exp_neg_mul_rpow (s := n) (p := 1)
      (by have : (0 : ℝ) ≤ n := Nat.cast_nonneg n
          linarith) one_pos hk
    refine h.congr (Filter.Eventually.of_forall fun t => ?_)
    dsimp only
    rw [Real.rpow_natCast, Real.rpow_one, mul_comm]
  · have h := Real.integral_rpow_mul_exp_neg_mul_Ioi (a := (n + 1 : ℕ)) (by positivity) hk
    rw [Real.rpow_natCast, Nat.cast_add, Nat.cast_one, Real.Gamma_nat_eq_factorial, add_sub_cancel_right] at h
    have e : ∀ t : ℝ, Real.exp (-k * t) * t ^ n = t ^ (n : ℝ) * Real.exp (-(k * t)) := by
      intro t; rw [Real.rpow_natCast, neg_mul, mul_comm]
    simp only [e]
    rw [h, one_div, inv_pow]
    field_simp

theorem trunc_total (c1 c2 c3 c4 τ x y s : ℝ) (hm : 0 < 1 / τ - y * (1 / τ) + s) (hp : 0 < 1 / τ + y * (1 / τ) + s) :
    IntegrableOn (truncRate c1 c2 c3 c4 τ x y s) (Ioi 0)
    ∧ ∫ t in Ioi 0, truncRate c1 c2 c3 c4 τ x y s t
      = (c1 / 2 - c3) * (1 / (1 / τ - y * (1 / τ) + s)) + (c1 / 2 + c3) * (1 / (1 / τ + y * (1 / τ) + s))
        + c2 * (1 / (1 / τ + s) - (x / τ) ^ 2 / (1 / τ + s) ^ 3)
        - 2 * c4 * ((x / τ) / (1 / τ + s) ^ 2 - (x / τ) ^ 3 / (1 / τ + s) ^ 4) := by
  have hk : 0 < 1 / τ + s := by linarith
  obtain ⟨im, vm⟩ := pow_exp_val hm 0
  obtain ⟨ip, vp⟩ := pow_exp_val hp 0
  obtain ⟨i0, v0⟩ := pow_exp_val hk 0
  obtain ⟨i1, v1⟩ := pow_exp_val hk 1
  obtain ⟨i2, v2⟩ := pow_exp_val hk 2
  obtain ⟨i3, v3⟩ := pow_exp_val hk 3
  have jm := im.const_mul (c1 / 2 - c3)
  have jp := ip.const_mul (c1 / 2 + c3)
  have j0 := i0.const_mul c2
  have j1 := i1.const_mul (-2 * c4 * (x / τ))
  have j2 := i2.const_mul (-c2 * (x / τ) ^ 2 / 2)
  have j3 := i3.const_mul (c4 * (x / τ) ^ 3 / 3)
  have e1 := integral_add jm jp
  have e2 := integral_add (jm.add jp) j0
  have e3 := integral_add ((jm.add jp).add j0) j1
  have e4 := integral_add (((jm.add jp).add j0).add j1) j2
  have e5 := integral_add ((((jm.add jp).add j0).add j1).add j2) j3
  have hint := (((((jm.add jp).add j0).add j1).add j2).add j3)
  have hfun : ∀ t, truncRate c1 c2 c3 c4 τ x y s t
      = (c1 / 2 - c3) * (Real.exp (-(1 / τ - y * (1 / τ) + s) * t) * t ^ 0)
        + (c1 / 2 + c3) * (Real.exp (-(1 / τ + y * (1 / τ) + s) * t) * t ^ 0)
        + c2 * (Real.exp (-(1 / τ + s) * t) * t ^ 0)
        + -2 * c4 * (x / τ) * (Real.exp (-(1 / τ + s) * t) * t ^ 1)
        + -c2 * (x / τ) ^ 2 / 2 * (Real.exp (-(1 / τ + s) * t) * t ^ 2)
        + c4 * (x / τ) ^ 3 / 3 * (Real.exp (-(1 / τ + s) * t) * t ^ 3) := by
    intro t
    unfold truncRate
    rw [cosh_split, sinh_split]
    ring
  constructor
  · refine hint.congr (Filter.Eventually.of_forall fun t => ?_)
    simp only [Pi.add_apply]
    exact (hfun t).symm
  · simp only [Pi.add_apply, integral_const_mul] at e1 e2 e3 e4 e5
    simp only [hfun]
    rw [e5, e4, e3, e2, e1, vm, vp, v0, v1, v2, v3]
    simp [Nat.factorial]
    ring

/-- The integral over all measured times of the resolution function. -/
theorem threeGauss_total (p : ThreeGaussPars) (c1 c2 c3 c4 τ x y σ : ℝ)
    (h1 : 0 < p.coreScale * p.commonWidth * σ) (h2 : 0 < p.tailScale * p.commonWidth2 * σ)
    (h3 : 0 < p.outlScale * p.commonWidth2 * σ)
    (hm : 0 < 1 / τ - y * (1 / τ) + p.selbias) (hp : 0 < 1 / τ + y * (1 / τ) + p.selbias) :
    ∫ T, threeGaussResolution p c1 c2 c3 c4 τ T x y σ
      = (c1 / 2 - c3) * (1 / (1 / τ - y * (1 / τ) + p.selbias)) + (c1 / 2 + c3) * (1 / (1 / τ + y * (1 / τ) + p.selbias))
        + c2 * (1 / (1 / τ + p.selbias) - (x / τ) ^ 2 / (1 / τ + p.selbias) ^ 3)
        - 2 * c4 * ((x / τ) / (1 / τ + p.selbias) ^ 2 - (x / τ) ^ 3 / (1 / τ + p.selbias) ^ 4) := by
  obtain ⟨hi, hv⟩ := trunc_total c1 c2 c3 c4 τ x y p.selbias hm hp
  rw [← hv]
  simp only [threeGauss_eq p _ _ _ _ _ _ _ _ _ h1 h2 h3]
  have i1 := ((smear_integrable h1 _ hi).comp_sub_right ((p.coreBias + p.commonBias) * σ)).const_mul p.coreFraction
  have i2 := ((smear_integrable h2 _ hi).comp_sub_right ((p.tailBias + p.commonBias2) * σ)).const_mul p.tailFraction
  have i3 := ((smear_integrable h3 _ hi).comp_sub_right ((p.outlBias + p.commonBias2) * σ)).const_mul
    (1 - p.coreFraction - p.tailFraction)
  have e12 := integral_add i1 i2
  have e123 := integral_add (i1.add i2) i3
  simp only [Pi.add_apply, integral_const_mul] at e12 e123
  rw [e123, e12, integral_sub_right_eq_self (smear _ _), integral_sub_right_eq_self (smear _ _),
    integral_sub_right_eq_self (smear _ _), smear_total h1 _ hi, smear_total h2 _ hi, smear_total h3 _ hi]
  ring

theorem threeGauss_denoms (τ x y s : ℝ) :
    s * s + 2 * s / τ + (1 - y * y) / (τ * τ) = (1 / τ - y * (1 / τ) + s) * (1 / τ + y * (1 / τ) + s)
    ∧ s * s + 2 * s / τ + (1 + x * x) / (τ * τ) = (1 / τ + s) ^ 2 + (x / τ) ^ 2 := by
  constructor
  · ring
  · ring

/-- **C63, partial (normalisation).**  For `x = 0`, positive widths and a rate that
can be integrated, the number the resolution function reports as its normalisation
is the integral of its value over all measured times, whatever the biases, the
widths, the fractions and the error of the event.  Missing: `x ≠ 0`, where it is
not (`C63_violation_norm`). -/
theorem C63_norm_partial (p : ThreeGaussPars) (I1 I2 I3 I4 τ y σ : ℝ)
    (h1 : 0 < p.coreScale * p.commonWidth * σ) (h2 : 0 < p.tailScale * p.commonWidth2 * σ)
    (h3 : 0 < p.outlScale * p.commonWidth2 * σ) (hy : |y / τ| < 1 / τ + p.selbias) :
    ∫ T, threeGaussResolution p (I1 + I2) (I1 - I2) I3 I4 τ T 0 y σ
      = threeGaussNormalization p.selbias I1 I2 I3 I4 τ 0 y := by
  obtain ⟨ha, hb⟩ := abs_lt.1 hy
  have hm : 0 < 1 / τ - y * (1 / τ) + p.selbias := by
    have : y * (1 / τ) = y / τ := by ring
    linarith
  have hp : 0 < 1 / τ + y * (1 / τ) + p.selbias := by
    have : y * (1 / τ) = y / τ := by ring
    linarith
  have hk : 0 < 1 / τ + p.selbias := by linarith
  rw [threeGauss_total p _ _ _ _ _ _ _ _ h1 h2 h3 hm hp]
  unfold threeGaussNormalization
  dsimp only
  rw [(threeGauss_denoms τ 0 y p.selbias).1, (threeGauss_denoms τ 0 y p.selbias).2]
  have hA : 1 / τ - y * (1 / τ) + p.selbias + (1 / τ + y * (1 / τ) + p.selbias) = 2 * (p.selbias + 1 / τ) := by ring
  have hB : 1 / τ + y * (1 / τ) + p.selbias - (1 / τ - y * (1 / τ) + p.selbias) = 2 * (y / τ) := by ring
  have eA : p.selbias + 1 / τ
      = (1 / τ - y * (1 / τ) + p.selbias + (1 / τ + y * (1 / τ) + p.selbias)) / 2 := by rw [hA]; ring
  have eB : y / τ = (1 / τ + y * (1 / τ) + p.selbias - (1 / τ - y * (1 / τ) + p.selbias)) / 2 := by rw [hB]; ring
  have e0 : (0 : ℝ) / τ = 0 := zero_div τ
  rw [eB, e0]
  rw [show (p.selbias + 1 / τ) / ((1 / τ - y * (1 / τ) + p.selbias) * (1 / τ + y * (1 / τ) + p.selbias))
    = (1 / τ - y * (1 / τ) + p.selbias + (1 / τ + y * (1 / τ) + p.selbias)) / 2
      / ((1 / τ - y * (1 / τ) + p.selbias) * (1 / τ + y * (1 / τ) + p.selbias)) by rw [← eA]]
  rw [show p.selbias + 1 / τ = 1 / τ + p.selbias by ring]
  generalize 1 / τ - y * (1 / τ) + p.selbias = a at *
  generalize 1 / τ + y * (1 / τ) + p.selbias = b at *
  generalize 1 / τ + p.selbias = k at *
  field_simp
  ring

/-- The resolution of the example above in a fit of the charm mixing. -/
example (I1 I2 I3 I4 : ℝ) := C63_norm_partial ⟨4 / 5, 1 / 10, 0, 1, 0, 2, 1 / 100, 3, 0, 0, 1, 0, 1⟩ I1 I2 I3 I4 (41 / 100)
  (1 / 100) (1 / 20) (by norm_num) (by norm_num) (by norm_num) (by norm_num [abs_lt])

/-- **C63, violation (normalisation).**  For every `x ≠ 0` the reported normalisation
is not the integral of the value over the measured times: the value uses the cut
series of the cosine, the normalisation the cosine.  Here for the simplest rate,
`A` alone. -/
theorem C63_violation_norm (p : ThreeGaussPars) (τ x y σ : ℝ) (hτ : τ ≠ 0) (hx : x ≠ 0)
    (h1 : 0 < p.coreScale * p.commonWidth * σ) (h2 : 0 < p.tailScale * p.commonWidth2 * σ)
    (h3 : 0 < p.outlScale * p.commonWidth2 * σ) (hy : |y / τ| < 1 / τ + p.selbias) :
    ∫ T, threeGaussResolution p (1 + 0) (1 - 0) 0 0 τ T x y σ
      < threeGaussNormalization p.selbias 1 0 0 0 τ x y := by
  obtain ⟨ha, hb⟩ := abs_lt.1 hy
  have hm : 0 < 1 / τ - y * (1 / τ) + p.selbias := by
    have : y * (1 / τ) = y / τ := by ring
    linarith
  have hp : 0 < 1 / τ + y * (1 / τ) + p.selbias := by
    have : y * (1 / τ) = y / τ := by ring
    linarith
  have hk : 0 < 1 / τ + p.selbias := by linarith
  rw [threeGauss_total p _ _ _ _ _ _ _ _ h1 h2 h3 hm hp]
  unfold threeGaussNormalization
  dsimp only
  rw [(threeGauss_denoms τ x y p.selbias).1, (threeGauss_denoms τ x y p.selbias).2]
  have hA : 1 / τ - y * (1 / τ) + p.selbias + (1 / τ + y * (1 / τ) + p.selbias) = 2 * (p.selbias + 1 / τ) := by ring
  have hz : 0 < (x / τ) ^ 2 := by positivity
  rw [show p.selbias + 1 / τ = 1 / τ + p.selbias by ring] at *
  generalize 1 / τ - y * (1 / τ) + p.selbias = a at *
  generalize 1 / τ + y * (1 / τ) + p.selbias = b at *
  generalize 1 / τ + p.selbias = k at *
  generalize (x / τ) ^ 2 = z at *
  have e1 : 1 / 2 * (1 / a) + 1 / 2 * (1 / b) = k / (a * b) := by
    rw [show k = (a + b) / 2 by linarith]; field_simp; ring
  have e2 : 1 / k - z / k ^ 3 < k / (k ^ 2 + z) := by
    rw [show 1 / k - z / k ^ 3 = (k ^ 2 - z) / k ^ 3 by field_simp, div_lt_div_iff₀ (by positivity) (by positivity)]
    nlinarith [sq_nonneg z, mul_pos hz hz]
  simp only [mul_zero, zero_mul, sub_zero, add_zero, mul_one, one_mul]
  linarith

example := C63_violation_norm ⟨4 / 5, 1 / 10, 0, 1, 0, 2, 1 / 100, 3, 0, 0, 1, 0, 1⟩ (41 / 100) (4 / 1000) (6 / 1000) (1 / 20)
  (by norm_num) (by norm_num) (by norm_num) (by norm_num) (by norm_num) (by norm_num [abs_lt])

/-- **C63, violation (sign).**  With the cut series the density becomes negative: for
a large mixing parameter there is a measured time at which the value for an event
with `A = 1` and `B = 0` is negative. -/
theorem C63_violation_negative :
    ∃ (p : ThreeGaussPars) (τ T x y σ : ℝ), 0 < τ ∧ 0 < σ ∧
      threeGaussResolution p (1 + 0) (1 - 0) 0 0 τ T x y σ < 0 := by
  by_contra hcon
  push Not at hcon
  have hv := threeGauss_total ⟨1, 0, 0, 1, 0, 1, 0, 1, 0, 0, 1, 0, 1⟩ (1 + 0) (1 - 0) 0 0 1 2 0 1 (by norm_num) (by norm_num)
    (by norm_num) (by norm_num) (by norm_num)
  have hn : 0 ≤ ∫ T, threeGaussResolution ⟨1, 0, 0, 1, 0, 1, 0, 1, 0, 0, 1, 0, 1⟩ (1 + 0) (1 - 0) 0 0 1 T 2 0 1 :=
    integral_nonneg fun T => hcon _ _ _ _ _ _ one_pos one_pos
  rw [hv] at hn
  norm_num at hn

end GooFit
