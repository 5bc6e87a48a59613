import Verif.Model.ExtRes
import Verif.Spec.Acceptance
import Verif.Props.GaussRes

/-!
# Damped functions folded with a normal distribution, from a given time on
-/

set_option autoImplicit false

namespace GooFit

open MeasureTheory Set Spec

/-- `smear`, with the true time starting at `a`. -/
noncomputable def smearFrom (a : ℝ) (f r : ℝ → ℝ) (T : ℝ) : ℝ := ∫ t in Ioi a, f t * r (T - t)

theorem smearFrom_zero (f r : ℝ → ℝ) (T : ℝ) : smearFrom 0 f r T = smear f r T := rfl

theorem shift_Ioi_from (g : ℝ → ℝ) (a u : ℝ) : ∫ x in Ioi a, g (x + u) = ∫ v in Ioi (a + u), g v := by
  rw [← integral_indicator measurableSet_Ioi, ← integral_indicator measurableSet_Ioi,
    ← integral_add_right_eq_self (fun v => (Ioi (a + u)).indicator g v) u]
  congr 1
  funext x
  by_cases hx : a < x
  · rw [indicator_of_mem (show x ∈ Ioi a from hx), indicator_of_mem (show x + u ∈ Ioi (a + u) by simpa using hx)]
  · rw [indicator_of_notMem (show x ∉ Ioi a from hx),
      indicator_of_notMem (show x + u ∉ Ioi (a + u) by simpa using hx)]

theorem subst_Ioi_from (g : ℝ → ℝ) (a u : ℝ) {b : ℝ} (hb : 0 < b) :
    ∫ t in Ioi a, g (t / b + u) = b * ∫ v in Ioi (a / b + u), g v := by
  have h := integral_comp_mul_left_Ioi (fun x => g (x + u)) a (inv_pos.2 hb)
  rw [inv_inv, smul_eq_mul, shift_Ioi_from, inv_mul_eq_div] at h
  rw [← h]
  congr 1
  funext t
  rw [div_eq_inv_mul]

/-- A damped function of the true time folded with a normal distribution. -/
theorem fold_eq_from {σ : ℝ} (hσ : 0 < σ) (a T k : ℝ) (g : ℝ → ℝ) :
    smearFrom a (fun t => Real.exp (-k * t) * g t) (normalDensity σ) T
      = 1 / (σ * √(2 * Real.pi)) * Real.exp (-(T ^ 2 / (2 * σ ^ 2)) + ulow σ T k ^ 2) * (σ * √2)
        * ∫ v in Ioi (a / (σ * √2) + ulow σ T k), g (σ * √2 * (v - ulow σ T k)) * Real.exp (-v ^ 2) := by
  have hb : 0 < σ * √2 := by positivity
  have h := subst_Ioi_from (fun v => g (σ * √2 * (v - ulow σ T k)) * Real.exp (-v ^ 2)) a (ulow σ T k) hb
  rw [mul_assoc _ (σ * √2), ← h, ← integral_const_mul]
  unfold smearFrom
  congr 1
  funext t
  have e : σ * √2 * (t / (σ * √2) + ulow σ T k - ulow σ T k) = t := by
    rw [add_sub_cancel_right]; field_simp
  rw [e]
  calc _ = g t * (Real.exp (-k * t) * normalDensity σ (T - t)) := by ring
    _ = _ := by rw [fold_point hσ]; ring

theorem fold_exp_from {σ : ℝ} (hσ : 0 < σ) (a T k : ℝ) :
    smearFrom a (fun t => Real.exp (-k * t)) (normalDensity σ) T
      = 1 / (σ * √(2 * Real.pi)) * ((σ * √2) * Real.exp (-(T ^ 2 / (2 * σ ^ 2)) + ulow σ T k ^ 2)
        * gm 0 (a / (σ * √2) + ulow σ T k)) := by
  have h := fold_eq_from hσ a T k (fun _ => 1)
  simp only [mul_one, one_mul] at h
  rw [h]
  simp only [gm, pow_zero, one_mul]
  ring

theorem smearFrom_add {σ a : ℝ} (f g : ℝ → ℝ) (T : ℝ)
    (hf : IntegrableOn (fun t => f t * normalDensity σ (T - t)) (Ioi a))
    (hg : IntegrableOn (fun t => g t * normalDensity σ (T - t)) (Ioi a)) (c d : ℝ) :
    smearFrom a (fun t => c * f t + d * g t) (normalDensity σ) T
      = c * smearFrom a f (normalDensity σ) T + d * smearFrom a g (normalDensity σ) T := by
  unfold smearFrom
  rw [← integral_const_mul, ← integral_const_mul, ← integral_add (hf.const_mul c) (hg.const_mul d)]
  congr 1
  funext t
  ring

/-- The four folded functions, from time `a` on. -/
noncomputable def foldFrom (a τ T x y σ s : ℝ) : ℝ × ℝ × ℝ × ℝ :=
  (smearFrom a (fun t => Real.exp (-(1 / τ + s) * t) * Real.cosh (y * (t / τ))) (normalDensity σ) T,
   smearFrom a (fun t => Real.exp (-(1 / τ + s) * t) * (1 - (x * (t / τ)) ^ 2 / 2)) (normalDensity σ) T,
   smearFrom a (fun t => Real.exp (-(1 / τ + s) * t) * Real.sinh (y * (t / τ))) (normalDensity σ) T,
   smearFrom a (fun t => Real.exp (-(1 / τ + s) * t) * (x * (t / τ) - (x * (t / τ)) ^ 3 / 6))
    (normalDensity σ) T)

/-- The prefactor of a folded exponential. -/
noncomputable def foldPre (σ T k : ℝ) : ℝ :=
  1 / (σ * √(2 * Real.pi)) * Real.exp (-(T ^ 2 / (2 * σ ^ 2)) + ulow σ T k ^ 2) * (σ * √2)

/-- The four folded functions in terms of the moments of the upper tail. -/
theorem foldFrom_eq {a τ T x y σ s : ℝ} (hσ : 0 < σ) (ha : 0 ≤ a) :
    foldFrom a τ T x y σ s =
      (let km := 1 / τ - y * (1 / τ) + s
       let kp := 1 / τ + y * (1 / τ) + s
       let k := 1 / τ + s
       let u := ulow σ T k
       let w := a / (σ * √2) + u
       let R := x * (1 / τ) * (σ * √2)
       (1 / 2 * (foldPre σ T km * gm 0 (a / (σ * √2) + ulow σ T km)
          + foldPre σ T kp * gm 0 (a / (σ * √2) + ulow σ T kp)),
        foldPre σ T k * (gm 0 w - 1 / 2 * (R * R * (gm 2 w - u * gm 1 w * 2 + u * u * gm 0 w))),
        1 / 2 * (foldPre σ T km * gm 0 (a / (σ * √2) + ulow σ T km)
          - foldPre σ T kp * gm 0 (a / (σ * √2) + ulow σ T kp)),
        foldPre σ T k * (R * (gm 1 w - u * gm 0 w)
          - 1 / 6 * (R * R * R * (gm 3 w - u * gm 2 w * 3 + u * u * gm 1 w * 3 - u * (u * u) * gm 0 w))))) := by
  have hI : ∀ k, IntegrableOn (fun t => Real.exp (-k * t) * normalDensity σ (T - t)) (Ioi a) :=
    fun k => (fold_int hσ T k).mono_set (Ioi_subset_Ioi ha)
  have f1 : (fun t => Real.exp (-(1 / τ + s) * t) * Real.cosh (y * (t / τ)))
      = fun t => 1 / 2 * Real.exp (-(1 / τ - y * (1 / τ) + s) * t)
        + 1 / 2 * Real.exp (-(1 / τ + y * (1 / τ) + s) * t) := funext fun t => cosh_split τ y s t
  have f3 : (fun t => Real.exp (-(1 / τ + s) * t) * Real.sinh (y * (t / τ)))
      = fun t => 1 / 2 * Real.exp (-(1 / τ - y * (1 / τ) + s) * t)
        + (-1 / 2) * Real.exp (-(1 / τ + y * (1 / τ) + s) * t) := by
    funext t; rw [sinh_split]; ring
  have g2 : ∀ u w, (∫ v in Ioi w, (1 - (x * (σ * √2 * (v - u) / τ)) ^ 2 / 2) * Real.exp (-v ^ 2))
      = gm 0 w - 1 / 2 * ((x * (1 / τ) * (σ * √2)) * (x * (1 / τ) * (σ * √2))
        * (gm 2 w - u * gm 1 w * 2 + u * u * gm 0 w)) := by
    intro u w
    have h := poly_tail (1 - (x * (1 / τ) * (σ * √2)) ^ 2 * u ^ 2 / 2) ((x * (1 / τ) * (σ * √2)) ^ 2 * u)
      (-((x * (1 / τ) * (σ * √2)) ^ 2) / 2) 0 w
    calc _ = _ := by
            congr 1
            funext v
            ring
      _ = _ := h
      _ = _ := by ring
  have g4 : ∀ u w, (∫ v in Ioi w, (x * (σ * √2 * (v - u) / τ) - (x * (σ * √2 * (v - u) / τ)) ^ 3 / 6)
        * Real.exp (-v ^ 2))
      = x * (1 / τ) * (σ * √2) * (gm 1 w - u * gm 0 w)
        - 1 / 6 * ((x * (1 / τ) * (σ * √2)) * (x * (1 / τ) * (σ * √2)) * (x * (1 / τ) * (σ * √2))
        * (gm 3 w - u * gm 2 w * 3 + u * u * gm 1 w * 3 - u * (u * u) * gm 0 w)) := by
    intro u w
    generalize hR : x * (1 / τ) * (σ * √2) = R
    have h := poly_tail (-(R * u) + R ^ 3 * u ^ 3 / 6) (R - R ^ 3 * u ^ 2 / 2) (R ^ 3 * u / 2) (-(R ^ 3) / 6) w
    calc _ = _ := by
            congr 1
            funext v
            have : x * (σ * √2 * (v - u) / τ) = R * (v - u) := by rw [← hR]; ring
            rw [this]
            ring
      _ = _ := h
      _ = _ := by ring
  unfold foldFrom
  dsimp only
  rw [f1, f3, smearFrom_add _ _ _ (hI _) (hI _), smearFrom_add _ _ _ (hI _) (hI _), fold_eq_from hσ,
    fold_eq_from hσ, g2, g4, fold_exp_from hσ, fold_exp_from hσ]
  unfold foldPre
  refine Prod.ext ?_ (Prod.ext ?_ (Prod.ext ?_ ?_)) <;> dsimp only <;> ring

theorem ext_u (σ T τ s : ℝ) (hσ : 0 < σ) :
    0.5 * (σ * √2) * (1 / τ + -T * (1 / σ * (1 / σ)) + s) = ulow σ T (1 / τ + s) := by
  rw [← gaussRes_u σ T _ hσ]
  congr 1
  field_simp
  ring

theorem ext_um (σ T τ y s : ℝ) (hσ : 0 < σ) :
    0.5 * (σ * √2) * (1 / τ + -T * (1 / σ * (1 / σ)) - y * (1 / τ) + s) = ulow σ T (1 / τ - y * (1 / τ) + s) := by
  rw [← gaussRes_u σ T _ hσ]
  congr 1
  field_simp
  ring

theorem ext_up (σ T τ y s : ℝ) (hσ : 0 < σ) :
    0.5 * (σ * √2) * (1 / τ + -T * (1 / σ * (1 / σ)) + y * (1 / τ) + s) = ulow σ T (1 / τ + y * (1 / τ) + s) := by
  rw [← gaussRes_u σ T _ hσ]
  congr 1
  field_simp
  ring

theorem ext_C (σ T : ℝ) (hσ : 0 < σ) : 0.5 * T * T * (1 / σ * (1 / σ)) = T ^ 2 / (2 * σ ^ 2) := by
  rw [show (0.5 : ℝ) = 1 / 2 by norm_num]; field_simp

theorem ext_pre (σ T k : ℝ) (hσ : 0 < σ) :
    √(0.5 * (1 / Real.pi)) * (1 / σ) * (σ * √2 * Real.exp (-(T ^ 2 / (2 * σ ^ 2)) + ulow σ T k * ulow σ T k))
      = foldPre σ T k := by
  unfold foldPre
  rw [gaussRes_norm σ hσ, ← pow_two]
  ring

/-- `gaussLow` in terms of moments. -/
theorem gaussLow_eq {τ T x y σ s t0 C : ℝ} (hσ : 0 < σ) (ht : 0 ≤ t0) :
    gaussLow τ T x y σ s t0 C
      = (C * Real.exp (s * t0) * ((foldFrom 0 τ T x y σ s).1 - (foldFrom t0 τ T x y σ s).1),
         C * Real.exp (s * t0) * ((foldFrom 0 τ T x y σ s).2.1 - (foldFrom t0 τ T x y σ s).2.1),
         C * Real.exp (s * t0) * ((foldFrom 0 τ T x y σ s).2.2.1 - (foldFrom t0 τ T x y σ s).2.2.1),
         C * Real.exp (s * t0) * ((foldFrom 0 τ T x y σ s).2.2.2 - (foldFrom t0 τ T x y σ s).2.2.2)) := by
  rw [foldFrom_eq hσ le_rfl, foldFrom_eq hσ ht]
  have e1 : (1. : ℝ) / (σ * √2) * t0 = t0 / (σ * √2) := by norm_num; ring
  unfold gaussLow
  dsimp only
  rw [ext_u σ T τ s hσ, ext_um σ T τ y s hσ, ext_up σ T τ y s hσ, ext_C σ T hσ, e1]
  simp only [zero_div, zero_add, gm_one, gm_two, gm_three]
  simp only [← gm_zero_erfc]
  simp only [← ext_pre σ T _ hσ]
  generalize √(0.5 * (1 / Real.pi)) * (1 / σ) = N
  generalize (1.0 : ℝ) / (2 / √Real.pi) = q
  simp only [add_comm (ulow σ T _) (t0 / (σ * √2))]
  generalize Real.exp (-(T ^ 2 / (2 * σ ^ 2)) + ulow σ T (1 / τ + s) * ulow σ T (1 / τ + s)) = E0
  generalize Real.exp (-(T ^ 2 / (2 * σ ^ 2)) + ulow σ T (1 / τ - y * (1 / τ) + s) * ulow σ T (1 / τ - y * (1 / τ) + s)) = E1
  generalize Real.exp (-(T ^ 2 / (2 * σ ^ 2)) + ulow σ T (1 / τ + y * (1 / τ) + s) * ulow σ T (1 / τ + y * (1 / τ) + s)) = E2
  generalize ulow σ T (1 / τ - y * (1 / τ) + s) = um
  generalize ulow σ T (1 / τ + y * (1 / τ) + s) = up
  generalize ulow σ T (1 / τ + s) = u
  generalize t0 / (σ * √2) = d
  rw [show (0.5 : ℝ) = 1 / 2 by norm_num, show (1.0 / 6.0 : ℝ) = 1 / 6 by norm_num]
  rw [show -(d + u) * (d + u) = -(d + u) ^ 2 by ring, show -(u * u) = -u ^ 2 by ring,
    show -1 * (u * u) = -u ^ 2 by ring]
  refine Prod.ext ?_ (Prod.ext ?_ (Prod.ext ?_ ?_)) <;> dsimp only <;> ring

/-- What `gaussHigh` computes for the second and the fourth number beyond the
folded functions. -/
noncomputable def highExcess (τ T x σ s t0 : ℝ) : ℝ × ℝ :=
  let u := ulow σ T (1 / τ + s)
  let w := t0 / (σ * √2) + u
  let R := x * (1 / τ) * (σ * √2)
  (-1 / 2 * (foldPre σ T (1 / τ + s) * (R * R) * (gm 1 w * (1 - w))),
   -1 / 6 * (foldPre σ T (1 / τ + s) * (R * R * R) * (gm 1 w * (w - w * w) - 3 * u * (gm 1 w * (1 - w)))))

/-- `gaussHigh` in terms of moments. -/
theorem gaussHigh_eq {τ T x y σ s t0 C : ℝ} (hσ : 0 < σ) (ht : 0 ≤ t0) :
    gaussHigh τ T x y σ s t0 C
      = (C * Real.exp (s * t0) * (foldFrom t0 τ T x y σ s).1,
         C * Real.exp (s * t0) * ((foldFrom t0 τ T x y σ s).2.1 + (highExcess τ T x σ s t0).1),
         C * Real.exp (s * t0) * (foldFrom t0 τ T x y σ s).2.2.1,
         C * Real.exp (s * t0) * ((foldFrom t0 τ T x y σ s).2.2.2 + (highExcess τ T x σ s t0).2)) := by
  rw [foldFrom_eq hσ ht]
  have e1 : (1. : ℝ) / (σ * √2) * t0 = t0 / (σ * √2) := by norm_num; ring
  unfold gaussHigh highExcess
  dsimp only
  rw [ext_u σ T τ s hσ, ext_um σ T τ y s hσ, ext_up σ T τ y s hσ, ext_C σ T hσ, e1]
  simp only [gm_one, gm_two, gm_three]
  simp only [← gm_zero_erfc]
  simp only [← ext_pre σ T _ hσ]
  generalize √(0.5 * (1 / Real.pi)) * (1 / σ) = N
  generalize (1.0 : ℝ) / (2 / √Real.pi) = q
  simp only [add_comm (ulow σ T _) (t0 / (σ * √2))]
  generalize Real.exp (-(T ^ 2 / (2 * σ ^ 2)) + ulow σ T (1 / τ + s) * ulow σ T (1 / τ + s)) = E0
  generalize Real.exp (-(T ^ 2 / (2 * σ ^ 2)) + ulow σ T (1 / τ - y * (1 / τ) + s) * ulow σ T (1 / τ - y * (1 / τ) + s)) = E1
  generalize Real.exp (-(T ^ 2 / (2 * σ ^ 2)) + ulow σ T (1 / τ + y * (1 / τ) + s) * ulow σ T (1 / τ + y * (1 / τ) + s)) = E2
  generalize ulow σ T (1 / τ - y * (1 / τ) + s) = um
  generalize ulow σ T (1 / τ + y * (1 / τ) + s) = up
  generalize ulow σ T (1 / τ + s) = u
  generalize t0 / (σ * √2) = d
  rw [show (0.5 : ℝ) = 1 / 2 by norm_num, show (1.0 / 6.0 : ℝ) = 1 / 6 by norm_num]
  rw [show -1 * (d + u) * (d + u) = -(d + u) ^ 2 by ring]
  refine Prod.ext ?_ (Prod.ext ?_ (Prod.ext ?_ ?_)) <;> dsimp only <;> ring

/-! ## The rate with an efficiency of two slopes -/

theorem truncRate_damp (c1 c2 c3 c4 τ x y s t : ℝ) :
    truncRate c1 c2 c3 c4 τ x y s t = Real.exp (-s * t) * truncRate c1 c2 c3 c4 τ x y 0 t := by
  unfold truncRate
  have e : Real.exp (-(1 / τ + s) * t) = Real.exp (-s * t) * Real.exp (-(1 / τ + 0) * t) := by
    rw [← Real.exp_add]; congr 1; ring
  rw [e]
  ring

theorem twoSlopes_low {C t0 sL sH t : ℝ} (ht : t ≤ t0) :
    twoSlopes C t0 sL sH t = C * Real.exp (sL * t0) * Real.exp (-sL * t) := by
  unfold twoSlopes
  rw [mul_assoc, ← Real.exp_add]
  rcases lt_or_eq_of_le ht with h | h
  · rw [if_pos h]; congr 2; ring
  · subst h
    rw [if_neg (lt_irrefl _)]
    congr 2; ring

theorem twoSlopes_high {C t0 sL sH t : ℝ} (ht : t0 < t) :
    twoSlopes C t0 sL sH t = C * Real.exp (sH * t0) * Real.exp (-sH * t) := by
  unfold twoSlopes
  rw [mul_assoc, ← Real.exp_add, if_neg (not_lt.2 ht.le)]
  congr 2; ring

/-- Splitting an integral against an efficiency of two slopes. -/
theorem twoSlopes_split {C t0 sL sH : ℝ} (ht : 0 ≤ t0) (f : ℝ → ℝ)
    (hL : IntegrableOn (fun t => Real.exp (-sL * t) * f t) (Ioc 0 t0))
    (hH : IntegrableOn (fun t => Real.exp (-sH * t) * f t) (Ioi t0)) :
    IntegrableOn (fun t => twoSlopes C t0 sL sH t * f t) (Ioi 0)
    ∧ ∫ t in Ioi 0, twoSlopes C t0 sL sH t * f t
      = C * Real.exp (sL * t0) * (∫ t in Ioc 0 t0, Real.exp (-sL * t) * f t)
        + C * Real.exp (sH * t0) * (∫ t in Ioi t0, Real.exp (-sH * t) * f t) := by
  have hL' : IntegrableOn (fun t => twoSlopes C t0 sL sH t * f t) (Ioc 0 t0) := by
    refine (hL.const_mul (C * Real.exp (sL * t0))).congr ?_
    refine (ae_restrict_iff' measurableSet_Ioc).2 (Filter.Eventually.of_forall fun t h => ?_)
    dsimp only
    rw [twoSlopes_low h.2]; ring
  have hH' : IntegrableOn (fun t => twoSlopes C t0 sL sH t * f t) (Ioi t0) := by
    refine (hH.const_mul (C * Real.exp (sH * t0))).congr ?_
    refine (ae_restrict_iff' measurableSet_Ioi).2 (Filter.Eventually.of_forall fun t h => ?_)
    dsimp only
    rw [twoSlopes_high h]; ring
  constructor
  · rw [← Ioc_union_Ioi_eq_Ioi ht]
    exact hL'.union hH'
  · rw [← Ioc_union_Ioi_eq_Ioi ht, setIntegral_union (Ioc_disjoint_Ioi le_rfl) measurableSet_Ioi hL' hH',
      ← integral_const_mul, ← integral_const_mul]
    congr 1
    · refine setIntegral_congr_fun measurableSet_Ioc fun t h => ?_
      rw [twoSlopes_low h.2]; ring
    · refine setIntegral_congr_fun measurableSet_Ioi fun t h => ?_
      rw [twoSlopes_high h]; ring

theorem integral_Ioc_eq_sub {t0 : ℝ} (ht : 0 ≤ t0) (f : ℝ → ℝ) (hf : IntegrableOn f (Ioi 0)) :
    ∫ t in Ioc 0 t0, f t = (∫ t in Ioi 0, f t) - ∫ t in Ioi t0, f t := by
  rw [← Ioc_union_Ioi_eq_Ioi ht, setIntegral_union (Ioc_disjoint_Ioi le_rfl) measurableSet_Ioi
    (hf.mono_set Ioc_subset_Ioi_self) (hf.mono_set (Ioi_subset_Ioi ht))]
  ring

/-- The cut rate, folded from time `a` on. -/
theorem foldFrom_sum {σ a : ℝ} (hσ : 0 < σ) (ha : 0 ≤ a) (c1 c2 c3 c4 T τ x y s : ℝ) :
    smearFrom a (truncRate c1 c2 c3 c4 τ x y s) (normalDensity σ) T
      = c1 * (foldFrom a τ T x y σ s).1 + c2 * (foldFrom a τ T x y σ s).2.1
        - 2 * c3 * (foldFrom a τ T x y σ s).2.2.1 - 2 * c4 * (foldFrom a τ T x y σ s).2.2.2 := by
  obtain ⟨h1, h2, h3, h4⟩ := trunc_fold_int hσ T τ x y s
  have g1 := (h1.mono_set (Ioi_subset_Ioi ha)).const_mul c1
  have g2 := (h2.mono_set (Ioi_subset_Ioi ha)).const_mul c2
  have g3 := (h3.mono_set (Ioi_subset_Ioi ha)).const_mul (-2 * c3)
  have g4 := (h4.mono_set (Ioi_subset_Ioi ha)).const_mul (-2 * c4)
  unfold foldFrom smearFrom
  dsimp only
  have e12 := integral_add g1 g2
  have e123 := integral_add (g1.add g2) g3
  have e1234 := integral_add ((g1.add g2).add g3) g4
  simp only [Pi.add_apply, integral_const_mul] at e12 e123 e1234
  have : ∀ t, truncRate c1 c2 c3 c4 τ x y s t * normalDensity σ (T - t)
      = c1 * (Real.exp (-(1 / τ + s) * t) * Real.cosh (y * (t / τ)) * normalDensity σ (T - t))
      + c2 * (Real.exp (-(1 / τ + s) * t) * (1 - (x * (t / τ)) ^ 2 / 2) * normalDensity σ (T - t))
      + -2 * c3 * (Real.exp (-(1 / τ + s) * t) * Real.sinh (y * (t / τ)) * normalDensity σ (T - t))
      + -2 * c4 * (Real.exp (-(1 / τ + s) * t) * (x * (t / τ) - (x * (t / τ)) ^ 3 / 6)
        * normalDensity σ (T - t)) := by
    intro t; unfold truncRate; ring
  simp only [this]
  rw [e1234, e123, e12]
  ring

/-- What one Gaussian of the resolution computes. -/
theorem ext_one {σ t0 : ℝ} (hσ : 0 < σ) (ht : 0 ≤ t0) (C sL sH c1 c2 c3 c4 T τ x y : ℝ) :
    IntegrableOn (fun t => twoSlopes C t0 sL sH t * truncRate c1 c2 c3 c4 τ x y 0 t * normalDensity σ (T - t))
      (Ioi 0)
    ∧ (let l := gaussLow τ T x y σ sL t0 C
       let h := gaussHigh τ T x y σ sH t0 C
       c1 * (l.1 + h.1) + c2 * (l.2.1 + h.2.1) - 2 * c3 * (l.2.2.1 + h.2.2.1) - 2 * c4 * (l.2.2.2 + h.2.2.2))
      = smear (fun t => twoSlopes C t0 sL sH t * truncRate c1 c2 c3 c4 τ x y 0 t) (normalDensity σ) T
        + C * Real.exp (sH * t0) * (c2 * (highExcess τ T x σ sH t0).1 - 2 * c4 * (highExcess τ T x σ sH t0).2) := by
  have hd : ∀ s t, Real.exp (-s * t) * (truncRate c1 c2 c3 c4 τ x y 0 t * normalDensity σ (T - t))
      = truncRate c1 c2 c3 c4 τ x y s t * normalDensity σ (T - t) := by
    intro s t; rw [truncRate_damp c1 c2 c3 c4 τ x y s]; ring
  have hI := fun s => (trunc_fold hσ c1 c2 c3 c4 T τ x y s).1
  obtain ⟨h1, h2⟩ := twoSlopes_split (C := C) (t0 := t0) (sL := sL) (sH := sH) ht
    (fun t => truncRate c1 c2 c3 c4 τ x y 0 t * normalDensity σ (T - t))
    (by simp only [hd]; exact (hI sL).mono_set Ioc_subset_Ioi_self)
    (by simp only [hd]; exact (hI sH).mono_set (Ioi_subset_Ioi ht))
  refine ⟨h1.congr (Filter.Eventually.of_forall fun t => by dsimp only; ring), ?_⟩
  have e : smear (fun t => twoSlopes C t0 sL sH t * truncRate c1 c2 c3 c4 τ x y 0 t) (normalDensity σ) T
      = ∫ t in Ioi 0, twoSlopes C t0 sL sH t * (truncRate c1 c2 c3 c4 τ x y 0 t * normalDensity σ (T - t)) := by
    unfold smear
    simp only [mul_assoc]
  rw [e, h2]
  simp only [hd]
  rw [integral_Ioc_eq_sub ht _ (hI sL)]
  have f0 := foldFrom_sum hσ le_rfl c1 c2 c3 c4 T τ x y sL
  have fL := foldFrom_sum hσ ht c1 c2 c3 c4 T τ x y sL
  have fH := foldFrom_sum hσ ht c1 c2 c3 c4 T τ x y sH
  unfold smearFrom at f0 fL fH
  rw [f0, fL, fH, gaussLow_eq hσ ht, gaussHigh_eq hσ ht]
  dsimp only
  ring

/-! ## Integrals of the rate -/

/-- An antiderivative of the damped rate. -/
noncomputable def antiRate (c1 c2 c3 c4 τ x y s t : ℝ) : ℝ :=
  -((c1 / 2 - c3) * (Real.exp (-(1 / τ - y * (1 / τ) + s) * t) / (1 / τ - y * (1 / τ) + s)))
    - (c1 / 2 + c3) * (Real.exp (-(1 / τ + y * (1 / τ) + s) * t) / (1 / τ + y * (1 / τ) + s))
    + Real.exp (-(1 / τ + s) * t)
      * (c2 * (-(1 / τ + s) * Real.cos (x * (1 / τ) * t) + x * (1 / τ) * Real.sin (x * (1 / τ) * t))
        - 2 * c4 * (-(1 / τ + s) * Real.sin (x * (1 / τ) * t) - x * (1 / τ) * Real.cos (x * (1 / τ) * t)))
      / ((1 / τ + s) ^ 2 + (x * (1 / τ)) ^ 2)

theorem truth_damped (c1 c2 c3 c4 τ x y s t : ℝ) :
    Real.exp (-s * t) * truthResolution c1 c2 c3 c4 τ t x y
      = (c1 / 2 - c3) * Real.exp (-(1 / τ - y * (1 / τ) + s) * t)
        + (c1 / 2 + c3) * Real.exp (-(1 / τ + y * (1 / τ) + s) * t)
        + Real.exp (-(1 / τ + s) * t)
          * (c2 * Real.cos (x * (1 / τ) * t) - 2 * c4 * Real.sin (x * (1 / τ) * t)) := by
  unfold truthResolution
  dsimp only
  have h1 := cosh_split τ y s t
  have h2 := sinh_split τ y s t
  have e : Real.exp (-(1 / τ + s) * t) = Real.exp (-s * t) * Real.exp (-(t / τ)) := by
    rw [← Real.exp_add]; congr 1; ring
  rw [show x * (1 / τ) * t = x * (t / τ) by ring]
  rw [e] at h1 h2 ⊢
  linear_combination c1 * h1 - 2 * c3 * h2

theorem antiRate_deriv (c1 c2 c3 c4 τ x y s t : ℝ) (hm : 1 / τ - y * (1 / τ) + s ≠ 0)
    (hp : 1 / τ + y * (1 / τ) + s ≠ 0) (hk : (1 / τ + s) ^ 2 + (x * (1 / τ)) ^ 2 ≠ 0) :
    HasDerivAt (antiRate c1 c2 c3 c4 τ x y s)
      (Real.exp (-s * t) * truthResolution c1 c2 c3 c4 τ t x y) t := by
  rw [truth_damped]
  unfold antiRate
  generalize 1 / τ - y * (1 / τ) + s = m at *
  generalize 1 / τ + y * (1 / τ) + s = p at *
  generalize 1 / τ + s = k at *
  generalize x * (1 / τ) = w at *
  have de : ∀ q : ℝ, HasDerivAt (fun t : ℝ => Real.exp (-q * t)) (Real.exp (-q * t) * (-q)) t := by
    intro q
    have := ((hasDerivAt_id t).const_mul (-q)).exp
    simpa using this
  have dc : HasDerivAt (fun t : ℝ => Real.cos (w * t)) (-Real.sin (w * t) * w) t := by
    have := ((hasDerivAt_id t).const_mul w).cos
    simpa using this
  have ds : HasDerivAt (fun t : ℝ => Real.sin (w * t)) (Real.cos (w * t) * w) t := by
    have := ((hasDerivAt_id t).const_mul w).sin
    simpa using this
  have h := ((((de m).div_const m).const_mul (c1 / 2 - c3)).neg.sub
    (((de p).div_const p).const_mul (c1 / 2 + c3))).add
    (((de k).mul ((((dc.const_mul (-k)).add (ds.const_mul w)).const_mul c2).sub
      (((ds.const_mul (-k)).sub (dc.const_mul w)).const_mul (2 * c4)))).div_const (k ^ 2 + w ^ 2))
  refine h.congr_deriv ?_
  simp only [Pi.add_apply, Pi.sub_apply]
  field_simp
  ring

theorem truth_int_Ioi (c1 c2 c3 c4 τ x y s a : ℝ) (hm : 0 < 1 / τ - y * (1 / τ) + s)
    (hp : 0 < 1 / τ + y * (1 / τ) + s) :
    IntegrableOn (fun t => Real.exp (-s * t) * truthResolution c1 c2 c3 c4 τ t x y) (Ioi a) := by
  have hk : 0 < 1 / τ + s := by linarith
  simp only [truth_damped]
  refine (((exp_neg_integrableOn_Ioi a hm).const_mul _).add ((exp_neg_integrableOn_Ioi a hp).const_mul _)).add ?_
  refine Integrable.mono' ((exp_neg_integrableOn_Ioi a hk).const_mul (|c2| + 2 * |c4|)) ?_
    (Filter.Eventually.of_forall fun t => ?_)
  · have hc : Continuous (fun t => Real.exp (-(1 / τ + s) * t)
        * (c2 * Real.cos (x * (1 / τ) * t) - 2 * c4 * Real.sin (x * (1 / τ) * t))) := by fun_prop
    exact hc.aestronglyMeasurable
  · rw [norm_mul, Real.norm_of_nonneg (Real.exp_pos _).le, mul_comm, Real.norm_eq_abs]
    refine mul_le_mul_of_nonneg_right ?_ (Real.exp_pos _).le
    refine (abs_sub _ _).trans ?_
    rw [abs_mul, abs_mul, abs_mul, abs_two]
    have h1 := mul_le_mul_of_nonneg_left (Real.abs_cos_le_one (x * (1 / τ) * t)) (abs_nonneg c2)
    have h2 := mul_le_mul_of_nonneg_left (Real.abs_sin_le_one (x * (1 / τ) * t))
      (mul_nonneg (zero_le_two (α := ℝ)) (abs_nonneg c4))
    linarith

theorem antiRate_tendsto (c1 c2 c3 c4 τ x y s : ℝ) (hm : 0 < 1 / τ - y * (1 / τ) + s)
    (hp : 0 < 1 / τ + y * (1 / τ) + s) :
    Filter.Tendsto (antiRate c1 c2 c3 c4 τ x y s) Filter.atTop (nhds 0) := by
  have hk : 0 < 1 / τ + s := by linarith
  unfold antiRate
  generalize 1 / τ - y * (1 / τ) + s = m at *
  generalize 1 / τ + y * (1 / τ) + s = p at *
  generalize 1 / τ + s = k at *
  generalize x * (1 / τ) = w at *
  have te : ∀ q : ℝ, 0 < q → Filter.Tendsto (fun t : ℝ => Real.exp (-q * t)) Filter.atTop (nhds 0) := by
    intro q hq
    refine Real.tendsto_exp_atBot.comp ?_
    exact Filter.tendsto_id.const_mul_atTop_of_neg (by linarith)
  have h1 := (((te m hm).div_const m).const_mul (c1 / 2 - c3)).neg
  have h2 := ((te p hp).div_const p).const_mul (c1 / 2 + c3)
  have h3 : Filter.Tendsto (fun t => Real.exp (-k * t)
      * (c2 * (-k * Real.cos (w * t) + w * Real.sin (w * t)) - 2 * c4 * (-k * Real.sin (w * t) - w * Real.cos (w * t))))
      Filter.atTop (nhds 0) := by
    refine squeeze_zero_norm (a := fun t => Real.exp (-k * t) * (|c2| * (k + |w|) + 2 * |c4| * (k + |w|))) (fun t => ?_) ?_
    · rw [norm_mul, Real.norm_of_nonneg (Real.exp_pos _).le, Real.norm_eq_abs]
      refine mul_le_mul_of_nonneg_left ?_ (Real.exp_pos _).le
      have hc := Real.abs_cos_le_one (w * t)
      have hs := Real.abs_sin_le_one (w * t)
      have b1 : |(-k * Real.cos (w * t) + w * Real.sin (w * t))| ≤ k + |w| := by
        refine (abs_add_le _ _).trans ?_
        rw [abs_mul, abs_mul, abs_neg, abs_of_pos hk]
        have := mul_le_mul_of_nonneg_left hc hk.le
        have := mul_le_mul_of_nonneg_left hs (abs_nonneg w)
        linarith
      have b2 : |(-k * Real.sin (w * t) - w * Real.cos (w * t))| ≤ k + |w| := by
        refine (abs_sub _ _).trans ?_
        rw [abs_mul, abs_mul, abs_neg, abs_of_pos hk]
        have := mul_le_mul_of_nonneg_left hs hk.le
        have := mul_le_mul_of_nonneg_left hc (abs_nonneg w)
        linarith
      refine (abs_sub _ _).trans ?_
      rw [abs_mul, abs_mul, abs_mul, abs_two]
      have := mul_le_mul_of_nonneg_left b1 (abs_nonneg c2)
      have := mul_le_mul_of_nonneg_left b2 (mul_nonneg (zero_le_two (α := ℝ)) (abs_nonneg c4))
      linarith
    · have := (te k hk).mul_const (|c2| * (k + |w|) + 2 * |c4| * (k + |w|))
      rwa [zero_mul] at this
  have h := (h1.sub h2).add (h3.div_const (k ^ 2 + w ^ 2))
  simpa using h

/-- The four integrals of the reported normalisation. -/
theorem lowIntegrals_eq (P c1 c2 c3 c4 τ x y s t0 : ℝ) :
    (let l := lowIntegrals P (1. / τ) s t0 x y
     l.1 * c1 + l.2.1 * c2 - 2 * l.2.2.1 * c3 - 2 * l.2.2.2 * c4)
      = P * (antiRate c1 c2 c3 c4 τ x y s t0 - antiRate c1 c2 c3 c4 τ x y s 0) := by
  unfold lowIntegrals antiRate
  dsimp only
  rw [show (1. : ℝ) = 1 by norm_num, show (0.5 : ℝ) = 1 / 2 by norm_num]
  rw [show y * (1 / τ) - 1 / τ - s = -(1 / τ - y * (1 / τ) + s) by ring,
    show -y * (1 / τ) - 1 / τ - s = -(1 / τ + y * (1 / τ) + s) by ring]
  rw [show t0 * -(1 / τ - y * (1 / τ) + s) = -(1 / τ - y * (1 / τ) + s) * t0 by ring,
    show t0 * -(1 / τ + y * (1 / τ) + s) = -(1 / τ + y * (1 / τ) + s) * t0 by ring]
  rw [show (1 / τ + s) * (1 / τ + s) + x * x * (1 / τ) * (1 / τ) = (1 / τ + s) ^ 2 + (x * (1 / τ)) ^ 2 by ring]
  simp only [mul_zero, Real.exp_zero, Real.cos_zero, Real.sin_zero]
  simp only [one_div_neg_eq_neg_one_div]
  ring

theorem tailIntegrals_eq (P c1 c2 c3 c4 τ x y s t0 : ℝ) :
    (let l := tailIntegrals P (1. / τ) s t0 x y
     l.1 * c1 + l.2.1 * c2 - 2 * l.2.2.1 * c3 - 2 * l.2.2.2 * c4)
      = P * (0 - antiRate c1 c2 c3 c4 τ x y s t0) := by
  unfold tailIntegrals antiRate
  dsimp only
  rw [show (1. : ℝ) = 1 by norm_num, show (0.5 : ℝ) = 1 / 2 by norm_num]
  rw [show y * (1 / τ) - 1 / τ - s = -(1 / τ - y * (1 / τ) + s) by ring,
    show -y * (1 / τ) - 1 / τ - s = -(1 / τ + y * (1 / τ) + s) by ring]
  rw [show t0 * -(1 / τ - y * (1 / τ) + s) = -(1 / τ - y * (1 / τ) + s) * t0 by ring,
    show t0 * -(1 / τ + y * (1 / τ) + s) = -(1 / τ + y * (1 / τ) + s) * t0 by ring]
  rw [show (1 / τ + s) * (1 / τ + s) + x * x * (1 / τ) * (1 / τ) = (1 / τ + s) ^ 2 + (x * (1 / τ)) ^ 2 by ring]
  simp only [one_div_neg_eq_neg_one_div, neg_div_neg_eq, neg_neg]
  ring

end GooFit
