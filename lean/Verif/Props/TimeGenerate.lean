import Verif.Model.TimeGenerate
import Verif.Props.TimeFourBody
import Mathlib.MeasureTheory.Integral.IntervalIntegral.IntegrationByParts
import Mathlib.MeasureTheory.Measure.Lebesgue.Integral
import Mathlib.MeasureTheory.Integral.IntervalIntegral.FundThmCalculus

/-!
# C69: generated decay times follow the rate
-/

set_option autoImplicit false

namespace GooFit

open Spec MeasureTheory

/-! ### The distribution of accepted times -/

/-- **C69 (exact distribution).**  Let the density at a kinematic point be any continuous non-negative function `f` of the
decay time, and the envelope `M exp (-γ t)`.  Two independent uniform numbers make an event with a time of at most `a`
that is accepted with the probability `γ / M` times the integral from 0 to `a` of the smaller of `f` and the envelope. -/
theorem C69_distribution (γ M : ℝ) (hγ : 0 < γ) (hM : 0 < M) (f : ℝ → ℝ) (hf : Continuous f) (h0 : ∀ t, 0 ≤ f t) (a : ℝ)
    (ha : 0 ≤ a) :
    volume {u : ℝ × ℝ | (0 < u.1 ∧ u.1 < 1) ∧ (0 < u.2 ∧ u.2 < 1) ∧ genTime γ u.1 ≤ a
        ∧ genAccept γ M (genTime γ u.1) (f (genTime γ u.1)) u.2 = true}
      = ENNReal.ofReal (γ / M * ∫ t in (0 : ℝ)..a, min (f t) (M * Real.exp (-(γ * t)))) := by
  set b := Real.exp (-(γ * a)) with hb
  have hb0 : 0 < b := Real.exp_pos _
  have hb1 : b ≤ 1 := by rw [hb]; exact Real.exp_le_one_iff.2 (by have := mul_nonneg hγ.le ha; linarith)
  set g : ℝ → ℝ := fun u => min 1 (f (genTime γ u) / (u * M)) with hg
  have hgc : ContinuousOn g (Set.Icc b 1) := by
    rw [hg]
    refine continuousOn_const.inf (ContinuousOn.div ?_ (by fun_prop) ?_)
    · refine hf.comp_continuousOn ?_
      unfold genTime
      refine ContinuousOn.div_const (ContinuousOn.neg (Real.continuousOn_log.mono ?_)) _
      intro u hu h
      rw [Set.mem_singleton_iff] at h
      have := hu.1; linarith
    · intro u hu
      have : 0 < u := lt_of_lt_of_le hb0 hu.1
      positivity
  have hg0 : ∀ u ∈ Set.Icc b 1, 0 ≤ g u := by
    intro u hu
    have : 0 < u := lt_of_lt_of_le hb0 hu.1
    exact le_min zero_le_one (div_nonneg (h0 _) (by positivity))
  have hset : {u : ℝ × ℝ | (0 < u.1 ∧ u.1 < 1) ∧ (0 < u.2 ∧ u.2 < 1) ∧ genTime γ u.1 ≤ a
        ∧ genAccept γ M (genTime γ u.1) (f (genTime γ u.1)) u.2 = true}
      = regionBetween (fun _ => 0) g (Set.Ico b 1) := by
    ext u
    obtain ⟨u, v⟩ := u
    simp only [regionBetween, Set.mem_setOf_eq, Set.mem_Ico, Set.mem_Ioo, hg, genAccept, decide_eq_true_eq, lt_min_iff]
    have hexp : 0 < u → Real.exp (-genTime γ u * γ) = u := by
      intro hu
      unfold genTime
      rw [show -(-Real.log u / γ) * γ = Real.log u by field_simp]
      exact Real.exp_log hu
    have htime : 0 < u → (genTime γ u ≤ a ↔ b ≤ u) := by
      intro hu
      unfold genTime
      rw [div_le_iff₀ hγ, hb, ← Real.le_log_iff_exp_le hu]
      constructor <;> intro h <;> nlinarith
    constructor
    · rintro ⟨⟨hu, hu1⟩, ⟨hv, hv1⟩, ht, hacc⟩
      rw [hexp hu] at hacc
      refine ⟨⟨(htime hu).1 ht, hu1⟩, hv, hv1, ?_⟩
      rw [lt_div_iff₀ (by positivity)]
      linarith
    · rintro ⟨⟨hu, hu1⟩, hv, hv1, hacc⟩
      have hu0 : 0 < u := lt_of_lt_of_le hb0 hu
      rw [lt_div_iff₀ (by positivity)] at hacc
      refine ⟨⟨hu0, hu1⟩, ⟨hv, hv1⟩, (htime hu0).2 hu, ?_⟩
      rw [hexp hu0]
      linarith
  rw [hset]
  have hint : IntegrableOn g (Set.Ico b 1) := (hgc.integrableOn_Icc).mono_set Set.Ico_subset_Icc_self
  rw [Measure.volume_eq_prod, volume_regionBetween_eq_integral (integrableOn_zero) hint measurableSet_Ico
    fun u hu => hg0 u (Set.Ico_subset_Icc_self hu)]
  congr 1
  have h1 : (∫ y in Set.Ico b 1, (g - (fun _ => 0 : ℝ → ℝ)) y) = ∫ u in b..1, g u := by
    rw [intervalIntegral.integral_of_le hb1, integral_Ico_eq_integral_Ioo, integral_Ioc_eq_integral_Ioo]
    simp
  rw [h1]
  have hsub := intervalIntegral.integral_comp_mul_deriv' (a := 0) (b := a) (f := fun t => Real.exp (-(γ * t)))
    (f' := fun t => -(γ * Real.exp (-(γ * t)))) (g := g) (by
      intro t _
      have h := ((hasDerivAt_id t).const_mul γ).neg.exp
      refine h.congr_deriv ?_
      show Real.exp (-(γ * t)) * -(γ * 1) = _
      ring) (by fun_prop) (by
      refine hgc.mono ?_
      rintro _ ⟨t, ht, rfl⟩
      rw [Set.uIcc_of_le ha] at ht
      have h1 := mul_nonneg hγ.le ht.1
      have h2 := mul_le_mul_of_nonneg_left ht.2 hγ.le
      exact ⟨Real.exp_le_exp.2 (by linarith), Real.exp_le_one_iff.2 (by linarith)⟩)
  rw [intervalIntegral.integral_symm]
  simp only [mul_zero, neg_zero, Real.exp_zero] at hsub
  rw [← hb] at hsub
  rw [← hsub, ← intervalIntegral.integral_neg, ← intervalIntegral.integral_const_mul]
  refine intervalIntegral.integral_congr fun t _ => ?_
  simp only [Function.comp, hg]
  have ht : genTime γ (Real.exp (-(γ * t))) = t := by
    unfold genTime
    rw [Real.log_exp]
    field_simp
  rw [ht]
  have he := Real.exp_pos (-(γ * t))
  rw [min_comm (f t), ← mul_neg, neg_neg]
  rcases le_total 1 (f t / (Real.exp (-(γ * t)) * M)) with h | h
  · rw [min_eq_left h, min_eq_left (by rw [le_div_iff₀ (by positivity)] at h; linarith)]
    field_simp
  · rw [min_eq_right h, min_eq_right (by rw [div_le_iff₀ (by positivity)] at h; linarith)]
    field_simp

/-- **C69 (density).**  If the envelope is nowhere below the density, the accepted times are distributed as the density,
with the same factor `γ / M` at every kinematic point. -/
theorem C69_density_partial (γ M : ℝ) (hγ : 0 < γ) (hM : 0 < M) (f : ℝ → ℝ) (hf : Continuous f) (h0 : ∀ t, 0 ≤ f t)
    (henv : ∀ t, 0 ≤ t → f t ≤ M * Real.exp (-(γ * t))) (a : ℝ) (ha : 0 ≤ a) :
    volume {u : ℝ × ℝ | (0 < u.1 ∧ u.1 < 1) ∧ (0 < u.2 ∧ u.2 < 1) ∧ genTime γ u.1 ≤ a
        ∧ genAccept γ M (genTime γ u.1) (f (genTime γ u.1)) u.2 = true}
      = ENNReal.ofReal (γ / M * ∫ t in (0 : ℝ)..a, f t) := by
  rw [C69_distribution γ M hγ hM f hf h0 a ha]
  congr 2
  refine intervalIntegral.integral_congr fun t ht => ?_
  rw [Set.uIcc_of_le ha] at ht
  exact min_eq_left (henv t ht.1)

/-! ### The envelope -/

theorem eigen1_sq (τ x y t : ℝ) : ‖eigen1 τ x y t‖ ^ 2 = Real.exp (-((1 + y) * (t / τ))) := by
  unfold eigen1
  rw [Complex.norm_exp, ← Real.exp_nat_mul]
  congr 1
  have : ((t : ℂ) / (τ : ℂ)) = ((t / τ : ℝ) : ℂ) := by push_cast; rfl
  rw [this, Complex.re_mul_ofReal]
  simp
  ring

theorem eigen2_sq (τ x y t : ℝ) : ‖eigen2 τ x y t‖ ^ 2 = Real.exp (-((1 - y) * (t / τ))) := by
  unfold eigen2
  rw [Complex.norm_exp, ← Real.exp_nat_mul]
  congr 1
  have : ((t : ℂ) / (τ : ℂ)) = ((t / τ : ℝ) : ℂ) := by push_cast; rfl
  rw [this, Complex.re_mul_ofReal]
  simp
  ring

/-- **C69 (envelope).**  The rate is at most `2 (|A|² + |B|²)` times the slowest of the exponentials. -/
theorem C69_envelope (A B : ℂ) (τ x y t : ℝ) (hτ : 0 < τ) (ht : 0 ≤ t) :
    decayRate A B τ x y t ≤ 2 * (‖A‖ ^ 2 + ‖B‖ ^ 2) * Real.exp (-((1 / τ - |y| / τ) * t)) := by
  have hT : 0 ≤ t / τ := div_nonneg ht hτ.le
  have e1 : ‖eigen1 τ x y t‖ ^ 2 ≤ Real.exp (-((1 / τ - |y| / τ) * t)) := by
    rw [eigen1_sq, Real.exp_le_exp]
    have : (1 / τ - |y| / τ) * t = (1 - |y|) * (t / τ) := by ring
    rw [this]
    nlinarith [neg_abs_le y]
  have e2 : ‖eigen2 τ x y t‖ ^ 2 ≤ Real.exp (-((1 / τ - |y| / τ) * t)) := by
    rw [eigen2_sq, Real.exp_le_exp]
    have : (1 / τ - |y| / τ) * t = (1 - |y|) * (t / τ) := by ring
    rw [this]
    nlinarith [le_abs_self y]
  set E := Real.exp (-((1 / τ - |y| / τ) * t))
  set u := eigen1 τ x y t
  set v := eigen2 τ x y t
  have hform : timeAmplitude A B τ x y t = (A + B) / 2 * u + (A - B) / 2 * v := by
    unfold timeAmplitude; ring
  unfold decayRate
  rw [hform]
  have hpar : ‖(A + B) / 2‖ ^ 2 + ‖(A - B) / 2‖ ^ 2 = (‖A‖ ^ 2 + ‖B‖ ^ 2) / 2 := by
    simp only [Complex.sq_norm, Complex.normSq_apply, Complex.div_ofNat_re, Complex.div_ofNat_im, Complex.add_re,
      Complex.add_im, Complex.sub_re, Complex.sub_im]
    ring
  have hn : ‖(A + B) / 2 * u + (A - B) / 2 * v‖ ≤ ‖(A + B) / 2‖ * ‖u‖ + ‖(A - B) / 2‖ * ‖v‖ := by
    refine (norm_add_le _ _).trans ?_
    rw [norm_mul, norm_mul]
  have h3 : ‖(A + B) / 2 * u + (A - B) / 2 * v‖ ^ 2 ≤ (‖(A + B) / 2‖ * ‖u‖ + ‖(A - B) / 2‖ * ‖v‖) ^ 2 :=
    pow_le_pow_left₀ (norm_nonneg _) hn 2
  generalize ‖(A + B) / 2 * u + (A - B) / 2 * v‖ ^ 2 = L at h3
  generalize ‖(A + B) / 2‖ = a at *
  generalize ‖(A - B) / 2‖ = b at *
  generalize ‖u‖ = r at *
  generalize ‖v‖ = s at *
  have h4 : (a * r + b * s) ^ 2 ≤ (a ^ 2 + b ^ 2) * (r ^ 2 + s ^ 2) := by nlinarith [sq_nonneg (a * s - b * r)]
  have h5 : (a ^ 2 + b ^ 2) * (r ^ 2 + s ^ 2) ≤ (a ^ 2 + b ^ 2) * (2 * E) :=
    mul_le_mul_of_nonneg_left (by linarith) (by positivity)
  have h6 := (h3.trans h4).trans h5
  rw [hpar] at h6
  linarith

/-- At time zero the rate is `2 |A|²`. -/
theorem decayRate_zero (A B : ℂ) (τ x y : ℝ) : decayRate A B τ x y 0 = 2 * ‖A‖ ^ 2 := by
  unfold decayRate timeAmplitude eigen1 eigen2
  simp

theorem decayRate_continuous (A B : ℂ) (τ x y : ℝ) : Continuous (decayRate A B τ x y) := by
  unfold decayRate timeAmplitude eigen1 eigen2
  fun_prop

/-- **C69 (violation).**  For `y > 0` the envelope that the largest weight at time zero makes is too low at late times
wherever `|A - B|²` exceeds `4.4 |A|²`, for example for decays that are only possible after mixing. -/
theorem C69_violation_envelope (A B : ℂ) (τ x y : ℝ) (hτ : 0 < τ) (hy : 0 < y) (h : 4.4 * ‖A‖ ^ 2 < ‖A - B‖ ^ 2) :
    ∀ᶠ t in Filter.atTop, 1.1 * decayRate A B τ x y 0 * Real.exp (-((1 / τ - |y| / τ) * t)) < decayRate A B τ x y t := by
  have hs : Filter.Tendsto (fun t : ℝ => ‖(A - B) / 2‖ - ‖(A + B) / 2‖ * Real.exp (-(y * (t / τ)))) Filter.atTop
      (nhds (‖(A - B) / 2‖ - ‖(A + B) / 2‖ * 0)) := by
    refine tendsto_const_nhds.sub (Filter.Tendsto.const_mul _ ?_)
    refine Real.tendsto_exp_neg_atTop_nhds_zero.comp ?_
    exact (Filter.tendsto_id.atTop_div_const hτ).const_mul_atTop hy
  rw [mul_zero, sub_zero] at hs
  have hlt : Real.sqrt (1.1 * ‖A‖ ^ 2) < ‖(A - B) / 2‖ := by
    rw [Real.sqrt_lt' (by
      rw [norm_div, Complex.norm_ofNat]
      have : 0 < ‖A - B‖ ^ 2 := lt_of_le_of_lt (by positivity) h
      have h0 : 0 < ‖A - B‖ := by
        rcases (norm_nonneg (A - B)).lt_or_eq with h0 | h0
        · exact h0
        · rw [← h0] at this; norm_num at this
      positivity), norm_div, Complex.norm_ofNat]
    norm_num at h ⊢
    nlinarith
  filter_upwards [hs.eventually (lt_mem_nhds hlt)] with t ht
  rw [decayRate_zero, abs_of_pos hy]
  have e1 := eigen1_sq τ x y t
  have e2 := eigen2_sq τ x y t
  have hform : timeAmplitude A B τ x y t = (A + B) / 2 * eigen1 τ x y t + (A - B) / 2 * eigen2 τ x y t := by
    unfold timeAmplitude; ring
  unfold decayRate
  rw [hform]
  generalize eigen1 τ x y t = u at *
  generalize eigen2 τ x y t = v at *
  have hu : ‖u‖ = Real.exp (-(y * (t / τ))) * ‖v‖ := by
    have h2 : ‖u‖ ^ 2 = (Real.exp (-(y * (t / τ))) * ‖v‖) ^ 2 := by
      rw [mul_pow, e1, e2, ← Real.exp_nat_mul, ← Real.exp_add]
      congr 1
      push_cast
      ring
    exact (pow_left_inj₀ (norm_nonneg _) (by positivity) two_ne_zero).1 h2
  have hn : (‖(A - B) / 2‖ - ‖(A + B) / 2‖ * Real.exp (-(y * (t / τ)))) * ‖v‖ ≤ ‖(A + B) / 2 * u + (A - B) / 2 * v‖ := by
    have := norm_sub_norm_le ((A - B) / 2 * v) (-((A + B) / 2 * u))
    rw [norm_neg, norm_mul, norm_mul, hu, sub_neg_eq_add, add_comm ((A - B) / 2 * v)] at this
    linarith
  have hv : 0 < ‖v‖ := by
    rcases (norm_nonneg v).lt_or_eq with h0 | h0
    · exact h0
    · rw [← h0] at e2
      have := Real.exp_pos (-((1 - y) * (t / τ)))
      norm_num at e2
      linarith
  have hE : Real.exp (-((1 / τ - y / τ) * t)) = ‖v‖ ^ 2 := by
    rw [e2]; congr 1; ring
  rw [hE]
  have h6 : Real.sqrt (1.1 * ‖A‖ ^ 2) * ‖v‖ < ‖(A + B) / 2 * u + (A - B) / 2 * v‖ :=
    lt_of_lt_of_le (mul_lt_mul_of_pos_right ht hv) hn
  have h7 := pow_lt_pow_left₀ h6 (by positivity) two_ne_zero
  rw [mul_pow, Real.sq_sqrt (by positivity)] at h7
  linarith

example := C69_violation_envelope 1 (-3) 0.41 0.004 0.006 (by norm_num) (by norm_num) (by norm_num)

/-! ### What a call returns -/

theorem maxElement_spec (l : List ℝ) (w : ℝ) (h : maxElement l = some w) : w ∈ l ∧ ∀ v ∈ l, v ≤ w := by
  cases l with
  | nil => cases h
  | cons a l =>
    have hw : w = l.foldl max a := (Option.some.inj h).symm
    subst hw
    clear h
    induction l generalizing a with
    | nil => simp
    | cons b l ih =>
      rw [List.foldl_cons]
      obtain ⟨h1, h2⟩ := ih (max a b)
      refine ⟨?_, ?_⟩
      · rcases List.mem_cons.1 h1 with h | h
        · rw [h]
          rcases max_choice a b with h' | h' <;> rw [h'] <;> simp
        · simp [h]
      · intro v hv
        have h3 := h2 (max a b) List.mem_cons_self
        rcases List.mem_cons.1 hv with rfl | hv
        · exact (le_max_left _ _).trans h3
        · rcases List.mem_cons.1 hv with rfl | hv
          · exact (le_max_right _ _).trans h3
          · exact h2 v (List.mem_cons_of_mem _ hv)

section
variable {A S V T P Ev : Type} [DecidableEq A] [DecidableEq S] [DecidableEq V] [DecidableEq T]

theorem T4.values_fresh (m : T4 A S V T P Ev) (hA : m.ampsA.Nodup) (hB : m.ampsB.Nodup) (p : P) (hres : m.res p = truthRes)
    (s : T4State Ev) (hf : m.FreshAt p s) :
    m.values p s = s.data.map fun ev => m.efficiency p ev * m.rateAt p ev.1 ev.2.1 := by
  unfold T4.values
  refine List.ext_getElem (by simp) fun e h1 h2 => ?_
  have he : e < s.data.length := by simpa using h1
  simp only [List.getElem_map, List.getElem_range]
  have hd := List.getElem?_eq_getElem he
  generalize s.data[e] = ev at hd
  unfold T4.valueAt
  rw [hd]
  simp only [Option.map_some, Option.getD_some]
  rw [m.event_sums p s hf e ev hd, m.coherent_comm, m.sumB_decay hA hB]
  simp only [hres, resolve, truthRes, T4.rateAt, (m.par_first p).1, (m.par_first p).2.1, (m.par_first p).2.2.1]
  rw [C62_rate]
  ring

/-- What `step` leaves behind for generation is fresh, whatever the state was before. -/
theorem T4.generate_fresh (m : T4 A S V T P Ev) (c : A → Bool) (p : P) (s : T4State Ev) (d d' : List (Ev × ℝ × ℝ))
    (hd : d'.map (·.1) = d.map (·.1)) : m.FreshAt p { m.step s (.generate d c p) with data := d' } := by
  have hf : m.FreshAt p (m.normalize c p { T4.setData s d with noNorm := true }).2 :=
    m.normalize_fresh none _ c p (m.force_inv _ _ rfl) (by intro p0 h; cases h)
  have hget : ∀ (e : Nat) (ev : Ev × ℝ × ℝ), d'[e]? = some ev → ∃ ev0, d[e]? = some ev0 ∧ ev0.1 = ev.1 := by
    intro e ev he
    have h := congrArg (fun l => l[e]?) hd
    simp only [List.getElem?_map, he, Option.map_some] at h
    cases h0 : d[e]? with
    | none => rw [h0] at h; cases h
    | some ev0 => rw [h0] at h; exact ⟨ev0, rfl, (Option.some.inj h).symm⟩
  refine ⟨?_, ?_, ?_, fun h => absurd h (by simp [T4.step, T4.normalize]), fun h => absurd h (by simp [T4.step, T4.normalize])⟩
  · intro i x hx e ev he
    obtain ⟨ev0, h0, h1⟩ := hget e ev he
    rw [← h1]
    exact hf.ls i x hx e ev0 h0
  · intro i x hx e ev he
    obtain ⟨ev0, h0, h1⟩ := hget e ev he
    rw [← h1]
    exact hf.sf i x hx e ev0 h0
  · intro i x hx e ev he
    obtain ⟨ev0, h0, h1⟩ := hget e ev he
    rw [← h1]
    exact hf.amp i x hx e ev0 h0

theorem T4.generate_weights (m : T4 A S V T P Ev) (hA : m.ampsA.Nodup) (hB : m.ampsB.Nodup) (c : A → Bool) (p : P)
    (hres : m.res p = truthRes) (s : T4State Ev) (pts : List Ev) :
    m.values p (m.step s (.generate (pts.map fun ev => (ev, 0, 0)) c p)) = pts.map (m.weightAt p) := by
  have hf := m.generate_fresh c p s (pts.map fun ev => (ev, 0, 0)) _ rfl
  have h := m.values_fresh hA hB p hres _ hf
  have h2 : m.values p (m.step s (.generate (pts.map fun ev => (ev, 0, 0)) c p))
      = ((pts.map fun ev => (ev, 0, 0)) : List (Ev × ℝ × ℝ)).map fun ev => m.efficiency p ev * m.rateAt p ev.1 ev.2.1 := h
  rw [h2, List.map_map]
  refine List.map_congr_left fun ev _ => ?_
  simp only [Function.comp, T4.rateAt, decayRate_zero, T4.weightAt]

/-- **C69 (what is returned).**  Whatever happened to the PDF before: a call that succeeds returns for the `i`-th point
that the phase-space generator accepted the decay time `-log u / γ`, with `γ` the slower of the two decay rates and `u` the
number of the user's generator with this index; the weight at time zero; and the flag whether `v` times the envelope
`M exp (-γ t)` is below efficiency times rate at that time, `v` being the number of the second generator.  `M` is at least
`1.1` times every weight.  A value of `M` that had been set before, by a call or by the user, is kept; otherwise `M` is
`1.1` times one of the weights, or zero. -/
theorem C69_generate (m : T4 A S V T P Ev) (hA : m.ampsA.Nodup) (hB : m.ampsB.Nodup) (c : A → Bool) (p : P)
    (hres : m.res p = truthRes) (M0 : ℝ) (s : T4State Ev) (pts : List Ev) (rngT rngA : Nat → ℝ) (offset : Nat)
    (times weights : List ℝ) (flags : List Bool) (M : ℝ) (s' : T4State Ev)
    (h : m.generateSig c p M0 s pts rngT rngA offset = .ok times weights flags M s') :
    let γ := 1 / m.value p m.tau - |m.value p m.y| / m.value p m.tau
    times.length = pts.length ∧ flags.length = pts.length ∧ weights = pts.map (m.weightAt p)
    ∧ (∀ ev ∈ pts, 1.1 * m.weightAt p ev ≤ M)
    ∧ (M0 ≠ 0 → M = M0) ∧ (M0 = 0 → M = 0 ∨ ∃ ev ∈ pts, M = 1.1 * m.weightAt p ev)
    ∧ ∀ (i : Nat) (ev : Ev), pts[i]? = some ev → ∃ t, times[i]? = some t ∧ t = -Real.log (rngT (i + offset)) / γ
        ∧ flags[i]? = some (decide (rngA (offset + i) * (M * Real.exp (-(γ * t)))
            < m.efficiency p (ev, t, 0) * m.rateAt p ev t)) := by
  intro γ
  have hγ : m.gammamin p = γ := by
    unfold T4.gammamin
    rw [(m.par_first p).1, (m.par_first p).2.2.1]
  unfold T4.generateSig at h
  simp only [m.generate_weights hA hB c p hres, hγ] at h
  cases hm : maxElement (pts.map (m.weightAt p)) with
  | none => rw [hm] at h; cases h
  | some w =>
    rw [hm] at h
    simp only at h
    obtain ⟨hmem, hmax⟩ := maxElement_spec _ _ hm
    by_cases ht : M0 < 1.1 * w ∧ M0 ≠ 0
    · rw [if_pos ht] at h; cases h
    · rw [if_neg ht] at h
      injection h with h1 h2 h3 h4 h5
      have hlen : times.length = pts.length := by rw [← h1]; simp
      have hres2 : m.values p { m.step s (.generate (pts.map fun ev => (ev, 0, 0)) c p) with
            data := (pts.zip times).map fun e => (e.1, e.2, 0) }
          = (pts.zip times).map fun e => m.efficiency p (e.1, e.2, 0) * m.rateAt p e.1 e.2 := by
        have hf := m.generate_fresh c p s (pts.map fun ev => (ev, 0, 0)) ((pts.zip times).map fun e => (e.1, e.2, 0)) (by
          rw [List.map_map, List.map_map]
          have : (Prod.fst ∘ fun e : Ev × ℝ => (e.1, e.2, (0 : ℝ))) = Prod.fst := rfl
          rw [this, List.map_fst_zip (by omega)]
          have : (Prod.fst ∘ fun ev : Ev => (ev, (0 : ℝ), (0 : ℝ))) = id := rfl
          rw [this, List.map_id])
        rw [m.values_fresh hA hB p hres _ hf, List.map_map]
        rfl
      rw [h1, hres2] at h3
      have hMw : ∀ ev ∈ pts, 1.1 * m.weightAt p ev ≤ M := by
        intro ev hev
        have h6 := hmax _ (List.mem_map_of_mem hev)
        have h7 : 1.1 * w ≤ M := by
          rw [← h4]
          split
          · exact le_rfl
          · exact not_lt.1 ‹_›
        exact (mul_le_mul_of_nonneg_left h6 (by norm_num)).trans h7
      refine ⟨hlen, ?_, h2.symm, hMw, ?_, ?_, ?_⟩
      · rw [← h3]; simp [hlen]
      · intro h0
        rw [← h4, if_neg fun h => ht ⟨h, h0⟩]
      · intro h0
        rw [← h4, h0]
        split
        · obtain ⟨ev, he, hw⟩ := List.mem_map.1 hmem
          exact Or.inr ⟨ev, he, by rw [hw]⟩
        · exact Or.inl rfl
      · intro i ev hi
        have hil : i < pts.length := (List.getElem?_eq_some_iff.1 hi).1
        refine ⟨genTime γ (rngT (i + offset)), ?_, rfl, ?_⟩
        · rw [← h1, List.getElem?_map, List.getElem?_range hil]; rfl
        · have hti : times[i]? = some (genTime γ (rngT (i + offset))) := by
            rw [← h1, List.getElem?_map, List.getElem?_range hil]; rfl
          have hz : (pts.zip times)[i]? = some (ev, genTime γ (rngT (i + offset))) := by
            rw [List.getElem?_zip_eq_some]; exact ⟨hi, hti⟩
          rw [← h3, List.getElem?_map, List.getElem?_zipIdx]
          have hz2 : (((pts.zip times).map fun e : Ev × ℝ => m.efficiency p (e.1, e.2, 0) * m.rateAt p e.1 e.2).zip times)[i]?
              = some (m.efficiency p (ev, genTime γ (rngT (i + offset)), 0) * m.rateAt p ev (genTime γ (rngT (i + offset))),
                  genTime γ (rngT (i + offset))) := by
            rw [List.getElem?_zip_eq_some]
            exact ⟨by rw [List.getElem?_map, hz]; rfl, hti⟩
          rw [hz2]
          simp only [Option.map_some, Nat.zero_add, Option.some.injEq]
          rw [h4]
          unfold genAccept
          congr 2
          rw [neg_mul, mul_comm (Real.exp _), mul_comm _ γ]

/-- **C69 (errors).**  A call throws exactly if an envelope has been set before and is lower than `1.1` times the weight
of one of the points; it is undefined exactly if there are no points. -/
theorem C69_throws (m : T4 A S V T P Ev) (hA : m.ampsA.Nodup) (hB : m.ampsB.Nodup) (c : A → Bool) (p : P)
    (hres : m.res p = truthRes) (M0 : ℝ) (s : T4State Ev) (pts : List Ev) (rngT rngA : Nat → ℝ) (offset : Nat) :
    (m.generateSig c p M0 s pts rngT rngA offset = .thrown ↔ M0 ≠ 0 ∧ ∃ ev ∈ pts, M0 < 1.1 * m.weightAt p ev)
    ∧ (m.generateSig c p M0 s pts rngT rngA offset = .undefined ↔ pts = []) := by
  unfold T4.generateSig
  simp only [m.generate_weights hA hB c p hres]
  cases hm : maxElement (pts.map (m.weightAt p)) with
  | none =>
    have : pts = [] := by
      cases pts with
      | nil => rfl
      | cons a l => cases hm
    subst this
    simp
  | some w =>
    have hne : pts ≠ [] := by rintro rfl; cases hm
    obtain ⟨hmem, hmax⟩ := maxElement_spec _ _ hm
    obtain ⟨ev0, he0, hw0⟩ := List.mem_map.1 hmem
    simp only
    by_cases ht : M0 < 1.1 * w ∧ M0 ≠ 0
    · rw [if_pos ht]
      refine ⟨⟨fun _ => ⟨ht.2, ev0, he0, by rw [hw0]; exact ht.1⟩, fun _ => rfl⟩, ⟨fun h => absurd h (by simp), fun h => absurd h hne⟩⟩
    · rw [if_neg ht]
      refine ⟨⟨fun h => absurd h (by simp), fun h => ?_⟩, ⟨fun h => absurd h (by simp), fun h => absurd h hne⟩⟩
      obtain ⟨h0, ev, he, hlt⟩ := h
      exact absurd ⟨lt_of_lt_of_le hlt (mul_le_mul_of_nonneg_left (hmax _ (List.mem_map_of_mem he)) (by norm_num)), h0⟩ ht

/-- **C69.**  At every kinematic point whose efficiency does not depend on the time and for which `2 (|A|² + |B|²)` times
the efficiency is at most `M`, the accepted decay times are distributed as efficiency times rate. -/
theorem C69_rate_partial (m : T4 A S V T P Ev) (p : P) (ev : Ev) (ε M : ℝ) (hε : 0 ≤ ε) (hM : 0 < M)
    (hτ : 0 < m.value p m.tau) (hy : |m.value p m.y| < 1)
    (hw : ε * (2 * (‖m.decayA p ev‖ ^ 2 + ‖m.decayB p ev‖ ^ 2)) ≤ M) (a : ℝ) (ha : 0 ≤ a) :
    let γ := 1 / m.value p m.tau - |m.value p m.y| / m.value p m.tau
    volume {u : ℝ × ℝ | (0 < u.1 ∧ u.1 < 1) ∧ (0 < u.2 ∧ u.2 < 1) ∧ genTime γ u.1 ≤ a
        ∧ genAccept γ M (genTime γ u.1) (ε * m.rateAt p ev (genTime γ u.1)) u.2 = true}
      = ENNReal.ofReal (γ / M * ∫ t in (0 : ℝ)..a, ε * m.rateAt p ev t) := by
  intro γ
  have hγ : 0 < γ := by
    have : γ = (1 - |m.value p m.y|) / m.value p m.tau := by ring
    rw [this]
    exact div_pos (by linarith) hτ
  refine C69_density_partial γ M hγ hM (fun t => ε * m.rateAt p ev t) ((decayRate_continuous _ _ _ _ _).const_mul ε)
    (fun t => mul_nonneg hε ?_) (fun t ht => ?_) a ha
  · show 0 ≤ 2 * ‖_‖ ^ 2
    positivity
  · have h1 := C69_envelope (m.decayA p ev) (m.decayB p ev) (m.value p m.tau) (m.value p m.x) (m.value p m.y) t hτ ht
    calc ε * m.rateAt p ev t ≤ ε * (2 * (‖m.decayA p ev‖ ^ 2 + ‖m.decayB p ev‖ ^ 2) * Real.exp (-(γ * t))) :=
          mul_le_mul_of_nonneg_left h1 hε
      _ = ε * (2 * (‖m.decayA p ev‖ ^ 2 + ‖m.decayB p ev‖ ^ 2)) * Real.exp (-(γ * t)) := by ring
      _ ≤ M * Real.exp (-(γ * t)) := mul_le_mul_of_nonneg_right hw (Real.exp_pos _).le

end

example (M0 : ℝ) (s : T4State ℝ) (rngT rngA : Nat → ℝ) :=
  C69_throws (exT4 (fun _ => 1) []) (by decide) (by decide) (fun _ => false) exT4P rfl M0 s [1, 2] rngT rngA 0

/-- A call that succeeds: the envelope has not been set. -/
example (s : T4State ℝ) (rngT rngA : Nat → ℝ) : ∃ times weights flags M s',
    (exT4 (fun _ => 1) []).generateSig (fun _ => false) exT4P 0 s [1, 2] rngT rngA 0 = .ok times weights flags M s' := by
  have h := C69_throws (exT4 (fun _ => 1) []) (by decide) (by decide) (fun _ => false) exT4P rfl 0 s [1, 2] rngT rngA 0
  cases he : (exT4 (fun _ => 1) []).generateSig (fun _ => false) exT4P 0 s [1, 2] rngT rngA 0 with
  | ok a b c d e => exact ⟨a, b, c, d, e, rfl⟩
  | thrown => exact absurd rfl (h.1.1 he).1
  | undefined => exact absurd (h.2.1 he) (by simp)

example (ev a : ℝ) (ha : 0 ≤ a) := C69_rate_partial (exT4 (fun _ => 1) []) exT4P ev 1 _ zero_le_one
  (lt_of_lt_of_le one_pos (le_max_left _ _)) (by norm_num [exT4, exT4_tau]) (by norm_num [exT4, exT4_y, abs_lt])
  (le_max_right 1 _) a ha

end GooFit
