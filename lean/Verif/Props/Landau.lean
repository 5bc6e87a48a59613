import Verif.Spec.Angles
import Verif.Spec.Landau
import Verif.Lemmas.LandauB
import Verif.Lemmas.LandauD
import Mathlib.Analysis.Real.Pi.Bounds
/-!
# The Landau density, its convolution with a Gaussian and its quantiles: C83
-/
set_option autoImplicit false
namespace GooFit
open Spec FpOps Landau Filter Topology

variable (T : HistTables ℝ) (env : Env ℝ) (e : Evt ℝ)

/-! ### The density -/

/-- **C83, one density**: `LandauPdf(x, μ, σ)` evaluates to what the function `landauPDF` of the
Python module returns, for every event and all parameters, and no division by zero happens. -/
theorem C83_agree (x mu s : Nat) (X : ℝ) (h : ObsIs env e x X) :
    ∃ v, landauPDF X (env.val mu) (env.val s) = some v ∧ Evaluates T (.landau x mu s) env e v := by
  have hx : allSome (((registerAll [x]).map env.idx).map (at_ e)) = some [X] := by
    have : at_ e (env.idx x) = some X := h
    simp [registerAll, allSome, this]
  have key : ∀ v, some (if FpMath.le (env.val s) (lit 0) then lit 0
      else landauValue X (env.val mu) (env.val s)) = some v → Evaluates T (.landau x mu s) env e v := by
    intro v hv
    exact evaluates_of T _ env e _ [X] trivial (by simp [BasicCall.leaf]) (by simp [BasicCall.leaf])
      storable_real hx hv
  by_cases hs : 0 < env.val s
  · refine ⟨_, pdf_eq _ _ _ hs, key _ ?_⟩
    simp only [real_le]
    rw [real_lit]
    push_cast
    rw [if_neg (by linarith), device_eq]
  · refine ⟨0, by rw [landauPDF, if_pos (by linarith)], key _ ?_⟩
    simp only [real_le]
    rw [real_lit]
    push_cast
    rw [if_pos (by linarith)]

/-- an event with the observable at 3 -/
example : ∃ v, landauPDF 3 1 2 = some v ∧
    Evaluates (⟨fun _ => none, fun _ => none⟩ : HistTables ℝ) (.landau 0 1 2) ⟨fun i => i, fun _ => 0⟩ (fun _ => some 3) v := by
  obtain ⟨v, h1, h2⟩ := C83_agree (⟨fun _ => none, fun _ => none⟩ : HistTables ℝ) ⟨fun i => i, fun _ => 0⟩ (fun _ => some 3) 0 1 2 3 rfl
  exact ⟨v, by simpa using h1, h2⟩

/-- **C83, sign**: the density is defined everywhere and never negative; for a positive width it is
positive from 24 widths below the location upwards; for any other width it is zero. -/
theorem C83_sign (x m s : ℝ) : ∃ v, landauPDF x m s = some v ∧ 0 ≤ v ∧
    (0 < s → m - 24 * s ≤ x → 0 < v) ∧ (s ≤ 0 → v = 0) := by
  by_cases hs : 0 < s
  · refine ⟨_, pdf_eq _ _ _ hs, ?_, ?_, fun h => absurd hs (by linarith)⟩
    · refine div_nonneg ?_ hs.le
      by_cases h : (x - m) / s < -(55 / 10) ∧ Real.exp ((x - m) / s + 1) < 1 / 10 ^ 10
      · unfold shape; rw [if_pos h.1, if_pos h.2]
      · exact (shape_pos _ h).le
    · intro _ hx
      refine div_pos (shape_pos _ ?_) hs
      rintro ⟨-, h2⟩
      have h3 : -24 ≤ (x - m) / s := by rw [le_div_iff₀ hs]; linarith
      have h4 : Real.exp (-23) ≤ Real.exp ((x - m) / s + 1) := Real.exp_le_exp.2 (by linarith)
      have h5 : 1 / 10 ^ 10 ≤ Real.exp (-23) := by
        have := Real.exp_neg_one_gt_d9
        calc (1 : ℝ) / 10 ^ 10 ≤ 0.36787944116 ^ 23 := by norm_num
          _ ≤ Real.exp (-1) ^ 23 := pow_le_pow_left₀ (by norm_num) this.le 23
          _ = Real.exp (-23) := by rw [← Real.exp_nat_mul]; norm_num
      linarith
  · exact ⟨0, by rw [landauPDF, if_pos (by linarith)], le_refl _, fun h => absurd h hs, fun _ => rfl⟩

example : ∃ v, landauPDF (-20) 4 1 = some v ∧ 0 < v := by
  obtain ⟨v, h, -, h2, -⟩ := C83_sign (-20) 4 1
  exact ⟨v, h, h2 (by norm_num) (by norm_num)⟩

/-- **C83, location and width**: moving and stretching the argument moves and stretches the
density. -/
theorem C83_scale (x m s : ℝ) (hs : 0 < s) :
    landauPDF x m s = (landauPDF ((x - m) / s) 0 1).map (· / s) := by
  rw [pdf_eq _ _ _ hs, pdf_eq _ _ _ one_pos]
  simp

example : landauPDF 7 1 2 = (landauPDF 3 0 1).map (· / 2) := by
  have := C83_scale 7 1 2 (by norm_num)
  norm_num at this ⊢
  exact this

/-- **C83, no visible seams**: the density is put together from eight formulas; wherever two of
them meet (and at every other point) it changes by at most `3·10⁻¹⁰ / σ` in a neighbourhood. -/
theorem C83_seams (x m s : ℝ) (hs : 0 < s) :
    ∀ᶠ y in 𝓝 x, ∀ v w, landauPDF x m s = some v → landauPDF y m s = some w →
      |w - v| ≤ 3 / 10 ^ 10 / s := by
  have hc : Tendsto (fun y : ℝ => (y - m) / s) (𝓝 x) (𝓝 ((x - m) / s)) := by
    have : Continuous fun y : ℝ => (y - m) / s := by fun_prop
    exact this.tendsto x
  filter_upwards [hc.eventually (shape_near ((x - m) / s))] with y hy v w hv hw
  rw [pdf_eq _ _ _ hs] at hv hw
  cases hv; cases hw
  rw [← sub_div, abs_div, abs_of_pos hs]
  exact div_le_div_of_nonneg_right hy hs.le

/-- a seam: one width above the location -/
example : ∀ᶠ y in 𝓝 (3 : ℝ), ∀ v w, landauPDF 3 1 2 = some v → landauPDF y 1 2 = some w →
    |w - v| ≤ 3 / 10 ^ 10 / 2 := C83_seams 3 1 2 (by norm_num)

/-! ### The convolution with a Gaussian -/

/-- **C83, part.** `landauGaussPDF` is, up to a factor within `10⁻¹²` of one, `1/η` times the
midpoint rule for the convolution of the Landau density with a Gaussian, over eight standard
deviations to either side and with the intended number of points.  The factor `1/η` should not be
there (`C83_violation_langaus_scale`); beyond the bound on the ratio of the widths see
`C83_violation_langaus_steps`.  How close the rule is to the integral is not proved. -/
theorem C83_langaus_partial : ∃ κ : ℝ, |κ - 1| ≤ 1 / 10 ^ 12 ∧ ∀ x μ η σ : ℝ, 0 < η → 0 < σ →
    σ / (3 * η) < 42949672 →
    landauGaussPDF x μ η σ = some (κ / η * midpointRule
      (fun t => (landauPDF t μ η).getD 0 * smearingDensity σ (x - t))
      (x - 8 * σ) (x + 8 * σ) (convolutionPoints η σ)) := by
  have hpi1 := Real.pi_gt_d20
  have hpi2 := Real.pi_lt_d20
  have h2pi : 0 < Real.sqrt (2 * Real.pi) := Real.sqrt_pos.2 (by positivity)
  refine ⟨3989422804014 / 10 ^ 13 * Real.sqrt (2 * Real.pi), ?_, ?_⟩
  · set κ := 3989422804014 / 10 ^ 13 * Real.sqrt (2 * Real.pi) with hκ
    have hk0 : 0 < κ := by positivity
    have hsq : κ ^ 2 = (3989422804014 / 10 ^ 13) ^ 2 * (2 * Real.pi) := by
      rw [hκ, mul_pow, Real.sq_sqrt (by positivity)]
    have hb : |κ ^ 2 - 1| ≤ 1 / 10 ^ 12 := by
      rw [hsq, abs_le]
      norm_num at hpi1 hpi2 ⊢
      constructor <;> linarith
    have e1 : κ ^ 2 - 1 = (κ - 1) * (κ + 1) := by ring
    rw [e1, abs_mul, abs_of_pos (show 0 < κ + 1 by linarith)] at hb
    nlinarith [abs_nonneg (κ - 1)]
  · intro x μ η σ hη hσ hr
    rw [langaus_eq x μ η σ hη hσ hr]
    congr 1
    unfold midpointRule
    rw [Finset.mul_sum, Finset.mul_sum]
    refine Finset.sum_congr rfl fun k _ => ?_
    generalize x - 8 * σ + ((k : ℝ) + 1 / 2) * ((x + 8 * σ - (x - 8 * σ)) / (convolutionPoints η σ : ℝ)) = t
    show _ = _ * (((landauPDF t μ η).getD 0 * smearingDensity σ (x - t)) * _)
    rw [prodTerm, pdf_eq _ _ _ hη, Option.getD_some, smearingDensity]
    field_simp

/-- a Gaussian ten times as wide as the Landau: 300 points -/
example : (0 : ℝ) < 1 ∧ (10 : ℝ) / (3 * 1) < 42949672 ∧ convolutionPoints 1 10 = 300 := by
  refine ⟨by norm_num, by norm_num, ?_⟩
  unfold convolutionPoints
  rw [show ⌊(10 : ℝ) / (3 * 1)⌋₊ = 3 by rw [Nat.floor_eq_iff (by norm_num)]; norm_num]
  norm_num

/-- **C83, convolution under a change of units**: multiplying all four arguments by `k` divides the
result by `k²`. -/
theorem C83_langaus_units (k x μ η σ v : ℝ) (hk : 0 < k) (hη : 0 < η) (hσ : 0 < σ)
    (hr : σ / (3 * η) < 42949672) (h : landauGaussPDF x μ η σ = some v) :
    landauGaussPDF (k * x) (k * μ) (k * η) (k * σ) = some (v / k ^ 2) := by
  have hr' : k * σ / (3 * (k * η)) = σ / (3 * η) := by field_simp
  rw [langaus_eq x μ η σ hη hσ hr] at h
  cases h
  rw [langaus_eq _ _ _ _ (by positivity) (by positivity) (by rw [hr']; exact hr)]
  congr 1
  have hn : convolutionPoints (k * η) (k * σ) = convolutionPoints η σ := by
    unfold convolutionPoints; rw [hr']
  rw [hn]
  unfold midpointRule
  rw [Finset.mul_sum, Finset.mul_sum, Finset.sum_div]
  refine Finset.sum_congr rfl fun j _ => ?_
  have e0 : k * x + 8 * (k * σ) - (k * x - 8 * (k * σ)) = k * (x + 8 * σ - (x - 8 * σ)) := by ring
  have e1 : k * x - 8 * (k * σ) + ((j : ℝ) + 1 / 2) *
      ((k * x + 8 * (k * σ) - (k * x - 8 * (k * σ))) / (convolutionPoints η σ : ℝ)) =
      k * (x - 8 * σ + ((j : ℝ) + 1 / 2) * ((x + 8 * σ - (x - 8 * σ)) / (convolutionPoints η σ : ℝ))) := by
    rw [e0]; ring
  rw [e1, e0]
  generalize x - 8 * σ + ((j : ℝ) + 1 / 2) * ((x + 8 * σ - (x - 8 * σ)) / (convolutionPoints η σ : ℝ)) = t
  unfold prodTerm
  have e2 : (k * t - k * μ) / (k * η) = (t - μ) / η := by rw [← mul_sub]; field_simp
  have e3 : -(k * x - k * t) ^ 2 / (2 * (k * σ) ^ 2) = -(x - t) ^ 2 / (2 * σ ^ 2) := by
    rw [← mul_sub, mul_pow, mul_pow]; field_simp
  rw [e2, e3]
  have hk' := hk.ne'
  have hη' := hη.ne'
  have hσ' := hσ.ne'
  generalize Real.exp (-(x - t) ^ 2 / (2 * σ ^ 2)) = E
  generalize shape ((t - μ) / η) = S
  generalize (3989422804014 / 10 ^ 13 : ℝ) = C
  field_simp

theorem langaus_pos : ∃ v, 0 < v ∧ landauGaussPDF 0 0 1 1 = some v := by
  refine ⟨_, ?_, langaus_eq 0 0 1 1 one_pos one_pos (by norm_num)⟩
  have hn : convolutionPoints 1 1 = 100 := by
    unfold convolutionPoints
    rw [show ⌊(1 : ℝ) / (3 * 1)⌋₊ = 0 by rw [Nat.floor_eq_zero]; norm_num]
    norm_num
  rw [hn]
  refine mul_pos (by norm_num) ?_
  unfold midpointRule
  refine Finset.sum_pos (fun k hk => ?_) ⟨0, by simp⟩
  refine mul_pos ?_ (by norm_num)
  have hk0 : (0 : ℝ) ≤ k := Nat.cast_nonneg k
  have ht : -8 ≤ 0 - 8 * (1 : ℝ) + ((k : ℝ) + 1 / 2) * ((0 + 8 * 1 - (0 - 8 * 1)) / ((100 : ℕ) : ℝ)) := by
    norm_num; positivity
  generalize 0 - 8 * (1 : ℝ) + ((k : ℝ) + 1 / 2) * ((0 + 8 * 1 - (0 - 8 * 1)) / ((100 : ℕ) : ℝ)) = t at ht
  unfold prodTerm
  obtain ⟨v, h1, -, h2, -⟩ := C83_sign t 0 1
  rw [pdf_eq _ _ _ one_pos] at h1
  cases h1
  have := h2 one_pos (by linarith)
  positivity

/-- **C83, disagreement**: a density of something measured in other units (here: all arguments
doubled) is half as high; `landauGaussPDF` returns a quarter, because `landauPDF` has already
divided by the width when the convolution divides by it. -/
theorem C83_violation_langaus_scale :
    ∃ v, 0 < v ∧ landauGaussPDF 0 0 1 1 = some v ∧ landauGaussPDF (2 * 0) (2 * 0) (2 * 1) (2 * 1) = some (v / 4) := by
  obtain ⟨v, h0, h⟩ := langaus_pos
  have := C83_langaus_units 2 0 0 1 1 v (by norm_num) one_pos one_pos (by norm_num) h
  norm_num at this ⊢
  exact ⟨v, h0, h, this⟩

/-- **C83, disagreement**: when the Gaussian is `3·2³⁰` times as wide as the Landau, the number of
steps overflows to zero and the step is a division by zero. -/
theorem C83_violation_langaus_steps (x μ η : ℝ) (hη : 0 < η) :
    landauGaussPDF x μ η (3 * 2 ^ 30 * η) = none := by
  have h1 : langausSteps η (3 * 2 ^ 30 * η) = some 0#32 := by
    unfold langausSteps
    rw [if_pos (by nlinarith), fdiv_some _ _ hη.ne']
    have e : (3 * 2 ^ 30 * η / η) / 3 = ((2 ^ 30 : ℤ) : ℝ) := by push_cast; field_simp; norm_num
    simp only [Option.bind_eq_bind, Option.bind_some]
    rw [e]
    unfold intOf
    rw [if_pos (by norm_num), Int.floor_intCast, if_pos (by norm_num)]
    show some (if (100#32 * BitVec.ofInt 32 (2 ^ 30)).toNat > 100000 then _ else _) = _
    rw [if_neg (by decide)]
    rfl
  unfold landauGaussPDF
  rw [h1]
  simp [fdiv]

example : landauGaussPDF 5 5 (1 / 10 ^ 9) (3 * 2 ^ 30 * (1 / 10 ^ 9)) = none :=
  C83_violation_langaus_steps 5 5 _ (by norm_num)

/-! ### The quantiles -/

/-- **C83, quantiles at the ends and for a bad width.** -/
theorem C83_quantile_ends (z ξ : ℝ) :
    (ξ ≤ 0 → quantile z ξ = .finite 0) ∧ (0 < ξ → z ≤ 0 → quantile z ξ = .minusInfinity) ∧
    (0 < ξ → 1 ≤ z → quantile z ξ = .plusInfinity) ∧ quantileC z ξ = quantile (1 - z) ξ := by
  refine ⟨fun h => by rw [quantile, if_pos h], fun h h2 => ?_, fun h h2 => ?_, rfl⟩
  · rw [quantile, if_neg (by linarith), if_pos h2]
  · rw [quantile, if_neg (by linarith), if_neg (by linarith), if_pos h2]

example : quantile 1 2 = .plusInfinity ∧ quantileC 1 2 = .minusInfinity := by
  refine ⟨(C83_quantile_ends 1 2).2.2.1 (by norm_num) (le_refl _), ?_⟩
  rw [(C83_quantile_ends 1 2).2.2.2]
  exact (C83_quantile_ends (1 - 1) 2).2.1 (by norm_num) (by norm_num)

theorem quantile_of (z ξ r : ℝ) (hξ : 0 < ξ) (h0 : 0 < z) (h1 : z < 1) (h : ranlan z = some r) :
    quantile z ξ = .finite (ξ * r) := by
  rw [quantile, if_neg (by linarith), if_neg (by linarith), if_neg (by linarith), h]
  rfl

/-- **C83, part.** On each of the three ranges of the upper formulas the quantile is a number and
grows strictly with the probability.  Missing: below 0.007, where there is a pole
(`C83_violation_quantile_pole`), and across the two upper seams, where it steps back
(`C83_violation_quantile_decreasing`). -/
theorem C83_quantile_partial (z z' ξ : ℝ) (hξ : 0 < ξ) (h : z < z')
    (hr : (0.007 ≤ z ∧ z' < 0.981) ∨ (0.981 ≤ z ∧ z' ≤ 0.999) ∨ (0.999 < z ∧ z' < 1)) :
    ∃ q q', quantile z ξ = .finite q ∧ quantile z' ξ = .finite q' ∧ q < q' := by
  have key : ∀ r r', 0 < z → z' < 1 → ranlan z = some r → ranlan z' = some r' → r < r' →
      ∃ q q', quantile z ξ = .finite q ∧ quantile z' ξ = .finite q' ∧ q < q' := by
    intro r r' h0 h1 hr hr' hl
    exact ⟨_, _, quantile_of z ξ r hξ h0 (by linarith) hr, quantile_of z' ξ r' hξ (by linarith) h1 hr',
      mul_lt_mul_of_pos_left hl hξ⟩
  rcases hr with ⟨a, b⟩ | ⟨a, b⟩ | ⟨a, b⟩
  · norm_num at a b
    obtain ⟨r, r', h1, h2, h3⟩ := ranlan_mid_mono z z' a h b
    exact key r r' (by linarith) (by linarith) h1 h2 h3
  · norm_num at a b
    obtain ⟨r, r', h1, h2, h3⟩ := ranlan_high_mono z z' a h (by linarith) (Or.inl b)
    exact key r r' (by linarith) (by linarith) h1 h2 h3
  · norm_num at a
    obtain ⟨r, r', h1, h2, h3⟩ := ranlan_high_mono z z' (by linarith) h b (Or.inr a)
    exact key r r' (by linarith) b h1 h2 h3

/-- points in all three ranges -/
example : ((0.007 : ℝ) ≤ 0.5 ∧ (0.6 : ℝ) < 0.981) ∧ ((0.981 : ℝ) ≤ 0.99 ∧ (0.999 : ℝ) ≤ 0.999) ∧
    ((0.999 : ℝ) < 0.9995 ∧ (0.9999 : ℝ) < 1) := by norm_num

/-- **C83, quantiles and width**: the quantile is proportional to the width. -/
theorem C83_quantile_width (z ξ q : ℝ) (hξ : 0 < ξ) (h0 : 0 < z) (h1 : z < 1) (h : quantile z 1 = .finite q) :
    quantile z ξ = .finite (ξ * q) := by
  rw [quantile, if_neg (by norm_num), if_neg (by linarith), if_neg (by linarith)] at h
  cases hr : ranlan z with
  | none => rw [hr] at h; cases h
  | some r =>
    rw [hr] at h
    rw [quantile_of z ξ r hξ h0 h1 hr]
    cases h
    show _ = Quantile.finite (ξ * (1 * r))
    rw [one_mul]

example : ∃ q, quantile 0.3 1 = .finite q ∧ quantile 0.3 7 = .finite (7 * q) := by
  obtain ⟨q, -, h, -, -⟩ := C83_quantile_partial 0.3 0.4 1 one_pos (by norm_num) (Or.inl (by norm_num))
  exact ⟨q, h, C83_quantile_width 0.3 7 q (by norm_num) (by norm_num) (by norm_num) h⟩

/-- **C83, quantiles against the density**: from 11% to 98%, one permille step of the quantile
times the density half way is one permille, to one part in 5000 (up to 93%) or in 1600. -/
theorem C83_quantile_density (n : ℕ) (h : 114 ≤ n) (h' : n ≤ 977) :
    ∃ a b v, quantile ((n : ℝ) / 1000) 1 = .finite a ∧ quantile (((n + 1 : ℕ) : ℝ) / 1000) 1 = .finite b ∧
      landauPDF ((a + b) / 2) 0 1 = some v ∧
      |v * (b - a) - 1 / 1000| ≤ if n ≤ 930 then 2 / 10 ^ 7 else 6 / 10 ^ 7 := by
  have hn1 : (114 : ℝ) ≤ n := by exact_mod_cast h
  have hn2 : (n : ℝ) ≤ 977 := by exact_mod_cast h'
  refine ⟨_, _, _, quantile_of _ 1 _ one_pos (by linarith) (by linarith) (ranlan_node n (by omega) (by omega)),
    quantile_of _ 1 _ one_pos (by push_cast; linarith) (by push_cast; linarith)
      (ranlan_node (n + 1) (by omega) (by omega)), pdf_eq _ _ _ one_pos, ?_⟩
  have := cell_density n h h'
  simp only [one_mul, sub_zero, div_one, Nat.add_sub_cancel]
  exact this

example : ∃ a b v, quantile ((500 : ℕ) / 1000) 1 = .finite a ∧ quantile (((500 + 1 : ℕ) : ℝ) / 1000) 1 = .finite b ∧
      landauPDF ((a + b) / 2) 0 1 = some v ∧ |v * (b - a) - 1 / 1000| ≤ 2 / 10 ^ 7 := by
  obtain ⟨a, b, v, h1, h2, h3, h4⟩ := C83_quantile_density 500 (by norm_num) (by norm_num)
  exact ⟨a, b, v, h1, h2, h3, by simpa using h4⟩

/-- **C83, disagreement**: the quantile is not increasing: from 0.999 to `0.999 + 10⁻⁹` it falls. -/
theorem C83_violation_quantile_decreasing :
    ∃ q q', quantile 0.999 1 = .finite q ∧ quantile (0.999 + 1 / 10 ^ 9) 1 = .finite q' ∧ q' + 0.005 < q := by
  have h1 := ranlan_high (999 / 1000) (by norm_num) (by norm_num)
  rw [if_pos (le_refl _)] at h1
  have h2 := ranlan_high (999 / 1000 + 1 / 10 ^ 9) (by norm_num) (by norm_num)
  rw [if_neg (by norm_num)] at h2
  rw [show (0.999 : ℝ) = 999 / 1000 by norm_num]
  refine ⟨_, _, quantile_of _ 1 _ one_pos (by norm_num) (by norm_num) h1,
    quantile_of _ 1 _ one_pos (by norm_num) (by norm_num) h2, ?_⟩
  norm_num

/-- **C83, disagreement**: the formula for small probabilities has a pole: there are probabilities
below `10⁻¹⁴` whose quantile, which should be negative, exceeds any bound. -/
theorem C83_violation_quantile_pole (M : ℝ) :
    ∃ z q, 0 < z ∧ z < 1 / 10 ^ 14 ∧ quantile z 1 = .finite q ∧ M < q := by
  obtain ⟨z, q, h0, h1, h2, h3⟩ := pole M
  have := quantile_of z 1 q one_pos h0 (by norm_num at h1 ⊢; linarith) h2
  rw [one_mul] at this
  exact ⟨z, q, h0, h1, this, h3⟩

end GooFit
