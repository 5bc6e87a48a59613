import Verif.Lemmas.LandauA
import Verif.Lemmas.FaddeevaC
import Verif.Spec.Landau
/-!
# The convolution of the Landau density with a Gaussian, and the quantile
-/
set_option autoImplicit false
namespace GooFit.Landau

/-! ### Convolution -/

/-- the two densities in one term of the convolution -/
noncomputable def prodTerm (x μ η σ t : ℝ) : ℝ :=
  shape ((t - μ) / η) / η * (3989422804014 / 10 ^ 13 / σ * Real.exp (-(x - t) ^ 2 / (2 * σ ^ 2)))

theorem term_some (x μ η σ t : ℝ) (hη : 0 < η) (hσ : 0 < σ) :
    langausTerm x μ η σ t = some (1 / η * prodTerm x μ η σ t) := by
  rw [langausTerm, pdf_eq _ _ _ hη]
  simp only [Option.bind_eq_bind, Option.bind_some]
  rw [fdiv_some _ _ hη.ne', gaussPDF]
  simp only [Option.bind_eq_bind, Option.bind_some]
  rw [fdiv_some _ _ hσ.ne', fdiv_some _ _ (by positivity)]
  simp only [Option.bind_some, prodTerm]
  congr 1
  ring

theorem fold_some (g : ℕ → ℝ) (l : List ℕ) (s : ℝ) :
    l.foldlM (fun (sum : ℝ) (i : Nat) => (some (sum + g i) : Option ℝ)) s = some (s + (l.map g).sum) := by
  induction l generalizing s with
  | nil => simp
  | cons a l ih =>
    rw [List.foldlM_cons]
    simp only [Option.bind_eq_bind, Option.bind_some, ih, List.map_cons, List.sum_cons]
    congr 1
    ring

theorem sum_range' (g : ℕ → ℝ) (m : ℕ) : ((List.range' 1 m).map g).sum = ∑ i ∈ Finset.range m, g (i + 1) := by
  induction m with
  | zero => simp
  | succ m ih =>
    rw [List.range'_concat, List.map_append, List.sum_append, ih, Finset.sum_range_succ]
    simp [add_comm]

/-- pairs from both ends -/
theorem both_ends (g : ℕ → ℝ) (m : ℕ) :
    ∑ i ∈ Finset.range m, (g i + g (2 * m - 1 - i)) = ∑ k ∈ Finset.range (2 * m), g k := by
  rw [Finset.sum_add_distrib, two_mul, Finset.sum_range_add]
  congr 1
  rw [← Finset.sum_range_reflect]
  apply Finset.sum_congr rfl
  intro i hi
  have := Finset.mem_range.1 hi
  congr 1
  omega

theorem steps_eq (η σ : ℝ) (hη : 0 < η) (hσ : 0 < σ) (h : σ / (3 * η) < 42949672) :
    ∃ np, langausSteps η σ = some np ∧ np.toNat = Spec.convolutionPoints η σ := by
  rw [langausSteps]
  have hr : σ / η / 3 = σ / (3 * η) := by field_simp
  by_cases hc : σ > 3 * η
  · simp only [if_pos hc, fdiv_some _ _ hη.ne', Option.bind_eq_bind, Option.bind_some, hr]
    have h0 : 1 ≤ σ / (3 * η) := by rw [le_div_iff₀ (by linarith)]; linarith
    have hf : ⌊σ / (3 * η)⌋ = ((⌊σ / (3 * η)⌋₊ : ℕ) : ℤ) := (Int.natCast_floor_eq_floor (by linarith)).symm
    set k := ⌊σ / (3 * η)⌋₊ with hk
    have hk1 : 1 ≤ k := Nat.le_floor (by exact_mod_cast h0)
    have hk2 : k < 42949672 := (Nat.floor_lt (by linarith)).2 (by exact_mod_cast h)
    have hi : intOf (σ / (3 * η)) = some (k : ℤ) := by
      rw [intOf]
      simp only [if_pos (show 0 ≤ σ / (3 * η) by linarith), hf]
      rw [if_pos ⟨by omega, by omega⟩]
    rw [hi]
    simp only [Option.bind_some]
    refine ⟨_, rfl, ?_⟩
    have hn : (100#32 * BitVec.ofInt 32 (k : ℤ)).toNat = 100 * k := by
      rw [BitVec.ofInt_natCast, BitVec.toNat_mul, BitVec.toNat_ofNat, BitVec.toNat_ofNat]
      omega
    rw [Spec.convolutionPoints, ← hk, max_eq_right hk1]
    by_cases hbig : (100#32 * BitVec.ofInt 32 (k : ℤ)).toNat > 100000
    · rw [if_pos hbig]
      rw [hn] at hbig
      simp only [BitVec.toNat_ofNat]
      omega
    · rw [if_neg hbig]
      rw [hn] at hbig ⊢
      omega
  · simp only [if_neg hc, Option.bind_eq_bind, Option.bind_some]
    refine ⟨_, rfl, ?_⟩
    have : ⌊σ / (3 * η)⌋₊ ≤ 1 := by
      have : σ / (3 * η) ≤ 1 := by rw [div_le_iff₀ (by linarith)]; linarith
      calc ⌊σ / (3 * η)⌋₊ ≤ ⌊(1 : ℝ)⌋₊ := Nat.floor_le_floor this
        _ = 1 := by simp
    rw [Spec.convolutionPoints, max_eq_left this]
    rfl

theorem points_even (η σ : ℝ) : ∃ m, 0 < m ∧ Spec.convolutionPoints η σ = 2 * m := by
  rw [Spec.convolutionPoints]
  refine ⟨min 50000 (50 * max 1 ⌊σ / (3 * η)⌋₊), ?_, ?_⟩
  · have : 1 ≤ max 1 ⌊σ / (3 * η)⌋₊ := le_max_left _ _
    omega
  · omega

theorem langaus_eq (x μ η σ : ℝ) (hη : 0 < η) (hσ : 0 < σ) (h : σ / (3 * η) < 42949672) :
    landauGaussPDF x μ η σ = some (1 / η * Spec.midpointRule (prodTerm x μ η σ) (x - 8 * σ) (x + 8 * σ)
      (Spec.convolutionPoints η σ)) := by
  obtain ⟨np, e1, e2⟩ := steps_eq η σ hη hσ h
  obtain ⟨m, hm, e3⟩ := points_even η σ
  rw [landauGaussPDF, e1]
  simp only [Option.bind_eq_bind, Option.bind_some, e2, sub_zero]
  have hn : ((Spec.convolutionPoints η σ : ℕ) : ℝ) ≠ 0 := by
    rw [e3]; push_cast; positivity
  rw [fdiv_some _ _ hn]
  simp only [Option.bind_some]
  set st := (x + 8 * σ - (x - 8 * σ)) / ((Spec.convolutionPoints η σ : ℕ) : ℝ) with hst
  have hf : (fun (sum : ℝ) (i : Nat) => (langausTerm x μ η σ (x - 8 * σ + ((i : ℝ) - 1 / 2) * st)).bind fun a =>
      (langausTerm x μ η σ (x + 8 * σ - ((i : ℝ) - 1 / 2) * st)).bind fun b => some (sum + a + b)) =
      fun (sum : ℝ) (i : Nat) => (some (sum + (1 / η * prodTerm x μ η σ (x - 8 * σ + ((i : ℝ) - 1 / 2) * st) +
        1 / η * prodTerm x μ η σ (x + 8 * σ - ((i : ℝ) - 1 / 2) * st))) : Option ℝ) := by
    funext s i
    simp only [term_some x μ η σ _ hη hσ, Option.bind_some, add_assoc]
  rw [hf, fold_some, Option.bind_some, sum_range', e3]
  congr 1
  rw [show 2 * m / 2 = m by omega, zero_add, Spec.midpointRule, Finset.mul_sum, Finset.mul_sum]
  have hst' : (x + 8 * σ - (x - 8 * σ)) / ((2 * m : ℕ) : ℝ) = st := by rw [hst, e3]
  rw [hst']
  rw [← both_ends (fun k => 1 / η * (prodTerm x μ η σ (x - 8 * σ + ((k : ℝ) + 1 / 2) * st) * st)) m]
  apply Finset.sum_congr rfl
  intro i hi
  have hi := Finset.mem_range.1 hi
  have hx : x + 8 * σ - (((i + 1 : ℕ) : ℝ) - 1 / 2) * st = x - 8 * σ + (((2 * m - 1 - i : ℕ) : ℝ) + 1 / 2) * st := by
    have e : ((2 * m - 1 - i : ℕ) : ℝ) = 2 * m - 1 - i := by
      rw [show 2 * m - 1 - i = 2 * m - (1 + i) by omega, Nat.cast_sub (by omega)]
      push_cast; ring
    have e2 : st * (2 * m : ℝ) = 16 * σ := by
      rw [← hst']
      push_cast
      have : (m : ℝ) ≠ 0 := by positivity
      field_simp
      ring
    rw [e]
    push_cast
    linear_combination -e2
  have hx2 : (((i + 1 : ℕ) : ℝ) - 1 / 2) = (i : ℝ) + 1 / 2 := by push_cast; ring
  rw [hx, hx2]
  ring

/-! ### Quantile -/

def tab (i : ℕ) : ℤ := table.getD i 0

theorem tab_len : table.length = 982 := by decide +kernel

theorem f_some (i : ℕ) (h : i < 982) : f i = some ((tab i : ℝ) / 10 ^ 6) := by
  have : table[i]? = some (tab i) := by
    rw [tab, List.getD_eq_getElem?_getD]
    rw [List.getElem?_eq_getElem (by rw [tab_len]; exact h)]
    rfl
  rw [f, this]; rfl

theorem tab_mono : ∀ i < 981, 5 ≤ i → tab i < tab (i + 1) := by decide +kernel

theorem tab_curv : ∀ i < 981, 7 ≤ i →
    |tab (i + 1) - tab i - tab (i - 1) + tab (i - 2)| < 4 * (tab i - tab (i - 1)) := by decide +kernel

/-- the interpolation between two entries -/
noncomputable def cell (i : ℕ) (u : ℝ) : ℝ :=
  if i ≥ 70 ∧ i < 800 then (tab (i - 1) : ℝ) / 10 ^ 6 + u * ((tab i : ℝ) / 10 ^ 6 - (tab (i - 1) : ℝ) / 10 ^ 6)
  else (tab (i - 1) : ℝ) / 10 ^ 6 + u * ((tab i : ℝ) / 10 ^ 6 - (tab (i - 1) : ℝ) / 10 ^ 6 -
    1 / 4 * (1 - u) * ((tab (i + 1) : ℝ) / 10 ^ 6 - (tab i : ℝ) / 10 ^ 6 - (tab (i - 1) : ℝ) / 10 ^ 6 +
      (tab (i - 2) : ℝ) / 10 ^ 6))

theorem cell_zero (i : ℕ) : cell i 0 = (tab (i - 1) : ℝ) / 10 ^ 6 := by
  unfold cell; split_ifs <;> ring

theorem cell_one (i : ℕ) : cell i 1 = (tab i : ℝ) / 10 ^ 6 := by
  unfold cell; split_ifs <;> ring

theorem cell_mono (i : ℕ) (h7 : 7 ≤ i) (h980 : i ≤ 980) (u u' : ℝ) (h0 : 0 ≤ u) (h : u < u') (h1 : u' ≤ 1) :
    cell i u < cell i u' := by
  have hm : tab (i - 1) < tab i := by
    have := tab_mono (i - 1) (by omega) (by omega)
    rwa [show i - 1 + 1 = i by omega] at this
  have hc := tab_curv i (by omega) h7
  unfold cell
  by_cases hi : i ≥ 70 ∧ i < 800
  · rw [if_pos hi, if_pos hi]
    have hm' : (tab (i - 1) : ℝ) < tab i := by exact_mod_cast hm
    have : 0 < (tab i : ℝ) / 10 ^ 6 - (tab (i - 1) : ℝ) / 10 ^ 6 := by
      rw [← sub_div]; apply div_pos <;> [linarith; norm_num]
    have := mul_lt_mul_of_pos_right h this
    linarith
  · rw [if_neg hi, if_neg hi]
    have hc' : |(tab (i + 1) - tab i - tab (i - 1) + tab (i - 2) : ℝ)| < 4 * (tab i - tab (i - 1)) := by
      exact_mod_cast hc
    set D : ℝ := tab i - tab (i - 1) with hD
    set C : ℝ := tab (i + 1) - tab i - tab (i - 1) + tab (i - 2) with hC
    have e1 : (tab i : ℝ) / 10 ^ 6 - (tab (i - 1) : ℝ) / 10 ^ 6 = D / 10 ^ 6 := by rw [hD]; ring
    have e2 : (tab (i + 1) : ℝ) / 10 ^ 6 - (tab i : ℝ) / 10 ^ 6 - (tab (i - 1) : ℝ) / 10 ^ 6 +
      (tab (i - 2) : ℝ) / 10 ^ 6 = C / 10 ^ 6 := by rw [hC]; ring
    rw [e1, e2]
    have hs : |(1 - (u + u'))| ≤ 1 := abs_le.2 ⟨by linarith, by linarith⟩
    have hp : C * (1 - (u + u')) ≤ |C| := by
      calc C * (1 - (u + u')) ≤ |C * (1 - (u + u'))| := le_abs_self _
        _ = |C| * |1 - (u + u')| := abs_mul _ _
        _ ≤ |C| * 1 := mul_le_mul_of_nonneg_left hs (abs_nonneg _)
        _ = |C| := mul_one _
    have hpos : 0 < (u' - u) * (4 * D - C * (1 - (u + u'))) := mul_pos (by linarith) (by linarith)
    have e : (u' * (D / 10 ^ 6 - 1 / 4 * (1 - u') * (C / 10 ^ 6))) - (u * (D / 10 ^ 6 - 1 / 4 * (1 - u) * (C / 10 ^ 6))) =
      (u' - u) * (4 * D - C * (1 - (u + u'))) / (4 * 10 ^ 6) := by ring
    have : 0 < (u' - u) * (4 * D - C * (1 - (u + u'))) / (4 * 10 ^ 6) := by positivity
    linarith

theorem tab_le (i j : ℕ) (h5 : 5 ≤ i) (h : i ≤ j) (hj : j ≤ 981) : tab i ≤ tab j := by
  induction j, h using Nat.le_induction with
  | base => exact le_refl _
  | succ j hij ih => exact (ih (by omega)).trans (tab_mono j (by omega) (by omega)).le

theorem ranlan_mid (z : ℝ) (h7 : 7 / 1000 ≤ z) (h : z < 981 / 1000) :
    ranlan z = some (cell ⌊1000 * z⌋₊ (1000 * z - ⌊1000 * z⌋₊)) ∧ 7 ≤ ⌊1000 * z⌋₊ ∧ ⌊1000 * z⌋₊ ≤ 980 := by
  have hz : 0 ≤ 1000 * z := by linarith
  have hf : ⌊1000 * z⌋.toNat = ⌊1000 * z⌋₊ := rfl
  have h1 : 7 ≤ ⌊1000 * z⌋₊ := Nat.le_floor (by push_cast; linarith)
  have h2 : ⌊1000 * z⌋₊ < 981 := (Nat.floor_lt hz).2 (by push_cast; linarith)
  refine ⟨?_, h1, by omega⟩
  rw [ranlan]
  simp only [hf]
  generalize ⌊1000 * z⌋₊ = i at *
  unfold cell
  by_cases hi : i ≥ 70 ∧ i < 800
  · simp only [if_pos hi]
    rw [f_some _ (by omega), f_some _ (by omega)]
    rfl
  · simp only [if_neg hi]
    rw [if_pos ⟨h1, by omega⟩, f_some _ (by omega), f_some _ (by omega), f_some _ (by omega), f_some _ (by omega)]
    rfl

theorem ranlan_mid_mono (z z' : ℝ) (h7 : 7 / 1000 ≤ z) (h : z < z') (h' : z' < 981 / 1000) :
    ∃ q q', ranlan z = some q ∧ ranlan z' = some q' ∧ q < q' := by
  obtain ⟨a1, a2, a3⟩ := ranlan_mid z h7 (by linarith)
  obtain ⟨b1, b2, b3⟩ := ranlan_mid z' (by linarith) h'
  refine ⟨_, _, a1, b1, ?_⟩
  have hz := Nat.floor_le (show 0 ≤ 1000 * z by linarith)
  have hz2 := Nat.lt_floor_add_one (1000 * z)
  have hy := Nat.floor_le (show 0 ≤ 1000 * z' by linarith)
  have hy2 := Nat.lt_floor_add_one (1000 * z')
  have hle : ⌊1000 * z⌋₊ ≤ ⌊1000 * z'⌋₊ := Nat.floor_le_floor (by linarith)
  rcases hle.eq_or_lt with he | hl
  · rw [← he]
    rw [← he] at hy hy2
    exact cell_mono _ a2 a3 _ _ (by linarith) (by linarith) (by linarith)
  · generalize ⌊1000 * z⌋₊ = i at *
    generalize ⌊1000 * z'⌋₊ = j at *
    have c1 := cell_mono i a2 a3 (1000 * z - i) 1 (by linarith) (by linarith) (le_refl _)
    rw [cell_one] at c1
    have c2 : cell j 0 ≤ cell j (1000 * z' - j) := by
      rcases (show (0 : ℝ) ≤ 1000 * z' - j by linarith).eq_or_lt with h0 | h0
      · rw [← h0]
      · exact (cell_mono j b2 b3 0 _ (le_refl _) h0 (by linarith)).le
    rw [cell_zero] at c2
    have ht : (tab i : ℝ) ≤ tab (j - 1) := by exact_mod_cast tab_le i (j - 1) (by omega) (by omega) (by omega)
    have : (tab i : ℝ) / 10 ^ 6 ≤ tab (j - 1) / 10 ^ 6 := div_le_div_of_nonneg_right ht (by norm_num)
    linarith

/-- a tail `(a + b u + c u²)/((1 + d u + e u²) u)` decreases -/
theorem tail_anti (a b c d e : ℝ) (ha : 0 < a) (hb : 0 ≤ b) (hc : 0 ≤ c) (hd : 0 ≤ d) (he : 0 ≤ e) (hce : c ≤ 3 * a * e)
    (u w : ℝ) (hu : 0 < u) (h : u < w) :
    (a + b * w + c * (w * w)) / ((1 + d * w + e * (w * w)) * w) <
      (a + b * u + c * (u * u)) / ((1 + d * u + e * (u * u)) * u) := by
  have hw : 0 < w := by linarith
  rw [div_lt_div_iff₀ (by positivity) (by positivity), ← sub_pos]
  have e1 : (a + b * u + c * (u * u)) * ((1 + d * w + e * (w * w)) * w) -
      (a + b * w + c * (w * w)) * ((1 + d * u + e * (u * u)) * u) =
      (w - u) * (a * (1 + d * (u + w)) + a * e * (w - u) ^ 2 + (3 * a * e - c) * (u * w) + b * (u * w) * (d + e * (u + w)) +
        c * e * (u * w) ^ 2) := by ring
  rw [e1]
  have : 0 ≤ 3 * a * e - c := by linarith
  have hwu : 0 < w - u := by linarith
  positivity

theorem ranlan_high (z : ℝ) (h : 981 / 1000 ≤ z) (h' : z < 1) : ranlan z =
    if z ≤ 999 / 1000 then
      some ((100060006 / 10 ^ 8 + 263991156 / 10 ^ 6 * (1 - z) + 437320068 / 10 ^ 5 * ((1 - z) * (1 - z))) /
        ((1 + 257368075 / 10 ^ 6 * (1 - z) + 341448018 / 10 ^ 5 * ((1 - z) * (1 - z))) * (1 - z)))
    else
      some ((100001538 / 10 ^ 8 + 607514119 / 10 ^ 5 * (1 - z) + 734266409 / 10 ^ 3 * ((1 - z) * (1 - z))) /
        ((1 + 606511919 / 10 ^ 5 * (1 - z) + 694021044 / 10 ^ 3 * ((1 - z) * (1 - z))) * (1 - z))) := by
  have hf : ⌊1000 * z⌋.toNat = ⌊1000 * z⌋₊ := rfl
  have h1 : 981 ≤ ⌊1000 * z⌋₊ := Nat.le_floor (by push_cast; linarith)
  have hu : 0 < 1 - z := by linarith
  rw [ranlan]
  simp only [hf]
  rw [if_neg (by omega), if_neg (by omega), if_neg (by omega)]
  by_cases hz : z ≤ 999 / 1000
  · rw [if_pos hz, if_pos hz, fdiv_some _ _ (by positivity)]
  · rw [if_neg hz, if_neg hz, fdiv_some _ _ (by positivity)]

theorem ranlan_high_mono (z z' : ℝ) (h7 : 981 / 1000 ≤ z) (h : z < z') (h' : z' < 1)
    (hs : z' ≤ 999 / 1000 ∨ 999 / 1000 < z) :
    ∃ q q', ranlan z = some q ∧ ranlan z' = some q' ∧ q < q' := by
  rw [ranlan_high z h7 (by linarith), ranlan_high z' (by linarith) h']
  rcases hs with hs | hs
  · rw [if_pos hs, if_pos (by linarith)]
    exact ⟨_, _, rfl, rfl, tail_anti _ _ _ _ _ (by norm_num) (by norm_num) (by norm_num) (by norm_num) (by norm_num)
      (by norm_num) (1 - z') (1 - z) (by linarith) (by linarith)⟩
  · rw [if_neg (by linarith), if_neg (by linarith)]
    exact ⟨_, _, rfl, rfl, tail_anti _ _ _ _ _ (by norm_num) (by norm_num) (by norm_num) (by norm_num) (by norm_num)
      (by norm_num) (1 - z') (1 - z) (by linarith) (by linarith)⟩

/-! ### The pole in the lower tail -/

theorem ranlan_low (v : ℝ) (hv : v ≤ -6)
    (hd : v ^ 2 + 341760202 / 10 ^ 7 * v + 401244582 / 10 ^ 8 ≠ 0) :
    ranlan (Real.exp v) = some ((99858950 / 10 ^ 8 * v ^ 2 + 345213058 / 10 ^ 7 * v + 170854528 / 10 ^ 7) /
      (v ^ 2 + 341760202 / 10 ^ 7 * v + 401244582 / 10 ^ 8) * (-Real.log (-(91893853 / 10 ^ 8) - v) - 1)) := by
  have hf : ⌊1000 * Real.exp v⌋.toNat < 7 := by
    have h1 : Real.exp v ≤ Real.exp (-6) := Real.exp_le_exp.2 hv
    have h2 : Real.exp (-6) ≤ 0.0069 := by
      have := Real.exp_neg_one_lt_d9
      calc Real.exp (-6) = Real.exp (-1) ^ 6 := by rw [← Real.exp_nat_mul]; norm_num
        _ ≤ 0.3678794412 ^ 6 := pow_le_pow_left₀ (Real.exp_pos _).le this.le 6
        _ ≤ 0.0069 := by norm_num
    have h3 : ⌊1000 * Real.exp v⌋₊ < 7 := (Nat.floor_lt (by positivity)).2 (by
      push_cast; norm_num at h2; linarith)
    exact h3
  have hv0 : v ≠ 0 := by intro h; linarith
  rw [ranlan]
  simp only
  rw [if_neg (by omega), if_neg (by omega), if_pos hf, Real.log_exp, fdiv_some _ _ hv0]
  simp only [Option.bind_eq_bind, Option.bind_some]
  have e1 : 1 + (341760202 / 10 ^ 7 + 401244582 / 10 ^ 8 * (1 / v)) * (1 / v) =
      (v ^ 2 + 341760202 / 10 ^ 7 * v + 401244582 / 10 ^ 8) / v ^ 2 := by field_simp; ring
  have e2 : 99858950 / 10 ^ 8 + (345213058 / 10 ^ 7 + 170854528 / 10 ^ 7 * (1 / v)) * (1 / v) =
      (99858950 / 10 ^ 8 * v ^ 2 + 345213058 / 10 ^ 7 * v + 170854528 / 10 ^ 7) / v ^ 2 := by field_simp; ring
  have hv2 : v ^ 2 ≠ 0 := pow_ne_zero _ hv0
  rw [e1, e2, fdiv_some _ _ (div_ne_zero hd hv2), div_div_div_cancel_right₀ hv2]
  simp only [Option.bind_some]
  rw [if_neg (by norm_num; linarith)]

theorem pole (M : ℝ) : ∃ z q, 0 < z ∧ z < 1 / 10 ^ 14 ∧ ranlan z = some q ∧ M < q := by
  set d1 : ℝ := 341760202 / 10 ^ 7 with hd1
  set d2 : ℝ := 401244582 / 10 ^ 8 with hd2
  set s := Real.sqrt (d1 ^ 2 - 4 * d2) with hs
  have hs2 : s ^ 2 = d1 ^ 2 - 4 * d2 := Real.sq_sqrt (by rw [hd1, hd2]; norm_num)
  have hs0 : 0 ≤ s := Real.sqrt_nonneg _
  have hsl : 33.94 ≤ s := by apply Real.le_sqrt_of_sq_le; rw [hd1, hd2]; norm_num
  have hsh : s ≤ 33.941 := by rw [hs, Real.sqrt_le_left (by norm_num), hd1, hd2]; norm_num
  set δ := 1 / (1000 * (1 + |M|)) with hδ
  have hM := abs_nonneg M
  have hδ0 : 0 < δ := by positivity
  have hδ1 : δ ≤ 1 / 1000 := by
    rw [hδ]; apply one_div_le_one_div_of_le (by norm_num); linarith
  set v := (-d1 - s) / 2 - δ with hv
  have hden : v ^ 2 + d1 * v + d2 = δ * (δ + s) := by
    rw [hv]; linear_combination (1 / 4) * hs2
  have hvl : -34.06 ≤ v := by rw [hv, hd1]; norm_num at hsh hδ1 ⊢; linarith
  have hvh : v ≤ -34.058 := by rw [hv, hd1]; norm_num at hsl ⊢; linarith
  have hdpos : 0 < δ * (δ + s) := by positivity
  refine ⟨Real.exp v, _, Real.exp_pos _, ?_, ranlan_low v (by norm_num at hvh; linarith) (by rw [hden]; exact hdpos.ne'), ?_⟩
  · calc Real.exp v < Real.exp (-34) := Real.exp_lt_exp.2 (by norm_num at hvh; linarith)
      _ ≤ _ := Faddeeva.exp34
  · rw [hden]
    have hN : 99858950 / 10 ^ 8 * v ^ 2 + 345213058 / 10 ^ 7 * v + 170854528 / 10 ^ 7 ≤ -(1 / 10) := by
      have : (v + 34.06) * (v + 34.058) ≤ 0 := by
        apply mul_nonpos_of_nonneg_of_nonpos <;> norm_num at hvl hvh ⊢ <;> linarith
      norm_num at this hvl hvh ⊢
      nlinarith
    have hL : -Real.log (-(91893853 / 10 ^ 8) - v) - 1 ≤ -1 := by
      have : 0 ≤ Real.log (-(91893853 / 10 ^ 8) - v) := Real.log_nonneg (by norm_num at hvh ⊢; linarith)
      linarith
    generalize 99858950 / 10 ^ 8 * v ^ 2 + 345213058 / 10 ^ 7 * v + 170854528 / 10 ^ 7 = N at hN
    generalize -Real.log (-(91893853 / 10 ^ 8) - v) - 1 = L at hL
    have hNL : 1 / 10 ≤ N * L := by nlinarith
    rw [div_mul_eq_mul_div, lt_div_iff₀ hdpos]
    refine lt_of_lt_of_le ?_ hNL
    have h1 : δ * (δ + s) ≤ δ * 35 := mul_le_mul_of_nonneg_left (by norm_num at hsh hδ1; linarith) hδ0.le
    have h2 : M * (δ * (δ + s)) ≤ |M| * (δ * 35) :=
      mul_le_mul (le_abs_self M) h1 hdpos.le hM
    refine lt_of_le_of_lt h2 ?_
    have h3 : |M| * δ < 1 / 1000 := by
      rw [hδ, mul_one_div, div_lt_div_iff₀ (by positivity) (by norm_num)]
      linarith
    linarith

end GooFit.Landau
