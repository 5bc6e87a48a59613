import Verif.Model.Convolution
import Verif.Spec.Convolution
import Verif.Lemmas.Minuit
import Mathlib.Algebra.BigOperators.Intervals
import Mathlib.Tactic.Linarith
import Mathlib.Tactic.FieldSimp
import Mathlib.Tactic.Ring
/-!
# C31: convolution stays inside its workspaces

`s.value M R x` is what a `ConvolutionPdf` of model `M` and resolution `R` computes at `x`, before
normalisation; `none` is a read outside a workspace.  Exact arithmetic.
-/
set_option autoImplicit false
namespace GooFit
open Spec
section
variable {K : Type} [Field K] [LinearOrder K] [IsStrictOrderedRing K] [FloorRing K]

omit [LinearOrder K] [IsStrictOrderedRing K] [FloorRing K] in
theorem convLoop_some (mod res : List K) (shift : Int) (n i : Nat) (ret : K)
    (hm : ∀ k, i ≤ k → k < i + n → k < mod.length)
    (hr : ∀ k : Nat, i ≤ k → k < i + n → 0 ≤ (k : Int) + shift ∧ (k : Int) + shift < (res.length : Int)) :
    convLoop mod res shift n i ret
      = some (ret + ∑ k ∈ Finset.range n, mod.getD (i + k) 0 * res.getD (((i + k : Nat) : Int) + shift).toNat 0) := by
  induction n generalizing i ret with
  | zero => simp [convLoop]
  | succ n ih =>
    have h1 := hm i le_rfl (by omega)
    obtain ⟨h2, h3⟩ := hr i le_rfl (by omega)
    have e1 : mod[i]? = some (mod.getD i 0) := by simp [List.getElem?_eq_getElem h1]
    have e2 : atInt res ((i : Int) + shift) = some (res.getD ((i : Int) + shift).toNat 0) := by
      unfold atInt
      rw [if_neg (by omega)]
      have : ((i : Int) + shift).toNat < res.length := by omega
      simp [List.getElem?_eq_getElem this]
    rw [convLoop]
    simp only [bind, Option.bind, e1, e2]
    rw [ih (i + 1) _ (fun k h h' => hm k (by omega) (by omega)) (fun k h h' => hr k (by omega) (by omega))]
    rw [Finset.sum_range_succ', add_zero]
    congr 1
    rw [add_assoc, add_comm (mod.getD i 0 * _)]
    congr 2
    refine Finset.sum_congr rfl fun k _ => ?_
    rw [show i + 1 + k = i + (k + 1) by omega]

omit [LinearOrder K] [IsStrictOrderedRing K] [FloorRing K] in
theorem convLoop_reads (mod res : List K) (shift : Int) (n i : Nat) (ret v : K) (h : convLoop mod res shift n i ret = some v) :
    ∀ k : Nat, i ≤ k → k < i + n → 0 ≤ (k : Int) + shift ∧ (k : Int) + shift < (res.length : Int) := by
  induction n generalizing i ret with
  | zero => intro k h1 h2; omega
  | succ n ih =>
    rw [convLoop] at h
    simp only [bind, Option.bind] at h
    cases hm : mod[i]? with
    | none => rw [hm] at h; exact absurd h (by simp)
    | some m =>
      rw [hm] at h
      simp only at h
      cases hr : atInt res ((i : Int) + shift) with
      | none => rw [hr] at h; exact absurd h (by simp)
      | some r =>
        rw [hr] at h
        simp only at h
        intro k h1 h2
        by_cases hk : k = i
        · subst hk
          unfold atInt at hr
          by_cases hneg : (k : Int) + shift < 0
          · rw [if_pos hneg] at hr; exact absurd hr (by simp)
          · rw [if_neg hneg] at hr
            obtain ⟨hlt, _⟩ := List.getElem?_eq_some_iff.mp hr
            omega
        · exact ih (i + 1) _ h k (by omega) (by omega)

theorem offsetInBins_mono (s : ConvSetup K) (hs : 0 < s.step) {x y : K} (hxy : x ≤ y) :
    s.offsetInBins x ≤ s.offsetInBins y := by
  unfold ConvSetup.offsetInBins
  refine Int.floor_mono ?_
  have := div_le_div_of_nonneg_right hxy hs.le
  linarith

theorem offset_nonneg_shift (s : ConvSetup K) : 0 ≤ s.offset - s.offsetInBins s.upper := by
  unfold ConvSetup.offset ConvSetup.offsetInBins truncK
  have h0 : (0 : K) ≤ s.lo / s.step - (⌊s.lo / s.step⌋ : K) := by have := Int.floor_le (s.lo / s.step); linarith
  have h1 : ⌊s.upper / s.step - (s.lo / s.step - (⌊s.lo / s.step⌋ : K))⌋ ≤ ⌊s.upper / s.step⌋ := Int.floor_mono (by linarith)
  split
  · omega
  · have := Int.floor_le_ceil (s.upper / s.step)
    omega

theorem modelWs_length (s : ConvSetup K) (M : K → K) : (s.modelWs M).length = s.modelBins.toNat := by
  simp [ConvSetup.modelWs, fillWorkspace]

theorem resolWs_length (s : ConvSetup K) (R : K → K) : (s.resolWs R).length = s.resolBins.toNat := by
  simp [ConvSetup.resolWs, fillWorkspace]

/-- **C31, exactly when the reads are inside.**  For every positive step and non-empty integration range, the
convolution can be evaluated everywhere in the observable's range without leaving the workspaces exactly when a
condition on the rounded offsets holds. -/
theorem C31_in_bounds_iff (s : ConvSetup K) (M R : K → K) (hs : 0 < s.step) (hrange : s.lower ≤ s.upper)
    (hbins : 0 < s.modelBins) :
    (∀ x, s.lower ≤ x → x ≤ s.upper → ∃ v, s.value M R x = some v)
      ↔ s.offset - s.offsetInBins s.lower ≤ s.resolBins - s.modelBins := by
  have hup := offset_nonneg_shift s
  have hle : s.modelBins ≤ s.resolBins := by
    unfold ConvSetup.modelBins ConvSetup.resolBins
    refine Int.floor_mono ?_
    have := div_le_div_of_nonneg_right (show s.hi - s.lo ≤ (s.hi - s.lower) - (s.lo - s.upper) by linarith) hs.le
    linarith
  constructor
  · intro h
    obtain ⟨v, hv⟩ := h s.lower le_rfl hrange
    have := convLoop_reads _ _ _ _ _ _ _ hv (s.modelBins.toNat - 1) (by omega) (by omega)
    rw [resolWs_length] at this
    omega
  · intro h x h1 h2
    have m1 := offsetInBins_mono s hs h1
    have m2 := offsetInBins_mono s hs h2
    refine ⟨_, convLoop_some _ _ _ _ _ _ ?_ ?_⟩
    · intro k _ hk
      rw [modelWs_length]
      omega
    · intro k _ hk
      rw [resolWs_length]
      omega

theorem aligned_bins (s : ConvSetup K) (hs : 0 < s.step) (kL kH kA kB : Int) (hL : s.lo = (kL : K) * s.step)
    (hH : s.hi = (kH : K) * s.step) (hA : s.lower = (kA : K) * s.step) (hB : s.upper = (kB : K) * s.step) :
    s.modelBins = kH - kL ∧ s.resolBins = kH - kL + (kB - kA) ∧ s.offset = kB
      ∧ ∀ x, s.offsetInBins x = ⌊x / s.step⌋ := by
  have hne := hs.ne'
  have half : ∀ n : Int, ⌊(n : K) + 1 / 2⌋ = n := by
    intro n
    rw [Int.floor_eq_iff]
    constructor
    · have : (0 : K) ≤ 1 / 2 := by norm_num
      linarith
    · have : (1 / 2 : K) < 1 := by norm_num
      linarith
  refine ⟨?_, ?_, ?_, ?_⟩
  · unfold ConvSetup.modelBins
    rw [hL, hH, show ((kH : K) * s.step - (kL : K) * s.step) / s.step = ((kH - kL : Int) : K) by push_cast; field_simp, half]
  · unfold ConvSetup.resolBins
    rw [hL, hH, hA, hB, show (((kH : K) * s.step - (kA : K) * s.step) - ((kL : K) * s.step - (kB : K) * s.step)) / s.step
      = ((kH - kL + (kB - kA) : Int) : K) by push_cast; field_simp; ring, half]
  · unfold ConvSetup.offset truncK
    rw [hB, mul_div_assoc, div_self hne, mul_one]
    split <;> simp
  · intro x
    unfold ConvSetup.offsetInBins
    rw [hL, mul_div_assoc, div_self hne, mul_one, Int.floor_intCast, sub_self, sub_zero]

/-- **C31 for aligned ranges.**  When the integration range and the limits of the observable are multiples of
the step, every evaluation stays inside the workspaces, and gives the sum of `M(t) R(t - x')` over the bin centres
`t` of the integration range, where `x'`, less than one step below `x`, is the lower edge of the bin of `x`.
Missing from the full property: other ranges (`C31_violation_unaligned`), and the direction of the resolution
(`C31_violation_mirrored`). -/
theorem C31_value_partial (s : ConvSetup K) (M R : K → K) (hs : 0 < s.step) (kL kH kA kB : Int) (hL : s.lo = (kL : K) * s.step)
    (hH : s.hi = (kH : K) * s.step) (hA : s.lower = (kA : K) * s.step) (hB : s.upper = (kB : K) * s.step) (hLH : kL < kH)
    (x : K) (hx1 : s.lower ≤ x) (hx2 : x ≤ s.upper) :
    ∃ x', x' ≤ x ∧ x < x' + s.step ∧ (∃ k : Int, x' = (k : K) * s.step)
      ∧ s.value M R x = some (correlation M R s.lo s.step (kH - kL).toNat x') := by
  obtain ⟨b1, b2, b3, b4⟩ := aligned_bins s hs kL kH kA kB hL hH hA hB
  have hne := hs.ne'
  have f1 : kA ≤ ⌊x / s.step⌋ := by
    rw [Int.le_floor, le_div_iff₀ hs, ← hA]
    exact hx1
  have f2 : ⌊x / s.step⌋ ≤ kB := by
    have : x / s.step ≤ (kB : K) := by rw [div_le_iff₀ hs, ← hB]; exact hx2
    have h3 := (Int.floor_le (x / s.step)).trans this
    exact_mod_cast h3
  refine ⟨(⌊x / s.step⌋ : K) * s.step, ?_, ?_, ⟨_, rfl⟩, ?_⟩
  · rw [← le_div_iff₀ hs]; exact Int.floor_le _
  · have := Int.lt_floor_add_one (x / s.step)
    rw [div_lt_iff₀ hs] at this
    linarith
  · unfold ConvSetup.value ConvSetup.device
    rw [convLoop_some]
    · unfold correlation
      rw [zero_add, b1]
      congr 1
      refine Finset.sum_congr rfl fun k hk => ?_
      have hk' := Finset.mem_range.mp hk
      rw [zero_add, b3, b4]
      set idx := ((k : Int) + (kB - ⌊x / s.step⌋)).toNat with hidx
      have hidx' : (idx : Int) = (k : Int) + (kB - ⌊x / s.step⌋) := by omega
      have hNpos : (0 : K) < ((kH - kL : Int) : K) := by exact_mod_cast (by omega : 0 < kH - kL)
      have hRpos : (0 : K) < ((kH - kL + (kB - kA) : Int) : K) := by exact_mod_cast (by omega : 0 < kH - kL + (kB - kA))
      have e1 : (s.modelWs M).getD k 0 = M (s.lo + ((k : K) + 1 / 2) * s.step) := by
        unfold ConvSetup.modelWs fillWorkspace
        rw [b1, List.getD_eq_getElem?_getD, List.getElem?_map, List.getElem?_range hk']
        simp only [Option.map_some, Option.getD_some]
        congr 1
        have : (s.hi - s.lo) / ((kH - kL : Int) : K) = s.step := by
          rw [div_eq_iff hNpos.ne', hL, hH]
          push_cast
          ring
        rw [this]
        ring
      have e2 : (s.resolWs R).getD idx 0 = R (s.lo + ((k : K) + 1 / 2) * s.step - (⌊x / s.step⌋ : K) * s.step) := by
        unfold ConvSetup.resolWs fillWorkspace
        rw [b2, List.getD_eq_getElem?_getD, List.getElem?_map, List.getElem?_range (by omega)]
        simp only [Option.map_some, Option.getD_some]
        congr 1
        have h1 : (s.hi - s.lower - (s.lo - s.upper)) / ((kH - kL + (kB - kA) : Int) : K) = s.step := by
          rw [div_eq_iff hRpos.ne', hL, hH, hA, hB]
          push_cast
          ring
        have h2 : (idx : K) = (k : K) + ((kB : K) - (⌊x / s.step⌋ : K)) := by
          have : ((idx : Int) : K) = (((k : Int) + (kB - ⌊x / s.step⌋) : Int) : K) := by rw [hidx']
          push_cast at this
          exact this
        rw [h1, h2, hB]
        ring
      rw [e1, e2]
    · intro k _ hk
      rw [modelWs_length]
      omega
    · intro k _ hk
      rw [resolWs_length, b2, b3, b4]
      omega

/-! ### Cooperative loading -/

omit [IsStrictOrderedRing K] [FloorRing K] in
theorem sharedInner_eq (consts : List Nat) (mods : List (List K)) (res mod : List K) (shift : Int)
    (numOthers wsIndex m numbins i : Nat) (hws : wsIndex < numOthers) (hc : consts[5 + wsIndex]? = some wsIndex)
    (hmod : mods[wsIndex]? = some mod) (hlen : mod.length = numbins) (n j : Nat) (hj : j + n = m) (hi : i ≤ numbins)
    (ret : K) (hr : ∀ k : Nat, k < numbins → 0 ≤ (k : Int) + shift ∧ (k : Int) + shift < (res.length : Int)) :
    sharedInner (sharedCache consts mods numOthers m numbins i) res shift wsIndex m numbins i n j ret
      = convLoop mod res shift (min n (numbins - (i + j))) (i + j) ret := by
  induction n generalizing j ret with
  | zero => simp [sharedInner, convLoop]
  | succ n ih =>
    rw [sharedInner]
    by_cases hge : i + j ≥ numbins
    · rw [if_pos hge, show min (n + 1) (numbins - (i + j)) = 0 by omega, convLoop]
    · rw [if_neg hge, show min (n + 1) (numbins - (i + j)) = min n (numbins - (i + (j + 1))) + 1 by omega, convLoop]
      have hjm : j < m := by omega
      have hmpos : 0 < m := by omega
      have hk : wsIndex * m + j < numOthers * m := by
        have : (wsIndex + 1) * m ≤ numOthers * m := Nat.mul_le_mul_right m hws
        rw [Nat.add_mul, one_mul] at this
        omega
      have hdiv : (wsIndex * m + j) / m = wsIndex := by
        rw [Nat.mul_comm, Nat.mul_add_div hmpos, Nat.div_eq_of_lt hjm, Nat.add_zero]
      have hmod' : (wsIndex * m + j) % m = j := by
        rw [Nat.mul_comm, Nat.mul_add_mod, Nat.mod_eq_of_lt hjm]
      have hcache : sharedCache consts mods numOthers m numbins i (wsIndex * m + j) = mod[i + j]? := by
        unfold sharedCache
        rw [if_pos hk, hdiv, hmod', hc]
        simp only [bind, Option.bind, hmod]
        rw [if_pos (by omega)]
      have hget : mod[i + j]? = some (mod[i + j]'(by omega)) := List.getElem?_eq_getElem (by omega)
      set mv := mod[i + j]'(by omega) with hmv
      obtain ⟨r1, r2⟩ := hr (i + j) (by omega)
      have hres : ∃ rv, atInt res (((i + j : Nat) : Int) + shift) = some rv := by
        unfold atInt
        rw [if_neg (by omega)]
        exact ⟨_, List.getElem?_eq_getElem (by omega)⟩
      obtain ⟨rv, hrv⟩ := hres
      simp only [bind, Option.bind, hcache, hget, hrv]
      by_cases hz : mv = 0
      · rw [if_neg (by simpa using hz)]
        rw [ih (j + 1) (by omega), hz]
        simp [Nat.add_assoc]
      · rw [if_pos hz]
        rw [ih (j + 1) (by omega)]
        simp [Nat.add_assoc]

omit [LinearOrder K] [IsStrictOrderedRing K] [FloorRing K] in
theorem convLoop_append (mod res : List K) (shift : Int) (a b i : Nat) (ret : K) :
    convLoop mod res shift (a + b) i ret = (convLoop mod res shift a i ret).bind (convLoop mod res shift b (i + a)) := by
  induction a generalizing i ret with
  | zero => simp [convLoop]
  | succ a ih =>
    rw [show a + 1 + b = (a + b) + 1 by omega, convLoop, convLoop]
    simp only [bind, Option.bind]
    cases mod[i]? with
    | none => rfl
    | some m =>
      simp only
      cases atInt res ((i : Int) + shift) with
      | none => rfl
      | some r =>
        simp only
        rw [ih]
        rw [show i + 1 + a = i + (a + 1) by omega]
        rfl

omit [IsStrictOrderedRing K] [FloorRing K] in
theorem sharedOuter_eq (consts : List Nat) (mods : List (List K)) (res mod : List K) (shift : Int)
    (numOthers wsIndex m numbins : Nat) (hws : wsIndex < numOthers) (hc : consts[5 + wsIndex]? = some wsIndex)
    (hmod : mods[wsIndex]? = some mod) (hlen : mod.length = numbins) (hm : 0 < m)
    (hr : ∀ k : Nat, k < numbins → 0 ≤ (k : Int) + shift ∧ (k : Int) + shift < (res.length : Int))
    (n i : Nat) (hn : numbins ≤ i + n) (ret : K) :
    sharedOuter consts mods res shift numOthers wsIndex m numbins n i ret = convLoop mod res shift (numbins - i) i ret := by
  induction n generalizing i ret with
  | zero =>
    rw [sharedOuter, show numbins - i = 0 by omega, convLoop]
  | succ n ih =>
    rw [sharedOuter]
    by_cases hi : i < numbins
    · rw [if_pos hi, sharedInner_eq consts mods res mod shift numOthers wsIndex m numbins i hws hc hmod hlen m 0 (by omega)
        (by omega) ret hr]
      have hsplit : numbins - i = min m (numbins - (i + 0)) + (numbins - (i + m)) := by omega
      conv_rhs => rw [hsplit, convLoop_append]
      simp only [bind, Nat.add_zero]
      congr 1
      funext v
      rw [ih (i + m) (by omega)]
      by_cases hfull : i + m ≤ numbins
      · rw [show min m (numbins - i) = m by omega]
      · rw [show numbins - (i + m) = 0 by omega, convLoop, convLoop]
    · rw [if_neg hi, show numbins - i = 0 by omega, convLoop]

/-- **C31, cooperative loading.**  If the node's constants list the workspaces of the others in order and its own
workspace is one of the first `numOthers + 1`, then wherever the plain device function stays inside its workspaces
the cooperative one computes the same, for any number of threads in a block.  Missing: the constructor and
`registerOthers` never produce such constants (`C31_violation_shared_constants`, `C31_violation_register_others`). -/
theorem C31_shared_partial (s : ConvSetup K) (consts : List Nat) (blockDim numOthers wsIndex : Nat) (mods : List (List K))
    (mod res : List K) (x0 v : K) (h3 : consts[3]? = some wsIndex) (h4 : consts[4]? = some numOthers)
    (h5 : ∀ w ≤ numOthers, consts[5 + w]? = some w) (hown : wsIndex ≤ numOthers) (hfew : numOthers < 512)
    (hthreads : 0 < blockDim) (hmod : mods[wsIndex]? = some mod) (hlen : mod.length = s.modelBins.toNat)
    (hplain : s.device mod res x0 = some v) : s.deviceShared consts blockDim mods res x0 = some v := by
  unfold ConvSetup.deviceShared
  simp only [bind, Option.bind, h3, h4]
  have hpos : 0 < min (512 / (numOthers + 1)) blockDim := by
    have : 0 < 512 / (numOthers + 1) := Nat.div_pos (by omega) (by omega)
    omega
  rw [if_neg (by omega), sharedOuter_eq consts mods res mod _ (numOthers + 1) wsIndex _ _ (by omega) (h5 wsIndex hown) hmod hlen
    hpos ?_ _ 0 (by omega)]
  · exact hplain
  · intro k hk
    exact convLoop_reads _ _ _ _ _ _ _ hplain k (by omega) (by omega)

/-- **Violation of C31.**  A cooperative convolution built, as the comment suggests, with `numOthers = 0` reads a
constant it does not have, at every point. -/
theorem C31_violation_shared_constants (s : ConvSetup K) (wsIndex blockDim : Nat) (mods : List (List K)) (res : List K) (x0 : K)
    (hbins : 0 < s.modelBins) : s.deviceShared (sharedConsts wsIndex 0) blockDim mods res x0 = none := by
  unfold ConvSetup.deviceShared
  have h3 : (sharedConsts wsIndex 0)[3]? = some wsIndex := rfl
  have h4 : (sharedConsts wsIndex 0)[4]? = some wsIndex := rfl
  simp only [bind, Option.bind, h3, h4]
  generalize min (512 / (wsIndex + 1)) blockDim = m
  split
  · rfl
  · rename_i hm
    obtain ⟨n, hn⟩ : ∃ n, s.modelBins.toNat = n + 1 := ⟨s.modelBins.toNat - 1, by omega⟩
    obtain ⟨m, rfl⟩ : ∃ k, m = k + 1 := ⟨m - 1, by omega⟩
    rw [hn, sharedOuter, if_pos (by omega), sharedInner, if_neg (by omega)]
    have hc : sharedCache (sharedConsts wsIndex 0) mods (wsIndex + 1) (m + 1) (n + 1) 0 (wsIndex * (m + 1) + 0) = none := by
      unfold sharedCache
      rw [if_pos (by rw [Nat.add_mul]; omega), Nat.add_zero, Nat.mul_div_cancel _ (by omega)]
      simp [sharedConsts, bind, Option.bind]
    rw [hc]
    rfl

/-- What `registerOthers` writes when there is room: the workspaces in order, behind the five constants of the constructor. -/
theorem C31_register_others (head rest others : List Nat) (hh : head.length = 5) (hr : others.length ≤ rest.length) :
    registerOthersLoop others 0 (head ++ rest) = some (head ++ others ++ rest.drop others.length) := by
  have key : ∀ (ws : List Nat) (i : Nat) (pre rest : List Nat), pre.length = 5 + i → ws.length ≤ rest.length →
      registerOthersLoop ws i (pre ++ rest) = some (pre ++ ws ++ rest.drop ws.length) := by
    intro ws
    induction ws with
    | nil => intro i pre rest _ _; simp [registerOthersLoop]
    | cons w ws ih =>
      intro i pre rest h1 h2
      cases rest with
      | nil => simp at h2
      | cons r rest =>
        simp only [List.length_cons] at h2
        rw [registerOthersLoop, if_pos (by rw [List.length_append, List.length_cons]; omega), ← h1, List.set_append_right _ _ (Nat.le_refl _),
          Nat.sub_self, List.set_cons_zero]
        have := ih (i + 1) (pre ++ [w]) rest (by simp; omega) (by omega)
        rw [List.append_assoc, List.singleton_append] at this
        rw [this]
        simp
  exact key others 0 head rest hh hr

/-- **Violation of C31.**  For `numOthers > 0`, `registerOthers` called with the expected number of PDFs writes past the
end of the constants. -/
theorem C31_violation_register_others (wsIndex numOthers : Nat) (others : List Nat) (h : 0 < numOthers)
    (hlen : others.length = numOthers + 1) : registerOthersLoop others 0 (sharedConsts wsIndex numOthers) = none := by
  have key : ∀ (ws : List Nat) (i : Nat) (consts : List Nat), consts.length < 5 + i + ws.length → i + 5 ≤ consts.length →
      registerOthersLoop ws i consts = none := by
    intro ws
    induction ws with
    | nil => intro i consts h1 h2; simp at h1; omega
    | cons w ws ih =>
      intro i consts h1 h2
      rw [registerOthersLoop]
      split
      · rw [List.length_cons] at h1
        exact ih (i + 1) _ (by rw [List.length_set]; omega) (by rw [List.length_set]; omega)
      · rfl
  have hl : (sharedConsts wsIndex numOthers).length = numOthers + 5 := by
    unfold sharedConsts
    rw [if_neg (by omega)]
    simp
  exact key others 0 _ (by rw [hl, hlen]; omega) (by rw [hl]; omega)

end

/-! ### Concrete setups -/

/-- The default integration range `[-10, 10]` with step `0.01` and an observable in `[-5, 5]`. -/
def ConvSetup.demo : ConvSetup ℚ := ⟨-10, 10, 1 / 100, -5, 5⟩

/-- The hypotheses of `C31_value_partial` hold for it, at `x = 0.123`: the bin's lower edge is `0.12`. -/
example (M R : ℚ → ℚ) : ∃ x', x' ≤ (123 : ℚ) / 1000 ∧ (123 : ℚ) / 1000 < x' + 1 / 100 ∧ (∃ k : Int, x' = (k : ℚ) * (1 / 100))
    ∧ ConvSetup.demo.value M R (123 / 1000) = some (correlation M R (-10) (1 / 100) 2000 x') :=
  C31_value_partial ConvSetup.demo M R (by norm_num [ConvSetup.demo]) (-1000) 1000 (-500) 500 (by norm_num [ConvSetup.demo])
    (by norm_num [ConvSetup.demo]) (by norm_num [ConvSetup.demo]) (by norm_num [ConvSetup.demo]) (by norm_num)
    (123 / 1000) (by norm_num [ConvSetup.demo]) (by norm_num [ConvSetup.demo])

/-- The cooperative function with hand-made constants: two workspaces, this PDF's is the second. -/
example : (⟨-2, 2, 1, -2, 2⟩ : ConvSetup ℚ).deviceShared [0, 0, 0, 1, 1, 0, 1] 32 [[9, 9, 9, 9], [1, 2, 0, 4]]
    [0, 1, 2, 3, 4, 5, 6, 7] 0 = some (1 * 2 + 2 * 3 + 0 * 4 + 4 * 5) :=
  C31_shared_partial _ _ 32 1 1 _ [1, 2, 0, 4] _ 0 _ rfl rfl (by decide) (by decide) (by decide) (by decide) rfl
    (by decide +kernel) (by decide +kernel)

/-- **Violation of C31.**  The default integration range and step, with an observable in `[0.006, 5]`: evaluating
close to the lower limit reads past the end of the resolution workspace. -/
theorem C31_violation_unaligned (M R : ℚ → ℚ) :
    ¬ ∀ x, (6 / 1000 : ℚ) ≤ x → x ≤ 5 → ∃ v, (⟨-10, 10, 1 / 100, 6 / 1000, 5⟩ : ConvSetup ℚ).value M R x = some v := by
  have h := C31_in_bounds_iff (⟨-10, 10, 1 / 100, 6 / 1000, 5⟩ : ConvSetup ℚ) M R (by norm_num) (by norm_num)
    (by decide +kernel)
  rw [h]
  decide +kernel

/-- **Violation of C31.**  The same for an integration range that does not begin at a multiple of the step, although
the observable's limits are multiples. -/
theorem C31_violation_unaligned_integration (M R : ℚ → ℚ) :
    ¬ ∀ x, (0 : ℚ) ≤ x → x ≤ 5 → ∃ v, (⟨-10 - 1 / 200, 10 - 1 / 200, 1 / 100, 0, 5⟩ : ConvSetup ℚ).value M R x = some v := by
  have h := C31_in_bounds_iff (⟨-10 - 1 / 200, 10 - 1 / 200, 1 / 100, 0, 5⟩ : ConvSetup ℚ) M R (by norm_num) (by norm_num)
    (by decide +kernel)
  rw [h]
  decide +kernel

/-- **Violation of C31.**  And for an observable with a negative upper limit between two multiples of the step: the
offset is rounded towards zero. -/
theorem C31_violation_negative_upper (M R : ℚ → ℚ) :
    ¬ ∀ x, (-5 - 1 / 200 : ℚ) ≤ x → x ≤ -1 - 1 / 200 →
      ∃ v, (⟨-10, 10, 1 / 100, -5 - 1 / 200, -1 - 1 / 200⟩ : ConvSetup ℚ).value M R x = some v := by
  have h := C31_in_bounds_iff (⟨-10, 10, 1 / 100, -5 - 1 / 200, -1 - 1 / 200⟩ : ConvSetup ℚ) M R (by norm_num) (by norm_num)
    (by decide +kernel)
  rw [h]
  decide +kernel

/-- **Violation of C31.**  The resolution is used mirrored: a model concentrated in `[0, 1)` smeared by a resolution that
adds between 1 and 2 should give something at `x = 2` and nothing at `x = -1`; the code gives the opposite. -/
theorem C31_violation_mirrored :
    ∃ M R : ℚ → ℚ,
      (convolution M R (-4) 1 8 2 = 1 ∧ convolution M R (-4) 1 8 (-1) = 0)
      ∧ (⟨-4, 4, 1, -4, 4⟩ : ConvSetup ℚ).value M R 2 = some 0
      ∧ (⟨-4, 4, 1, -4, 4⟩ : ConvSetup ℚ).value M R (-1) = some 1 := by
  refine ⟨fun t => if 0 ≤ t ∧ t < 1 then 1 else 0, fun d => if 1 ≤ d ∧ d < 2 then 1 else 0, ⟨?_, ?_⟩, ?_, ?_⟩
  · decide +kernel
  · decide +kernel
  · decide +kernel
  · decide +kernel

end GooFit
