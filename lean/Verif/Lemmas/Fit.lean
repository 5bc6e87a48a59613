import Verif.Spec.Fit
import Verif.Spec.Tree
import Verif.Model.Mpi
import Verif.Lemmas.TreeHost
import Mathlib.Data.List.Nodup
import Mathlib.Algebra.BigOperators.Group.List.Basic
import Mathlib.Tactic.Ring
import Mathlib.Tactic.Linarith
/-!
# Lemmas about the event array, the session and the MPI split
-/
set_option autoImplicit false
namespace GooFit
open Spec
variable {K : Type}

/-! ### positions of observables -/

theorem setupObservables_indep (os : List Nat) :
    ∀ (k : Nat) (idx idx' : Nat → Int) (o : Nat), o ∈ os →
      setupObservables os k idx o = setupObservables os k idx' o := by
  induction os with
  | nil => intro k idx idx' o h; simp at h
  | cons a os ih =>
    intro k idx idx' o h
    rw [setupObservables, setupObservables]
    by_cases ho : o ∈ os
    · exact ih _ _ _ o ho
    · rw [setupObservables_other _ _ _ _ ho, setupObservables_other _ _ _ _ ho]
      have : o = a := by
        rcases List.mem_cons.1 h with h' | h'
        · exact h'
        · exact absurd h' ho
      simp [this]

theorem setupObservables_idem (os : List Nat) (idx : Nat → Int) :
    setupObservables os 0 (setupObservables os 0 idx) = setupObservables os 0 idx := by
  funext o
  by_cases ho : o ∈ os
  · exact setupObservables_indep os 0 _ _ o ho
  · exact setupObservables_other _ _ _ _ ho

/-- The observables are numbered in order. -/
def Numbered (os : List Nat) (idx : Nat → Int) : Prop :=
  ∀ k, (h : k < os.length) → idx os[k] = (k : Int)

theorem numbered_setup (os : List Nat) (hnd : os.Nodup) (idx : Nat → Int) :
    Numbered os (setupObservables os 0 idx) := by
  intro k h
  simpa using setupObservables_get os hnd 0 idx k h

theorem Numbered.lt {os : List Nat} {idx : Nat → Int} (h : Numbered os idx) :
    ∀ p ∈ os, (idx p).toNat < os.length := by
  intro p hp
  obtain ⟨k, hk, rfl⟩ := List.getElem_of_mem hp
  rw [h k hk]; simpa using hk

theorem Numbered.inj {os : List Nat} {idx : Nat → Int} (h : Numbered os idx) :
    ∀ p ∈ os, ∀ q ∈ os, (idx p).toNat = (idx q).toNat → p = q := by
  intro p hp q hq he
  obtain ⟨k, hk, rfl⟩ := List.getElem_of_mem hp
  obtain ⟨j, hj, rfl⟩ := List.getElem_of_mem hq
  rw [h k hk, h j hj] at he
  simp only [Int.toNat_natCast] at he
  subst he; rfl

/-! ### the unbinned array -/

theorem view_unbinned {os : List Nat} {idx : Nat → Int} (h : Numbered os idx)
    (value : Nat → Nat → K) (num i j : Nat) (hi : i < num) (hj : j < os.length) :
    eventView (eventArray idx os value num) os.length i j = some (value i os[j]) := by
  have hm : os[j] ∈ os := List.getElem_mem hj
  have := fillEvents_get idx os value os[j] hm (fun p hp => h.inj p hp _ hm) h.lt num
    (List.replicate (num * os.length) none) i hi (by simp)
  rw [h j hj] at this
  simp only [Int.toNat_natCast] at this
  unfold eventView eventArray
  rw [this]; rfl

/-! ### the binned array -/

theorem fillBin_length (idx : Nat → Int) (os : List Nat) (i : Nat) (row : Nat → K) (a b : K)
    (arr : List (Option K)) : (fillBin idx os i row a b arr).length = arr.length := by
  unfold fillBin
  simp [fillEvent_length]

theorem fillBins_length (idx : Nat → Int) (os : List Nat) (c : Nat → Nat → K) (a b : Nat → K) :
    ∀ (k : Nat) (arr : List (Option K)), (fillBins idx os c a b k arr).length = arr.length
  | 0, arr => rfl
  | k + 1, arr => by rw [fillBins, fillBin_length, fillBins_length idx os c a b k]

theorem fillBin_other {os : List Nat} {idx : Nat → Int} (h : Numbered os idx) (i q : Nat)
    (row : Nat → K) (a b : K) (arr : List (Option K)) (hq : q < i * (2 + os.length)) :
    (fillBin idx os i row a b arr)[q]? = arr[q]? := by
  unfold fillBin
  rw [List.getElem?_set_ne (by omega), List.getElem?_set_ne (by omega), fillEvent_other]
  intro o ho hc
  omega

/-- What bin slot `j` holds: centre, content, third column. -/
theorem fillBin_get {os : List Nat} {idx : Nat → Int} (h : Numbered os idx) (i : Nat)
    (row : Nat → K) (a b : K) (arr : List (Option K))
    (hl : i * (2 + os.length) + (2 + os.length) ≤ arr.length) :
    (∀ j, (hj : j < os.length) → (fillBin idx os i row a b arr)[i * (2 + os.length) + j]? =
      some (some (row os[j]))) ∧
    (fillBin idx os i row a b arr)[i * (2 + os.length) + os.length]? = some (some a) ∧
    (fillBin idx os i row a b arr)[i * (2 + os.length) + os.length + 1]? = some (some b) := by
  refine ⟨?_, ?_, ?_⟩
  · intro j hj
    unfold fillBin
    rw [List.getElem?_set_ne (by omega), List.getElem?_set_ne (by omega)]
    have hm : os[j] ∈ os := List.getElem_mem hj
    have hj' : (idx os[j]).toNat = j := by rw [h j hj]; simp
    have := fillEvent_get idx (2 + os.length) i row os[j] os arr hm (fun p hp => h.inj p hp _ hm)
      (by rw [hj']; omega)
    rw [hj'] at this
    exact this
  · unfold fillBin
    rw [List.getElem?_set_ne (by omega)]
    rw [Nat.add_zero, List.getElem?_set_self]
    rw [fillEvent_length]; omega
  · unfold fillBin
    rw [List.getElem?_set_self]
    rw [List.length_set, fillEvent_length]; omega

theorem fillBins_get {os : List Nat} {idx : Nat → Int} (h : Numbered os idx)
    (c : Nat → Nat → K) (a b : Nat → K) :
    ∀ (k : Nat) (arr : List (Option K)) (i : Nat), i < k → k * (2 + os.length) ≤ arr.length →
      (∀ j, (hj : j < os.length) →
        (fillBins idx os c a b k arr)[i * (2 + os.length) + j]? = some (some (c i os[j]))) ∧
      (fillBins idx os c a b k arr)[i * (2 + os.length) + os.length]? = some (some (a i)) ∧
      (fillBins idx os c a b k arr)[i * (2 + os.length) + os.length + 1]? = some (some (b i))
  | 0, arr, i, hi, _ => by omega
  | k + 1, arr, i, hi, hl => by
    rw [fillBins]
    have hk : k * (2 + os.length) + (2 + os.length) ≤ arr.length := by
      rw [← Nat.succ_mul]; exact hl
    by_cases hik : i = k
    · subst hik
      exact fillBin_get h i (c i) (a i) (b i) _ (by rw [fillBins_length]; exact hk)
    · have h3 : (i + 1) * (2 + os.length) ≤ k * (2 + os.length) :=
        Nat.mul_le_mul_right _ (by omega)
      rw [Nat.succ_mul] at h3
      obtain ⟨h1, h2, h4⟩ := fillBins_get h c a b k arr i (by omega) (by omega)
      refine ⟨fun j hj => ?_, ?_, ?_⟩
      · rw [fillBin_other h _ _ _ _ _ _ (by omega)]; exact h1 j hj
      · rw [fillBin_other h _ _ _ _ _ _ (by omega)]; exact h2
      · rw [fillBin_other h _ _ _ _ _ _ (by omega)]; exact h4

theorem binnedArray_get {os : List Nat} {idx : Nat → Int} (h : Numbered os idx)
    (c : Nat → Nat → K) (a b : Nat → K) (num i : Nat) (hi : i < num) :
    (∀ j, (hj : j < os.length) →
      (binnedArray idx os c a b num)[i * (2 + os.length) + j]? = some (some (c i os[j]))) ∧
    (binnedArray idx os c a b num)[i * (2 + os.length) + os.length]? = some (some (a i)) ∧
    (binnedArray idx os c a b num)[i * (2 + os.length) + os.length + 1]? = some (some (b i)) :=
  fillBins_get h c a b num _ i hi (by simp)

/-! ### the session -/

/-- The device array was built from this dataset, with either of the two possible last columns. -/
def BuiltFrom (s : Sess K) : Data K → Prop
  | .unbinned num value => s.array = some (eventArray s.idx s.obs value num)
  | .binned num center content error volume =>
    ∃ b : Bool, s.array = some (binnedArray s.idx s.obs center content
      (if b then error else volume) num)

/-- What every session keeps true. -/
structure Sess.Ok (s : Sess K) : Prop where
  built : ∀ d, s.data = some d → BuiltFrom s d
  entries : ∀ d, s.data = some d → s.numEntries = Spec.entries d
  total : ∀ d, s.data = some d → s.total = Spec.entries d
  idx : ∀ d, s.data = some d → ∃ idx₀, s.idx = setupObservables s.obs 0 idx₀

theorem Sess.Ok.fresh (obs : List Nat) (idx : Nat → Int) : (Sess.fresh obs idx : Sess K).Ok :=
  ⟨by intro d h; simp [Sess.fresh] at h, by intro d h; simp [Sess.fresh] at h,
   by intro d h; simp [Sess.fresh] at h, by intro d h; simp [Sess.fresh] at h⟩

theorem Sess.Ok.setData (d : Option (Data K)) (s : Sess K) : (s.setData d).Ok := by
  rcases d with _ | (⟨num, v⟩ | ⟨num, c, a, e, v⟩)
  · constructor <;> intro d h <;> simp [Sess.setData] at h
  · constructor <;> intro d h <;> simp only [Sess.setData, Option.some.injEq] at h <;> subst h
    · rfl
    · rfl
    · rfl
    · exact ⟨s.idx, rfl⟩
  · constructor <;> intro d h <;> simp only [Sess.setData, Option.some.injEq] at h <;> subst h
    · exact ⟨_, rfl⟩
    · rfl
    · rfl
    · exact ⟨s.idx, rfl⟩

theorem Sess.Ok.setFitControl (c : Control) (s : Sess K) (h : s.Ok) : (s.setFitControl c).Ok := by
  refine ⟨?_, h.entries, h.total, h.idx⟩
  intro d hd
  have := h.built d hd
  cases d with
  | unbinned num v => exact this
  | binned num c a e v =>
    obtain ⟨b, hb⟩ := this
    exact ⟨b, hb⟩

theorem Sess.Ok.run (o : FitOp K) (s : Sess K) (h : s.Ok) : (o.run s).Ok := by
  cases o with
  | setData d => exact Sess.Ok.setData d s
  | setFitControl c => exact h.setFitControl c s
  | query q =>
    cases q with
    | getValue f p => exact Sess.Ok.setData _ _
    | evaluateAtPoints n g => exact Sess.Ok.setData _ _
    | compProbs => exact (h.setFitControl _ _).setFitControl _ _
    | normalize => exact h

theorem Sess.Ok.runAll (ops : List (FitOp K)) : ∀ (s : Sess K), s.Ok → (s.runAll ops).Ok := by
  induction ops with
  | nil => intro s h; exact h
  | cons o ops ih => intro s h; exact ih _ (h.run o s)

theorem setData_obs (d : Option (Data K)) (s : Sess K) : (s.setData d).obs = s.obs := by
  rcases d with _ | (⟨num, v⟩ | ⟨num, c, a, e, v⟩) <;> rfl

theorem setData_data (d : Option (Data K)) (s : Sess K) : (s.setData d).data = d := by
  rcases d with _ | (⟨num, v⟩ | ⟨num, c, a, e, v⟩) <;> rfl

theorem run_obs (o : FitOp K) (s : Sess K) : (o.run s).obs = s.obs := by
  cases o with
  | setData d => exact setData_obs d s
  | setFitControl c => rfl
  | query q =>
    cases q with
    | getValue f p =>
      show (Sess.setData _ (Sess.setData _ _)).obs = _
      rw [setData_obs, setData_obs]; rfl
    | evaluateAtPoints n g =>
      show (Sess.setData _ (Sess.setData _ _)).obs = _
      rw [setData_obs, setData_obs]; rfl
    | compProbs => rfl
    | normalize => rfl

theorem runAll_obs (ops : List (FitOp K)) : ∀ (s : Sess K), (s.runAll ops).obs = s.obs := by
  induction ops with
  | nil => intro s; rfl
  | cons o ops ih => intro s; exact (ih _).trans (run_obs o s)

theorem Sess.Ok.numbered {s : Sess K} (h : s.Ok) (hnd : s.obs.Nodup) {d : Data K}
    (hd : s.data = some d) : Numbered s.obs s.idx := by
  obtain ⟨idx₀, he⟩ := h.idx d hd
  rw [he]
  exact numbered_setup _ hnd _

/-- The first slots of entry `i`, when the control matches the data. -/
theorem Sess.Ok.slot {s : Sess K} (h : s.Ok) (hnd : s.obs.Nodup) {d : Data K}
    (hd : s.data = some d) (hm : Matches s.ctl d) (i j : Nat) (hi : i < Spec.entries d)
    (hj : j < s.obs.length) : s.eventAt s.eventSize i j = some (coord d i s.obs[j]) := by
  have hn := h.numbered hnd hd
  have hb := h.built d hd
  cases d with
  | unbinned num v =>
    have hc : s.ctl.binnedFit = false := hm
    have hs : s.eventSize.natAbs = s.obs.length := by
      unfold Sess.eventSize; rw [hc]; simp
    have ha : s.array = some (eventArray s.idx s.obs v num) := hb
    unfold Sess.eventAt
    rw [ha, hs]
    exact view_unbinned hn v num i j hi hj
  | binned num c a e v =>
    have hc : s.ctl.binnedFit = true := hm
    have hs : s.eventSize.natAbs = 2 + s.obs.length := by
      unfold Sess.eventSize; rw [hc]; simp only [if_true]; omega
    obtain ⟨b, ha⟩ := hb
    unfold Sess.eventAt
    rw [ha, hs]
    unfold eventView
    show ((binnedArray s.idx s.obs c a _ num)[i * (2 + s.obs.length) + j]?).join = _
    rw [(binnedArray_get hn c a _ num i hi).1 j hj]
    rfl

/-- Content and third column of bin `i`, when the control matches the data. -/
theorem Sess.tail_of_binned {s : Sess K} (hn : Numbered s.obs s.idx) {num : Nat}
    {c : Nat → Nat → K} {a t : Nat → K} (ha : s.array = some (binnedArray s.idx s.obs c a t num))
    (hc : s.ctl.binnedFit = true) (i : Nat) (hi : i < num) :
    s.tailAt s.eventSize i 0 = some (a i) ∧ s.tailAt s.eventSize i 1 = some (t i) := by
  have hs : s.eventSize.natAbs = 2 + s.obs.length := by
    unfold Sess.eventSize; rw [hc]; simp only [if_true]; omega
  obtain ⟨_, h2, h3⟩ := binnedArray_get hn c a t num i hi
  unfold Sess.tailAt
  rw [ha]
  simp only [hs]
  constructor
  · have e : ((i : Int) * ((2 + s.obs.length : Nat) : Int) + ((2 + s.obs.length : Nat) : Int) - 2 +
        ((0 : Nat) : Int)) = ((i * (2 + s.obs.length) + s.obs.length : Nat) : Int) := by
      push_cast; ring
    rw [e, if_pos (by omega), Int.toNat_natCast, h2]
    rfl
  · have e : ((i : Int) * ((2 + s.obs.length : Nat) : Int) + ((2 + s.obs.length : Nat) : Int) - 2 +
        ((1 : Nat) : Int)) = ((i * (2 + s.obs.length) + s.obs.length + 1 : Nat) : Int) := by
      push_cast; ring
    rw [e, if_pos (by omega), Int.toNat_natCast, h3]
    rfl

/-! ### collecting -/

theorem collect_eq [Field K] [LinearOrder K] (f : Nat → Option K) (g : Nat → K) :
    ∀ n, (∀ i < n, f i = some (g i)) → collect f n = some ((List.range n).map g)
  | 0, _ => rfl
  | n + 1, h => by
    rw [collect, collect_eq f g n (fun i hi => h i (by omega)), h n (by omega)]
    simp [List.range_succ]

/-! ### MPI -/

theorem mpiCounts_length (a b p : Nat) (hp : 0 < p) : (mpiCounts a b p).length = p := by
  simp [mpiCounts]; omega

theorem mpiCounts_sum (a b p : Nat) (h : a ≤ b) : (mpiCounts a b p).sum = b := by
  unfold mpiCounts
  rw [List.sum_append]
  simp only [List.sum_replicate_nat, List.sum_cons, List.sum_nil, Nat.add_zero]
  have h1 : a / p * (p - 1) ≤ a / p * p := Nat.mul_le_mul_left _ (by omega)
  have h2 : a / p * p ≤ a := Nat.div_mul_le_self a p
  rw [Nat.mul_comm (p - 1)]
  omega

theorem mpiDisplacements_length (cs : List Nat) : ∀ s, (mpiDisplacements s cs).length = cs.length := by
  induction cs with
  | nil => intro s; rfl
  | cons c cs ih => intro s; simp [mpiDisplacements, ih]

theorem mpiDisplacements_get (cs : List Nat) :
    ∀ s r, r < cs.length → (mpiDisplacements s cs)[r]? = some (s + (cs.take r).sum) := by
  induction cs with
  | nil => intro s r h; simp at h
  | cons c cs ih =>
    intro s r h
    cases r with
    | zero => simp [mpiDisplacements]
    | succ r =>
      rw [mpiDisplacements, List.getElem?_cons_succ, ih _ r (by simpa using h)]
      simp only [List.take_succ_cons, List.sum_cons]
      congr 1; omega

theorem rankArrays_flatten {α : Type} (dim : Nat) (host : List α) :
    ∀ (cs : List Nat) (s : Nat),
      (((mpiDisplacements s cs).zip cs).map fun p => rankArray dim host p.1 p.2).flatten =
        (host.drop (s * dim)).take (dim * cs.sum)
  | [], s => by simp [mpiDisplacements]
  | c :: cs, s => by
    rw [mpiDisplacements, List.zip_cons_cons, List.map_cons, List.flatten_cons,
      rankArrays_flatten dim host cs (s + c), rankArray]
    have e : (s + c) * dim = s * dim + dim * c := by ring
    rw [e, ← List.drop_drop, ← List.take_add, List.sum_cons, Nat.mul_add]

/-- Every event lies in exactly one run of consecutive events. -/
theorem unique_rank (cs : List Nat) :
    ∀ (s i : Nat), s ≤ i → i < s + cs.sum →
      ∃! r : Nat, ∃ d c, (mpiDisplacements s cs)[r]? = some d ∧ cs[r]? = some c ∧ d ≤ i ∧ i < d + c := by
  induction cs with
  | nil => intro s i h1 h2; simp at h2; omega
  | cons c cs ih =>
    intro s i h1 h2
    rw [List.sum_cons] at h2
    by_cases hi : i < s + c
    · refine ⟨0, ⟨s, c, rfl, rfl, h1, hi⟩, ?_⟩
      rintro r ⟨d, c', h3, h4, h5, h6⟩
      cases r with
      | zero => rfl
      | succ r =>
        exfalso
        rw [mpiDisplacements, List.getElem?_cons_succ] at h3
        have hr : r < cs.length := by
          have := List.getElem?_eq_some_iff.1 h3
          obtain ⟨h, _⟩ := this
          rw [mpiDisplacements_length] at h
          exact h
        rw [mpiDisplacements_get _ _ _ hr] at h3
        have := Option.some.inj h3
        omega
    · obtain ⟨r, ⟨d, c', h3, h4, h5, h6⟩, huniq⟩ := ih (s + c) i (by omega) (by omega)
      refine ⟨r + 1, ⟨d, c', by rw [mpiDisplacements, List.getElem?_cons_succ]; exact h3,
        by rw [List.getElem?_cons_succ]; exact h4, h5, h6⟩, ?_⟩
      rintro r' ⟨d', c'', h7, h8, h9, h10⟩
      cases r' with
      | zero =>
        exfalso
        simp only [mpiDisplacements, List.getElem?_cons_zero, Option.some.injEq] at h7 h8
        omega
      | succ r' =>
        congr 1
        rw [mpiDisplacements, List.getElem?_cons_succ] at h7
        rw [List.getElem?_cons_succ] at h8
        exact huniq r' ⟨d', c'', h7, h8, h9, h10⟩

/-! ### re-indexing -/
section reindex
variable {α : Type} (num : Nat → α)

theorem reindexEvent_length (base j : Nat) :
    ∀ (fs : List Bool) (k : Nat) (arr : List α),
      (reindexEvent num base j k fs arr).length = arr.length
  | [], _, _ => rfl
  | f :: fs, k, arr => by
    rw [reindexEvent, reindexEvent_length base j fs]
    split <;> simp

theorem reindexEvent_get (base j : Nat) :
    ∀ (fs : List Bool) (k : Nat) (arr : List α) (q : Nat), base + k + fs.length ≤ arr.length →
      (reindexEvent num base j k fs arr)[q]? =
        if base + k ≤ q ∧ fs[q - (base + k)]? = some true then some (num j) else arr[q]?
  | [], k, arr, q, _ => by simp [reindexEvent]
  | f :: fs, k, arr, q, hl => by
    simp only [List.length_cons] at hl
    have hlen : (if f then arr.set (base + k) (num j) else arr).length = arr.length := by
      cases f <;> simp
    rw [reindexEvent, reindexEvent_get base j fs (k + 1) _ q (by omega)]
    by_cases hq : q = base + k
    · subst hq
      have h1 : ¬ (base + (k + 1) ≤ base + k ∧ fs[base + k - (base + (k + 1))]? = some true) := by
        omega
      rw [if_neg h1]
      cases f with
      | true => simp [List.getElem?_set, show base + k < arr.length by omega]
      | false => simp
    · by_cases hq2 : base + (k + 1) ≤ q
      · have e : q - (base + k) = (q - (base + (k + 1))) + 1 := by omega
        rw [e, List.getElem?_cons_succ]
        have h3 : base + k ≤ q := by omega
        simp only [hq2, h3, true_and]
        split
        · rfl
        · split
          · rw [List.getElem?_set_ne (by omega)]
          · rfl
      · have h3 : ¬ base + k ≤ q := by omega
        rw [if_neg (c := base + (k + 1) ≤ q ∧ _) (fun h => hq2 h.1),
          if_neg (c := base + k ≤ q ∧ _) (fun h => h3 h.1)]
        cases f with
        | true => rw [if_pos rfl, List.getElem?_set_ne (by omega)]
        | false => rw [if_neg (by simp)]

theorem reindexRank_length (fixme : List Bool) (start : Nat) :
    ∀ (n : Nat) (arr : List α), (reindexRank num fixme start n arr).length = arr.length
  | 0, _ => rfl
  | n + 1, arr => by rw [reindexRank, reindexEvent_length, reindexRank_length fixme start n]

/-- Slot `k` of event `i` after re-indexing one rank. -/
theorem reindexRank_get (fixme : List Bool) (start : Nat) :
    ∀ (n : Nat) (arr : List α) (i k : Nat), (n + start) * fixme.length ≤ arr.length →
      k < fixme.length →
      (reindexRank num fixme start n arr)[i * fixme.length + k]? =
        if start ≤ i ∧ i < start + n ∧ fixme[k]? = some true then some (num (i - start))
        else arr[i * fixme.length + k]?
  | 0, arr, i, k, _, _ => by
    rw [if_neg (by omega)]; rfl
  | n + 1, arr, i, k, hl, hk => by
    have hl' : (n + start) * fixme.length + fixme.length ≤ arr.length := by
      rw [← Nat.succ_mul]
      calc (n + start).succ * fixme.length = (n + 1 + start) * fixme.length := by congr 1; omega
        _ ≤ _ := hl
    rw [reindexRank, reindexEvent_get _ _ _ _ _ _ _ (by rw [reindexRank_length]; omega),
      reindexRank_get fixme start n arr i k (by omega) hk]
    by_cases hi : i = n + start
    · subst hi
      have e : (n + start) * fixme.length + k - ((n + start) * fixme.length + 0) = k := by omega
      rw [e]
      by_cases hf : fixme[k]? = some true
      · rw [if_pos ⟨by omega, hf⟩, if_pos ⟨by omega, by omega, hf⟩]
        congr 2; omega
      · rw [if_neg (by tauto), if_neg (by tauto), if_neg (by tauto)]
    · have h1 : ¬ ((n + start) * fixme.length + 0 ≤ i * fixme.length + k ∧
          fixme[i * fixme.length + k - ((n + start) * fixme.length + 0)]? = some true) := by
        rintro ⟨h1, h2⟩
        have h3 : i * fixme.length + k - ((n + start) * fixme.length + 0) < fixme.length :=
          (List.getElem?_eq_some_iff.1 h2).1
        rcases Nat.lt_or_gt_of_ne hi with h | h
        · have := Nat.mul_le_mul_right fixme.length (show i + 1 ≤ n + start by omega)
          rw [Nat.succ_mul] at this
          omega
        · have := Nat.mul_le_mul_right fixme.length (show n + start + 1 ≤ i by omega)
          rw [Nat.succ_mul] at this
          omega
      rw [if_neg h1]
      by_cases hf : fixme[k]? = some true
      · by_cases h2 : start ≤ i ∧ i < start + n
        · rw [if_pos ⟨h2.1, h2.2, hf⟩, if_pos ⟨h2.1, by omega, hf⟩]
        · rw [if_neg (by tauto), if_neg (by omega)]
      · rw [if_neg (by tauto), if_neg (by tauto)]

theorem reindexRanks_length (fixme : List Bool) :
    ∀ (rs : List (Nat × Nat)) (arr : List α), (reindexRanks num fixme rs arr).length = arr.length
  | [], _ => rfl
  | (s, c) :: rs, arr => by
    rw [reindexRanks, reindexRanks_length fixme rs, reindexRank_length]

/-- Slot `k` of event `i` after re-indexing the ranks that hold the runs `cs` from `s` on. -/
theorem reindexRanks_get (fixme : List Bool) (k : Nat) (hk : k < fixme.length) :
    ∀ (cs : List Nat) (s : Nat) (arr : List α) (i : Nat),
      (s + cs.sum) * fixme.length ≤ arr.length →
      (i < s → (reindexRanks num fixme ((mpiDisplacements s cs).zip cs) arr)[i * fixme.length + k]? =
        arr[i * fixme.length + k]?) ∧
      (∀ r d c : Nat, (mpiDisplacements s cs)[r]? = some d → cs[r]? = some c → d ≤ i → i < d + c →
        (reindexRanks num fixme ((mpiDisplacements s cs).zip cs) arr)[i * fixme.length + k]? =
          if fixme[k]? = some true then some (num (i - d)) else arr[i * fixme.length + k]?)
  | [], s, arr, i, _ => by
    constructor
    · intro _; rfl
    · intro r d c h; simp [mpiDisplacements] at h
  | c :: cs, s, arr, i, hl => by
    rw [List.sum_cons] at hl
    have hle : (c + s) * fixme.length ≤ arr.length :=
      le_trans (Nat.mul_le_mul_right _ (by omega)) hl
    obtain ⟨ih1, ih2⟩ := reindexRanks_get fixme k hk cs (s + c) (reindexRank num fixme s c arr) i
      (by rw [reindexRank_length, Nat.add_assoc]; exact hl)
    have hg := reindexRank_get num fixme s c arr i k hle hk
    constructor
    · intro hi
      rw [mpiDisplacements, List.zip_cons_cons, reindexRanks, ih1 (by omega), hg,
        if_neg (by omega)]
    · intro r d c' h1 h2 h3 h4
      rw [mpiDisplacements, List.zip_cons_cons, reindexRanks]
      cases r with
      | zero =>
        simp only [mpiDisplacements, List.getElem?_cons_zero, Option.some.injEq] at h1 h2
        subst h1 h2
        rw [ih1 (by omega), hg]
        by_cases hf : fixme[k]? = some true
        · rw [if_pos ⟨h3, h4, hf⟩, if_pos hf]
        · rw [if_neg (by tauto), if_neg hf]
      | succ r =>
        rw [mpiDisplacements, List.getElem?_cons_succ] at h1
        rw [List.getElem?_cons_succ] at h2
        have hr : r < cs.length := (List.getElem?_eq_some_iff.1 h2).1
        rw [ih2 r d c' h1 h2 h3 h4, hg]
        rw [mpiDisplacements_get _ _ _ hr] at h1
        have hd := Option.some.inj h1
        by_cases hf : fixme[k]? = some true
        · rw [if_pos hf, if_pos hf]
        · rw [if_neg hf, if_neg hf, if_neg (by tauto)]

end reindex

/-! ### reductions -/

theorem Reduction.result_eq [AddCommMonoid K] : ∀ t : Reduction K, t.result = t.items.sum
  | .start => rfl
  | .item x => by simp [Reduction.result, Reduction.items]
  | .plus l r => by
    rw [Reduction.result, Reduction.items, List.sum_append, Reduction.result_eq l,
      Reduction.result_eq r]

end GooFit
