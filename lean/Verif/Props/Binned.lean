import Verif.Lemmas.Binned
import Verif.Props.DataSet
import Mathlib.Data.Rat.Floor
import Mathlib.Tactic.NormNum
set_option autoImplicit false
namespace GooFit
open Spec
variable {K : Type} [Field K] [LinearOrder K] [IsStrictOrderedRing K] [FloorRing K]

theorem breach_wf (st : BSt K) (h : BReach st) : st.ds.WF := by
  obtain ⟨s0, obs, d0, ops, h1, h2, h3, rfl⟩ := h
  exact wf_run ops _ (wf_new s0 obs h2 h3 d0 h1).1

namespace Demo
/-- Observables limited to [0,2] with two bins. -/
def qstore (v : Nat → ℚ) : Store ℚ := fun o => ⟨v o, 0, 2, 2, false⟩
def bds (obs : List Nat) (vals : List ℚ) : BDS ℚ := ⟨obs, obs.map fun _ => 2, vals, [], 0⟩

theorem breach_demo2 (v : Nat → ℚ) : BReach (⟨qstore v, bds [0, 1] [0, 0, 0, 0]⟩ : BSt ℚ) :=
  ⟨qstore v, [0, 1], bds [0, 1] [0, 0, 0, 0], [], rfl, by intro o _; simp [qstore], by simp [qstore], rfl⟩

theorem breach_demo1 (v : Nat → ℚ) : BReach (⟨qstore v, bds [0] [0, 0]⟩ : BSt ℚ) :=
  ⟨qstore v, [0], bds [0] [0, 0], [], rfl, by intro o _; simp [qstore], by simp [qstore], rfl⟩
end Demo

/-! ### C08 -/

/-- **C08.** For every binned dataset whose number of cells fits in an `int`: `getNumBins` is the product
of the bin counts, and `localToGlobal`/`globalToLocal` are mutually inverse between the numbers below
`getNumBins` and the tuples of valid local bins. (The restriction is needed, see the violation.) -/
theorem C08_local_global_inverse_partial (st : BSt K) (hr : BReach st) :
    getNumBins st.ds.binsizes = st.ds.binsizes.prod ∧
    (∀ g, g < getNumBins st.ds.binsizes → ∃ ls, st.ds.globalToLocal g = some ls ∧
      ValidLocals st.ds.binsizes ls ∧ st.ds.localToGlobal ls = some g) ∧
    (∀ ls, ValidLocals st.ds.binsizes ls → ∃ g, g < getNumBins st.ds.binsizes ∧
      st.ds.localToGlobal ls = some g ∧ st.ds.globalToLocal g = some ls) := by
  have h := breach_wf st hr
  have hN := getNumBins_eq _ h.pos h.small
  refine ⟨hN, ?_, ?_⟩
  · intro g hg
    rw [hN] at hg
    refine ⟨_, globalToLocal_eq _ h g, digits_valid _ _ h.pos, ?_⟩
    rw [localToGlobal_eq _ h _ (digits_valid _ _ h.pos), globalOf_digits _ _ hg]
  · intro ls hv
    refine ⟨_, ?_, localToGlobal_eq _ h _ hv, ?_⟩
    · rw [hN]; exact globalOf_lt _ _ hv h.pos
    · rw [globalToLocal_eq _ h, digits_globalOf _ _ hv]

example : BReach (⟨Demo.qstore fun _ => 1, Demo.bds [0, 1] [0, 0, 0, 0]⟩ : BSt ℚ) ∧
    (Demo.bds [0, 1] [0, 0, 0, 0]).globalToLocal 2 = some [0, 1] := ⟨Demo.breach_demo2 _, rfl⟩

/-- **C08 is violated** by the code for large binnings: with 65536 × 65537 bins the constructor succeeds
with only 65536 bins, and the distinct cells (0,0) and (0,65536) share global number 0. -/
theorem C08_violation_wraps :
    let s : Store ℚ := fun o => ⟨0, 0, 1, if o = 0 then 65536 else 65537, false⟩
    (∃ d, BDS.new s [0, 1] = .ok d ∧ d.values.length = 65536 ∧
      d.localToGlobal [0, 65536] = some 0 ∧ d.localToGlobal [0, 0] = some 0) := by
  refine ⟨⟨[0, 1], [65536, 65537], List.replicate 65536 0, [], 0⟩, ?_, List.length_replicate, by rfl, by rfl⟩
  have h : getNumBins [65536, 65537] = 65536 := by decide
  show (if getNumBins [65536, 65537] < 2 ^ 60 then
    Made.ok (⟨[0, 1], [65536, 65537], List.replicate (getNumBins [65536, 65537]) 0, [], 0⟩ : BDS ℚ)
    else .lengthError) = _
  rw [h, if_pos (by decide)]

/-- **C08 is violated** in another way just above 2^31 cells: the constructor throws. -/
theorem C08_violation_negative_size :
    BDS.new (fun _ => (⟨0, 0, 1, 65536, false⟩ : ObsCell ℚ)) [0] ≠ .lengthError ∧
    BDS.new (fun o => (⟨0, 0, 1, if o = 0 then 65536 else 32768, false⟩ : ObsCell ℚ)) [0, 1] = .lengthError := by
  constructor
  · have h : getNumBins [65536] = 65536 := by decide
    show (if getNumBins [65536] < 2 ^ 60 then
      Made.ok (⟨[0], [65536], List.replicate (getNumBins [65536]) 0, [], 0⟩ : BDS ℚ)
      else .lengthError) ≠ _
    rw [h, if_pos (by decide)]
    intro hh; cases hh
  · have h : getNumBins [65536, 32768] = 2 ^ 64 - 2 ^ 31 := by decide
    show (if getNumBins [65536, 32768] < 2 ^ 60 then
      Made.ok (⟨[0, 1], [65536, 32768], List.replicate (getNumBins [65536, 32768]) 0, [], 0⟩ : BDS ℚ)
      else .lengthError) = _
    rw [if_neg (by rw [h]; decide)]

/-! ### C09 -/

theorem getBinNumber_eq (st : BSt K) (h : st.ds.WF)
    (hin : ∀ o ∈ st.ds.obs, (st.store o).lower ≤ (st.store o).value ∧ (st.store o).value < (st.store o).upper) :
    ∃ g, st.getBinNumber = some g ∧ g < st.ds.binsizes.prod ∧
      InCell (axesOf st) g (st.ds.obs.map fun o => (st.store o).value) := by
  have hax := axesOf_n st h.len
  have hlen : (st.ds.obs.map fun o => (st.store o).value).length = (axesOf st).length := by
    simp [axesOf, h.len]
  have hn : ∀ a ∈ axesOf st, 0 < a.n := by
    intro a ha
    apply h.pos
    rw [← hax]
    exact List.mem_map.mpr ⟨a, ha, rfl⟩
  have hin' : ∀ (j : Nat) (a : Axis K) (v : K), (axesOf st)[j]? = some a →
      (st.ds.obs.map fun o => (st.store o).value)[j]? = some v → a.lower ≤ v ∧ v < a.upper := by
    intro j a v ha hv
    unfold axesOf at ha
    rw [List.getElem?_map] at ha hv
    cases ho : st.ds.obs[j]? with
    | none => simp [ho] at hv
    | some o =>
      cases hz : (st.ds.obs.zip st.ds.binsizes)[j]? with
      | none => simp [hz] at ha
      | some p =>
        have h1 := (List.getElem?_zip_eq_some.mp hz).1
        rw [ho] at h1
        rw [hz] at ha
        rw [ho] at hv
        have h2 : o = p.1 := by simpa using h1
        have hm := hin o (List.mem_of_getElem? ho)
        simp at ha hv
        rw [← ha, ← hv, ← h2]
        exact hm
  obtain ⟨ls, hv, hls, _, hcell⟩ := cell_exists (axesOf st) _ hlen hn hin'
  have hb := valuesToBins_eq st.store st.ds.obs st.ds.binsizes h.len h.pos hin
  rw [hax] at hv hcell
  refine ⟨globalOf st.ds.binsizes ls, ?_, globalOf_lt _ _ hv h.pos, hcell⟩
  unfold BSt.getBinNumber
  rw [hb]
  have : (((st.ds.obs.zip st.ds.binsizes).map fun p =>
      (⟨(st.store p.1).lower, (st.store p.1).upper, p.2⟩ : Axis K)).zip
        (st.ds.obs.map fun o => (st.store o).value)).map (fun p => ⌊(p.2 - p.1.lower) / p.1.width⌋.toNat) = ls := by
    rw [hls]; rfl
  rw [this]
  exact localToGlobal_eq _ h _ hv

/-- **C09 (below the upper limits).** In every reachable state, an event whose values lie in
`[lower, upper)` is accepted and adds its weight to exactly the cell that contains it; all other
contents, the bin errors and the observables are unchanged. Exact arithmetic. Missing: values equal to
the upper limit, where the property fails (see the violations). -/
theorem C09_event_lands_in_its_cell_partial (st : BSt K) (hr : BReach st)
    (hin : ∀ o ∈ st.ds.obs, (st.store o).lower ≤ (st.store o).value ∧ (st.store o).value < (st.store o).upper)
    (w : K) :
    (st.addWeightedEvent w).2 = .done ∧ (st.addWeightedEvent w).1.store = st.store ∧
    (st.addWeightedEvent w).1.ds.errors = st.ds.errors ∧
    (st.addWeightedEvent w).1.ds.num = st.ds.num + 1 ∧
    ∃ g, g < cells (axesOf st) ∧
      (∀ g', g' < cells (axesOf st) →
        (InCell (axesOf st) g' (st.ds.obs.map fun o => (st.store o).value) ↔ g' = g)) ∧
      ∀ i x, st.ds.getBinContent i = .val x →
        (st.addWeightedEvent w).1.ds.getBinContent i = .val (if i = g then x + w else x) := by
  have h := breach_wf st hr
  obtain ⟨g, hg, hlt, hcell⟩ := getBinNumber_eq st h hin
  have hax := axesOf_n st h.len
  have hcells : cells (axesOf st) = st.ds.binsizes.prod := by unfold cells; rw [hax]
  have hck : checkAllVars st.store st.ds.obs = true := by
    rw [checkAllVars_iff]
    intro o ho
    obtain ⟨h0, h1⟩ := hin o ho
    simp [InLimits, FpCmp.le, FpCmp.eq, h0, h1.le]
  have hlt' : g < st.ds.values.length := by rw [h.vals]; exact hlt
  have hget : st.ds.values[g]? = some st.ds.values[g] := List.getElem?_eq_getElem hlt'
  have hadd : st.addWeightedEvent w = ({ st with ds := { st.ds with
      values := st.ds.values.set g (st.ds.values[g] + w), num := st.ds.num + 1 } }, .done) := by
    simp [BSt.addWeightedEvent, hck, hg, hget]
  rw [hadd]
  refine ⟨rfl, rfl, rfl, rfl, g, by rw [hcells]; exact hlt, ?_, ?_⟩
  · intro g' hg'
    constructor
    · intro hc'
      apply cell_unique (axesOf st) _ (by simp [axesOf, h.len]) _ _ g' g hg' (by rw [hcells]; exact hlt) hc' hcell
      · intro a ha
        apply h.pos
        rw [← hax]
        exact List.mem_map.mpr ⟨a, ha, rfl⟩
      · intro a ha
        obtain ⟨p, hp, rfl⟩ := List.mem_map.mp ha
        obtain ⟨h0, h1⟩ := hin p.1 (List.of_mem_zip hp).1
        exact lt_of_le_of_lt h0 h1
    · rintro rfl; exact hcell
  · intro i x hx
    unfold BDS.getBinContent at hx ⊢
    simp only [List.getElem?_set]
    by_cases hig : g = i
    · subst hig
      rw [hget] at hx
      have : st.ds.values[g] = x := by simpa using hx
      simp [hlt', this]
    · have : ¬ i = g := fun h => hig h.symm
      simp only [hig, if_false, this]
      exact hx

/-- `addEvent` is `addWeightedEvent(1)`. -/
theorem C09_add_event_weight_one (st : BSt K) : st.addEvent = st.addWeightedEvent 1 := rfl

/-- **C09, `addEvent` with values**: as many values as observables are assigned in order and the event
is added with weight one; any other number throws and changes nothing. -/
theorem C09_add_event_values (st : BSt K) (hn : st.ds.obs.Nodup) (v : K) (vs : List K) :
    (vs.length + 1 = st.ds.obs.length →
      st.addEventV v vs = BSt.addWeightedEvent { st with store := assign st.ds.obs (v :: vs) st.store } 1) ∧
    (vs.length + 1 ≠ st.ds.obs.length → st.addEventV v vs = (st, .threw .general)) := by
  constructor
  · intro h
    rw [BSt.addEventV, if_neg (by simpa using h), setAll_eq_assign _ _ _ hn]
    rfl
  · intro h
    rw [BSt.addEventV, if_pos (by simpa using h)]

example : (Demo.bds [0, 1] [0, 0, 0, 0]).obs.Nodup ∧ ([1 / 2] : List ℚ).length + 1 = (Demo.bds [0, 1] [0, 0, 0, 0]).obs.length := by
  simp [Demo.bds]

example : BReach (⟨Demo.qstore fun o => if o = 0 then 3/2 else 0, Demo.bds [0, 1] [0, 0, 0, 0]⟩ : BSt ℚ) ∧
    (∀ o ∈ [0, 1], (0 : ℚ) ≤ (if o = 0 then 3/2 else 0) ∧ (if o = 0 then 3/2 else 0) < (2 : ℚ)) := by
  refine ⟨Demo.breach_demo2 _, ?_⟩
  intro o ho
  fin_cases ho <;> norm_num

/-- **C09 is violated** at the upper limit in one dimension: the value 2 of an observable limited to
[0,2] is in range, but adding the event throws `std::out_of_range`. -/
theorem C09_violation_upper_limit_1d :
    let st : BSt ℚ := ⟨Demo.qstore fun _ => 2, Demo.bds [0] [0, 0]⟩
    BReach st ∧ checkAllVars st.store st.ds.obs = true ∧ st.addEvent = (st, .threw .stdOutOfRange) := by
  refine ⟨Demo.breach_demo1 _, by decide, ?_⟩
  have h : (BSt.getBinNumber (⟨Demo.qstore fun _ => 2, Demo.bds [0] [0, 0]⟩ : BSt ℚ)) = some 2 := by
    simp only [BSt.getBinNumber, Demo.bds, List.map, valuesToBins, valueToBin, binSize, Demo.qstore]
    norm_num
    rfl
  have hc : checkAllVars (Demo.qstore fun _ => 2) [0] = true := by decide
  simp only [BSt.addEvent, BSt.addWeightedEvent, h]
  simp [Demo.bds, hc]

/-- **C09 is violated** at the upper limit in two dimensions: the event (2, 0) in the box [0,2]×[0,2]
with 2×2 bins is filed in bin 2, whose cell is [0,1)×[1,2), not in bin 1. -/
theorem C09_violation_upper_limit_2d :
    let st : BSt ℚ := ⟨Demo.qstore fun o => if o = 0 then 2 else 0, Demo.bds [0, 1] [0, 0, 0, 0]⟩
    BReach st ∧ (st.addEvent).2 = .done ∧ (st.addEvent).1.ds.values = [0, 0, 1, 0] := by
  refine ⟨Demo.breach_demo2 _, ?_⟩
  have h : (BSt.getBinNumber (⟨Demo.qstore fun o => if o = 0 then 2 else 0, Demo.bds [0, 1] [0, 0, 0, 0]⟩ : BSt ℚ))
      = some 2 := by
    simp only [BSt.getBinNumber, Demo.bds, List.map, valuesToBins, valueToBin, binSize, Demo.qstore]
    norm_num
    rfl
  have hc : checkAllVars (Demo.qstore fun o => if o = 0 then 2 else 0) [0, 1] = true := by decide
  simp only [BSt.addEvent, BSt.addWeightedEvent, h]
  simp [Demo.bds, hc]

/-! ### C04, binned -/

/-- **C04 (binned).** Whatever the state, if `addEvent`, `addWeightedEvent` or the variadic form throws,
contents, errors and counter are unchanged. -/
theorem C04_binned_rejected_event_no_effect (st : BSt K) :
    (∀ w e, (st.addWeightedEvent w).2 = .threw e → (st.addWeightedEvent w).1 = st) ∧
    (∀ e, (st.addEvent).2 = .threw e → (st.addEvent).1 = st) ∧
    (∀ v vs e, (st.addEventV v vs).2 = .threw e → (st.addEventV v vs).1.ds = st.ds) := by
  have hw : ∀ (st : BSt K) w e, (st.addWeightedEvent w).2 = .threw e → (st.addWeightedEvent w).1 = st := by
    intro st w e
    unfold BSt.addWeightedEvent
    split
    · split
      · simp
      · split <;> simp
    · simp
  refine ⟨hw st, hw st 1, ?_⟩
  intro v vs e
  unfold BSt.addEventV
  split
  · intro _; rfl
  · intro h
    show (BSt.addEvent _).1.ds = _
    have := hw _ 1 e h
    unfold BSt.addEvent
    rw [this]

example : ∃ st : BSt ℚ, (st.addEvent).2 = .threw .stdOutOfRange :=
  ⟨_, by rw [C09_violation_upper_limit_1d.2.2]⟩

/-! ### C10 -/

theorem sum_set_add (l : List K) (i : Nat) (x w : K) (h : l[i]? = some x) : (l.set i (x + w)).sum = l.sum + w := by
  induction l generalizing i with
  | nil => simp at h
  | cons a as ih =>
    cases i with
    | zero =>
      have : a = x := by simpa using h
      simp [this]; ring
    | succ i =>
      have := ih i (by simpa using h)
      simp [this]; ring

theorem addWeighted_sum (st : BSt K) (w : K) :
    ((st.addWeightedEvent w).2 = .done → (st.addWeightedEvent w).1.ds.values.sum = st.ds.values.sum + w ∧
      (st.addWeightedEvent w).1.ds.num = st.ds.num + 1) ∧
    ((st.addWeightedEvent w).2 ≠ .done → (st.addWeightedEvent w).1 = st) := by
  unfold BSt.addWeightedEvent
  split
  · split
    · simp
    · split
      · simp
      · next h => simp [sum_set_add _ _ _ w h]
  · simp

/-- **C10.** From a newly built dataset, after any program of `addEvent`, `addEvent(values...)`,
`addWeightedEvent`, `setBinError` and changes of observables, the contents add up to the weights
accepted and `getNumEvents` is the number of accepted events. (Exact arithmetic; `setBinContent`
overwrites contents and is excluded.) -/
theorem C10_contents_sum (s0 : Store K) (obs : List Nat) (d0 : BDS K) (hd : BDS.new s0 obs = .ok d0)
    (ops : List (BOp K)) (hno : ∀ op ∈ ops, ∀ i x, op ≠ .setBinContent i x) :
    (BSt.run ⟨s0, d0⟩ ops).1.ds.values.sum = (acceptedWeights ops (BSt.run ⟨s0, d0⟩ ops).2).sum ∧
    (BSt.run ⟨s0, d0⟩ ops).1.ds.num = (acceptedWeights ops (BSt.run ⟨s0, d0⟩ ops).2).length := by
  have key : ∀ (ops : List (BOp K)) (st : BSt K), (∀ op ∈ ops, ∀ i x, op ≠ .setBinContent i x) →
      (st.run ops).1.ds.values.sum = st.ds.values.sum + (acceptedWeights ops (st.run ops).2).sum ∧
      (st.run ops).1.ds.num = st.ds.num + (acceptedWeights ops (st.run ops).2).length := by
    intro ops
    induction ops with
    | nil => intro st _; simp [BSt.run, acceptedWeights]
    | cons op ops ih =>
      intro st hno
      have IH := ih (st.step op).1 (fun op' h => hno op' (by simp [h]))
      simp only [BSt.run]
      cases op with
      | setObs o c => simpa [BSt.step, acceptedWeights] using IH
      | setBinContent i x => exact absurd rfl (hno _ (by simp) i x)
      | setBinError i x =>
        have h1 : (st.step (.setBinError i x)).1.ds.values = st.ds.values ∧
            (st.step (.setBinError i x)).1.ds.num = st.ds.num := by
          simp only [BSt.step, BSt.setBinError]
          generalize (if st.ds.errors.length = 0 then List.replicate st.ds.values.length 0 else st.ds.errors) = errs
          split <;> exact ⟨rfl, rfl⟩
        rw [h1.1, h1.2] at IH
        have h2 : acceptedWeights (.setBinError i x :: ops) ((st.step (.setBinError i x)).2 ::
            (BSt.run (st.step (.setBinError i x)).1 ops).2) =
            acceptedWeights ops (BSt.run (st.step (.setBinError i x)).1 ops).2 := by
          cases (st.step (.setBinError i x)).2 <;> rfl
        rw [h2]; exact IH
      | addEvent =>
        have h0 := addWeighted_sum st 1
        simp only [BSt.step, BSt.addEvent] at IH ⊢
        rcases hr : st.addWeightedEvent 1 with ⟨st2, out⟩
        rw [hr] at IH h0
        cases out with
        | done =>
          obtain ⟨h1, h2⟩ := h0.1 rfl
          simp only at h1 h2
          simp only [h1, h2] at IH
          simp only [acceptedWeights, List.sum_cons, List.length_cons]
          exact ⟨by rw [IH.1]; ring, by rw [IH.2]; ring⟩
        | val x => have := h0.2 (by simp); simp only at this; subst this; exact IH
        | threw e => have := h0.2 (by simp); simp only at this; subst this; exact IH
        | ub => have := h0.2 (by simp); simp only at this; subst this; exact IH
      | addWeightedEvent w =>
        have h0 := addWeighted_sum st w
        simp only [BSt.step] at IH ⊢
        rcases hr : st.addWeightedEvent w with ⟨st2, out⟩
        rw [hr] at IH h0
        cases out with
        | done =>
          obtain ⟨h1, h2⟩ := h0.1 rfl
          simp only at h1 h2
          simp only [h1, h2] at IH
          simp only [acceptedWeights, List.sum_cons, List.length_cons]
          exact ⟨by rw [IH.1]; ring, by rw [IH.2]; ring⟩
        | val x => have := h0.2 (by simp); simp only at this; subst this; exact IH
        | threw e => have := h0.2 (by simp); simp only at this; subst this; exact IH
        | ub => have := h0.2 (by simp); simp only at this; subst this; exact IH
      | addEventV v vs =>
        simp only [BSt.step, BSt.addEventV] at IH ⊢
        split
        · next hl => rw [if_pos hl] at IH; simpa [acceptedWeights] using IH
        · next hl =>
          rw [if_neg hl] at IH
          have h0 := addWeighted_sum { st with store := setAll st.ds.obs (v :: vs) st.store } 1
          simp only [BSt.addEvent] at IH ⊢
          rcases hr : BSt.addWeightedEvent { st with store := setAll st.ds.obs (v :: vs) st.store } 1 with ⟨st2, out⟩
          rw [hr] at IH h0
          cases out with
          | done =>
            obtain ⟨h1, h2⟩ := h0.1 rfl
            simp only at h1 h2
            simp only [h1, h2] at IH
            simp only [acceptedWeights, List.sum_cons, List.length_cons]
            exact ⟨by rw [IH.1]; ring, by rw [IH.2]; ring⟩
          | val x => have := h0.2 (by simp); simp only at this; subst this; exact IH
          | threw e => have := h0.2 (by simp); simp only at this; subst this; exact IH
          | ub => have := h0.2 (by simp); simp only at this; subst this; exact IH
  have hz : d0.values.sum = 0 ∧ d0.num = 0 := by
    unfold BDS.new at hd
    simp only at hd
    split at hd
    · injection hd with hd
      subst hd
      simp
    · cases hd
  have := key ops ⟨s0, d0⟩ hno
  simpa [hz.1, hz.2] using this

/-- Two accepted events (weights 1 and 1/2) in a two-bin dataset. -/
example : BDS.new (Demo.qstore fun _ => 1) [0] = .ok (Demo.bds [0] [0, 0]) ∧
    acceptedWeights (K := ℚ) [.addEvent, .addWeightedEvent (1/2)] [.done, .done] = [1, 1/2] := ⟨rfl, rfl⟩

/-- **C10 is violated** by `getNumWeightedEvents`: contents 1/2 and 1/2 give 0. -/
theorem C10_violation_weighted_count :
    (Demo.bds [0] [1/2, 1/2]).getNumWeightedEvents = .val 0 ∧ (Demo.bds [0] [1/2, 1/2]).values.sum = 1 := by
  constructor
  · simp only [BDS.getNumWeightedEvents, Demo.bds, weightedAcc, toInt32]
    norm_num
  · norm_num [Demo.bds]

/-- **C10 (`getNumWeightedEvents`)**: correct when all contents are natural numbers adding up to less
than 2^31. Missing: non-integer weights (violated). -/
theorem C10_weighted_count_partial (d : BDS K) (zs : List Nat) (hz : d.values = zs.map (fun z : Nat => (z : K)))
    (hs : zs.sum < 2 ^ 31) : d.getNumWeightedEvents = .val d.values.sum := by
  have key : ∀ (zs : List Nat) (a : Nat), a + zs.sum < 2 ^ 31 →
      weightedAcc (a : Int) (zs.map (fun z : Nat => (z : K))) = some ((a + zs.sum : Nat) : Int) := by
    intro zs
    induction zs with
    | nil => intro a _; simp [weightedAcc]
    | cons z zs ih =>
      intro a ha
      rw [List.sum_cons] at ha
      have h1 : toInt32 (((a : Int) : K) + (z : K)) = some ((a + z : Nat) : Int) := by
        unfold toInt32
        have h0 : (0 : K) ≤ ((a : Int) : K) + (z : K) := by
          have : (0 : K) ≤ (a : K) := by positivity
          have : (0 : K) ≤ (z : K) := by positivity
          push_cast; linarith
        have h2 : ⌊((a : Int) : K) + (z : K)⌋ = ((a + z : Nat) : Int) := by
          have : ((a : Int) : K) + (z : K) = (((a + z : Nat) : Int) : K) := by push_cast; ring
          rw [this, Int.floor_intCast]
        simp only [h0, if_true, h2]
        rw [if_pos]
        constructor
        · have : (0 : Int) ≤ ((a + z : Nat) : Int) := by omega
          omega
        · omega
      simp only [List.map_cons, weightedAcc, h1, Option.bind_some]
      rw [ih (a + z) (by omega), List.sum_cons, Nat.add_assoc]
  have := key zs 0 (by simpa using hs)
  simp only [Nat.cast_zero, Nat.zero_add] at this
  unfold BDS.getNumWeightedEvents
  rw [hz, this]
  simp only [Out.val.injEq]
  have : ∀ zs : List Nat, (((zs.sum : Nat) : Int) : K) = (zs.map (fun z : Nat => (z : K))).sum := by
    intro zs
    induction zs with
    | nil => simp
    | cons z zs ih => rw [List.sum_cons, List.map_cons, List.sum_cons, ← ih]; push_cast; ring
  exact this zs

example : (Demo.bds [0] [3, 4]).values = [3, 4].map (fun z : Nat => (z : ℚ)) ∧ [3, 4].sum < 2 ^ 31 := by
  constructor
  · simp [Demo.bds]
  · decide

/-! ### C11 -/

theorem errors_run (ops : List (BOp K)) : ∀ (st : BSt K) (errs : List K),
    st.ds.errors = errs → errs.length = st.ds.values.length →
    (st.run ops).1.ds.errors.length = st.ds.values.length ∧
    ∀ i e, errs[i]? = some e → (st.run ops).1.ds.errors[i]? = some ((lastError i ops).getD e) := by
  induction ops with
  | nil => intro st errs he hl; simp [BSt.run, lastError, he, hl]
  | cons op ops ih =>
    intro st errs he hl
    have hfr := (step_frame st op).2.2
    simp only [BSt.run]
    have haw : ∀ (st : BSt K) w, (st.addWeightedEvent w).1.ds.errors = st.ds.errors := by
      intro st w
      unfold BSt.addWeightedEvent
      split
      · split
        · rfl
        · split <;> rfl
      · rfl
    have easy : (∀ j x, op ≠ .setBinError j x) → (st.step op).1.ds.errors = errs := by
      intro hne
      cases op with
      | setObs o c => exact he
      | addEvent => rw [← he]; exact haw st 1
      | addEventV v vs =>
        simp only [BSt.step, BSt.addEventV]
        split
        · exact he
        · rw [← he]; exact haw _ 1
      | addWeightedEvent w => rw [← he]; exact haw st w
      | setBinContent i x =>
        simp only [BSt.step, BSt.setBinContent]
        split <;> exact he
      | setBinError i x => exact absurd rfl (hne i x)
    by_cases hop : ∃ j x, op = .setBinError j x
    · obtain ⟨j, x, rfl⟩ := hop
      by_cases hl0 : errs.length = 0
      · -- no bins at all
        have hv0 : st.ds.values.length = 0 := by omega
        have he0 : (st.step (.setBinError j x)).1.ds.errors = [] := by
          simp [BSt.step, BSt.setBinError, he, hl0, hv0]
        have IH := ih (st.step (.setBinError j x)).1 [] he0 (by rw [hfr, hv0]; rfl)
        refine ⟨by rw [IH.1, hfr], ?_⟩
        intro i e hi
        have : errs = [] := List.length_eq_zero_iff.mp hl0
        simp [this] at hi
      · have he1 : (st.step (.setBinError j x)).1.ds.errors = errs.set j.toNat x := by
          simp only [BSt.step, BSt.setBinError, he, hl0, if_false]
          split
          · rfl
          · next h => rw [List.set_eq_of_length_le (by omega)]
        have IH := ih (st.step (.setBinError j x)).1 (errs.set j.toNat x) he1 (by rw [hfr, List.length_set]; exact hl)
        refine ⟨by rw [IH.1, hfr], ?_⟩
        intro i e hi
        have hilt : i < errs.length := (List.getElem?_eq_some_iff.mp hi).1
        have h2 := IH.2 i (if j.toNat = i then x else e) (by
          rw [List.getElem?_set]
          by_cases hji : j.toNat = i
          · simp [hji, hilt]
          · simp [hji, hi])
        rw [h2]
        simp only [lastError]
        cases hlast : lastError i ops with
        | some y => simp
        | none =>
          by_cases hji : j.toNat = i <;> simp [hji]
    · push Not at hop
      have he1 := easy hop
      have IH := ih (st.step op).1 errs he1 (by rw [hfr]; exact hl)
      refine ⟨by rw [IH.1, hfr], ?_⟩
      intro i e hi
      rw [IH.2 i e hi]
      congr 1
      simp only [lastError]
      cases hlast : lastError i ops with
      | some y => simp
      | none =>
        cases op with
        | setBinError j x => exact absurd rfl (hop j x)
        | _ => rfl

theorem errors_run_none (ops : List (BOp K)) (hno : ∀ op ∈ ops, ∀ j x, op ≠ .setBinError j x) :
    ∀ (st : BSt K), (st.run ops).1.ds.errors = st.ds.errors := by
  induction ops with
  | nil => intro st; rfl
  | cons op ops ih =>
    intro st
    simp only [BSt.run]
    rw [ih (fun op' h => hno op' (by simp [h]))]
    have haw : ∀ (st : BSt K) w, (st.addWeightedEvent w).1.ds.errors = st.ds.errors := by
      intro st w
      unfold BSt.addWeightedEvent
      split
      · split
        · rfl
        · split <;> rfl
      · rfl
    cases op with
    | setObs o c => rfl
    | addEvent => exact haw st 1
    | addEventV v vs =>
      simp only [BSt.step, BSt.addEventV]
      split
      · rfl
      · exact haw _ 1
    | addWeightedEvent w => exact haw st w
    | setBinContent i x =>
      simp only [BSt.step, BSt.setBinContent]
      split <;> rfl
    | setBinError i x => exact absurd rfl (hno _ (by simp) i x)

/-- What `getBinError` returns after every program: the square root of the content as long as no error
was set anywhere; afterwards the last error set for the bin, and **zero** for the bins never set. -/
theorem C11_bin_errors_exact (sqrt : K → K) (s0 : Store K) (obs : List Nat) (d0 : BDS K)
    (hd : BDS.new s0 obs = .ok d0) (ops : List (BOp K)) (i : Nat) (hi : i < d0.values.length) :
    ((∀ op ∈ ops, ∀ j x, op ≠ .setBinError j x) →
      ∃ c, (BSt.run ⟨s0, d0⟩ ops).1.ds.getBinContent i = .val c ∧
        (BSt.run ⟨s0, d0⟩ ops).1.ds.getBinError sqrt i = .val (sqrt c)) ∧
    ((∃ op ∈ ops, ∃ j x, op = .setBinError j x) →
      (BSt.run ⟨s0, d0⟩ ops).1.ds.getBinError sqrt i = .val ((lastError i ops).getD 0)) := by
  have he0 : d0.errors = [] := by
    unfold BDS.new at hd
    simp only at hd
    split at hd
    · injection hd with hd
      subst hd
      rfl
    · cases hd
  have hfr := (run_frame ops ⟨s0, d0⟩).2.2
  constructor
  · intro hno
    have h1 := errors_run_none ops hno ⟨s0, d0⟩
    have hlt : i < (BSt.run ⟨s0, d0⟩ ops).1.ds.values.length := by rw [hfr]; exact hi
    refine ⟨_, by unfold BDS.getBinContent; rw [List.getElem?_eq_getElem hlt], ?_⟩
    unfold BDS.getBinError
    rw [h1, he0, List.getElem?_eq_getElem hlt]
    simp
  · rintro ⟨op, hop, j, x, rfl⟩
    -- split the program at its first setBinError
    have hsplit : ∀ (ops : List (BOp K)) (st : BSt K), st.ds.errors = [] → i < st.ds.values.length →
        (∃ j x, BOp.setBinError j x ∈ ops) →
        (st.run ops).1.ds.getBinError sqrt i = .val ((lastError i ops).getD 0) := by
      intro ops
      induction ops with
      | nil => rintro st _ _ ⟨j, x, h⟩; simp at h
      | cons op ops ih =>
        intro st he hi hex
        by_cases hop : ∃ j x, op = .setBinError j x
        · obtain ⟨j, x, rfl⟩ := hop
          have hstep : (st.step (.setBinError j x)).1.ds.errors =
              (List.replicate st.ds.values.length 0).set j.toNat x := by
            simp only [BSt.step, BSt.setBinError, he, List.length_nil, if_true]
            split
            · rfl
            · next h => rw [List.set_eq_of_length_le (by omega)]
          have hf := (step_frame st (.setBinError j x)).2.2
          have E := errors_run ops (st.step (.setBinError j x)).1 _ hstep (by rw [hf]; simp)
          simp only [BSt.run]
          have h2 := E.2 i (if j.toNat = i then x else 0) (by
            rw [List.getElem?_set]
            by_cases hji : j.toNat = i
            · simp [hji, hi]
            · simp [hji, hi])
          unfold BDS.getBinError
          have hne : ¬ (BSt.run (st.step (.setBinError j x)).1 ops).1.ds.errors.length = 0 := by
            rw [E.1, hf]; omega
          simp only [hne, if_false, h2, lastError]
          cases lastError i ops with
          | some y => simp
          | none => by_cases hji : j.toNat = i <;> simp [hji]
        · push Not at hop
          obtain ⟨j, x, hjx⟩ := hex
          have hmem : BOp.setBinError j x ∈ ops := by
            rcases List.mem_cons.mp hjx with h | h
            · exact absurd h.symm (hop j x)
            · exact h
          have h1 := errors_run_none [op] (by intro op' h'; simp at h'; subst h'; exact hop) st
          simp only [BSt.run] at h1 ⊢
          rw [ih (st.step op).1 (by rw [h1, he]) (by rw [(step_frame st op).2.2]; exact hi) ⟨j, x, hmem⟩]
          simp only [lastError]
          cases lastError i ops with
          | some y => rfl
          | none =>
            cases op with
            | setBinError j x => exact absurd rfl (hop j x)
            | _ => rfl
    exact hsplit ops ⟨s0, d0⟩ he0 hi ⟨j, x, hop⟩

/-- **C11 (the part that holds).** A bin whose error was set returns the last error set for it; if no
error was ever set anywhere, the error is the square root of the content. Missing: bins never set after
some other bin was (violated). -/
theorem C11_bin_errors_partial (sqrt : K → K) (s0 : Store K) (obs : List Nat) (d0 : BDS K)
    (hd : BDS.new s0 obs = .ok d0) (ops : List (BOp K)) (i : Nat) (hi : i < d0.values.length) :
    (∀ x, lastError i ops = some x → (BSt.run ⟨s0, d0⟩ ops).1.ds.getBinError sqrt i = .val x) ∧
    ((∀ op ∈ ops, ∀ j x, op ≠ .setBinError j x) →
      ∃ c, (BSt.run ⟨s0, d0⟩ ops).1.ds.getBinContent i = .val c ∧
        (BSt.run ⟨s0, d0⟩ ops).1.ds.getBinError sqrt i = .val (sqrt c)) := by
  have C := C11_bin_errors_exact sqrt s0 obs d0 hd ops i hi
  refine ⟨?_, C.1⟩
  intro x hx
  have hex : ∃ op ∈ ops, ∃ j y, op = BOp.setBinError j y := by
    clear C
    induction ops with
    | nil => simp [lastError] at hx
    | cons op ops ih =>
      simp only [lastError] at hx
      cases hl : lastError i ops with
      | some y =>
        rw [hl] at hx
        have hyx : y = x := by simpa using hx
        obtain ⟨op', h1, h2⟩ := ih (by rw [hl, hyx])
        exact ⟨op', by simp [h1], h2⟩
      | none =>
        rw [hl] at hx
        cases op with
        | setBinError j y => exact ⟨_, by simp, j, y, rfl⟩
        | _ => simp at hx
  rw [C.2 hex, hx]
  rfl

example : BDS.new (Demo.qstore fun _ => 1) [0] = .ok (Demo.bds [0] [0, 0]) ∧ 1 < (Demo.bds [0] [0, 0]).values.length ∧
    lastError (K := ℚ) 1 [.setBinContent 1#32 9, .setBinError 1#32 5, .setBinError 0#32 6] = some 5 :=
  ⟨rfl, by decide, by decide⟩

/-- **C11 is violated**: after setting the error of bin 0, the error of bin 1 (content 9) is 0 instead of
its square root, for every square-root function with `sqrt 9 = 3`. -/
theorem C11_violation_first_set_zeroes_others (sqrt : ℚ → ℚ) (h9 : sqrt 9 = 3) :
    let st := (BSt.run (⟨Demo.qstore fun _ => 1, Demo.bds [0] [0, 0]⟩ : BSt ℚ) [.setBinContent 1#32 9]).1
    let st' := (st.step (.setBinError 0#32 1)).1
    st.ds.getBinError sqrt 1 = .val 3 ∧ st'.ds.getBinError sqrt 1 = .val 0 := by
  constructor
  · simp [BSt.run, BSt.step, BSt.setBinContent, Demo.bds, BDS.getBinError, h9]
  · simp [BSt.run, BSt.step, BSt.setBinContent, BSt.setBinError, Demo.bds, BDS.getBinError]

/-! ### C12 and the rest of C07 -/

/-- **C12 (cells).** In every reachable state with non-degenerate limits, every point of the half-open
box lies in exactly one of the cells `0 .. getNumBins-1`. -/
theorem C12_cells_tile (st : BSt K) (hr : BReach st) (hlim : ∀ o ∈ st.ds.obs, (st.store o).lower < (st.store o).upper)
    (vs : List K) (hl : vs.length = st.ds.obs.length)
    (hin : ∀ (j : Nat) (a : Axis K) (v : K), (axesOf st)[j]? = some a → vs[j]? = some v → a.lower ≤ v ∧ v < a.upper) :
    ∃ g, g < getNumBins st.ds.binsizes ∧ ∀ g', g' < getNumBins st.ds.binsizes →
      (InCell (axesOf st) g' vs ↔ g' = g) := by
  have h := breach_wf st hr
  have hN := getNumBins_eq _ h.pos h.small
  have hax := axesOf_n st h.len
  have hn : ∀ a ∈ axesOf st, 0 < a.n := by
    intro a ha
    apply h.pos
    rw [← hax]
    exact List.mem_map.mpr ⟨a, ha, rfl⟩
  have hlen : vs.length = (axesOf st).length := by simp [axesOf, h.len, hl]
  obtain ⟨ls, hv, _, _, hcell⟩ := cell_exists (axesOf st) vs hlen hn hin
  rw [hax] at hv hcell
  have hcells : cells (axesOf st) = st.ds.binsizes.prod := by unfold cells; rw [hax]
  have hlt := globalOf_lt _ _ hv h.pos
  refine ⟨globalOf st.ds.binsizes ls, by rw [hN]; exact hlt, ?_⟩
  intro g' hg'
  constructor
  · intro hc'
    apply cell_unique (axesOf st) vs hlen hn _ _ _ (by rw [hcells, ← hN]; exact hg') (by rw [hcells]; exact hlt)
      hc' hcell
    intro a ha
    obtain ⟨p, hp, rfl⟩ := List.mem_map.mp ha
    exact hlim p.1 (List.of_mem_zip hp).1
  · rintro rfl; exact hcell

example : BReach (⟨Demo.qstore fun _ => 1, Demo.bds [0, 1] [0, 0, 0, 0]⟩ : BSt ℚ) ∧
    (∀ o ∈ [0, 1], (Demo.qstore (fun _ => 1) o).lower < (Demo.qstore (fun _ => 1) o).upper) :=
  ⟨Demo.breach_demo2 _, by intro o _; norm_num [Demo.qstore]⟩

/-- **C12 (centres), C07 (agreement with the grid).** In every reachable state `getBinCenter(j, g)` is the
middle of cell `g` on axis `j`: the mean of its edges; it equals the bin centre used by the evaluation
grid. -/
theorem C12_bin_center (st : BSt K) (hr : BReach st) (g j o n : Nat) (ho : st.ds.obs[j]? = some o)
    (hn : st.ds.binsizes[j]? = some n) :
    ∃ c, st.getBinCenter j g = .val c ∧
      (let a : Axis K := ⟨(st.store o).lower, (st.store o).upper, n⟩
       let b := digit st.ds.binsizes j g
       c = ((a.lower + (b : K) * a.width) + (a.lower + ((b : K) + 1) * a.width)) / 2 ∧
       ((st.store o).lower < (st.store o).upper → a.InBin b c) ∧
       ((st.store o).numBins = n → c = binCentre (st.store o) b)) := by
  have h := breach_wf st hr
  have hjl : j < st.ds.binsizes.length := (List.getElem?_eq_some_iff.mp hn).1
  have hnpos := h.pos n (List.mem_of_getElem? hn)
  refine ⟨binSize st.store o n * ((digit st.ds.binsizes j g : K) + 1 / 2) + (st.store o).lower, ?_, ?_, ?_, ?_⟩
  · unfold BSt.getBinCenter
    rw [globalToLocal_eq _ h]
    simp only [digits_getElem _ _ _ hjl, ho, hn]
  · simp only [binSize, Axis.width]; ring
  · intro hlim
    have hw := axis_width_pos (⟨(st.store o).lower, (st.store o).upper, n⟩ : Axis K) hlim hnpos
    have hb : binSize st.store o n = (⟨(st.store o).lower, (st.store o).upper, n⟩ : Axis K).width := rfl
    rw [hb]
    unfold Axis.InBin
    generalize (⟨(st.store o).lower, (st.store o).upper, n⟩ : Axis K).width = w at hw
    constructor <;> simp only <;> nlinarith
  · intro hnb
    simp only [binSize, binCentre, hnb]; ring

/-- **C12 (volume).** Bin volume times number of bins is the volume of the box. -/
theorem C12_volume (st : BSt K) (hr : BReach st) :
    st.getBinVolume * (getNumBins st.ds.binsizes : K) =
      (st.ds.obs.map fun o => (st.store o).upper - (st.store o).lower).prod := by
  have h := breach_wf st hr
  rw [getNumBins_eq _ h.pos h.small]
  unfold BSt.getBinVolume
  have key : ∀ (os ns : List Nat), ns.length = os.length → (∀ n ∈ ns, 0 < n) →
      ((os.zip ns).map fun p => binSize st.store p.1 p.2).prod * (ns.prod : K) =
        (os.map fun o => (st.store o).upper - (st.store o).lower).prod := by
    intro os
    induction os with
    | nil => intro ns hl _; cases ns with
      | nil => simp
      | cons _ _ => simp at hl
    | cons o os ih =>
      intro ns hl hp
      cases ns with
      | nil => simp at hl
      | cons n ns =>
        have IH := ih ns (by simpa using hl) (fun m hm => hp m (by simp [hm]))
        have hn : (n : K) ≠ 0 := by
          have := hp n (by simp)
          have : (0 : K) < n := by exact_mod_cast this
          exact this.ne'
        simp only [List.zip_cons_cons, List.map_cons, List.prod_cons]
        rw [← IH]
        push_cast
        unfold binSize
        field_simp
  exact key _ _ h.len h.pos

example : BReach (⟨Demo.qstore fun _ => 1, Demo.bds [0, 1] [0, 0, 0, 0]⟩ : BSt ℚ) := Demo.breach_demo2 _

/-- **C07 (agreement with the binned dataset).** For ordinary observables (no event number), event `g` of
`fillWithGrid` holds, for every observable, the bin centre of global bin `g` of the binned dataset built
on the same observables. -/
theorem C07_grid_is_bin_centers (obs : List Nat) (hn : obs.Nodup) (s : Store K)
    (hE : ∀ o ∈ obs, (s o).isEventNumber = false) (hlim : ∀ o ∈ obs, (s o).lower ≤ (s o).upper)
    (hpos : ∀ o ∈ obs, 0 < (s o).numBins) (hsmall : (obs.map fun o => (s o).numBins).prod < 2 ^ 31)
    (d : BDS K) (hd : BDS.new s obs = .ok d) (g : Nat) (hg : g < getNumBins d.binsizes) (j o : Nat)
    (ho : obs[j]? = some o) :
    (USt.fillWithGrid ⟨s, UDS.new K obs⟩).1.ds.num = getNumBins d.binsizes ∧
    (USt.fillWithGrid ⟨s, UDS.new K obs⟩).1.ds.getValue o g = (BSt.getBinCenter ⟨s, d⟩ j g) := by
  obtain ⟨hwf, hdo, hdb, _, _, _⟩ := wf_new s obs hpos hsmall d hd
  have hN : getNumBins d.binsizes = d.binsizes.prod := getNumBins_eq _ hwf.pos hwf.small
  have hfil : ∀ l : List Nat, (∀ o ∈ l, o ∈ obs) → gridPoints s l = (l.map fun o => (s o).numBins).prod := by
    intro l hl
    unfold gridPoints
    rw [List.filter_eq_self.mpr]
    intro a ha
    simp [hE a (hl a ha)]
  have hgp : gridPoints s obs = getNumBins d.binsizes := by rw [hN, hdb]; exact hfil obs (fun _ h => h)
  have C := C07_grid obs hn s (fun o ho _ => hlim o ho) (fun o ho _ _ h => by rw [hE o ho] at h; cases h)
    (fun o ho h => by rw [hE o ho] at h; cases h)
  have hr : BReach (⟨s, d⟩ : BSt K) := ⟨s, obs, d, [], hd, hpos, hsmall, rfl⟩
  have hjl : j < obs.length := (List.getElem?_eq_some_iff.mp ho).1
  have hnj : d.binsizes[j]? = some (s o).numBins := by rw [hdb, List.getElem?_map, ho]; rfl
  obtain ⟨c, hc, _, _, hc3⟩ := C12_bin_center ⟨s, d⟩ hr g j o (s o).numBins (by simp only [hdo]; exact ho) hnj
  refine ⟨by rw [C.2.1, hgp], ?_⟩
  rw [C.2.2 g (by rw [hgp]; exact hg) j o ho, hc, hc3 rfl, hE o (List.mem_of_getElem? ho)]
  simp only [Bool.false_eq_true, if_false]
  congr 2
  rw [hfil (obs.take j) (fun o h => List.mem_of_mem_take h)]
  unfold digit
  have : d.binsizes[j]! = (s o).numBins := by
    rw [List.getElem!_eq_getElem?_getD, hnj]; rfl
  rw [this, hdb, List.map_take]

example : [0, 1].Nodup ∧ BDS.new (Demo.qstore fun _ => 1) [0, 1] = .ok (Demo.bds [0, 1] [0, 0, 0, 0]) ∧
    3 < getNumBins (Demo.bds [0, 1] [0, 0, 0, 0]).binsizes := ⟨by decide, rfl, by decide⟩

end GooFit
