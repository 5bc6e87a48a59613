import Verif.Spec.DataSet
import Mathlib.Data.List.Nodup
set_option autoImplicit false
namespace GooFit
open Spec

theorem indexOf_isSome {obs : List Nat} {o : Nat} : o ∈ obs → ∃ j, indexOfVariable obs o = some j ∧
    obs[j]? = some o := by
  induction obs with
  | nil => simp
  | cons p ps ih =>
    intro h
    unfold indexOfVariable
    by_cases hp : o = p
    · subst hp; exact ⟨0, by simp⟩
    · simp only [hp, if_false]
      have : o ∈ ps := by simpa [hp] using h
      obtain ⟨j, hj, hg⟩ := ih this
      exact ⟨j + 1, by simp [hj], by simpa using hg⟩

theorem indexOf_none {obs : List Nat} {o : Nat} (h : o ∉ obs) : indexOfVariable obs o = none := by
  induction obs with
  | nil => rfl
  | cons p ps ih =>
    unfold indexOfVariable
    simp only [List.mem_cons, not_or] at h
    simp [h.1, ih h.2]

theorem pushAll_map {F : Type} (es : List (Event F)) (g : Event F) (obs : List Nat) :
    pushAll (obs.map g) (obs.map (fun o => es.map (fun e => e o))) =
      (obs.map (fun o => (es ++ [g]).map (fun e => e o)), true) := by
  induction obs with
  | nil => rfl
  | cons o os ih =>
    simp only [List.map_cons, pushAll, ih]
    simp

theorem inRange_iff {F : Type} [FpCmp F] (c : ObsCell F) : c.inRange = true ↔ InLimits c := by
  simp only [ObsCell.inRange, InLimits, Bool.or_eq_true, Bool.and_eq_true]
  tauto

theorem checkAllVars_iff {F : Type} [FpCmp F] (s : Store F) (obs : List Nat) :
    checkAllVars s obs = true ↔ AllInRange obs s := by
  simp [checkAllVars, AllInRange, inRange_iff]

theorem setAll_apply_notMem {F : Type} (obs : List Nat) (vals : List F) (s : Store F) (o : Nat)
    (h : o ∉ obs) : setAll obs vals s o = s o := by
  induction obs generalizing vals s with
  | nil => cases vals <;> rfl
  | cons p ps ih =>
    cases vals with
    | nil => rfl
    | cons v vs =>
      simp only [List.mem_cons, not_or] at h
      simp only [setAll]
      rw [ih _ _ h.2]
      simp [Store.setValue, h.1]

theorem setAll_eq_assign {F : Type} (obs : List Nat) (vals : List F) (s : Store F) (hn : obs.Nodup) :
    setAll obs vals s = assign obs vals s := by
  funext o
  induction obs generalizing vals s with
  | nil => cases vals <;> rfl
  | cons p ps ih =>
    cases vals with
    | nil => simp [setAll, assign]
    | cons v vs =>
      rw [List.nodup_cons] at hn
      simp only [setAll]
      by_cases hpo : p = o
      · subst hpo
        rw [setAll_apply_notMem _ _ _ _ hn.1]
        simp [assign, Store.setValue]
      · rw [ih _ _ hn.2]
        simp only [assign, List.zip_cons_cons]
        rw [List.find?_cons_of_neg (by simpa using hpo)]
        have hop : ¬ o = p := fun h => hpo h.symm
        simp [Store.setValue, hop]

theorem assign_limits {F : Type} (obs : List Nat) (vals : List F) (s : Store F) (o : Nat) :
    (assign obs vals s o).lower = (s o).lower ∧ (assign obs vals s o).upper = (s o).upper := by
  unfold assign; split <;> simp

theorem loadLoop_ok {F : Type} (es : List (Event F)) (i : Nat) (e : Event F) (he : es[i]? = some e)
    (obs : List Nat) (s : Store F) :
    loadLoop i obs (obs.map (fun o => es.map (fun e => e o))) s =
      ((fun o => if o ∈ obs then { s o with value := e o } else s o), .done) := by
  induction obs generalizing s with
  | nil => simp [loadLoop]
  | cons p ps ih =>
    simp only [List.map_cons, loadLoop, List.getElem?_map, he, Option.map_some]
    rw [ih]
    congr 1
    funext o
    by_cases hop : o = p
    · subst hop
      by_cases hm : o ∈ ps <;> simp [hm, Store.setValue]
    · by_cases hm : o ∈ ps <;> simp [hm, hop, Store.setValue]

theorem holds_addEvent {F : Type} [FpCmp F] (st : USt F) (es : List (Event F)) (h : Holds st.ds es) :
    (AllInRange st.ds.obs st.store →
      (st.addEvent).2 = .done ∧ (st.addEvent).1.store = st.store ∧ (st.addEvent).1.ds.obs = st.ds.obs ∧
      Holds (st.addEvent).1.ds (es ++ [fun o => (st.store o).value])) ∧
    (¬ AllInRange st.ds.obs st.store → st.addEvent = (st, .threw .outOfRange)) := by
  obtain ⟨h1, h2⟩ := h
  constructor
  · intro hr
    have hc := (checkAllVars_iff st.store st.ds.obs).mpr hr
    have hp := pushAll_map es (fun o => (st.store o).value) st.ds.obs
    simp only [USt.addEvent, hc, if_true, h2, hp]
    exact ⟨trivial, trivial, trivial, by simp [h1], rfl⟩
  · intro hr
    have hc : ¬ checkAllVars st.store st.ds.obs = true := fun h => hr ((checkAllVars_iff _ _).mp h)
    simp [USt.addEvent, hc]

/-- Simulation step: data columns versus list of events. -/
theorem uds_step {F : Type} [FpCmp F] (obs : List Nat) (hn : obs.Nodup) (st : USt F) (r : Rows F)
    (ho : st.ds.obs = obs) (hv : st.store = r.vars) (hd : Holds st.ds r.events) (op : DsOp F) :
    (st.step op).2 = (r.step obs op).2 ∧ (st.step op).1.ds.obs = obs ∧
    (st.step op).1.store = (r.step obs op).1.vars ∧
    Holds (st.step op).1.ds (r.step obs op).1.events := by
  obtain ⟨hd1, hd2⟩ := hd
  have hadd : ∀ (st' : USt F) (r' : Rows F), st'.ds.obs = obs → st'.store = r'.vars →
      Holds st'.ds r'.events → (st'.addEvent).2 = (r'.add obs).2 ∧
      (st'.addEvent).1.ds.obs = obs ∧ (st'.addEvent).1.store = (r'.add obs).1.vars ∧
      Holds (st'.addEvent).1.ds (r'.add obs).1.events := by
    intro st' r' ho' hv' hd'
    have key := holds_addEvent st' r'.events hd'
    rw [ho', hv'] at key
    unfold Rows.add
    by_cases hr : AllInRange obs r'.vars
    · obtain ⟨a, b, c, d⟩ := key.1 hr
      simp only [hr, if_true]
      exact ⟨a, c, b, d⟩
    · have := key.2 hr
      simp only [hr, if_false, this]
      exact ⟨trivial, ho', hv', hd'⟩
  cases op with
  | setObs o c => exact ⟨rfl, ho, by simp [USt.step, Rows.step, hv], hd1, hd2⟩
  | addEvent =>
    obtain ⟨a, b, c, d⟩ := hadd st r ho hv ⟨hd1, hd2⟩
    exact ⟨by simp [USt.step, Rows.step, a], b, c, d⟩
  | addEventV v vs =>
    simp only [USt.step, Rows.step, USt.addEventV, ho, List.length_cons]
    by_cases hl : vs.length + 1 = obs.length
    · simp only [hl, ne_eq, not_true_eq_false, if_false, if_true]
      have hs := setAll_eq_assign obs (v :: vs) st.store hn
      obtain ⟨a, b, c, d⟩ := hadd { st with store := setAll obs (v :: vs) st.store }
        { r with vars := assign obs (v :: vs) r.vars } ho (by rw [← hv]; exact hs) ⟨hd1, hd2⟩
      exact ⟨by rw [a], b, c, d⟩
    · simp only [hl, ne_eq, not_false_eq_true, if_true, if_false]
      exact ⟨trivial, ho, hv, hd1, hd2⟩
  | clear =>
    refine ⟨rfl, ho, hv, rfl, ?_⟩
    simp only [USt.step, USt.clear, Rows.step, hd2, List.map_map, List.map_nil]; rfl
  | getNumEvents => exact ⟨by simp [USt.step, Rows.step, hd1], ho, hv, hd1, hd2⟩
  | getValue o i =>
    simp only [USt.step, Rows.step, UDS.getValue]
    by_cases hi : i ≥ st.ds.num
    · have : r.events[i]? = none := by rw [List.getElem?_eq_none_iff]; omega
      simp only [hi, if_true, this]
      exact ⟨trivial, ho, hv, hd1, hd2⟩
    · have hlt : i < r.events.length := by omega
      have he : r.events[i]? = some r.events[i] := List.getElem?_eq_getElem _
      simp only [hi, if_false, he]
      by_cases hm : o ∈ obs
      · obtain ⟨j, hj, hg⟩ := indexOf_isSome hm
        simp only [ho, hj, hm, if_true]
        rw [ho] at hd2
        simp only [hd2, List.getElem?_map, hg, Option.map_some, he]
        exact ⟨trivial, trivial, hv, hd1, by rw [ho]; exact hd2⟩
      · simp only [ho, indexOf_none hm, hm, if_false]
        exact ⟨trivial, trivial, hv, hd1, hd2⟩
  | loadEvent i =>
    simp only [USt.step, Rows.step, USt.loadEvent]
    cases he : r.events[i]? with
    | some e =>
      have := loadLoop_ok r.events i e he obs st.store
      rw [hd2, ho, this]
      exact ⟨rfl, rfl, by simp [hv], hd1, by rw [hd2, ho]⟩
    | none =>
      cases obs with
      | nil => rw [ho]; simp only [loadLoop]; exact ⟨by simp, by simp, by simp [hv], hd1, by rw [hd2, ho]; simp⟩
      | cons p ps =>
        rw [hd2, ho]
        simp only [List.map_cons, loadLoop, List.getElem?_map, he, Option.map_none]
        exact ⟨by simp, by simp, by simp [hv], by simp [hd1], by simp [hd2, ho]⟩
  | setValueForAllEvents o =>
    simp only [USt.step, Rows.step, USt.setValueForAllEvents]
    by_cases hm : o ∈ obs
    · obtain ⟨j, hj, hg⟩ := indexOf_isSome hm
      rw [ho] at hd2
      simp only [ho, hj, hm, if_true, hd2, List.getElem?_map, hg, Option.map_some, List.length_map, hd1,
        Nat.lt_irrefl, if_false]
      refine ⟨trivial, trivial, hv, by simp, ?_⟩
      simp only [hv]
      apply List.ext_getElem?
      intro k
      rw [List.getElem?_set]
      by_cases hjk : j = k
      · subst hjk
        have hlt : j < obs.length := (List.getElem?_eq_some_iff.mp hg).1
        simp only [if_true, List.length_map, hlt]
        simp only [List.getElem?_map, hg, Option.map_some, List.map_map]
        simp only [Option.some.injEq]
        apply List.ext_getElem?
        intro n
        simp only [List.getElem?_map]
        by_cases hn' : n < r.events.length
        · rw [List.getElem?_append_left (by simpa using hn')]
          simp [hn']
        · have h1 : r.events[n]? = none := by rw [List.getElem?_eq_none_iff]; omega
          rw [h1, List.getElem?_append_right (by simp; omega)]
          simp
      · simp only [hjk, if_false, List.getElem?_map]
        cases hk : obs[k]? with
        | none => simp
        | some p =>
          have hpo : p ≠ o := by
            intro hpo; subst hpo
            apply hjk
            obtain ⟨a1, a2⟩ := List.getElem?_eq_some_iff.mp hg
            obtain ⟨b1, b2⟩ := List.getElem?_eq_some_iff.mp hk
            exact (List.Nodup.getElem_inj_iff hn).mp (a2.trans b2.symm)
          simp [hpo]
    · simp only [ho, indexOf_none hm, hm, if_false]
      exact ⟨trivial, trivial, hv, hd1, hd2⟩

theorem uds_run {F : Type} [FpCmp F] (obs : List Nat) (hn : obs.Nodup) (ops : List (DsOp F)) :
    ∀ (st : USt F) (r : Rows F), st.ds.obs = obs → st.store = r.vars → Holds st.ds r.events →
    (st.run ops).2 = (r.run obs ops).2 ∧ (st.run ops).1.store = (r.run obs ops).1.vars ∧
    (st.run ops).1.ds.obs = obs ∧ Holds (st.run ops).1.ds (r.run obs ops).1.events := by
  induction ops with
  | nil => intro st r ho hv hd; exact ⟨rfl, hv, ho, hd⟩
  | cons op ops ih =>
    intro st r ho hv hd
    obtain ⟨a, b, c, d⟩ := uds_step obs hn st r ho hv hd op
    obtain ⟨a', b', c', d'⟩ := ih _ _ b c d
    simp only [USt.run, Rows.run]
    exact ⟨by rw [a, a'], b', c', d'⟩

theorem holds_new (F : Type) (obs : List Nat) : Holds (UDS.new F obs) [] := ⟨rfl, by simp [UDS.new]⟩

/-! ### Shape of reachable datasets, without assuming distinct observables -/

/-- One column per observable. -/
def UDS.Shape {F : Type} (d : UDS F) : Prop := d.data.length = d.obs.length

theorem pushAll_ok {F : Type} (vs : List F) (cols : List (List F)) (h : cols.length = vs.length) :
    (pushAll vs cols).2 = true ∧ (pushAll vs cols).1.length = cols.length := by
  induction vs generalizing cols with
  | nil => cases cols <;> simp_all [pushAll]
  | cons v vs ih =>
    cases cols with
    | nil => simp at h
    | cons c cs => have := ih cs (by simpa using h); simp [pushAll, this]

theorem addEvent_shape {F : Type} [FpCmp F] (st : USt F) (h : st.ds.Shape) :
    (st.addEvent).1.ds.Shape ∧ (∀ e, (st.addEvent).2 = .threw e → (st.addEvent).1 = st) := by
  have hp := pushAll_ok (st.ds.obs.map fun o => (st.store o).value) st.ds.data
    (by rw [List.length_map]; exact h)
  unfold USt.addEvent
  by_cases hc : checkAllVars st.store st.ds.obs = true
  · simp only [hc, if_true, hp.1]
    refine ⟨?_, by simp⟩
    simp only [UDS.Shape, hp.2]; exact h
  · simp only [hc, if_false]
    exact ⟨by simpa using h, by simp⟩

theorem step_shape {F : Type} [FpCmp F] (st : USt F) (h : st.ds.Shape) (op : DsOp F) :
    (st.step op).1.ds.Shape := by
  cases op with
  | setObs o c => exact h
  | addEvent => exact (addEvent_shape st h).1
  | addEventV v vs =>
    simp only [USt.step, USt.addEventV]
    split
    · exact h
    · exact (addEvent_shape { st with store := setAll st.ds.obs (v :: vs) st.store } h).1
  | clear => simpa [USt.step, USt.clear, UDS.Shape] using h
  | getNumEvents => exact h
  | getValue o i => exact h
  | loadEvent i => exact h
  | setValueForAllEvents o =>
    simp only [USt.step, USt.setValueForAllEvents]
    split
    · exact h
    · split
      · exact h
      · split
        · exact h
        · simpa [UDS.Shape] using h

theorem run_shape {F : Type} [FpCmp F] (ops : List (DsOp F)) (st : USt F) (h : st.ds.Shape) :
    (st.run ops).1.ds.Shape := by
  induction ops generalizing st with
  | nil => exact h
  | cons op ops ih => exact ih _ (step_shape st h op)

/-! ### Matrix import -/

theorem assign_assign {F : Type} (obs : List Nat) (v w : List F) (s : Store F)
    (hv : v.length = obs.length) : assign obs v (assign obs w s) = assign obs v s := by
  funext o
  unfold assign
  cases h : (obs.zip v).find? (fun p => p.1 == o) with
  | some p =>
    simp only
    split <;> rfl
  | none =>
    simp only
    have hno : o ∉ obs := by
      intro hm
      obtain ⟨i, hi, ho⟩ := List.mem_iff_getElem.mp hm
      rw [List.find?_eq_none] at h
      have := h (obs[i], v[i]'(by omega)) (by
        rw [List.mem_iff_getElem]
        exact ⟨i, by simp; omega, by simp⟩)
      simp [ho] at this
    have : (obs.zip w).find? (fun p => p.1 == o) = none := by
      rw [List.find?_eq_none]
      rintro ⟨a, b⟩ hab
      have := (List.of_mem_zip hab).1
      simp
      rintro rfl
      exact hno this
    rw [this]

theorem setAll_append {F : Type} (a b : List Nat) (v w : List F) (s : Store F) (h : a.length = v.length) :
    setAll (a ++ b) (v ++ w) s = setAll b w (setAll a v s) := by
  induction a generalizing v s with
  | nil =>
    cases v with
    | nil => rfl
    | cons _ _ => simp at h
  | cons o os ih =>
    cases v with
    | nil => simp at h
    | cons x xs => simp only [List.cons_append, setAll]; exact ih xs _ (by simpa using h)

theorem setColumn_eq {F : Type} (ofNat : Nat → F) (obs : List Nat) (rows : Nat) (col : List F) (idx : Nat)
    (s : Store F) (hn : obs.Nodup) (hc : col.length = rows) (ho : obs.length = rows ∨ obs.length = rows + 1) :
    setColumn ofNat obs rows col idx s = columnEvent ofNat obs rows col idx s := by
  unfold setColumn columnEvent
  rw [← setAll_eq_assign _ _ _ hn]
  rcases ho with ho | ho
  · have : ¬ obs.length = rows + 1 := by omega
    simp only [this, if_false]
    rw [List.take_of_length_le (by omega)]
  · simp only [ho, if_true]
    obtain ⟨o, hg⟩ : ∃ o, obs[rows]? = some o := ⟨obs[rows]'(by omega), List.getElem?_eq_getElem _⟩
    rw [hg]
    have hsplit : obs = obs.take rows ++ [o] := by
      conv_lhs => rw [← List.take_append_drop rows obs]
      congr 1
      rw [List.drop_eq_getElem_cons (by omega), List.drop_of_length_le (by omega)]
      obtain ⟨_, h2⟩ := List.getElem?_eq_some_iff.mp hg
      rw [h2]
    conv_rhs => rw [hsplit]
    rw [setAll_append _ _ _ _ _ (by simp; omega)]
    rfl

theorem fromMatrixLoop_spec {F : Type} [FpCmp F] (ofNat : Nat → F) (obs : List Nat) (rows : Nat)
    (hn : obs.Nodup) (ho : obs.length = rows ∨ obs.length = rows + 1) (filter : Bool)
    (s0 : Store F) (cols : List (List F)) (hc : ∀ c ∈ cols, c.length = rows) :
    ∀ (idx : Nat) (st : USt F) (es : List (Event F)), st.ds.obs = obs → Holds st.ds es →
      (∀ v : List F, v.length = obs.length → assign obs v st.store = assign obs v s0) →
      let cand := cols.zipIdx.map (fun p => columnEvent ofNat obs rows p.1 (idx + p.2) s0)
      let r := fromMatrixLoop ofNat rows filter cols idx st
      r.1.ds.obs = obs ∧
      (filter = true → r.2 = .done ∧
        Holds r.1.ds (es ++ (cand.filter (fun s => decide (AllInRange obs s))).map (fun s o => (s o).value))) ∧
      (filter = false →
        ((∀ s ∈ cand, AllInRange obs s) → r.2 = .done ∧ Holds r.1.ds (es ++ cand.map (fun s o => (s o).value))) ∧
        ((∃ s ∈ cand, ¬ AllInRange obs s) → r.2 = .threw .outOfRange ∧
          Holds r.1.ds (es ++ (cand.takeWhile (fun s => decide (AllInRange obs s))).map (fun s o => (s o).value)))) := by
  induction cols with
  | nil =>
    intro idx st es hob hh _
    simp only [fromMatrixLoop, List.zipIdx_nil, List.map_nil, List.filter_nil, List.append_nil,
      List.takeWhile_nil]
    exact ⟨hob, fun _ => ⟨trivial, hh⟩, fun _ => ⟨fun _ => ⟨trivial, hh⟩, fun ⟨s, hs, _⟩ => by simp at hs⟩⟩
  | cons col cols ih =>
    intro idx st es hob hh hs
    have hcl : col.length = rows := hc col (by simp)
    have hcol : setColumn ofNat st.ds.obs rows col idx st.store = columnEvent ofNat obs rows col idx s0 := by
      rw [hob, setColumn_eq ofNat obs rows col idx st.store hn hcl ho]
      unfold columnEvent
      apply hs
      rcases ho with ho | ho
      · have : ¬ obs.length = rows + 1 := by omega
        simp only [this, if_false]; omega
      · simp only [ho, if_true]; simp; omega
    have hs' : ∀ v : List F, v.length = obs.length →
        assign obs v (columnEvent ofNat obs rows col idx s0) = assign obs v s0 := by
      intro v hv
      unfold columnEvent
      exact assign_assign obs v _ s0 hv
    have hcand : (col :: cols).zipIdx.map (fun p => columnEvent ofNat obs rows p.1 (idx + p.2) s0) =
        columnEvent ofNat obs rows col idx s0 ::
          cols.zipIdx.map (fun p => columnEvent ofNat obs rows p.1 (idx + 1 + p.2) s0) := by
      simp only [List.zipIdx_cons, List.map_cons, Nat.add_zero, Nat.zero_add]
      congr 1
      rw [List.zipIdx_succ, List.map_map]
      apply List.map_congr_left
      intro p _
      simp [Nat.add_comm, Nat.add_left_comm]
    have hadd := holds_addEvent { st with store := columnEvent ofNat obs rows col idx s0 } es hh
    rw [hob] at hadd
    simp only [fromMatrixLoop, hcol, hcand]
    generalize hst1 : ({ st with store := columnEvent ofNat obs rows col idx s0 } : USt F) = st1 at *
    have hst1s : st1.store = columnEvent ofNat obs rows col idx s0 := by rw [← hst1]
    have hst1d : st1.ds = st.ds := by rw [← hst1]
    rw [hob]
    try rw [hst1s] at hadd
    generalize columnEvent ofNat obs rows col idx s0 = s1 at *
    generalize hcd : cols.zipIdx.map (fun p => columnEvent ofNat obs rows p.1 (idx + 1 + p.2) s0) = cand
    have hc' : ∀ c ∈ cols, c.length = rows := fun c h => hc c (by simp [h])
    by_cases hr : AllInRange obs s1
    · obtain ⟨a, b, c, d⟩ := hadd.1 hr
      have hck : checkAllVars s1 obs = true := (checkAllVars_iff _ _).mpr hr
      simp only [hck, Bool.or_true, if_true]
      rcases hae : st1.addEvent with ⟨st2, out⟩
      rw [hae] at a b c d
      simp only at a b c d
      subst a
      have IH := ih hc' (idx + 1) st2 (es ++ [fun o => (s1 o).value]) (by rw [c]) d
        (by rw [b]; exact hs')
      simp only [hcd] at IH ⊢
      obtain ⟨i1, i2, i3⟩ := IH
      refine ⟨i1, ?_, ?_⟩
      · intro hf
        obtain ⟨j1, j2⟩ := i2 hf
        refine ⟨j1, ?_⟩
        simpa [hr] using j2
      · intro hf
        obtain ⟨j1, j2⟩ := i3 hf
        constructor
        · intro hall
          obtain ⟨k1, k2⟩ := j1 (fun s hs => hall s (by simp [hs]))
          exact ⟨k1, by simpa using k2⟩
        · rintro ⟨s, hsm, hns⟩
          have : s ∈ cand := by
            rcases List.mem_cons.mp hsm with h | h
            · subst h; exact absurd hr hns
            · exact h
          obtain ⟨k1, k2⟩ := j2 ⟨s, this, hns⟩
          refine ⟨k1, ?_⟩
          simpa [hr] using k2
    · have hck : ¬ checkAllVars s1 obs = true := fun h => hr ((checkAllVars_iff _ _).mp h)
      cases filter with
      | true =>
        have hck' : checkAllVars s1 obs = false := by simpa using hck
        simp only [hck', Bool.not_true, Bool.or_false, Bool.false_eq_true, if_false]
        have IH := ih hc' (idx + 1) st1 es (by rw [hst1d, hob]) (by rw [hst1d]; exact hh) (by rw [hst1s]; exact hs')
        simp only [hcd] at IH ⊢
        obtain ⟨i1, i2, i3⟩ := IH
        refine ⟨i1, ?_, by simp⟩
        intro _
        obtain ⟨j1, j2⟩ := i2 trivial
        exact ⟨j1, by simpa [hr] using j2⟩
      | false =>
        have := hadd.2 hr
        simp only [Bool.not_false, Bool.true_or, if_true, this]
        refine ⟨by rw [hst1d, hob], by simp, fun _ => ⟨?_, ?_⟩⟩
        · intro hall; exact absurd (hall s1 (by simp)) hr
        · intro _
          refine ⟨trivial, ?_⟩
          simp [hr, hst1d]; exact hh

end GooFit
