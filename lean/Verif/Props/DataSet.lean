import Verif.Lemmas.DataSet
import Verif.Lemmas.Grid
import Mathlib.Data.Rat.Floor
import Mathlib.Tactic.FinCases
import Mathlib.Data.List.TakeWhile
import Mathlib.Algebra.BigOperators.Ring.List
set_option autoImplicit false
namespace GooFit
open Spec

/-! A small concrete data set used in the examples: observables 0 and 1 limited to [0,10], observable
2 an event number. -/
namespace Demo
def cell (v : Int) : ObsCell Int := ⟨v, 0, 10, 5, false⟩
def evCell : ObsCell Int := ⟨0, 0, 1000, 1, true⟩
def store : Store Int := fun o => if o = 2 then evCell else cell 3
end Demo

/-- **C03.** For every list of distinct observables, every initial observable contents and every
program of dataset calls, all results (values, counts, exceptions) and the observables afterwards
are those of the list-of-events specification. No call is undefined behaviour. -/
theorem C03_unbinned_is_event_list {F : Type} [FpCmp F] (obs : List Nat) (hn : obs.Nodup) (s : Store F)
    (ops : List (DsOp F)) :
    (USt.run ⟨s, UDS.new F obs⟩ ops).2 = (Rows.run obs ⟨s, []⟩ ops).2 ∧
    (USt.run ⟨s, UDS.new F obs⟩ ops).1.store = (Rows.run obs ⟨s, []⟩ ops).1.vars ∧
    Holds (USt.run ⟨s, UDS.new F obs⟩ ops).1.ds (Rows.run obs ⟨s, []⟩ ops).1.events := by
  obtain ⟨a, b, _, d⟩ := uds_run obs hn ops ⟨s, UDS.new F obs⟩ ⟨s, []⟩ rfl rfl (holds_new F obs)
  exact ⟨a, b, d⟩

example : [0, 1].Nodup ∧
    (match (USt.run ⟨Demo.store, UDS.new Int [0, 1]⟩
      [.addEvent, .addEventV 7 [8], .addEventV 7 [80], .getValue 1 1, .getNumEvents]).2 with
    | [.out .done, .out .done, .out (.threw .outOfRange), .out (.val x), .count n] => x = 8 ∧ n = 2
    | _ => False) := by
  exact ⟨by decide, rfl, rfl⟩

/-- **C04 (unbinned).** In every reachable state of an unbinned dataset (any observables, repeated or
not), `addEvent` throws exactly when an observable is out of range, and then nothing changed; the
variadic form throws exactly on a wrong number of values or a value out of range, and then the
dataset is unchanged. -/
theorem C04_unbinned_rejected_event_no_effect {F : Type} [FpCmp F] (obs : List Nat) (s : Store F)
    (ops : List (DsOp F)) (st : USt F) (hst : st = (USt.run ⟨s, UDS.new F obs⟩ ops).1) :
    ((∃ e, st.addEvent.2 = .threw e) ↔ ¬ AllInRange st.ds.obs st.store) ∧
    (∀ e, st.addEvent.2 = .threw e → st.addEvent.1 = st) ∧
    (∀ v vs e, (st.addEventV v vs).2 = .threw e → (st.addEventV v vs).1.ds = st.ds) := by
  have hs : st.ds.Shape := by
    rw [hst]; exact run_shape ops _ (by simp [UDS.Shape, UDS.new])
  have hp := pushAll_ok (st.ds.obs.map fun o => (st.store o).value) st.ds.data
    (by rw [List.length_map]; exact hs)
  refine ⟨?_, (addEvent_shape st hs).2, ?_⟩
  · unfold USt.addEvent
    rw [← checkAllVars_iff]
    by_cases hc : checkAllVars st.store st.ds.obs = true
    · simp [hc, hp.1]
    · simp [hc]
  · intro v vs e
    unfold USt.addEventV
    split
    · intro _; rfl
    · intro h
      rw [(addEvent_shape { st with store := setAll st.ds.obs (v :: vs) st.store } hs).2 e h]

example : ∃ st : USt Int, st = (USt.run ⟨Demo.store, UDS.new Int [0, 1]⟩ [.addEvent, .setObs 1 (Demo.cell 11)]).1 ∧
    st.addEvent.2 = .threw .outOfRange := ⟨_, rfl, by rfl⟩

/-- Auxiliary form of C05 on the specification. -/
theorem rows_event_was_in_range {F : Type} [FpCmp F] (obs : List Nat) (ops : List (DsOp F))
    (hno : ∀ op ∈ ops, ∀ o, op ≠ .setValueForAllEvents o) :
    ∀ (r : Rows F) (e : Event F), e ∈ (r.run obs ops).1.events → e ∈ r.events ∨
      ∃ k, k < ops.length ∧ (∀ o, ((r.run obs (ops.take (k + 1))).1.vars o).value = e o) ∧
        AllInRange obs (r.run obs (ops.take (k + 1))).1.vars := by
  induction ops with
  | nil => intro r e h; exact Or.inl h
  | cons op ops ih =>
    intro r e he
    have hadd : ∀ r' : Rows F, e ∈ (r'.add obs).1.events → e ∈ r'.events ∨
        ((∀ o, ((r'.add obs).1.vars o).value = e o) ∧ AllInRange obs (r'.add obs).1.vars) := by
      intro r' h
      unfold Rows.add at h ⊢
      by_cases hr : AllInRange obs r'.vars
      · simp only [hr, if_true] at h ⊢
        rcases List.mem_append.mp h with h | h
        · exact Or.inl h
        · right
          have : e = fun o => (r'.vars o).value := by simpa using h
          exact ⟨fun o => by rw [this], trivial⟩
      · simp only [hr, if_false] at h ⊢
        exact Or.inl h
    have hstep : e ∈ (r.step obs op).1.events → e ∈ r.events ∨
        ((∀ o, ((r.step obs op).1.vars o).value = e o) ∧ AllInRange obs (r.step obs op).1.vars) := by
      intro h
      cases op with
      | setObs o c => exact Or.inl h
      | addEvent => exact hadd r h
      | addEventV v vs =>
        simp only [Rows.step] at h ⊢
        split at h
        · next hl => simp only [hl, if_true]; exact hadd _ h
        · exact Or.inl h
      | clear => simp [Rows.step] at h
      | getNumEvents => exact Or.inl h
      | getValue o i =>
        simp only [Rows.step] at h
        split at h
        · exact Or.inl h
        · split at h <;> exact Or.inl h
      | loadEvent i =>
        simp only [Rows.step] at h
        split at h
        · exact Or.inl h
        · split at h <;> exact Or.inl h
      | setValueForAllEvents o => exact absurd rfl (hno _ (by simp) o)
    simp only [Rows.run] at he
    rcases ih (fun op' h => hno op' (by simp [h])) _ e he with h | ⟨k, hk, h1, h2⟩
    · rcases hstep h with h | ⟨h1, h2⟩
      · exact Or.inl h
      · right
        exact ⟨0, by simp, by simpa [Rows.run] using h1, by simpa [Rows.run] using h2⟩
    · right
      exact ⟨k + 1, by simpa using hk, by simpa [Rows.run] using h1, by simpa [Rows.run] using h2⟩

/-- **C05 (addEvent).** After any history of dataset calls (limits may change at any time) without
`setValueForAllEvents`, every value the dataset returns was the value of that observable, inside the
limits it had at that time, at the moment some call of the history returned. -/
theorem C05_stored_values_were_in_limits {F : Type} [FpCmp F] (obs : List Nat) (hn : obs.Nodup) (s : Store F)
    (ops : List (DsOp F)) (hno : ∀ op ∈ ops, ∀ o, op ≠ .setValueForAllEvents o) (o i : Nat) (x : F)
    (hx : (USt.run ⟨s, UDS.new F obs⟩ ops).1.ds.getValue o i = .val x) :
    ∃ k, k < ops.length ∧
      ((USt.run ⟨s, UDS.new F obs⟩ (ops.take (k + 1))).1.store o).value = x ∧
      InLimits ((USt.run ⟨s, UDS.new F obs⟩ (ops.take (k + 1))).1.store o) := by
  have C := uds_run obs hn (ops ++ [.getValue o i]) ⟨s, UDS.new F obs⟩ ⟨s, []⟩ rfl rfl (holds_new F obs)
  have C1 := uds_run obs hn ops ⟨s, UDS.new F obs⟩ ⟨s, []⟩ rfl rfl (holds_new F obs)
  have C2 := uds_step obs hn _ _ C1.2.2.1 C1.2.1 C1.2.2.2 (.getValue o i)
  have hval := C2.1
  simp only [USt.step, hx, Rows.step] at hval
  cases he : (Rows.run obs ⟨s, []⟩ ops).1.events[i]? with
  | none => rw [he] at hval; simp at hval
  | some e =>
    rw [he] at hval
    simp only at hval
    split at hval
    · next hm =>
      have hxe : x = e o := by simpa using hval
      have hmem : e ∈ (Rows.run obs ⟨s, []⟩ ops).1.events := List.mem_of_getElem? he
      rcases rows_event_was_in_range obs ops hno _ e hmem with h | ⟨k, hk, h1, h2⟩
      · simp at h
      · have D := (uds_run obs hn (ops.take (k + 1)) ⟨s, UDS.new F obs⟩ ⟨s, []⟩ rfl rfl (holds_new F obs)).2.1
        exact ⟨k, hk, by rw [D, h1, hxe], by rw [D]; exact h2 o hm⟩
    · simp at hval

example : [0, 1].Nodup ∧
    (USt.run ⟨Demo.store, UDS.new Int [0, 1]⟩ [.addEventV 7 [8], .setObs 1 ⟨0, 0, 1, 1, false⟩]).1.ds.getValue 1 0 =
      .val 8 := ⟨by decide, by rfl⟩

/-- Candidate events of an imported matrix, in column order: column `i` gives event number `n0 + i` to
the observable that has no row. -/
def Spec.candidates {F : Type} (ofNat : Nat → F) (obs : List Nat) (rows n0 : Nat) (cols : List (List F))
    (s : Store F) : List (Store F) :=
  cols.zipIdx.map fun p => columnEvent ofNat obs rows p.1 (n0 + p.2) s

/-- **C05 (from_matrix), C06 (general form).** Importing a matrix into a dataset holding events `es`:
with filtering exactly the in-range columns are appended, in order, and the call succeeds; without
filtering all columns are appended if all are in range, otherwise the call throws after the columns
before the first bad one. -/
theorem C06_from_matrix {F : Type} [FpCmp F] (ofNat : Nat → F) (st : USt F) (es : List (Event F))
    (hn : st.ds.obs.Nodup) (hh : Holds st.ds es) (rows : Nat) (cols : List (List F))
    (hc : ∀ c ∈ cols, c.length = rows) (ho : st.ds.obs.length = rows ∨ st.ds.obs.length = rows + 1) :
    let cand := candidates ofNat st.ds.obs rows es.length cols st.store
    let ev := fun (s : Store F) (o : Nat) => (s o).value
    let good := fun s => decide (AllInRange st.ds.obs s)
    ((st.fromMatrix ofNat rows cols true).2 = .done ∧
      Holds (st.fromMatrix ofNat rows cols true).1.ds (es ++ (cand.filter good).map ev)) ∧
    ((∀ s ∈ cand, AllInRange st.ds.obs s) → (st.fromMatrix ofNat rows cols false).2 = .done ∧
      Holds (st.fromMatrix ofNat rows cols false).1.ds (es ++ cand.map ev)) ∧
    ((∃ s ∈ cand, ¬ AllInRange st.ds.obs s) → (st.fromMatrix ofNat rows cols false).2 = .threw .outOfRange ∧
      Holds (st.fromMatrix ofNat rows cols false).1.ds (es ++ (cand.takeWhile good).map ev)) := by
  have hcond : ¬ (st.ds.obs.length ≠ rows ∧ st.ds.obs.length ≠ rows + 1) := by omega
  have hnum : st.ds.num = es.length := hh.1
  have T := fromMatrixLoop_spec ofNat st.ds.obs rows hn ho true st.store cols hc es.length st es rfl hh
    (fun _ _ => rfl)
  have U := fromMatrixLoop_spec ofNat st.ds.obs rows hn ho false st.store cols hc es.length st es rfl hh
    (fun _ _ => rfl)
  simp only [USt.fromMatrix, hcond, if_false, hnum]
  simp only at T U
  exact ⟨T.2.1 trivial, (U.2.2 trivial).1, (U.2.2 trivial).2⟩

/-- A matrix with the wrong number of rows is refused and nothing changes. -/
theorem C06_wrong_rows {F : Type} [FpCmp F] (ofNat : Nat → F) (st : USt F) (rows : Nat) (cols : List (List F))
    (filter : Bool) (h1 : st.ds.obs.length ≠ rows) (h2 : st.ds.obs.length ≠ rows + 1) :
    st.fromMatrix ofNat rows cols filter = (st, .threw .general) := by
  simp [USt.fromMatrix, h1, h2]

/-- **C06 (round trip).** Importing a matrix of in-range values (one row per observable) into an empty
dataset and exporting it returns the matrix: entry (row j, column i) is `cols[i][j]`. -/
theorem C06_round_trip {F : Type} [FpCmp F] (ofNat : Nat → F) (obs : List Nat) (hn : obs.Nodup)
    (hpos : obs ≠ []) (s : Store F) (cols : List (List F)) (hc : ∀ c ∈ cols, c.length = obs.length)
    (hr : ∀ c ∈ cols, ∀ (j o : Nat) (x : F), obs[j]? = some o → c[j]? = some x →
      InLimits ({ s o with value := x } : ObsCell F)) (filter : Bool) :
    ∃ st' M, USt.fromMatrix ⟨s, UDS.new F obs⟩ ofNat obs.length cols filter = (st', .done) ∧
      st'.ds.toMatrix = some M ∧ M.length = obs.length ∧
      (∀ row ∈ M, row.length = cols.length) ∧
      ∀ (i j : Nat) (c : List F) (x : F), cols[i]? = some c → c[j]? = some x → ∃ row, M[j]? = some row ∧ row[i]? = some x := by
  set st : USt F := ⟨s, UDS.new F obs⟩
  have hcand : candidates ofNat obs obs.length 0 cols s = cols.map (fun c => assign obs c s) := by
    unfold candidates columnEvent
    have hne : ¬ obs.length = obs.length + 1 := by omega
    simp only [hne, if_false]
    apply List.ext_getElem?
    intro k
    simp
    cases cols[k]? <;> rfl
  have hassign : ∀ (c : List F), c.length = obs.length → ∀ (j o : Nat) (x : F), obs[j]? = some o → c[j]? = some x →
      assign obs c s o = { s o with value := x } := by
    intro c hl j o x hj hx
    have hz : (obs.zip c)[j]? = some (o, x) := by
      rw [List.getElem?_zip_eq_some]; exact ⟨hj, hx⟩
    unfold assign
    cases hf : (obs.zip c).find? (fun p => p.1 == o) with
    | none =>
      rw [List.find?_eq_none] at hf
      have := hf _ (List.mem_of_getElem? hz)
      simp at this
    | some p =>
      have hp1 : p.1 = o := by simpa using List.find?_some hf
      obtain ⟨k, hk⟩ := List.mem_iff_getElem?.mp (List.mem_of_find?_eq_some hf)
      rw [List.getElem?_zip_eq_some] at hk
      have hkj : k = j := by
        have h1 := hk.1
        rw [hp1] at h1
        obtain ⟨a1, a2⟩ := List.getElem?_eq_some_iff.mp h1
        obtain ⟨b1, b2⟩ := List.getElem?_eq_some_iff.mp hj
        exact (List.Nodup.getElem_inj_iff hn).mp (a2.trans b2.symm)
      subst hkj
      have : p.2 = x := by
        have := hk.2; rw [hx] at this; simpa using this.symm
      simp [this]
  have hgood : ∀ t ∈ candidates ofNat obs obs.length 0 cols s, AllInRange obs t := by
    rw [hcand]
    intro t ht o ho
    obtain ⟨c, hcm, rfl⟩ := List.mem_map.mp ht
    obtain ⟨j, hj, hjo⟩ := List.mem_iff_getElem.mp ho
    have hl := hc c hcm
    have h1 : obs[j]? = some o := by rw [List.getElem?_eq_getElem hj, hjo]
    have h2 : c[j]? = some (c[j]'(by omega)) := List.getElem?_eq_getElem _
    rw [hassign c hl j o _ h1 h2]
    exact hr c hcm j o _ h1 h2
  have T := C06_from_matrix ofNat st [] hn (holds_new F obs) obs.length cols hc (Or.inl rfl)
  have hso : st.ds.obs = obs := rfl
  have hss : st.store = s := rfl
  simp only [hso, hss, List.length_nil, List.nil_append] at T
  have hres : (st.fromMatrix ofNat obs.length cols filter).2 = .done ∧
      Holds (st.fromMatrix ofNat obs.length cols filter).1.ds
        ((candidates ofNat obs obs.length 0 cols s).map (fun t o => (t o).value)) := by
    cases filter with
    | true =>
      have := T.1
      rwa [List.filter_eq_self.mpr (fun a ha => by simpa using hgood a ha)] at this
    | false => exact T.2.1 hgood
  have hobs' : (st.fromMatrix ofNat obs.length cols filter).1.ds.obs = obs := by
    have hcond : ¬ (st.ds.obs.length ≠ obs.length ∧ st.ds.obs.length ≠ obs.length + 1) := by
      simp [hso]
    have := fromMatrixLoop_spec ofNat obs obs.length hn (Or.inl rfl) filter s cols hc 0 st [] rfl
      (holds_new F obs) (fun _ _ => rfl)
    simp only [USt.fromMatrix, hcond, if_false]
    exact this.1
  rcases hfm : st.fromMatrix ofNat obs.length cols filter with ⟨st', out⟩
  rw [hfm] at hres hobs'
  simp only at hres hobs'
  obtain ⟨hout, hnum, hdata⟩ := hres
  subst hout
  rw [hcand, hobs'] at hdata
  simp only [List.map_map] at hdata
  refine ⟨st', st'.ds.data, rfl, ?_, ?_, ?_, ?_⟩
  · cases obs with
    | nil => exact absurd rfl hpos
    | cons o os =>
      unfold UDS.toMatrix
      rw [hdata]
      simp
  · rw [hdata]; simp
  · rw [hdata]; simp
  · intro i j c x hi hj
    have hcm : c ∈ cols := List.mem_of_getElem? hi
    have hl := hc c hcm
    have hjl : j < obs.length := by
      have := (List.getElem?_eq_some_iff.mp hj).1; omega
    rw [hdata]
    refine ⟨_, by rw [List.getElem?_map, List.getElem?_eq_getElem hjl]; rfl, ?_⟩
    rw [List.getElem?_map, hi]
    simp only [Option.map_some, Function.comp]
    rw [hassign c hl j obs[j] x (List.getElem?_eq_getElem _) hj]

example : [0, 1].Nodup ∧ (∀ c ∈ [[1, 2], [3, 4], [5, 6]], (c : List Int).length = [0, 1].length) ∧
    (USt.fromMatrix ⟨Demo.store, UDS.new Int [0, 1]⟩ Int.ofNat 2 [[1, 2], [3, 4], [5, 6]] false).1.ds.toMatrix =
      some [[1, 3, 5], [2, 4, 6]] := ⟨by decide, by decide, by rfl⟩

/-- **C06 is violated** by the code when filtering: the number given to an event is its column in the
matrix, not its row in the dataset. Witness: two columns of which the first is out of range; the single
event stored gets number 1 instead of 0. -/
theorem C06_violation_filtered_event_number :
    let st := (USt.fromMatrix ⟨Demo.store, UDS.new Int [0, 2]⟩ Int.ofNat 1 [[100], [1]] true).1
    st.ds.num = 1 ∧ st.ds.getValue 0 0 = .val 1 ∧ st.ds.getValue 2 0 = .val 1 := by
  exact ⟨rfl, rfl, rfl⟩

/-- **C06 (event numbers).** Without filtering (or when nothing is filtered out), the observable lacking
a row holds the row of each event in the dataset. -/
theorem C06_event_number_partial {F : Type} [FpCmp F] (ofNat : Nat → F) (obs : List Nat) (e : Nat)
    (hn : (obs ++ [e]).Nodup) (s : Store F) (cols : List (List F)) (hc : ∀ c ∈ cols, c.length = obs.length)
    (st' : USt F) (h : USt.fromMatrix ⟨s, UDS.new F (obs ++ [e])⟩ ofNat obs.length cols false = (st', .done)) :
    st'.ds.num = cols.length ∧ ∀ i, i < cols.length → st'.ds.getValue e i = .val (ofNat i) := by
  set st : USt F := ⟨s, UDS.new F (obs ++ [e])⟩
  have T := C06_from_matrix ofNat st [] hn (holds_new F _) obs.length cols hc (Or.inr (by simp [st, UDS.new]))
  have hso : st.ds.obs = obs ++ [e] := rfl
  have hss : st.store = s := rfl
  simp only [hso, hss, List.length_nil, List.nil_append, h] at T
  have hgood : ∀ t ∈ candidates ofNat (obs ++ [e]) obs.length 0 cols s, AllInRange (obs ++ [e]) t := by
    by_contra hne
    push Not at hne
    have := (T.2.2 hne).1
    simp at this
  obtain ⟨_, hnum, hdata⟩ := T.2.1 hgood
  have hobs' : st'.ds.obs = obs ++ [e] := by
    have hcond : ¬ (st.ds.obs.length ≠ obs.length ∧ st.ds.obs.length ≠ obs.length + 1) := by
      simp [hso]
    have := fromMatrixLoop_spec ofNat (obs ++ [e]) obs.length hn (Or.inr (by simp)) false s cols hc 0 st [] rfl
      (holds_new F _) (fun _ _ => rfl)
    have h' := h
    simp only [USt.fromMatrix, hcond, if_false] at h'
    have e0 : st.ds.num = 0 := rfl
    rw [e0] at h'
    have := this.1
    rw [h'] at this
    exact this
  have hlen : (candidates ofNat (obs ++ [e]) obs.length 0 cols s).length = cols.length := by
    simp [candidates]
  refine ⟨by rw [hnum]; simp [hlen], ?_⟩
  intro i hi
  have hst := uds_step (obs ++ [e]) hn st' ⟨st'.store, (candidates ofNat (obs ++ [e]) obs.length 0 cols s).map
    (fun t o => (t o).value)⟩ hobs' rfl ⟨hnum, hdata⟩ (.getValue e i)
  have h1 := hst.1
  simp only [USt.step, Rows.step] at h1
  obtain ⟨c, hci⟩ : ∃ c, cols[i]? = some c := ⟨cols[i], List.getElem?_eq_getElem _⟩
  have hci2 : (candidates ofNat (obs ++ [e]) obs.length 0 cols s)[i]? =
      some (columnEvent ofNat (obs ++ [e]) obs.length c i s) := by
    simp [candidates, hci]
  rw [List.getElem?_map, hci2] at h1
  simp only [Option.map_some, List.mem_append, List.mem_singleton, or_true, if_true, Obsn.out.injEq] at h1
  rw [h1]
  congr 1
  have hcl : c.length = obs.length := hc c (List.mem_of_getElem? hci)
  unfold columnEvent
  simp only [List.length_append, List.length_singleton, if_true]
  rw [← setAll_eq_assign _ _ _ hn, setAll_append _ _ _ _ _ hcl.symm]
  simp [setAll, Store.setValue]

example : ([0] ++ [2]).Nodup ∧ (USt.fromMatrix ⟨Demo.store, UDS.new Int ([0] ++ [2])⟩ Int.ofNat 1
    [[4], [1], [7]] false).1.ds.getValue 2 2 = .val 2 := ⟨by decide, by rfl⟩

/-- **C05 (from_matrix).** Every event added by `from_matrix`, filtered or not, even if it throws half
way, has all its values inside the limits. -/
theorem C05_from_matrix_in_limits {F : Type} [FpCmp F] (ofNat : Nat → F) (st : USt F) (es : List (Event F))
    (hn : st.ds.obs.Nodup) (hh : Holds st.ds es) (rows : Nat) (cols : List (List F))
    (hc : ∀ c ∈ cols, c.length = rows) (filter : Bool) :
    ∃ new : List (Event F), Holds (st.fromMatrix ofNat rows cols filter).1.ds (es ++ new) ∧
      ∀ e ∈ new, ∀ o ∈ st.ds.obs, InLimits ({ st.store o with value := e o } : ObsCell F) := by
  by_cases ho : st.ds.obs.length = rows ∨ st.ds.obs.length = rows + 1
  · have T := C06_from_matrix ofNat st es hn hh rows cols hc ho
    simp only at T
    have key : ∀ t ∈ candidates ofNat st.ds.obs rows es.length cols st.store, AllInRange st.ds.obs t →
        ∀ o ∈ st.ds.obs, InLimits ({ st.store o with value := (t o).value } : ObsCell F) := by
      intro t ht hr o ho'
      have h1 := hr o ho'
      simp only [candidates, List.mem_map] at ht
      obtain ⟨p, _, rfl⟩ := ht
      unfold columnEvent at h1 ⊢
      have h2 := assign_limits st.ds.obs
        (if st.ds.obs.length = rows + 1 then p.1 ++ [ofNat (es.length + p.2)] else p.1) st.store o
      simp only [InLimits] at h1 ⊢
      rw [← h2.1, ← h2.2]; exact h1
    cases filter with
    | true =>
      refine ⟨_, T.1.2, ?_⟩
      intro e he
      obtain ⟨t, ht, rfl⟩ := List.mem_map.mp he
      rw [List.mem_filter] at ht
      exact key t ht.1 (by simpa using ht.2)
    | false =>
      by_cases hall : ∀ s ∈ candidates ofNat st.ds.obs rows es.length cols st.store, AllInRange st.ds.obs s
      · refine ⟨_, (T.2.1 hall).2, ?_⟩
        intro e he
        obtain ⟨t, ht, rfl⟩ := List.mem_map.mp he
        exact key t ht (hall t ht)
      · push Not at hall
        refine ⟨_, (T.2.2 hall).2, ?_⟩
        intro e he
        obtain ⟨t, ht, rfl⟩ := List.mem_map.mp he
        have h1 := List.mem_takeWhile_imp ht
        exact key t ((List.takeWhile_sublist _).subset ht) (by simpa using h1)
  · refine ⟨[], ?_, by simp⟩
    have : st.ds.obs.length ≠ rows ∧ st.ds.obs.length ≠ rows + 1 := by omega
    simp [USt.fromMatrix, this, hh]

example : (∀ c ∈ [[100], [1]], (c : List Int).length = 1) ∧ [0, 2].Nodup ∧
    Holds (UDS.new Int [0, 2]) [] := ⟨by decide, by decide, holds_new Int [0, 2]⟩

/-! ### C07 -/

/-- Number of grid points: the product of the bin counts of the ordinary observables. -/
def Spec.gridPoints {K : Type} (s : Store K) (obs : List Nat) : Nat :=
  ((obs.filter fun o => !(s o).isEventNumber).map fun o => (s o).numBins).prod

/-- Centre of bin `b` of an observable. -/
def Spec.binCentre {K : Type} [Field K] (c : ObsCell K) (b : Nat) : K :=
  c.lower + ((b : K) + 1 / 2) * ((c.upper - c.lower) / (c.numBins : K))

section
variable {K : Type} [Field K] [LinearOrder K] [IsStrictOrderedRing K]

/-- **C07.** For any list of distinct observables, at most one of which is an event number, the grid has
exactly `∏ n_j` events; in event `g` observable number `j` holds the centre of its bin
`(g / ∏_{i<j} n_i) mod n_j` (ordinary observables) or the start value plus `g` (event number).
Exact arithmetic. -/
theorem C07_grid (obs : List Nat) (hn : obs.Nodup) (s : Store K)
    (hlim : ∀ o ∈ obs, (s o).isEventNumber = false → (s o).lower ≤ (s o).upper)
    (hone : ∀ o ∈ obs, ∀ p ∈ obs, (s o).isEventNumber = true → (s p).isEventNumber = true → o = p)
    (hev : ∀ o ∈ obs, (s o).isEventNumber = true → ∀ k : Nat, k < gridPoints s obs →
      InLimits ({ s o with value := (s o).value + (k : K) } : ObsCell K)) :
    (USt.fillWithGrid ⟨s, UDS.new K obs⟩).2 = .done ∧
    (USt.fillWithGrid ⟨s, UDS.new K obs⟩).1.ds.num = gridPoints s obs ∧
    ∀ g, g < gridPoints s obs → ∀ j o, obs[j]? = some o →
      (USt.fillWithGrid ⟨s, UDS.new K obs⟩).1.ds.getValue o g =
        .val (if (s o).isEventNumber then (s o).value + (g : K)
          else binCentre (s o) (g / gridPoints s (obs.take j) % (s o).numBins)) := by
  have hN : gridN s obs.reverse = gridPoints s obs := by rw [gridN_reverse, gridN_eq_prod]; rfl
  have hlast : ∀ e, lastEventNumber s obs = some e → e ∈ obs ∧ (s e).isEventNumber = true := by
    intro e he
    unfold lastEventNumber at he
    exact ⟨by simpa using List.mem_of_find?_eq_some he, by simpa using List.find?_some he⟩
  have hlast2 : ∀ o ∈ obs, (s o).isEventNumber = true → lastEventNumber s obs = some o := by
    intro o ho hoE
    cases h : lastEventNumber s obs with
    | none =>
      unfold lastEventNumber at h
      rw [List.find?_eq_none] at h
      have := h o (by simpa using ho)
      exact absurd hoE this
    | some e =>
      obtain ⟨h1, h2⟩ := hlast e h
      rw [hone e h1 o ho h2 hoE]
  have hok : GridOk (lastEventNumber s obs) obs obs.reverse s := by
    refine ⟨fun o ho => hlim o (by simpa using ho), ?_, ?_⟩
    · intro o ho h hne
      rcases h with h | h
      · exact absurd ho (by simpa using h)
      · exact absurd (hlast2 o ho h) hne
    · intro e he
      obtain ⟨h1, h2⟩ := hlast e he
      exact ⟨h2, by rw [hN]; exact (fun k hk => (inRange_iff _).2 (hev e h1 h2 k hk))⟩
  have G := makeAGrid_spec (lastEventNumber s obs) obs obs.reverse (List.nodup_reverse.mpr hn)
    ⟨s, UDS.new K obs⟩ [] rfl (holds_new K obs) hok
  have hfill : USt.fillWithGrid ⟨s, UDS.new K obs⟩ =
      makeAGrid (lastEventNumber s obs) obs.reverse ⟨s, UDS.new K obs⟩ := by
    simp [USt.fillWithGrid, UDS.new]
  rw [hfill]
  simp only [hN, List.nil_append] at G
  generalize makeAGrid (lastEventNumber s obs) obs.reverse ⟨s, UDS.new K obs⟩ = r at G
  have hnum : r.1.ds.num = gridPoints s obs := by rw [G.holds.1]; simp
  refine ⟨G.out, hnum, ?_⟩
  intro g hg j o hj
  have hmem : o ∈ obs := List.mem_of_getElem? hj
  have hobs : r.1.ds.obs = obs := G.obs
  obtain ⟨i, hi, hgi⟩ := indexOf_isSome hmem
  unfold UDS.getValue
  have h1 : ¬ g ≥ r.1.ds.num := by omega
  have hd := G.holds.2
  rw [hobs] at hd
  simp only [h1, if_false, hobs, hi, hd, List.getElem?_map, hgi, Option.map_some, List.nil_append]
  have hrange : (List.range (gridPoints s obs))[g]? = some g := by
    rw [List.getElem?_range hg]
  rw [hrange]
  simp only [Option.map_some, Out.val.injEq]
  cases hE : (s o).isEventNumber with
  | true =>
    simp only [if_true, gridRow, gridVal_notMem _ s obs.reverse g o (Or.inr hE), hlast2 o hmem hE]
  | false =>
    simp only [Bool.false_eq_true, if_false]
    have hsplit : obs.reverse.reverse = obs.take j ++ o :: obs.drop (j + 1) := by
      rw [List.reverse_reverse]
      obtain ⟨hjl, hjo⟩ := List.getElem?_eq_some_iff.mp hj
      rw [← hjo, List.getElem_cons_drop, List.take_append_drop]
    have := gridVal_digit (lastEventNumber s obs) s obs.reverse (List.nodup_reverse.mpr hn) o _ _ hsplit hE g
      (by rw [hN]; exact hg)
    simp only [gridRow, this, gridN_eq_prod]
    rfl

/-- **C05 (fillWithGrid).** Every value of a grid event lies within the limits of its observable. -/
theorem C05_grid_in_limits (obs : List Nat) (hn : obs.Nodup) (s : Store K)
    (hlim : ∀ o ∈ obs, (s o).isEventNumber = false → (s o).lower ≤ (s o).upper)
    (hone : ∀ o ∈ obs, ∀ p ∈ obs, (s o).isEventNumber = true → (s p).isEventNumber = true → o = p)
    (hev : ∀ o ∈ obs, (s o).isEventNumber = true → ∀ k : Nat, k < gridPoints s obs →
      InLimits ({ s o with value := (s o).value + (k : K) } : ObsCell K))
    (g o : Nat) (hg : g < gridPoints s obs) (ho : o ∈ obs) :
    ∃ x, (USt.fillWithGrid ⟨s, UDS.new K obs⟩).1.ds.getValue o g = .val x ∧
      InLimits ({ s o with value := x } : ObsCell K) := by
  obtain ⟨j, hj⟩ := List.mem_iff_getElem?.mp ho
  refine ⟨_, (C07_grid obs hn s hlim hone hev).2.2 g hg j o hj, ?_⟩
  cases hE : (s o).isEventNumber with
  | true => simpa using hev o ho hE g hg
  | false =>
    simp only [Bool.false_eq_true, if_false]
    have hb : 0 < (s o).numBins := by
      rcases Nat.eq_zero_or_pos (s o).numBins with h | h
      · exfalso
        have : gridPoints s obs = 0 := by
          unfold gridPoints
          apply List.prod_eq_zero
          rw [List.mem_map]
          exact ⟨o, by simp [ho, hE], h⟩
        omega
      · exact h
    exact (inRange_iff _).1 (gridValue_inRange (s o) _ (Nat.mod_lt _ hb) (hlim o ho hE))

end

/-- The hypotheses of `C07_grid` on a 5 × 5 grid with an event number; the event number of the last
of the 25 events is 24. -/
example : ∃ s : Store ℚ,
    (∀ o ∈ [0, 1, 2], (s o).isEventNumber = false → (s o).lower ≤ (s o).upper) ∧
    (∀ o ∈ [0, 1, 2], ∀ p ∈ [0, 1, 2], (s o).isEventNumber = true → (s p).isEventNumber = true → o = p) ∧
    (∀ o ∈ [0, 1, 2], (s o).isEventNumber = true → ∀ k : Nat, k < gridPoints s [0, 1, 2] →
      InLimits ({ s o with value := (s o).value + (k : ℚ) } : ObsCell ℚ)) ∧
    gridPoints s [0, 1, 2] = 25 := by
  refine ⟨fun o => if o = 2 then ⟨0, 0, 1000, 1, true⟩ else ⟨3, 0, 10, 5, false⟩, ?_, ?_, ?_, by rfl⟩
  · intro o ho; fin_cases ho <;> simp
  · intro o ho p hp; fin_cases ho <;> fin_cases hp <;> simp
  · intro o ho
    fin_cases ho
    · simp
    · simp
    · intro _ k hk
      have hk' : k < 25 := hk
      have h1 : (k : ℚ) < 25 := by exact_mod_cast hk'
      have h0 : (0 : ℚ) ≤ k := by positivity
      simp only [InLimits, FpCmp.le, FpCmp.eq, Bool.or_eq_true, Bool.and_eq_true, decide_eq_true_eq]
      right
      constructor <;> simp <;> linarith

end GooFit
