import Verif.Model.Numpy
import Verif.Lemmas.DataSet
set_option autoImplicit false
namespace GooFit
open Spec

theorem arrayColumn_get {F : Type} (arr : List (List F)) (j : Nat) (h : ∀ r ∈ arr, j < r.length) (i : Nat) :
    (arrayColumn arr j)[i]? = arr[i]?.bind fun r => r[j]? := by
  induction arr generalizing i with
  | nil => simp [arrayColumn]
  | cons r rs ih =>
    have hr : r[j]? = some (r[j]'(h r (by simp))) := List.getElem?_eq_getElem _
    have : arrayColumn (r :: rs) j = r[j]'(h r (by simp)) :: arrayColumn rs j := by
      simp only [arrayColumn, List.filterMap_cons, hr]
    rw [this]
    cases i with
    | zero => simp [hr]
    | succ i => simpa using ih (fun r hr => h r (by simp [hr])) i

theorem arrayColumn_length {F : Type} (arr : List (List F)) (j : Nat) (h : ∀ r ∈ arr, j < r.length) :
    (arrayColumn arr j).length = arr.length := by
  induction arr with
  | nil => rfl
  | cons r rs ih =>
    have hr : r[j]? = some (r[j]'(h r (by simp))) := List.getElem?_eq_getElem _
    have : arrayColumn (r :: rs) j = r[j]'(h r (by simp)) :: arrayColumn rs j := by
      simp only [arrayColumn, List.filterMap_cons, hr]
    rw [this]
    simp [ih fun r hr => h r (by simp [hr])]

theorem assign_assign_le {F : Type} (obs : List Nat) (v w : List F) (s : Store F)
    (hv : w.length ≤ v.length) : assign obs v (assign obs w s) = assign obs v s := by
  funext o
  unfold assign
  cases h : (obs.zip v).find? (fun p => p.1 == o) with
  | some p =>
    simp only
    split <;> rfl
  | none =>
    simp only
    have : (obs.zip w).find? (fun p => p.1 == o) = none := by
      rw [List.find?_eq_none] at h ⊢
      rintro ⟨a, b⟩ hab
      obtain ⟨i, hi⟩ := List.mem_iff_getElem?.mp hab
      rw [List.getElem?_zip_eq_some] at hi
      have hlt : i < v.length := lt_of_lt_of_le (List.getElem?_eq_some_iff.1 hi.2).1 hv
      have := h (a, v[i]) (List.mem_iff_getElem?.mpr ⟨i, by
        rw [List.getElem?_zip_eq_some]
        exact ⟨hi.1, List.getElem?_eq_getElem hlt⟩⟩)
      simpa using this
    rw [this]

theorem assign_get {F : Type} {obs : List Nat} (hn : obs.Nodup) (c : List F) (s : Store F) {j o : Nat} {x : F}
    (hj : obs[j]? = some o) (hx : c[j]? = some x) : assign obs c s o = { s o with value := x } := by
  have hz : (obs.zip c)[j]? = some (o, x) := by
    rw [List.getElem?_zip_eq_some]; exact ⟨hj, hx⟩
  unfold assign
  cases hf : (obs.zip c).find? (fun p => p.1 == o) with
  | none =>
    rw [List.find?_eq_none] at hf
    have := hf _ (List.mem_of_getElem? hz)
    simp at this
  | some p =>
    have hp1 : p.1 = o := by simpa using List.find?_some hf
    obtain ⟨k, hk⟩ := List.mem_iff_getElem?.mp (List.mem_of_find?_eq_some hf)
    rw [List.getElem?_zip_eq_some] at hk
    have hkj : k = j := by
      have h1 := hk.1
      rw [hp1] at h1
      obtain ⟨a1, a2⟩ := List.getElem?_eq_some_iff.mp h1
      obtain ⟨b1, b2⟩ := List.getElem?_eq_some_iff.mp hj
      exact (List.Nodup.getElem_inj_iff hn).mp (a2.trans b2.symm)
    subst hkj
    have : p.2 = x := by
      have := hk.2; rw [hx] at this; simpa using this.symm
    simp [this]

theorem fromNumpyLoop_spec {F : Type} [FpCmp F] (obs : List Nat) (rows : Nat)
    (hn : obs.Nodup) (ho : rows ≤ obs.length) (filter : Bool)
    (s0 : Store F) (cols : List (List F)) (hc : ∀ c ∈ cols, c.length = rows) :
    ∀ (st : USt F) (es : List (Event F)), st.ds.obs = obs → Holds st.ds es →
      (∀ v : List F, v.length = rows → assign obs v st.store = assign obs v s0) →
      let cand := cols.map fun c => assign obs c s0
      let r := fromNumpyLoop rows filter cols st
      r.1.ds.obs = obs ∧
      (filter = true → r.2 = .done ∧
        Holds r.1.ds (es ++ (cand.filter (fun s => decide (AllInRange obs s))).map (fun s o => (s o).value))) ∧
      (filter = false →
        ((∀ s ∈ cand, AllInRange obs s) → r.2 = .done ∧ Holds r.1.ds (es ++ cand.map (fun s o => (s o).value))) ∧
        ((∃ s ∈ cand, ¬ AllInRange obs s) → r.2 = .threw .outOfRange ∧
          Holds r.1.ds (es ++ (cand.takeWhile (fun s => decide (AllInRange obs s))).map (fun s o => (s o).value)))) := by
  induction cols with
  | nil =>
    intro st es hob hh _
    simp only [fromNumpyLoop, List.map_nil, List.filter_nil, List.append_nil, List.takeWhile_nil]
    exact ⟨hob, fun _ => ⟨trivial, hh⟩, fun _ => ⟨fun _ => ⟨trivial, hh⟩, fun ⟨s, hs, _⟩ => by simp at hs⟩⟩
  | cons col cols ih =>
    intro st es hob hh hs
    have hcl : col.length = rows := hc col (by simp)
    have hcol : setAll st.ds.obs col st.store = assign obs col s0 := by
      rw [hob, setAll_eq_assign _ _ _ hn]
      exact hs col hcl
    have hs' : ∀ v : List F, v.length = rows → assign obs v (assign obs col s0) = assign obs v s0 :=
      fun v hv => assign_assign_le obs v _ s0 (by omega)
    have hadd := holds_addEvent { st with store := assign obs col s0 } es hh
    rw [hob] at hadd
    have hno : ¬ obs.length < rows := by omega
    simp only [fromNumpyLoop, hcol, List.map_cons]
    generalize hst1 : ({ st with store := assign obs col s0 } : USt F) = st1 at *
    have hst1s : st1.store = assign obs col s0 := by rw [← hst1]
    have hst1d : st1.ds = st.ds := by rw [← hst1]
    rw [hob, if_neg hno]
    try rw [hst1s] at hadd
    generalize assign obs col s0 = s1 at *
    generalize hcd : (cols.map fun c => assign obs c s0) = cand
    have hc' : ∀ c ∈ cols, c.length = rows := fun c h => hc c (by simp [h])
    by_cases hr : AllInRange obs s1
    · obtain ⟨a, b, c, d⟩ := hadd.1 hr
      have hck : checkAllVars s1 obs = true := (checkAllVars_iff _ _).mpr hr
      simp only [hck, Bool.or_true, if_true]
      rcases hae : st1.addEvent with ⟨st2, out⟩
      rw [hae] at a b c d
      simp only at a b c d
      subst a
      have IH := ih hc' st2 (es ++ [fun o => (s1 o).value]) (by rw [c]) d (by rw [b]; exact hs')
      simp only [hcd] at IH ⊢
      obtain ⟨i1, i2, i3⟩ := IH
      refine ⟨i1, ?_, ?_⟩
      · intro hf
        obtain ⟨j1, j2⟩ := i2 hf
        refine ⟨j1, ?_⟩
        simpa [hr] using j2
      · intro hf
        obtain ⟨j1, j2⟩ := i3 hf
        constructor
        · intro hall
          obtain ⟨k1, k2⟩ := j1 (fun s hs => hall s (by simp [hs]))
          exact ⟨k1, by simpa using k2⟩
        · rintro ⟨s, hsm, hns⟩
          have : s ∈ cand := by
            rcases List.mem_cons.mp hsm with h | h
            · subst h; exact absurd hr hns
            · exact h
          obtain ⟨k1, k2⟩ := j2 ⟨s, this, hns⟩
          refine ⟨k1, ?_⟩
          simpa [hr] using k2
    · have hck : ¬ checkAllVars s1 obs = true := fun h => hr ((checkAllVars_iff _ _).mp h)
      cases filter with
      | true =>
        have hck' : checkAllVars s1 obs = false := by simpa using hck
        simp only [hck', Bool.not_true, Bool.or_false, Bool.false_eq_true, if_false]
        have IH := ih hc' st1 es (by rw [hst1d, hob]) (by rw [hst1d]; exact hh) (by rw [hst1s]; exact hs')
        simp only [hcd] at IH ⊢
        obtain ⟨i1, i2, i3⟩ := IH
        refine ⟨i1, ?_, by simp⟩
        intro _
        obtain ⟨j1, j2⟩ := i2 trivial
        exact ⟨j1, by simpa [hr] using j2⟩
      | false =>
        have := hadd.2 hr
        simp only [Bool.not_false, Bool.true_or, if_true, this]
        refine ⟨by rw [hst1d, hob], by simp, fun _ => ⟨?_, ?_⟩⟩
        · intro hall; exact absurd (hall s1 (by simp)) hr
        · intro _
          refine ⟨trivial, ?_⟩
          simp [hr, hst1d]; exact hh

theorem mapM_some {α β : Type} (f : α → Option β) (g : α → β) (l : List α) (h : ∀ a ∈ l, f a = some (g a)) :
    l.mapM f = some (l.map g) := by
  induction l with
  | nil => rfl
  | cons a l ih =>
    rw [List.mapM_cons, h a (by simp), ih fun b hb => h b (by simp [hb])]
    rfl

theorem toNumpy_of_holds {F : Type} (d : UDS F) (es : List (Event F)) (hn : d.obs.Nodup) (hh : Holds d es) :
    d.toNumpy = some (d.obs.map fun o => es.map fun e => e o) := by
  obtain ⟨hnum, hdata⟩ := hh
  unfold UDS.toNumpy
  apply mapM_some
  intro o ho
  obtain ⟨j, hj, hjo⟩ := indexOf_isSome ho
  have hcol : d.data[j]? = some (es.map fun e => e o) := by
    rw [hdata, List.getElem?_map, hjo]; rfl
  have hval : ∀ i ∈ List.range d.num, (d.getValue o i).value? =
      (es.map fun e => e o)[i]? := by
    intro i hi
    have hi : i < d.num := List.mem_range.1 hi
    have hlt : i < (es.map fun e => e o).length := by simp; omega
    have : ¬ i ≥ d.num := by omega
    simp only [UDS.getValue, if_neg this, hj, hcol, List.getElem?_eq_getElem hlt, Out.value?]
  have hl : (es.map fun e => e o).length = d.num := by simp [hnum]
  generalize (es.map fun e => e o) = l at *
  have : (List.range d.num).mapM (fun i => (d.getValue o i).value?) =
      (List.range d.num).mapM fun i => l[i]? := by
    have : ∀ m : List Nat, (∀ i ∈ m, (d.getValue o i).value? = l[i]?) →
        m.mapM (fun i => (d.getValue o i).value?) = m.mapM fun i => l[i]? := by
      intro m
      induction m with
      | nil => intro _; rfl
      | cons a m ih =>
        intro h
        rw [List.mapM_cons, List.mapM_cons, h a (by simp), ih fun i hi => h i (by simp [hi])]
    exact this _ hval
  rw [this, ← hl]
  clear this hval hcol hnum hdata hl
  cases l with
  | nil => rfl
  | cons x xs =>
    rw [mapM_some _ (fun i => (x :: xs).getD i x)]
    · congr 1
      apply List.ext_getElem
      · simp
      · intro i h1 h2
        simp
        grind
    · intro i hi
      have : i < (x :: xs).length := List.mem_range.1 hi
      rw [List.getD_eq_getElem?_getD, List.getElem?_eq_getElem this]
      rfl

end GooFit
