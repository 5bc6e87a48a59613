import Verif.Spec.Python
import Mathlib.Tactic.ByContra
import Mathlib.Tactic.Tauto
import Mathlib.Order.Defs.LinearOrder
set_option autoImplicit false
namespace GooFit.Py
open GooFit.Spec Relation

/-- Everything an object points to is held by it, everything a variable reaches is alive. -/
structure LifeInv (h : Heap) : Prop where
  held : ∀ (x : Id) (o : Obj), h.objs[x]? = some o → ∀ y, y ∈ o.pointers ∨ y ∈ o.decay → ReflTransGen h.Holds x y
  live : ∀ x, h.Reachable x → Alive h x
  own : ∀ (x : Id) (o : Obj), h.objs[x]? = some o → o.stolen = false
  valid : h.invalidDelete = false

theorem lifeInv_empty : LifeInv Heap.empty := by
  refine ⟨by simp [Heap.empty], ?_, by simp [Heap.empty], rfl⟩
  rintro x ⟨r, hr, -⟩
  simp [Heap.empty] at hr

theorem rt_mono {r s : Id → Id → Prop} (hrs : ∀ a b, r a b → s a b) {a b : Id}
    (h : ReflTransGen r a b) : ReflTransGen s a b := by
  induction h with
  | refl => exact .refl
  | tail _ h1 ih => exact ih.tail (hrs _ _ h1)

theorem reach_step {h : Heap} {a b : Id} (ha : h.Reachable a) (hb : ReflTransGen h.Holds a b) :
    h.Reachable b := by
  obtain ⟨r, hr, h1⟩ := ha
  exact ⟨r, hr, h1.trans hb⟩

theorem reach_root {h : Heap} {a : Id} (ha : a ∈ h.roots) : h.Reachable a := ⟨a, ha, .refl⟩

theorem touched_reachable {h : Heap} (hi : LifeInv h) {x : Id} (ht : Touched h x) : h.Reachable x := by
  induction ht with
  | «variable» r hr => exact reach_root hr
  | pointer x y o _ ho hy ih => exact reach_step ih (hi.held x o ho y (.inl (by simp [Obj.pointers, hy])))
  | pointerB x y o _ ho hy ih => exact reach_step ih (hi.held x o ho y (.inl (by simp [Obj.pointers, hy])))
  | data x y o _ ho hy ih => exact reach_step ih (hi.held x o ho y (.inl (by simp [Obj.pointers, hy])))
  | decay x y o _ ho hy ih => exact reach_step ih (hi.held x o ho y (.inr hy))
  | item x y o _ ho hy ih => exact reach_step ih (.single ⟨o, ho, .inr hy⟩)
  | kept x y o _ ho hy ih => exact reach_step ih (.single ⟨o, ho, .inl hy⟩)

theorem LifeInv.sound {h : Heap} (hi : LifeInv h) : Sound h :=
  ⟨fun _ hx => hi.live _ (touched_reachable hi hx), hi.valid⟩

/-- Reachability after a change that adds edges to reachable objects only. -/
theorem reach_of_change {h h' : Heap} (P : Id → Prop)
    (hr : ∀ r ∈ h'.roots, h.Reachable r ∨ P r)
    (he : ∀ a b, h'.Holds a b → (h.Reachable a ∨ P a) → h.Reachable b) {x : Id}
    (hx : h'.Reachable x) : h.Reachable x ∨ P x := by
  obtain ⟨r, hr', h1⟩ := hx
  induction h1 with
  | refl => exact hr r hr'
  | tail _ hb ih => exact .inl (he _ _ hb ih)

theorem holds_add {h : Heap} {o : Obj} {a b : Id} (hh : h.Holds a b) : (h.add o).Holds a b := by
  obtain ⟨o', ho', hb⟩ := hh
  have hlt : a < h.objs.length := (List.getElem?_eq_some_iff.1 ho').1
  exact ⟨o', by simp [Heap.add, List.getElem?_append_left hlt, ho'], hb⟩

theorem add_get {h : Heap} {o o' : Obj} {x : Id} (hx : (h.add o).objs[x]? = some o') :
    h.objs[x]? = some o' ∨ (x = h.objs.length ∧ o' = o) := by
  simp only [Heap.add] at hx
  rcases Nat.lt_or_ge x h.objs.length with hlt | hge
  · rw [List.getElem?_append_left hlt] at hx
    exact .inl hx
  · rw [List.getElem?_append_right hge] at hx
    rcases Nat.eq_zero_or_pos (x - h.objs.length) with h0 | h0
    · rw [h0] at hx
      simp only [List.getElem?_cons_zero, Option.some.injEq] at hx
      exact .inr ⟨Nat.le_antisymm (Nat.sub_eq_zero_iff_le.1 h0) hge, hx.symm⟩
    · rw [List.getElem?_eq_none (show [o].length ≤ x - h.objs.length from h0)] at hx
      simp at hx

theorem LifeInv.add {h : Heap} (hi : LifeInv h) (o : Obj)
    (hk : ∀ y, y ∈ o.keep ∨ y ∈ o.items → h.Reachable y)
    (hp : ∀ y, y ∈ o.pointers ∨ y ∈ o.decay →
      ∃ z, (z ∈ o.keep ∨ z ∈ o.items) ∧ ReflTransGen h.Holds z y)
    (ha : o.alive = true) (hs : o.stolen = false) : LifeInv (h.add o) := by
  have hnew : (h.add o).objs[h.objs.length]? = some o := by simp [Heap.add]
  refine ⟨?_, ?_, ?_, hi.valid⟩
  · intro x o' ho' y hy
    rcases add_get ho' with h1 | ⟨rfl, rfl⟩
    · exact rt_mono (fun _ _ => holds_add) (hi.held x o' h1 y hy)
    · obtain ⟨z, hz, hzy⟩ := hp y hy
      exact ReflTransGen.head ⟨o', hnew, hz⟩ (rt_mono (fun _ _ => holds_add) hzy)
  · intro x hx
    have := reach_of_change (h := h) (h' := h.add o) (fun r => r = h.objs.length) (by
      intro r hr
      simp only [Heap.add, List.mem_cons] at hr
      rcases hr with rfl | hr
      · exact .inr rfl
      · exact .inl (reach_root hr)) (by
      rintro a b ⟨o', ho', hb⟩ hP
      rcases add_get ho' with h1 | ⟨rfl, rfl⟩
      · rcases hP with hP | rfl
        · exact reach_step hP (.single ⟨o', h1, hb⟩)
        · simp at h1
      · exact hk b hb) hx
    rcases this with h1 | rfl
    · obtain ⟨o', ho', hal⟩ := hi.live x h1
      have hlt : x < h.objs.length := (List.getElem?_eq_some_iff.1 ho').1
      exact ⟨o', by simp [Heap.add, List.getElem?_append_left hlt, ho'], hal⟩
    · exact ⟨o, hnew, ha⟩
  · intro x o' ho'
    rcases add_get ho' with h1 | ⟨-, rfl⟩
    · exact hi.own x o' h1
    · exact hs

theorem modify_get {h : Heap} {f : Obj → Obj} {p x : Id} {o' : Obj}
    (hx : (h.modify p f).objs[x]? = some o') :
    ∃ o, h.objs[x]? = some o ∧ o' = if p = x then f o else o := by
  simp only [Heap.modify, List.getElem?_modify] at hx
  cases hq : h.objs[x]? with
  | none => simp [hq] at hx
  | some o =>
    rw [hq] at hx
    simp only [Option.map_eq_map, Option.map_some, Option.some.injEq] at hx
    exact ⟨o, rfl, by split at hx <;> simp_all⟩

theorem get_modify {h : Heap} {f : Obj → Obj} {p x : Id} {o : Obj} (ho : h.objs[x]? = some o) :
    (h.modify p f).objs[x]? = some (if p = x then f o else o) := by
  simp only [Heap.modify, List.getElem?_modify, ho]
  by_cases hp : p = x <;> simp [hp]

theorem LifeInv.modify {h : Heap} (hi : LifeInv h) (p : Id) (f : Obj → Obj)
    (hkeep : ∀ o y, y ∈ o.keep → y ∈ (f o).keep) (hitems : ∀ o y, y ∈ o.items → y ∈ (f o).items)
    (hk : ∀ o y, y ∈ (f o).keep ∨ y ∈ (f o).items → (y ∈ o.keep ∨ y ∈ o.items) ∨ h.Reachable y)
    (hp : ∀ o y, y ∈ (f o).pointers ∨ y ∈ (f o).decay → (y ∈ o.pointers ∨ y ∈ o.decay) ∨
      ∃ z, (z ∈ (f o).keep ∨ z ∈ (f o).items) ∧ ReflTransGen h.Holds z y)
    (ha : ∀ o, (f o).alive = o.alive) (hs : ∀ o, (f o).stolen = o.stolen) : LifeInv (h.modify p f) := by
  have hmono : ∀ a b, h.Holds a b → (h.modify p f).Holds a b := by
    rintro a b ⟨o, ho, hb⟩
    refine ⟨_, get_modify ho, ?_⟩
    split
    · exact hb.imp (hkeep o b) (hitems o b)
    · exact hb
  refine ⟨?_, ?_, ?_, hi.valid⟩
  · intro x o' ho' y hy
    obtain ⟨o, ho, rfl⟩ := modify_get ho'
    split at hy
    · rename_i hpx
      rcases hp o y hy with h1 | ⟨z, hz, hzy⟩
      · exact rt_mono hmono (hi.held x o ho y h1)
      · exact ReflTransGen.head ⟨f o, by rw [get_modify ho, if_pos hpx], hz⟩ (rt_mono hmono hzy)
    · exact rt_mono hmono (hi.held x o ho y hy)
  · intro x hx
    have := reach_of_change (h := h) (h' := h.modify p f) (fun _ => False)
      (fun r hr => .inl (reach_root hr)) (by
      rintro a b ⟨o', ho', hb⟩ hP
      have hP := hP.resolve_right id
      obtain ⟨o, ho, rfl⟩ := modify_get ho'
      split at hb
      · rcases hk o b hb with h1 | h1
        · exact reach_step hP (.single ⟨o, ho, h1⟩)
        · exact h1
      · exact reach_step hP (.single ⟨o, ho, hb⟩)) hx
    obtain ⟨o, ho, hal⟩ := hi.live x (this.resolve_right id)
    refine ⟨_, get_modify ho, ?_⟩
    split
    · rw [ha]; exact hal
    · exact hal
  · intro x o' ho'
    obtain ⟨o, ho, rfl⟩ := modify_get ho'
    split
    · rw [hs]; exact hi.own x o ho
    · exact hi.own x o ho

theorem LifeInv.roots {h : Heap} (hi : LifeInv h) (rs : List Id) (hr : ∀ r ∈ rs, h.Reachable r) :
    LifeInv { h with roots := rs } := by
  refine ⟨hi.held, ?_, hi.own, hi.valid⟩
  rintro x ⟨r, hr', hx⟩
  exact hi.live x (reach_step (hr r hr') hx)

theorem mem_stored_list {h : Heap} {l y : Id} (hy : y ∈ (h.objs[l]?.map Obj.items).getD []) :
    h.Holds l y := by
  cases ho : h.objs[l]? with
  | none => simp [ho] at hy
  | some o => exact ⟨o, ho, .inr (by simpa [ho] using hy)⟩

theorem stored_held {h : Heap} (hi : LifeInv h) {r : Role} {a y : Id} (hy : y ∈ h.stored r a) :
    ReflTransGen h.Holds a y := by
  cases r with
  | value => simp [Heap.stored] at hy
  | ptr =>
    simp only [Heap.stored, List.mem_singleton] at hy
    subst hy
    exact .refl
  | list => exact .single (mem_stored_list hy)
  | decay =>
    simp only [Heap.stored] at hy
    cases ho : h.objs[a]? with
    | none => simp [ho] at hy
    | some o =>
      refine hi.held a o ho y (.inl ?_)
      simp [ho] at hy
      simp [Obj.pointers]
      tauto

/-- Every stored argument is kept alive. -/
def Ctor.keepsAll (c : Ctor) : Bool :=
  (List.range c.roles.length).all fun i => c.roles[i]? == some .value || c.keepAlive.contains (i + 2)

theorem keepsAll_iff (c : Ctor) : c.keepsAll = true ↔ c ∉ forgetful := by cases c <;> decide

theorem keepAlive_ge (c : Ctor) : ∀ n ∈ c.keepAlive, 2 ≤ n := by cases c <;> decide

theorem zip_index {α β : Type} {l : List α} {m : List β} {p : α × β} (hp : p ∈ l.zip m) :
    ∃ i : Nat, l[i]? = some p.1 ∧ m[i]? = some p.2 := by
  obtain ⟨i, hi⟩ := List.getElem?_of_mem hp
  rw [List.getElem?_zip_eq_some] at hi
  exact ⟨i, hi⟩

theorem ctor_kept {c : Ctor} (hc : c ∉ forgetful) {args : List Id} {p : Role × Id}
    (hp : p ∈ c.roles.zip args) (hv : p.1 ≠ .value) :
    p.2 ∈ c.keepAlive.filterMap fun n => args[n - 2]? := by
  obtain ⟨i, h1, h2⟩ := zip_index hp
  have hk := (keepsAll_iff c).2 hc
  have hlt : i < c.roles.length := (List.getElem?_eq_some_iff.1 h1).1
  have := List.all_eq_true.1 hk i (List.mem_range.2 hlt)
  rw [h1] at this
  simp only [Bool.or_eq_true, beq_iff_eq, Option.some.injEq, List.contains_iff_mem] at this
  rcases this with h3 | h3
  · exact absurd h3 hv
  · exact List.mem_filterMap.2 ⟨i + 2, h3, by simpa using h2⟩

theorem step_inv {h h' : Heap} {op : Op} (hi : LifeInv h) (hc : Covered op) (hs : h.step op = some h') :
    LifeInv h' := by
  cases op with
  | new c args =>
    simp only [Heap.step] at hs
    split at hs
    · split at hs
      · cases hs
        exact hi.add _ (by simp) (by simp [Obj.pointers]) rfl rfl
      · cases hs
    · split at hs
      · rename_i hcond
        cases hs
        have hkr : ∀ y ∈ c.keepAlive.filterMap fun n => args[n - 2]?, h.Reachable y := by
          intro y hy
          obtain ⟨n, -, hn⟩ := List.mem_filterMap.1 hy
          exact reach_root (hcond.2 y (List.mem_of_getElem? hn))
        have hst : ∀ p ∈ c.roles.zip args, ∀ y ∈ h.stored p.1 p.2,
            ∃ z, z ∈ (c.keepAlive.filterMap fun n => args[n - 2]?) ∧ ReflTransGen h.Holds z y := by
          intro p hp y hy
          have hv : p.1 ≠ .value := by
            intro hv
            rw [hv] at hy
            simp [Heap.stored] at hy
          exact ⟨p.2, ctor_kept hc hp hv, stored_held hi hy⟩
        refine hi.add _ (fun y hy => hkr y (by simpa using hy)) ?_ rfl rfl
        intro y hy
        rcases hy with hy | hy
        · simp only [Obj.pointers, List.append_nil, Option.toList_none, List.mem_flatMap] at hy
          obtain ⟨p, hp, hy⟩ := hy
          obtain ⟨z, hz, hzy⟩ := hst p hp y hy
          exact ⟨z, .inl hz, hzy⟩
        · simp only [Heap.decayOf, List.mem_flatMap] at hy
          obtain ⟨p, hp, hy⟩ := hy
          split at hy
          · rename_i hd
            rw [← hd] at hy
            obtain ⟨z, hz, hzy⟩ := hst p hp y hy
            exact ⟨z, .inl hz, hzy⟩
          · simp at hy
      · cases hs
  | newList xs =>
    simp only [Heap.step] at hs
    split at hs
    · rename_i hx
      cases hs
      exact hi.add _ (fun y hy => reach_root (hx y (by simpa using hy))) (by simp [Obj.pointers]) rfl rfl
    · cases hs
  | append l x =>
    simp only [Heap.step] at hs
    split at hs
    · rename_i hx
      cases hs
      refine hi.modify _ _ (by simp) (by simp +contextual) ?_ (fun o y hy => .inl hy) (by simp) (by simp)
      intro o y hy
      simp only [List.mem_append, List.mem_singleton] at hy
      rcases hy with hy | hy | rfl
      · exact .inl (.inl hy)
      · exact .inl (.inr hy)
      · exact .inr (reach_root hx.2)
    · cases hs
  | remove l x => exact hc.elim
  | item l y =>
    simp only [Heap.step] at hs
    split at hs
    · rename_i hx
      cases hs
      refine hi.roots _ ?_
      intro r hr
      rcases List.mem_cons.1 hr with rfl | hr
      · exact reach_step (reach_root hx.1) (.single (mem_stored_list hx.2))
      · exact reach_root hr
    · cases hs
  | setData p d =>
    simp only [Heap.step] at hs
    split at hs
    · rename_i hx
      cases hs
      refine hi.modify _ _ (by simp +contextual) (by simp) ?_ ?_ (by simp) (by simp)
      · intro o y hy
        simp only [List.mem_append] at hy
        rcases hy with (hy | hy) | hy
        · exact .inl (.inl hy)
        · exact .inr (reach_root (hx.2 y hy))
        · exact .inl (.inr hy)
      · intro o y hy
        simp only [Obj.pointers, List.mem_append] at hy ⊢
        rcases hy with ((hy | hy) | hy) | hy
        · exact .inl (.inl (.inl (.inl hy)))
        · exact .inl (.inl (.inl (.inr hy)))
        · exact .inr ⟨y, .inl (.inr hy), .refl⟩
        · exact .inl (.inr hy)
    · cases hs
  | getData p =>
    simp only [Heap.step] at hs
    split at hs
    · rename_i hx
      split at hs
      · rename_i o ho
        cases hs
        refine hi.roots _ ?_
        intro r hr
        rcases List.mem_append.1 hr with hr | hr
        · exact reach_step (reach_root hx) (hi.held p o ho r (.inl (by simp only [Obj.pointers, List.mem_append]; exact .inr hr)))
        · exact reach_root hr
      · cases hs
    · cases hs
  | setList d l =>
    simp only [Heap.step] at hs
    split at hs
    · rename_i hx
      cases hs
      refine hi.modify _ _ (by simp +contextual) (by simp) ?_ ?_ (by simp) (by simp)
      · intro o y hy
        simp only [List.mem_append, List.mem_singleton] at hy
        rcases hy with (hy | rfl) | hy
        · exact .inl (.inl hy)
        · exact .inr (reach_root hx.2)
        · exact .inl (.inr hy)
      · intro o y hy
        simp only [Obj.pointers, List.mem_append] at hy ⊢
        rcases hy with ((hy | hy) | hy) | hy
        · exact .inr ⟨l, .inl (.inr (by simp)), stored_held hi hy⟩
        · exact .inl (.inl (.inl (.inr hy)))
        · exact .inl (.inl (.inr hy))
        · exact .inl (.inr hy)
    · cases hs
  | setListB d l =>
    simp only [Heap.step] at hs
    split at hs
    · rename_i hx
      cases hs
      refine hi.modify _ _ (by simp +contextual) (by simp) ?_ ?_ (by simp) (by simp)
      · intro o y hy
        simp only [List.mem_append, List.mem_singleton] at hy
        rcases hy with (hy | rfl) | hy
        · exact .inl (.inl hy)
        · exact .inr (reach_root hx.2)
        · exact .inl (.inr hy)
      · intro o y hy
        simp only [Obj.pointers, List.mem_append] at hy ⊢
        rcases hy with ((hy | hy) | hy) | hy
        · exact .inl (.inl (.inl (.inl hy)))
        · exact .inr ⟨l, .inl (.inr (by simp)), stored_held hi hy⟩
        · exact .inl (.inl (.inr hy))
        · exact .inl (.inr hy)
    · cases hs
  | addResonance d r =>
    simp only [Heap.step] at hs
    split at hs
    · rename_i hx
      cases hs
      refine hi.modify _ _ (by simp +contextual) (by simp) ?_ ?_ (by simp) (by simp)
      · intro o y hy
        simp only [List.mem_append, List.mem_singleton] at hy
        rcases hy with (hy | rfl) | hy
        · exact .inl (.inl hy)
        · exact .inr (reach_root hx.2)
        · exact .inl (.inr hy)
      · intro o y hy
        simp only [Obj.pointers, List.mem_append, List.mem_singleton] at hy ⊢
        rcases hy with (((hy | rfl) | hy) | hy) | hy
        · exact .inl (.inl (.inl (.inl hy)))
        · exact .inr ⟨y, .inl (.inr rfl), .refl⟩
        · exact .inl (.inl (.inl (.inr hy)))
        · exact .inl (.inl (.inr hy))
        · exact .inl (.inr hy)
    · cases hs
  | getList d =>
    simp only [Heap.step] at hs
    split at hs
    · rename_i hx
      split at hs
      · rename_i o ho
        cases hs
        refine hi.add _ ?_ (by simp [Obj.pointers]) rfl rfl
        intro y hy
        have hy : y ∈ o.cxx := by simpa using hy
        exact reach_step (reach_root hx) (hi.held d o ho y (.inl (by simp [Obj.pointers, hy])))
      · cases hs
    · cases hs
  | getDecayInfo p => exact hc.elim
  | memberProperty m =>
    simp only [Heap.step] at hs
    split at hs
    · rename_i hx
      split at hs
      · rename_i o ho
        cases hs
        refine hi.add _ ?_ ?_ rfl rfl
        · intro y hy
          have hy : y = m := by simpa using hy
          subst hy
          exact reach_root hx
        · intro y hy
          have hy : y = m ∨ y ∈ o.cxx := by simpa [Obj.pointers] using hy
          rcases hy with rfl | hy
          · exact ⟨y, .inl (by simp), .refl⟩
          · exact ⟨m, .inl (by simp), hi.held m o ho y (.inl (by simp [Obj.pointers, hy]))⟩
      · cases hs
    · cases hs
  | memberMethod m => exact hc.elim
  | drop x =>
    simp only [Heap.step] at hs
    split at hs
    · cases hs
      exact hi.roots _ fun r hr => reach_root (List.mem_of_mem_erase hr)
    · cases hs
  | collect x =>
    simp only [Heap.step] at hs
    split at hs
    · cases hs
    · rename_i hx
      split at hs
      · rename_i o ho
        cases hs
        have hown := hi.own x o ho
        have hback : ∀ a b, (h.modify x fun o => { o with alive := false }).Holds a b → h.Holds a b := by
          rintro a b ⟨o', ho', hb⟩
          obtain ⟨o2, ho2, rfl⟩ := modify_get ho'
          refine ⟨o2, ho2, ?_⟩
          split at hb <;> exact hb
        have hforth : ∀ a b, h.Holds a b → (h.modify x fun o => { o with alive := false }).Holds a b := by
          rintro a b ⟨o', ho', hb⟩
          refine ⟨_, get_modify ho', ?_⟩
          split <;> exact hb
        refine ⟨?_, ?_, ?_, by simp [hi.valid, hown]⟩
        · intro a o' ho' y hy
          obtain ⟨o2, ho2, rfl⟩ := modify_get ho'
          have : y ∈ o2.pointers ∨ y ∈ o2.decay := by split at hy <;> exact hy
          exact rt_mono hforth (hi.held a o2 ho2 y this)
        · rintro a ⟨r, hr, hra⟩
          have hra' : h.Reachable a := ⟨r, hr, rt_mono hback hra⟩
          obtain ⟨o2, ho2, hal⟩ := hi.live a hra'
          have hne : x ≠ a := by
            rintro rfl
            exact hx hra'
          exact ⟨o2, by
            have := get_modify (f := fun o => { o with alive := false }) (p := x) ho2
            rw [if_neg hne] at this
            exact this, hal⟩
        · intro a o' ho'
          obtain ⟨o2, ho2, rfl⟩ := modify_get ho'
          have := hi.own a o2 ho2
          split <;> exact this
      · cases hs

theorem fold_inv (ops : List Op) : ∀ h h' : Heap, LifeInv h → (∀ op ∈ ops, Covered op) →
    ops.foldlM Heap.step h = some h' → LifeInv h' := by
  induction ops with
  | nil =>
    intro h h' hi _ hr
    simp only [List.foldlM_nil, Option.pure_def, Option.some.injEq] at hr
    exact hr ▸ hi
  | cons op ops ih =>
    intro h h' hi hc hr
    rw [List.foldlM_cons] at hr
    cases hq : h.step op with
    | none => simp [hq] at hr
    | some h1 =>
      rw [hq] at hr
      exact ih h1 h' (step_inv hi (hc op (by simp)) hq) (fun o ho => hc o (by simp [ho])) hr

/-- A set that contains the variables and is closed under holding. -/
def closedUnder (h : Heap) (S : List Id) : Bool :=
  h.roots.all (S.contains ·) && S.all fun a =>
    match h.objs[a]? with
    | some o => o.keep.all (S.contains ·) && o.items.all (S.contains ·)
    | none => true

theorem not_reachable {h : Heap} {S : List Id} (hS : closedUnder h S = true) {x : Id}
    (hx : S.contains x = false) : ¬h.Reachable x := by
  rintro ⟨r, hr, hrx⟩
  simp only [closedUnder, Bool.and_eq_true, List.all_eq_true] at hS
  have : S.contains x = true := by
    clear hx
    induction hrx with
    | refl => exact hS.1 r hr
    | @tail b c _ hbc ih =>
      obtain ⟨o, ho, hb⟩ := hbc
      have := hS.2 b (by simpa using ih)
      rw [ho] at this
      simp only [Bool.and_eq_true, List.all_eq_true] at this
      exact hb.elim (this.1 c) (this.2 c)
  rw [this] at hx
  cases hx

end GooFit.Py

namespace GooFit.Py
open GooFit.Spec Relation

theorem run_collect {pre : List Op} {h : Heap} (hr : Heap.run pre = some h) {x : Id}
    (hx : ¬h.Reachable x) {o : Obj} (ho : h.objs[x]? = some o) :
    Heap.run (pre ++ [.collect x]) = some { h.modify x (fun o => { o with alive := false }) with
      invalidDelete := h.invalidDelete || (o.stolen && o.alive) } := by
  simp only [Heap.run] at hr ⊢
  rw [List.foldlM_append, hr]
  simp [Heap.step, hx, ho]

/-- After `pre` the object `x` may be destroyed, although a variable has a pointer to it. -/
noncomputable def dangles (pre : List Op) (S : List Id) (x : Id) : Bool :=
  match Heap.run pre with
  | some h => closedUnder h S && !S.contains x && (h.objs[x]?).isSome && h.roots.any fun r =>
      match h.objs[r]? with
      | some o => o.cxx.contains x
      | none => false
  | none => false

theorem not_sound_of_dangles {pre : List Op} {S : List Id} {x : Id} (hd : dangles pre S x = true) :
    ∃ h, Heap.run (pre ++ [.collect x]) = some h ∧ ∃ y, Touched h y ∧ ¬Alive h y := by
  unfold dangles at hd
  split at hd
  · rename_i h hr
    simp only [Bool.and_eq_true, Bool.not_eq_true', List.any_eq_true] at hd
    obtain ⟨⟨⟨hS, hxS⟩, hsome⟩, r, hrr, hro⟩ := hd
    obtain ⟨o, ho⟩ := Option.isSome_iff_exists.1 hsome
    refine ⟨_, run_collect hr (not_reachable hS hxS) ho, x, ?_, ?_⟩
    · split at hro
      · rename_i o' ho'
        refine .pointer r x _ (.variable r hrr) (get_modify ho') ?_
        split
        · simpa using hro
        · simpa using hro
      · cases hro
    · rintro ⟨o', ho', hal⟩
      obtain ⟨o2, -, rfl⟩ := modify_get ho'
      simp at hal
  · cases hd

/-- After `pre` the object `x` may be destroyed, and is a member of another. -/
noncomputable def misdeletes (pre : List Op) (S : List Id) (x : Id) : Bool :=
  match Heap.run pre with
  | some h => closedUnder h S && !S.contains x && ((h.objs[x]?.map fun o => o.stolen && o.alive).getD false)
  | none => false

theorem invalid_of_misdeletes {pre : List Op} {S : List Id} {x : Id} (hd : misdeletes pre S x = true) :
    ∃ h, Heap.run (pre ++ [.collect x]) = some h ∧ h.invalidDelete = true := by
  unfold misdeletes at hd
  split at hd
  · rename_i h hr
    simp only [Bool.and_eq_true, Bool.not_eq_true'] at hd
    obtain ⟨⟨hS, hxS⟩, hst⟩ := hd
    cases ho : h.objs[x]? with
    | none => simp [ho] at hst
    | some o =>
      refine ⟨_, run_collect hr (not_reachable hS hxS) ho, ?_⟩
      have : (o.stolen && o.alive) = true := by simpa [ho] using hst
      simp [this]
  · cases hd

/-- Every object is held in a variable. -/
structure HoldInv (h : Heap) : Prop where
  all : ∀ x : Id, x < h.objs.length → x ∈ h.roots
  bound : ∀ x ∈ h.roots, x < h.objs.length
  inside : ∀ (x : Id) (o : Obj), h.objs[x]? = some o →
    ∀ y, y ∈ o.pointers ∨ y ∈ o.decay ∨ y ∈ o.keep ∨ y ∈ o.items → y < h.objs.length
  live : ∀ (x : Id) (o : Obj), h.objs[x]? = some o → o.alive = true
  valid : h.invalidDelete = false

theorem HoldInv.add {h : Heap} (hi : HoldInv h) (o : Obj)
    (hp : ∀ y, y ∈ o.pointers ∨ y ∈ o.decay ∨ y ∈ o.keep ∨ y ∈ o.items → y < h.objs.length)
    (ha : o.alive = true) : HoldInv (h.add o) := by
  have hlen : (h.add o).objs.length = h.objs.length + 1 := by simp [Heap.add]
  refine ⟨?_, ?_, ?_, ?_, hi.valid⟩
  · intro x hx
    rw [hlen] at hx
    rcases Nat.lt_succ_iff_lt_or_eq.1 hx with h1 | h1
    · exact List.mem_cons_of_mem _ (hi.all x h1)
    · simp [Heap.add, h1]
  · intro x hx
    rw [hlen]
    simp only [Heap.add, List.mem_cons] at hx
    rcases hx with rfl | hx
    · exact Nat.lt_succ_self _
    · exact Nat.lt_succ_of_lt (hi.bound x hx)
  · intro x o' ho' y hy
    rw [hlen]
    rcases add_get ho' with h1 | ⟨-, rfl⟩
    · exact Nat.lt_succ_of_lt (hi.inside x o' h1 y hy)
    · exact Nat.lt_succ_of_lt (hp y hy)
  · intro x o' ho'
    rcases add_get ho' with h1 | ⟨-, rfl⟩
    · exact hi.live x o' h1
    · exact ha

theorem HoldInv.modify {h : Heap} (hi : HoldInv h) (p : Id) (f : Obj → Obj)
    (hp : ∀ o, (∀ y, y ∈ o.pointers ∨ y ∈ o.decay ∨ y ∈ o.keep ∨ y ∈ o.items → y < h.objs.length) →
      ∀ y, y ∈ (f o).pointers ∨ y ∈ (f o).decay ∨ y ∈ (f o).keep ∨ y ∈ (f o).items → y < h.objs.length)
    (ha : ∀ o, (f o).alive = o.alive) : HoldInv (h.modify p f) := by
  have hlen : (h.modify p f).objs.length = h.objs.length := by simp [Heap.modify]
  refine ⟨?_, ?_, ?_, ?_, hi.valid⟩
  · intro x hx
    exact hi.all x (hlen ▸ hx)
  · intro x hx
    rw [hlen]
    exact hi.bound x hx
  · intro x o' ho' y hy
    rw [hlen]
    obtain ⟨o, ho, rfl⟩ := modify_get ho'
    split at hy
    · exact hp o (hi.inside x o ho) y hy
    · exact hi.inside x o ho y hy
  · intro x o' ho'
    obtain ⟨o, ho, rfl⟩ := modify_get ho'
    split
    · rw [ha]; exact hi.live x o ho
    · exact hi.live x o ho

theorem HoldInv.roots {h : Heap} (hi : HoldInv h) (rs : List Id) (hr : ∀ r ∈ rs, r < h.objs.length) :
    HoldInv { h with roots := rs ++ h.roots } := by
  refine ⟨fun x hx => List.mem_append_right _ (hi.all x hx), ?_, hi.inside, hi.live, hi.valid⟩
  intro x hx
  rcases List.mem_append.1 hx with h1 | h1
  · exact hr x h1
  · exact hi.bound x h1

theorem stored_bound {h : Heap} (hi : HoldInv h) {r : Role} {a y : Id} (ha : a < h.objs.length)
    (hy : y ∈ h.stored r a) : y < h.objs.length := by
  cases r with
  | value => simp [Heap.stored] at hy
  | ptr =>
    simp only [Heap.stored, List.mem_singleton] at hy
    exact hy ▸ ha
  | list =>
    obtain ⟨o, ho, hb⟩ := mem_stored_list hy
    exact hi.inside a o ho y (by tauto)
  | decay =>
    simp only [Heap.stored] at hy
    cases ho : h.objs[a]? with
    | none => simp [ho] at hy
    | some o =>
      refine hi.inside a o ho y (.inl ?_)
      simp [ho] at hy
      simp [Obj.pointers]
      tauto

theorem step_hold {h h' : Heap} {op : Op} (hi : HoldInv h) (hc : Holding op) (hs : h.step op = some h') :
    HoldInv h' := by
  cases op with
  | new c args =>
    simp only [Heap.step] at hs
    split at hs
    · split at hs
      · cases hs
        exact hi.add _ (by simp [Obj.pointers]) rfl
      · cases hs
    · split at hs
      · rename_i hcond
        cases hs
        have hb : ∀ a ∈ args, a < h.objs.length := fun a ha => hi.bound a (hcond.2 a ha)
        have hst : ∀ p ∈ c.roles.zip args, ∀ y ∈ h.stored p.1 p.2, y < h.objs.length :=
          fun p hp y hy => stored_bound hi (hb p.2 (List.of_mem_zip hp).2) hy
        refine hi.add _ ?_ rfl
        intro y hy
        rcases hy with hy | hy | hy | hy
        · simp only [Obj.pointers, List.append_nil, Option.toList_none, List.mem_flatMap] at hy
          obtain ⟨p, hp, hy⟩ := hy
          exact hst p hp y hy
        · simp only [Heap.decayOf, List.mem_flatMap] at hy
          obtain ⟨p, hp, hy⟩ := hy
          split at hy
          · rename_i hd
            rw [← hd] at hy
            exact hst p hp y hy
          · simp at hy
        · obtain ⟨n, -, hn⟩ := List.mem_filterMap.1 hy
          exact hb y (List.mem_of_getElem? hn)
        · simp at hy
      · cases hs
  | newList xs =>
    simp only [Heap.step] at hs
    split at hs
    · rename_i hx
      cases hs
      refine hi.add _ ?_ rfl
      intro y hy
      exact hi.bound y (hx y (by simpa [Obj.pointers] using hy))
    · cases hs
  | append l x =>
    simp only [Heap.step] at hs
    split at hs
    · rename_i hx
      cases hs
      refine hi.modify _ _ ?_ (fun _ => rfl)
      intro o ho y hy
      simp only [Obj.pointers, List.mem_append, List.mem_singleton] at hy ho
      rcases hy with hy | hy | hy | hy | rfl
      · exact ho y (by tauto)
      · exact ho y (by tauto)
      · exact ho y (by tauto)
      · exact ho y (by tauto)
      · exact hi.bound _ hx.2
    · cases hs
  | remove l x =>
    simp only [Heap.step] at hs
    split at hs
    · cases hs
      refine hi.modify _ _ ?_ (fun _ => rfl)
      intro o ho y hy
      rcases hy with hy | hy | hy | hy
      · exact ho y (.inl hy)
      · exact ho y (.inr (.inl hy))
      · exact ho y (.inr (.inr (.inl hy)))
      · exact ho y (.inr (.inr (.inr (List.mem_of_mem_erase hy))))
    · cases hs
  | item l y =>
    simp only [Heap.step] at hs
    split at hs
    · rename_i hx
      cases hs
      obtain ⟨o, ho, hb⟩ := mem_stored_list hx.2
      exact hi.roots [y] (by simpa using hi.inside l o ho y (by tauto))
    · cases hs
  | setData p d =>
    simp only [Heap.step] at hs
    split at hs
    · rename_i hx
      cases hs
      refine hi.modify _ _ ?_ (fun _ => rfl)
      intro o ho y hy
      simp only [Obj.pointers, List.mem_append] at hy ho
      rcases hy with ((hy | hy) | hy) | hy | (hy | hy) | hy
      · exact ho y (by tauto)
      · exact ho y (by tauto)
      · exact hi.bound _ (hx.2 y hy)
      · exact ho y (by tauto)
      · exact ho y (by tauto)
      · exact hi.bound _ (hx.2 y hy)
      · exact ho y (by tauto)
    · cases hs
  | getData p =>
    simp only [Heap.step] at hs
    split at hs
    · split at hs
      · rename_i o ho
        cases hs
        refine hi.roots _ ?_
        intro r hr
        exact hi.inside p o ho r (.inl (by simp only [Obj.pointers, List.mem_append]; exact .inr hr))
      · cases hs
    · cases hs
  | setList d l =>
    simp only [Heap.step] at hs
    split at hs
    · rename_i hx
      cases hs
      refine hi.modify _ _ ?_ (fun _ => rfl)
      intro o ho y hy
      simp only [Obj.pointers, List.mem_append, List.mem_singleton] at hy ho
      rcases hy with ((hy | hy) | hy) | hy | (hy | rfl) | hy
      · exact stored_bound hi (hi.bound _ hx.2) hy
      · exact ho y (by tauto)
      · exact ho y (by tauto)
      · exact ho y (by tauto)
      · exact ho y (by tauto)
      · exact hi.bound _ hx.2
      · exact ho y (by tauto)
    · cases hs
  | setListB d l =>
    simp only [Heap.step] at hs
    split at hs
    · rename_i hx
      cases hs
      refine hi.modify _ _ ?_ (fun _ => rfl)
      intro o ho y hy
      simp only [Obj.pointers, List.mem_append, List.mem_singleton] at hy ho
      rcases hy with ((hy | hy) | hy) | hy | (hy | rfl) | hy
      · exact ho y (by tauto)
      · exact stored_bound hi (hi.bound _ hx.2) hy
      · exact ho y (by tauto)
      · exact ho y (by tauto)
      · exact ho y (by tauto)
      · exact hi.bound _ hx.2
      · exact ho y (by tauto)
    · cases hs
  | addResonance d r =>
    simp only [Heap.step] at hs
    split at hs
    · rename_i hx
      cases hs
      refine hi.modify _ _ ?_ (fun _ => rfl)
      intro o ho y hy
      simp only [Obj.pointers, List.mem_append, List.mem_singleton] at hy ho
      rcases hy with (((hy | rfl) | hy) | hy) | hy | (hy | rfl) | hy
      · exact ho y (by tauto)
      · exact hi.bound _ hx.2
      · exact ho y (by tauto)
      · exact ho y (by tauto)
      · exact ho y (by tauto)
      · exact ho y (by tauto)
      · exact hi.bound _ hx.2
      · exact ho y (by tauto)
    · cases hs
  | getList d =>
    simp only [Heap.step] at hs
    split at hs
    · split at hs
      · rename_i o ho
        cases hs
        refine hi.add _ ?_ rfl
        intro y hy
        have hy : y ∈ o.cxx := by simpa [Obj.pointers] using hy
        exact hi.inside d o ho y (.inl (by simp [Obj.pointers, hy]))
      · cases hs
    · cases hs
  | getDecayInfo p =>
    simp only [Heap.step] at hs
    split at hs
    · split at hs
      · rename_i o ho
        cases hs
        refine hi.add _ ?_ rfl
        intro y hy
        have hy : y ∈ o.decay := by simpa [Obj.pointers] using hy
        exact hi.inside p o ho y (by tauto)
      · cases hs
    · cases hs
  | memberProperty m =>
    simp only [Heap.step] at hs
    split at hs
    · rename_i hx
      split at hs
      · rename_i o ho
        cases hs
        refine hi.add _ ?_ rfl
        intro y hy
        have hy : y = m ∨ y ∈ o.cxx := by
          simp only [Obj.pointers, List.append_nil, Option.toList_none, List.mem_cons, List.not_mem_nil,
            or_false, false_or] at hy
          tauto
        rcases hy with rfl | hy
        · exact hi.bound _ hx
        · exact hi.inside m o ho y (.inl (by simp [Obj.pointers, hy]))
      · cases hs
    · cases hs
  | memberMethod m =>
    simp only [Heap.step] at hs
    split at hs
    · rename_i hx
      split at hs
      · rename_i o ho
        cases hs
        refine hi.add _ ?_ rfl
        intro y hy
        have hy : y = m ∨ y ∈ o.cxx := by simpa [Obj.pointers] using hy
        rcases hy with rfl | hy
        · exact hi.bound _ hx
        · exact hi.inside m o ho y (.inl (by simp [Obj.pointers, hy]))
      · cases hs
    · cases hs
  | drop x => exact hc.elim
  | collect x =>
    simp only [Heap.step] at hs
    split at hs
    · cases hs
    · rename_i hx
      split at hs
      · rename_i o ho
        exact absurd (reach_root (hi.all x (List.getElem?_eq_some_iff.1 ho).1)) hx
      · cases hs

theorem fold_hold (ops : List Op) : ∀ h h' : Heap, HoldInv h → (∀ op ∈ ops, Holding op) →
    ops.foldlM Heap.step h = some h' → HoldInv h' := by
  induction ops with
  | nil =>
    intro h h' hi _ hr
    simp only [List.foldlM_nil, Option.pure_def, Option.some.injEq] at hr
    exact hr ▸ hi
  | cons op ops ih =>
    intro h h' hi hc hr
    rw [List.foldlM_cons] at hr
    cases hq : h.step op with
    | none => simp [hq] at hr
    | some h1 =>
      rw [hq] at hr
      exact ih h1 h' (step_hold hi (hc op (by simp)) hq) (fun o ho => hc o (by simp [ho])) hr

theorem HoldInv.sound {h : Heap} (hi : HoldInv h) : Sound h := by
  have hb : ∀ x, Touched h x → x < h.objs.length := by
    intro x ht
    induction ht with
    | «variable» r hr => exact hi.bound r hr
    | pointer x y o _ ho hy ih => exact hi.inside x o ho y (.inl (by simp [Obj.pointers, hy]))
    | pointerB x y o _ ho hy ih => exact hi.inside x o ho y (.inl (by simp [Obj.pointers, hy]))
    | data x y o _ ho hy ih => exact hi.inside x o ho y (.inl (by simp [Obj.pointers, hy]))
    | decay x y o _ ho hy ih => exact hi.inside x o ho y (by tauto)
    | item x y o _ ho hy ih => exact hi.inside x o ho y (by tauto)
    | kept x y o _ ho hy ih => exact hi.inside x o ho y (by tauto)
  refine ⟨fun x hx => ?_, hi.valid⟩
  obtain ⟨o, ho⟩ : ∃ o, h.objs[x]? = some o := ⟨_, List.getElem?_eq_getElem (hb x hx)⟩
  exact ⟨o, ho, hi.live x o ho⟩

theorem holdInv_empty : HoldInv Heap.empty :=
  ⟨by simp [Heap.empty], by simp [Heap.empty], by simp [Heap.empty], by simp [Heap.empty], rfl⟩

end GooFit.Py
