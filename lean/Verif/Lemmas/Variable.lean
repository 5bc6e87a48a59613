import Verif.Spec.Variable
namespace GooFit
open Spec

theorem Field.offset_lt (f : Field) : f.offset < 10 := by cases f <;> decide

theorem Field.offset_inj {f g : Field} (h : f.offset = g.offset) : f = g := by
  cases f <;> cases g <;> first | rfl | (exact absurd h (by decide))

theorem Field.all_length : Field.all.length = 10 := rfl

theorem Field.all_get (f : Field) : Field.all[f.offset]? = some f := by cases f <;> rfl

/-- Simulation relation: object `o` owns cells `10*o ... 10*o+9`. -/
structure VarSim {V : Type} (w : World V) (s : Objs V) : Prop where
  heapLen : w.heap.length = 10 * s.objs.length
  cells : ∀ (o : Nat) (x : Obj V), s.objs[o]? = some x → ∀ f, w.heap[10 * o + f.offset]? = some (x.val f)
  nHandles : w.handles.length = s.names.length
  handle : ∀ (k : Nat) (h : Handle) (o : Nat), w.handles[k]? = some h → s.names[k]? = some o →
    (∀ f, h.ptr f = 10 * o + f.offset) ∧ ∃ x, s.objs[o]? = some x ∧ x.name = h.name

theorem VarSim.init {V : Type} : VarSim (V := V) ⟨[], []⟩ ⟨[], []⟩ :=
  ⟨rfl, by simp, rfl, by simp⟩

theorem VarSim.step {V : Type} {w : World V} {s : Objs V} (H : VarSim w s) (op : VarOp V) :
    VarSim (w.step op) (s.step op) := by
  obtain ⟨h1, h2, h3, h4⟩ := H
  cases op with
  | construct n e init =>
    refine ⟨?_, ?_, ?_, ?_⟩
    · simp [World.step, Objs.step, h1, Field.all_length]; omega
    · intro o x hx f
      simp only [World.step, Objs.step] at hx ⊢
      have hf := f.offset_lt
      by_cases ho : o < s.objs.length
      · rw [List.getElem?_append_left ho] at hx
        rw [List.getElem?_append_left (by omega)]
        exact h2 o x hx f
      · have hlen := (List.getElem?_eq_some_iff.mp hx).1
        simp at hlen
        have : o = s.objs.length := by omega
        subst this
        simp at hx
        rw [List.getElem?_append_right (by omega)]
        have : 10 * s.objs.length + f.offset - w.heap.length = f.offset := by omega
        rw [this, List.getElem?_map, Field.all_get, ← hx]; rfl
    · simp [World.step, Objs.step, h3]
    · intro k h o hk ho
      simp only [World.step, Objs.step] at hk ho ⊢
      by_cases hkl : k < w.handles.length
      · rw [List.getElem?_append_left hkl] at hk
        rw [List.getElem?_append_left (by omega)] at ho
        obtain ⟨a, x, hx, hn⟩ := h4 k h o hk ho
        exact ⟨a, x, by rw [List.getElem?_append_left (List.getElem?_eq_some_iff.mp hx).1]; exact hx, hn⟩
      · have hlen := (List.getElem?_eq_some_iff.mp hk).1
        simp at hlen
        have : k = w.handles.length := by omega
        subst this
        rw [h3] at ho
        simp at hk ho
        subst hk ho
        refine ⟨by intro f; simp [h1], ⟨n, init⟩, by simp, rfl⟩
  | copy src =>
    simp only [World.step, Objs.step]
    cases hs : w.handles[src]? with
    | none =>
      have : s.names[src]? = none := by
        rw [List.getElem?_eq_none_iff] at hs ⊢; omega
      rw [this]; exact ⟨h1, h2, h3, h4⟩
    | some h =>
      have hlt := (List.getElem?_eq_some_iff.mp hs).1
      obtain ⟨o, ho⟩ : ∃ o, s.names[src]? = some o :=
        ⟨s.names[src]'(by omega), List.getElem?_eq_getElem _⟩
      rw [ho]
      refine ⟨h1, h2, by simp [h3], ?_⟩
      intro k h' o' hk ho'
      simp only at hk ho'
      by_cases hkl : k < w.handles.length
      · rw [List.getElem?_append_left hkl] at hk
        rw [List.getElem?_append_left (by omega)] at ho'
        exact h4 k h' o' hk ho'
      · have hlen := (List.getElem?_eq_some_iff.mp hk).1
        simp at hlen
        have : k = w.handles.length := by omega
        subst this
        rw [h3] at ho'
        simp at hk ho'
        subst hk ho'
        exact h4 src h o hs ho
  | assign d src =>
    simp only [World.step, Objs.step]
    cases hs : w.handles[src]? with
    | none =>
      have : s.names[src]? = none := by
        rw [List.getElem?_eq_none_iff] at hs ⊢; omega
      rw [this]; exact ⟨h1, h2, h3, h4⟩
    | some h =>
      have hlt := (List.getElem?_eq_some_iff.mp hs).1
      obtain ⟨o, ho⟩ : ∃ o, s.names[src]? = some o :=
        ⟨s.names[src]'(by omega), List.getElem?_eq_getElem _⟩
      rw [ho]
      refine ⟨h1, h2, by simp [h3], ?_⟩
      intro k h' o' hk ho'
      simp only at hk ho'
      rw [List.getElem?_set] at hk ho'
      by_cases hd : d = k
      · subst hd
        by_cases hl : d < w.handles.length
        · have hl' : d < s.names.length := by omega
          simp [hl] at hk; simp [hl'] at ho'
          subst hk ho'
          exact h4 src h o hs ho
        · simp [hl] at hk
      · simp [hd] at hk ho'
        exact h4 k h' o' hk ho'
  | set k f v =>
    simp only [World.step, Objs.step]
    cases hs : w.handles[k]? with
    | none =>
      have : s.names[k]? = none := by
        rw [List.getElem?_eq_none_iff] at hs ⊢; omega
      rw [this]; exact ⟨h1, h2, h3, h4⟩
    | some h =>
      have hlt := (List.getElem?_eq_some_iff.mp hs).1
      obtain ⟨o, ho⟩ : ∃ o, s.names[k]? = some o :=
        ⟨s.names[k]'(by omega), List.getElem?_eq_getElem _⟩
      rw [ho]
      obtain ⟨hp, x0, hx0, _⟩ := h4 k h o hs ho
      have hol := (List.getElem?_eq_some_iff.mp hx0).1
      have hf := f.offset_lt
      refine ⟨by simp [h1], ?_, h3, ?_⟩
      · intro o' x hx g
        simp only at hx ⊢
        have hg := g.offset_lt
        rw [List.getElem?_modify] at hx
        rw [List.getElem?_set, hp f]
        cases hxo : s.objs[o']? with
        | none => simp [hxo] at hx
        | some y =>
          simp [hxo] at hx
          by_cases hoo : o = o'
          · subst hoo
            simp at hx
            subst hx
            by_cases hgf : g = f
            · subst hgf
              have : 10 * o + g.offset < w.heap.length := by omega
              simp [this]
            · have hne : ¬ (10 * o + f.offset = 10 * o + g.offset) := by
                intro hc; exact hgf (Field.offset_inj (by omega))
              rw [if_neg hne]
              simp [hgf]
              exact h2 o y hxo g
          · simp [hoo] at hx
            subst hx
            have hne : ¬ (10 * o + f.offset = 10 * o' + g.offset) := by omega
            rw [if_neg hne]
            exact h2 o' y hxo g
      · intro k' h' o' hk ho'
        obtain ⟨a, x, hx, hn⟩ := h4 k' h' o' hk ho'
        refine ⟨a, ?_⟩
        simp only [List.getElem?_modify, hx]
        by_cases hoo : o = o'
        · exact ⟨{ x with val := fun g => if g = f then v else x.val g }, by simp [hoo], hn⟩
        · exact ⟨x, by simp [hoo], hn⟩

theorem VarSim.run {V : Type} (ops : List (VarOp V)) : VarSim (World.run ops) (Objs.run ops) := by
  suffices h : ∀ (ops : List (VarOp V)) (w : World V) (s : Objs V), VarSim w s →
      VarSim (ops.foldl World.step w) (ops.foldl Objs.step s) from h ops _ _ VarSim.init
  intro ops
  induction ops with
  | nil => intro w s h; exact h
  | cons op ops ih => intro w s h; exact ih _ _ (h.step op)

theorem VarSim.read_eq {V : Type} {w : World V} {s : Objs V} (H : VarSim w s) (k : Nat) (f : Field) :
    w.read k f = s.read k f := by
  unfold World.read Objs.read
  cases hs : w.handles[k]? with
  | none =>
    have : s.names[k]? = none := by
      have := H.nHandles
      rw [List.getElem?_eq_none_iff] at hs ⊢; omega
    simp [this]
  | some h =>
    have hlt := (List.getElem?_eq_some_iff.mp hs).1
    have := H.nHandles
    obtain ⟨o, ho⟩ : ∃ o, s.names[k]? = some o :=
      ⟨s.names[k]'(by omega), List.getElem?_eq_getElem _⟩
    obtain ⟨hp, x, hx, _⟩ := H.handle k h o hs ho
    simp [ho, hx, hp, H.cells o x hx f]

theorem VarSim.name_eq {V : Type} {w : World V} {s : Objs V} (H : VarSim w s) (k : Nat) :
    w.name k = s.name k := by
  unfold World.name Objs.name
  cases hs : w.handles[k]? with
  | none =>
    have : s.names[k]? = none := by
      have := H.nHandles
      rw [List.getElem?_eq_none_iff] at hs ⊢; omega
    simp [this]
  | some h =>
    have hlt := (List.getElem?_eq_some_iff.mp hs).1
    have := H.nHandles
    obtain ⟨o, ho⟩ : ∃ o, s.names[k]? = some o :=
      ⟨s.names[k]'(by omega), List.getElem?_eq_getElem _⟩
    obtain ⟨hp, x, hx, hn⟩ := H.handle k h o hs ho
    simp [ho, hx, hn]

theorem VarSim.eq_eq {V : Type} {w : World V} {s : Objs V} (H : VarSim w s) (k l : Nat) :
    w.eq k l = s.eq k l := by
  unfold World.eq Objs.eq
  have hn := H.nHandles
  have key : ∀ k : Nat, (w.handles[k]? = none ∧ s.names[k]? = none) ∨
      (∃ (h : Handle) (o : Nat), w.handles[k]? = some h ∧ s.names[k]? = some o ∧ ∀ f : Field, h.ptr f = 10 * o + f.offset) := by
    intro k
    cases hs : w.handles[k]? with
    | none => left; rw [List.getElem?_eq_none_iff] at hs; simp; omega
    | some h =>
      have hlt := (List.getElem?_eq_some_iff.mp hs).1
      have ho : s.names[k]? = some (s.names[k]'(by omega)) := List.getElem?_eq_getElem _
      exact Or.inr ⟨h, _, rfl, ho, (H.handle k h _ hs ho).1⟩
  rcases key k with ⟨a, b⟩ | ⟨h, o, a, b, hp⟩ <;> rcases key l with ⟨a', b'⟩ | ⟨h', o', a', b', hp'⟩ <;>
    simp [a, b, a', b']
  rw [hp, hp']
  by_cases hoo : o = o'
  · simp [hoo]
  · have : ¬ (10 * o + Field.value.offset = 10 * o' + Field.value.offset) := by omega
    simp [hoo, this]

end GooFit
