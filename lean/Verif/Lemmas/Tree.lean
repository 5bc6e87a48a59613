import Verif.Spec.Tree
import Mathlib.Tactic.Common
/-!
# Lemmas about flattened PDF trees
-/
set_option autoImplicit false
namespace GooFit
open FpOps Spec

section slices
variable {α : Type}

theorem Spec.Slice.append_iff (l : List α) (i : Nat) (xs ys : List α) :
    Slice l i (xs ++ ys) ↔ Slice l i xs ∧ Slice l (i + xs.length) ys := by
  unfold Slice
  constructor
  · intro h
    constructor
    · intro k hk
      rw [h k (by simp; omega), List.getElem?_append_left hk]
    · intro k hk
      have := h (xs.length + k) (by simp; omega)
      rw [List.getElem?_append_right (by omega)] at this
      rw [show i + xs.length + k = i + (xs.length + k) by omega, this]
      congr 1; omega
  · rintro ⟨h1, h2⟩ k hk
    by_cases hx : k < xs.length
    · rw [h1 k hx, List.getElem?_append_left hx]
    · rw [List.getElem?_append_right (by omega), ← h2 (k - xs.length) (by simp at hk; omega)]
      congr 1; omega

theorem Spec.Slice.self (pre xs post : List α) : Slice (pre ++ xs ++ post) pre.length xs := by
  intro k hk
  rw [List.append_assoc, List.getElem?_append_right (by omega),
    List.getElem?_append_left (by omega)]
  congr 1; omega

theorem Spec.Slice.get_succ {l : List α} {i : Nat} {x : α} {xs : List α}
    (h : Slice l i (x :: xs)) (k : Nat) (hk : k < xs.length) : l[i + k + 1]? = xs[k]? := by
  have := h (k + 1) (by simp; omega)
  rw [show i + k + 1 = i + (k + 1) by omega, this]
  simp

theorem Spec.Slice.get_zero {l : List α} {i : Nat} {x : α} {xs : List α}
    (h : Slice l i (x :: xs)) : l[i]? = some x := by
  have := h 0 (by simp)
  simpa using this

end slices

section flat
variable {F : Type} {L : Lib F} {α : Type}

mutual
/-- Preorder concatenation. -/
def Pdf.flat (g : Node L → List α) : Pdf L → List α
  | .mk n cs => g n ++ Pdf.flatList g cs
/-- Preorder concatenation. -/
def Pdf.flatList (g : Node L → List α) : List (Pdf L) → List α
  | [] => []
  | c :: cs => Pdf.flat g c ++ Pdf.flatList g cs
end

mutual
theorem Pdf.flat_length_one (g : Node L → List α) (hg : ∀ n, (g n).length = 1) :
    ∀ t : Pdf L, (t.flat g).length = t.size
  | .mk n cs => by
    rw [Pdf.flat, Pdf.size, List.length_append, hg, Pdf.flatList_length_one g hg cs]
theorem Pdf.flatList_length_one (g : Node L → List α) (hg : ∀ n, (g n).length = 1) :
    ∀ ts : List (Pdf L), (Pdf.flatList g ts).length = Pdf.sizeList ts
  | [] => rfl
  | c :: cs => by
    rw [Pdf.flatList, Pdf.sizeList, List.length_append, Pdf.flat_length_one g hg c,
      Pdf.flatList_length_one g hg cs]
end

end flat

section cursor
variable {F : Type} [FpOps F] {L : Lib F}

/-- parameters as stored -/
def parOf (env : Env F) (n : Node L) : List F := ofNat n.params.length :: n.params.map env.val
/-- constants as stored -/
def conOf (n : Node L) : List F := ofNat n.consts.length :: n.consts
/-- observables as stored -/
def obsOf (env : Env F) (n : Node L) : List F :=
  ofNat n.obs.length :: n.obs.map fun o => ofInt (env.idx o)
/-- normalisations as stored -/
def nrmOf (n : Node L) : List F := [lit 1, n.norm]
/-- functions as stored -/
def fnOf (n : Node L) : List (Fn L) := [n.fn]

/-- cursor after one node -/
def Cursor.advN (c : Cursor) (n : Node L) : Cursor :=
  c.incrementIndex 1 n.params.length n.consts.length n.obs.length 1

mutual
/-- cursor after a tree -/
def Cursor.adv (c : Cursor) : Pdf L → Cursor
  | .mk n cs => Cursor.advL (c.advN n) cs
/-- cursor after a list of trees -/
def Cursor.advL (c : Cursor) : List (Pdf L) → Cursor
  | [] => c
  | t :: ts => Cursor.advL (Cursor.adv c t) ts
end

/-- node stored at the cursor -/
structure NodeAt (env : Env F) (B : Bufs F) (T : List (Fn L)) (c : Cursor) (n : Node L) : Prop where
  fn : Slice T c.fn (fnOf n)
  par : Slice B.par c.par (parOf env n)
  con : Slice B.con c.con (conOf n)
  obs : Slice B.obs c.obs (obsOf env n)
  nrm : Slice B.nrm c.nrm (nrmOf n)

mutual
/-- tree stored at the cursor -/
def TreeAt (env : Env F) (B : Bufs F) (T : List (Fn L)) : Cursor → Pdf L → Prop
  | c, .mk n cs => NodeAt env B T c n ∧ TreesAt env B T (c.advN n) cs
/-- trees stored at the cursor -/
def TreesAt (env : Env F) (B : Bufs F) (T : List (Fn L)) : Cursor → List (Pdf L) → Prop
  | _, [] => True
  | c, t :: ts => TreeAt env B T c t ∧ TreesAt env B T (c.adv t) ts
end

theorem Cursor.advL_append (c : Cursor) (xs ys : List (Pdf L)) :
    c.advL (xs ++ ys) = (c.advL xs).advL ys := by
  induction xs generalizing c with
  | nil => rfl
  | cons x xs ih => simp only [List.cons_append, Cursor.advL, ih]

theorem TreesAt.append_iff {env : Env F} {B : Bufs F} {T : List (Fn L)} (c : Cursor)
    (xs ys : List (Pdf L)) :
    TreesAt env B T c (xs ++ ys) ↔ TreesAt env B T c xs ∧ TreesAt env B T (c.advL xs) ys := by
  induction xs generalizing c with
  | nil => simp [TreesAt, Cursor.advL]
  | cons x xs ih => simp only [List.cons_append, TreesAt, Cursor.advL, ih, and_assoc]

mutual
theorem Cursor.adv_fn (c : Cursor) : ∀ t : Pdf L, (c.adv t).fn = c.fn + t.size
  | .mk n cs => by
    rw [Cursor.adv, Cursor.advL_fn, Pdf.size]; simp [Cursor.advN, Cursor.incrementIndex]; omega
theorem Cursor.advL_fn (c : Cursor) : ∀ ts : List (Pdf L), (c.advL ts).fn = c.fn + Pdf.sizeList ts
  | [] => rfl
  | t :: ts => by rw [Cursor.advL, Cursor.advL_fn, Cursor.adv_fn c t, Pdf.sizeList]; omega
end

theorem Spec.Storable.par {np nk : Nat} {os : List Int} (h : Storable F np nk os) : Exact F np := h.1

theorem countAt_of {l : List F} {i : Nat} {n : Nat} {xs : List F}
    (h : Slice l i (ofNat n :: xs)) (hn : Exact F n) : countAt l i = some n := by
  unfold countAt
  rw [h.get_zero]
  have h' : FpOps.toInt (ofNat n : F) = n := hn
  simp only [h']
  simp

theorem NodeAt.par_get {env : Env F} {B : Bufs F} {T : List (Fn L)} {c : Cursor} {n : Node L}
    (h : NodeAt env B T c n) (i : Nat) (hi : i < n.params.length) :
    c.getParameter B i = (n.params.map env.val)[i]? := by
  unfold Cursor.getParameter
  exact h.par.get_succ i (by simpa using hi)

theorem NodeAt.con_get {env : Env F} {B : Bufs F} {T : List (Fn L)} {c : Cursor} {n : Node L}
    (h : NodeAt env B T c n) (i : Nat) (hi : i < n.consts.length) :
    c.getConstant B i = n.consts[i]? := h.con.get_succ i hi

theorem NodeAt.obs_get {env : Env F} {B : Bufs F} {T : List (Fn L)} {c : Cursor} {n : Node L}
    (h : NodeAt env B T c n) (i : Nat) (hi : i < n.obs.length) :
    c.getObservable B i = (n.obs.map fun o => ofInt (env.idx o))[i]? :=
  h.obs.get_succ i (by simpa using hi)

theorem NodeAt.nrm_get {env : Env F} {B : Bufs F} {T : List (Fn L)} {c : Cursor} {n : Node L}
    (h : NodeAt env B T c n) : c.getNormalization B 0 = some n.norm := by
  have := h.nrm.get_succ 0 (by simp)
  simpa [Cursor.getNormalization] using this

theorem NodeAt.fn_get {env : Env F} {B : Bufs F} {T : List (Fn L)} {c : Cursor} {n : Node L}
    (h : NodeAt env B T c n) : T[c.fn]? = some n.fn := h.fn.get_zero

theorem NodeAt.next {env : Env F} {B : Bufs F} {T : List (Fn L)} {c : Cursor} {n : Node L}
    (h : NodeAt env B T c n)
    (hs : Storable F n.params.length n.consts.length (n.obs.map env.idx)) :
    c.next B = some (c.advN n) := by
  obtain ⟨h1, h2, h3, h4, -⟩ := hs
  rw [List.length_map] at h3
  have e1 := countAt_of h.par h1
  have e2 := countAt_of h.con h2
  have e3 := countAt_of h.obs h3
  have e4 : countAt B.nrm c.nrm = some 1 := by
    have := h.nrm
    exact countAt_of (n := 1) (xs := [n.norm]) (by simpa [nrmOf, ofNat] using this)
      (by simpa using h4)
  simp [Cursor.next, Cursor.getNumParameters, Cursor.getNumConstants, Cursor.getNumObservables,
    Cursor.getNumNormalizations, e1, e2, e3, e4, Cursor.advN]

theorem Cursor.skip_add (B : Bufs F) (a b : Nat) (c : Cursor) :
    Cursor.skip B (a + b) c = (Cursor.skip B a c).bind (Cursor.skip B b) := by
  induction a generalizing c with
  | zero => simp [Cursor.skip]
  | succ a ih =>
    rw [show a + 1 + b = (a + b) + 1 by omega]
    simp only [Cursor.skip]
    cases h : c.next B with
    | none => rfl
    | some c' => exact ih c'

variable {sem : LeafSem F L} {env : Env F} {B : Bufs F} {T : List (Fn L)}

mutual
theorem TreeAt.skip : ∀ (t : Pdf L) (c : Cursor), TreeAt env B T c t → WellFormed sem env t →
    Cursor.skip B t.size c = some (c.adv t)
  | .mk n cs, c, h, w => by
    rw [TreeAt] at h
    rw [WellFormed] at w
    rw [Pdf.size, Cursor.skip_add]
    have : Cursor.skip B 1 c = some (c.advN n) := by
      simp [Cursor.skip, h.1.next w.1]
    rw [this, Option.bind_some, Cursor.adv]
    exact TreesAt.skip cs _ h.2 w.2.2
theorem TreesAt.skip : ∀ (ts : List (Pdf L)) (c : Cursor), TreesAt env B T c ts →
    WellFormedList sem env ts → Cursor.skip B (Pdf.sizeList ts) c = some (c.advL ts)
  | [], c, _, _ => rfl
  | t :: ts, c, h, w => by
    rw [TreesAt] at h
    rw [WellFormedList] at w
    rw [Pdf.sizeList, Cursor.skip_add, TreeAt.skip t c h.1 w.1, Option.bind_some, Cursor.advL]
    exact TreesAt.skip ts _ h.2 w.2
end

theorem wellFormedList_iff (ts : List (Pdf L)) :
    WellFormedList sem env ts ↔ ∀ t ∈ ts, WellFormed sem env t := by
  induction ts with
  | nil => simp [WellFormedList]
  | cons t ts ih => simp [WellFormedList, ih]

/-- a component's offer -/
def compOf (sem : LeafSem F L) (env : Env F) (t : Pdf L) : Comp F :=
  ⟨denote sem env t, t.node.norm, t.node.obs.map env.idx⟩

theorem denoteList_eq (ts : List (Pdf L)) : denoteList sem env ts = ts.map (compOf sem env) := by
  induction ts with
  | nil => rfl
  | cons t ts ih => cases t; simp [denoteList, ih, compOf, Pdf.node]

theorem allSome_eq_some {α : Type} : ∀ (xs : List (Option α)) (ys : List α),
    allSome xs = some ys ↔ xs = ys.map some
  | [], ys => by cases ys <;> simp [allSome]
  | none :: xs, ys => by cases ys <;> simp [allSome]
  | some x :: xs, ys => by
    cases ys with
    | nil => simp [allSome]
    | cons y ys =>
      simp only [allSome, Option.map_eq_some_iff, List.map_cons, List.cons.injEq, Option.some.injEq]
      constructor
      · rintro ⟨a, ha, rfl, rfl⟩
        exact ⟨rfl, (allSome_eq_some xs a).1 ha⟩
      · rintro ⟨rfl, h⟩
        exact ⟨ys, (allSome_eq_some xs ys).2 h, rfl, rfl⟩

theorem TreeAt.node {t : Pdf L} {c : Cursor} (h : TreeAt env B T c t) :
    NodeAt env B T c t.node := by
  cases t; rw [TreeAt] at h; exact h.1

/-- The call works on each of these trees. -/
def Works (sem : LeafSem F L) (env : Env F) (B : Bufs F) (T : List (Fn L)) (call : Call F)
    (ts : List (Pdf L)) : Prop :=
  ∀ t ∈ ts, ∀ (c : Cursor) (e : Evt F) (v : F), TreeAt env B T c t → denote sem env t e = some v →
    call c e = some (v, c.adv t)

theorem addLoop_works {call : Call F} {e : Evt F} {loc : Cursor} :
    ∀ (ts : List (Pdf L)) (ws vs : List F) (i : Nat) (c : Cursor) (ret tot : F),
      Works sem env B T call ts → TreesAt env B T c ts → ws.length = ts.length →
      (∀ k : Nat, k < ws.length → loc.getParameter B (i + k) = ws[k]?) →
      ts.map (denote sem env · e) = vs.map some →
      addLoop call B loc e ts.length i c ret tot =
        some (((ws.zip (vs.zip (ts.map (·.node.norm)))).map
            fun p => mul (mul p.1 p.2.1) p.2.2).foldl add ret,
          ws.foldl add tot, c.advL ts)
  | [], ws, vs, i, c, ret, tot, _, _, hl, _, hv => by
    have : ws = [] := by simpa using hl
    subst this
    simp [addLoop, Cursor.advL]
  | t :: ts, [], vs, i, c, ret, tot, _, _, hl, _, hv => by simp at hl
  | t :: ts, w :: ws, [], i, c, ret, tot, _, _, hl, _, hv => by simp at hv
  | t :: ts, w :: ws, v :: vs, i, c, ret, tot, hw, ha, hl, hp, hv => by
    rw [TreesAt] at ha
    simp only [List.map_cons, List.cons.injEq] at hv
    have hp0 := hp 0 (by simp)
    simp only [Nat.add_zero, List.getElem?_cons_zero] at hp0
    have hcall := hw t (by simp) c e v ha.1 hv.1
    simp only [List.length_cons, addLoop]
    rw [hp0, ha.1.node.nrm_get, hcall]
    simp only [Option.bind_eq_bind, Option.bind_some]
    rw [addLoop_works ts ws vs (i + 1) (c.adv t) _ _ (fun t' h' => hw t' (by simp [h'])) ha.2
      (by simpa using hl) (by
        intro k hk
        have := hp (k + 1) (by simp; omega)
        rw [show i + 1 + k = i + (k + 1) by omega, this]; simp) hv.2]
    simp [Cursor.advL]

theorem prodLoop_works {call : Call F} {e : Evt F} :
    ∀ (ts : List (Pdf L)) (vs : List F) (c : Cursor) (ret : F),
      Works sem env B T call ts → TreesAt env B T c ts →
      ts.map (denote sem env · e) = vs.map some →
      prodLoop call B e ts.length c ret =
        some (((vs.zip (ts.map (·.node.norm))).map fun p => mul p.1 p.2).foldl mul ret, c.advL ts)
  | [], vs, c, ret, _, _, hv => by simp [prodLoop, Cursor.advL]
  | t :: ts, [], c, ret, _, _, hv => by simp at hv
  | t :: ts, v :: vs, c, ret, hw, ha, hv => by
    rw [TreesAt] at ha
    simp only [List.map_cons, List.cons.injEq] at hv
    have hcall := hw t (by simp) c e v ha.1 hv.1
    simp only [List.length_cons, prodLoop]
    rw [ha.1.node.nrm_get, hcall]
    simp only [Option.bind_eq_bind, Option.bind_some]
    rw [prodLoop_works ts vs (c.adv t) _ (fun t' h' => hw t' (by simp [h'])) ha.2 hv.2]
    simp [Cursor.advL]

theorem evtAddLoop_works {call : Call F} {e : Evt F} {pc : Cursor} :
    ∀ (ts : List (Pdf L)) (is : List F) (ws vs : List F) (i : Nat) (c : Cursor) (ret tot : F),
      Works sem env B T call ts → TreesAt env B T c ts → is.length = ts.length →
      (∀ k : Nat, k < is.length → pc.getObservable B (i + k) = is[k]?) →
      is.map (Evt.read e) = ws.map some →
      ts.map (denote sem env · e) = vs.map some →
      evtAddLoop call B pc e ts.length i c ret tot =
        some (((ws.zip (vs.zip (ts.map (·.node.norm)))).map
            fun p => mul (mul p.1 p.2.1) p.2.2).foldl add ret,
          ws.foldl add tot, c.advL ts)
  | [], is, ws, vs, i, c, ret, tot, _, _, hl, _, hr, hv => by
    have : is = [] := by simpa using hl
    subst this
    have : ws = [] := by simpa using hr.symm
    subst this
    simp [evtAddLoop, Cursor.advL]
  | t :: ts, [], ws, vs, i, c, ret, tot, _, _, hl, _, hr, hv => by simp at hl
  | t :: ts, d :: is, [], vs, i, c, ret, tot, _, _, hl, _, hr, hv => by simp at hr
  | t :: ts, d :: is, w :: ws, [], i, c, ret, tot, _, _, hl, _, hr, hv => by simp at hv
  | t :: ts, d :: is, w :: ws, v :: vs, i, c, ret, tot, hw, ha, hl, hp, hr, hv => by
    rw [TreesAt] at ha
    simp only [List.map_cons, List.cons.injEq] at hv hr
    have hp0 := hp 0 (by simp)
    simp only [Nat.add_zero, List.getElem?_cons_zero] at hp0
    have hcall := hw t (by simp) c e v ha.1 hv.1
    simp only [List.length_cons, evtAddLoop]
    rw [hp0, ha.1.node.nrm_get, hcall]
    simp only [Option.bind_eq_bind, Option.bind_some]
    rw [hr.1]
    simp only [Option.bind_some]
    rw [evtAddLoop_works ts is ws vs (i + 1) (c.adv t) _ _ (fun t' h' => hw t' (by simp [h'])) ha.2
      (by simpa using hl) (by
        intro k hk
        have := hp (k + 1) (by simp; omega)
        rw [show i + 1 + k = i + (k + 1) by omega, this]; simp) hr.2 hv.2]
    simp [Cursor.advL]

theorem read_ofInt (e : Evt F) (i : Int) (h : Exact F i) : e.read (ofInt i) = at_ e i := by
  have h' : FpOps.toInt (ofInt i : F) = i := h
  simp [Evt.read, at_, h']

theorem sumConstants_works {pc : Cursor} : ∀ (ns : List Nat) (i : Nat),
    (∀ k : Nat, k < ns.length → pc.getConstant B (i + k) = (ns.map (ofNat (F := F)))[k]?) →
    (∀ n ∈ ns, Exact F (n : Nat)) → sumConstants B pc ns.length i = some ((ns.sum : Nat) : Int)
  | [], i, _, _ => rfl
  | n :: ns, i, h, hx => by
    have h0 := h 0 (by simp)
    simp only [Nat.add_zero, List.map_cons, List.getElem?_cons_zero] at h0
    simp only [List.length_cons, sumConstants]
    rw [h0, sumConstants_works ns (i + 1) (by
      intro k hk
      have := h (k + 1) (by simp; omega)
      rw [show i + 1 + k = i + (k + 1) by omega, this]; simp) (fun m hm => hx m (by simp [hm]))]
    have h' : FpOps.toInt (ofNat n : F) = n := hx n (by simp)
    simp [h']

end cursor
end GooFit
