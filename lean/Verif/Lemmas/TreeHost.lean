import Verif.Model.TreeHost
import Verif.Lemmas.TreeEval
import Mathlib.Data.List.Nodup
import Mathlib.Data.List.Perm.Basic
/-!
# Lemmas about the host-side traversals
-/
set_option autoImplicit false
namespace GooFit
open FpOps Spec
variable {F : Type} {L : Lib F}

/-- identities of the objects in a tree, preorder -/
def Pdf.oids (t : Pdf L) : List Nat := t.flat fun n => [n.oid]
/-- identities of the objects in a list of trees -/
def Pdf.oidsL (ts : List (Pdf L)) : List Nat := Pdf.flatList (fun n => [n.oid]) ts

theorem oids_mk (n : Node L) (cs : List (Pdf L)) : (Pdf.mk n cs).oids = n.oid :: Pdf.oidsL cs := rfl
theorem oidsL_cons (t : Pdf L) (ts : List (Pdf L)) :
    Pdf.oidsL (t :: ts) = t.oids ++ Pdf.oidsL ts := rfl

section slots
variable [FpOps F]

mutual
/-- every object's own indices are where it is stored -/
def SlotsAt (slots : Nat → Slots) : Cursor → Pdf L → Prop
  | c, .mk n cs => slots n.oid = c ∧ SlotsAtL slots (c.advN n) cs
/-- the same for a list -/
def SlotsAtL (slots : Nat → Slots) : Cursor → List (Pdf L) → Prop
  | _, [] => True
  | c, t :: ts => SlotsAt slots c t ∧ SlotsAtL slots (c.adv t) ts
end

mutual
theorem populate_slots_other (env : Env F) : ∀ (t : Pdf L) (h : Host L) (o : Nat), o ∉ t.oids →
    (Host.populate env t h).slots o = h.slots o
  | .mk n cs, h, o, ho => by
    rw [oids_mk, List.mem_cons, not_or] at ho
    rw [Host.populate, populateL_slots_other env cs _ o ho.2]
    simp [Host.push, ho.1]
theorem populateL_slots_other (env : Env F) : ∀ (ts : List (Pdf L)) (h : Host L) (o : Nat),
    o ∉ Pdf.oidsL ts → (Host.populateList env ts h).slots o = h.slots o
  | [], h, o, _ => rfl
  | t :: ts, h, o, ho => by
    rw [oidsL_cons, List.mem_append, not_or] at ho
    rw [Host.populateList, populateL_slots_other env ts _ o ho.2, populate_slots_other env t h o ho.1]
end

mutual
theorem SlotsAt.congr (s s' : Nat → Slots) : ∀ (t : Pdf L) (c : Cursor),
    (∀ o ∈ t.oids, s o = s' o) → SlotsAt s c t → SlotsAt s' c t
  | .mk n cs, c, h, hs => by
    rw [SlotsAt] at hs ⊢
    exact ⟨by rw [← h n.oid (by simp [oids_mk]), hs.1],
      SlotsAtL.congr s s' cs _ (fun o ho => h o (by simp [oids_mk, ho])) hs.2⟩
theorem SlotsAtL.congr (s s' : Nat → Slots) : ∀ (ts : List (Pdf L)) (c : Cursor),
    (∀ o ∈ Pdf.oidsL ts, s o = s' o) → SlotsAtL s c ts → SlotsAtL s' c ts
  | [], c, h, hs => by simp [SlotsAtL]
  | t :: ts, c, h, hs => by
    rw [SlotsAtL] at hs ⊢
    exact ⟨SlotsAt.congr s s' t c (fun o ho => h o (by simp [oidsL_cons, ho])) hs.1,
      SlotsAtL.congr s s' ts _ (fun o ho => h o (by simp [oidsL_cons, ho])) hs.2⟩
end

/-- where the next object will be stored -/
def Host.top (h : Host L) : Cursor :=
  ⟨h.table.length, h.bufs.par.length, h.bufs.con.length, h.bufs.obs.length, h.bufs.nrm.length⟩

theorem top_push (env : Env F) (n : Node L) (h : Host L) : (h.push env n).top = h.top.advN n := by
  simp [Host.top, Host.push, Cursor.advN, Cursor.incrementIndex]

theorem top_populate (env : Env F) (t : Pdf L) (h : Host L) :
    (Host.populate env t h).top = h.top.adv t := by
  obtain ⟨h1, h2⟩ := populate_eq (env := env) t h
  rw [adv_lengths (env := env)]
  simp [Host.top, h1, h2]

mutual
theorem populate_slotsAt (env : Env F) : ∀ (t : Pdf L) (h : Host L), t.oids.Nodup →
    SlotsAt (Host.populate env t h).slots h.top t
  | .mk n cs, h, hnd => by
    rw [oids_mk, List.nodup_cons] at hnd
    rw [SlotsAt, Host.populate]
    constructor
    · rw [populateL_slots_other env cs _ _ hnd.1]
      simp [Host.push, Host.top]
    · have := populateL_slotsAt env cs (h.push env n) hnd.2
      rwa [top_push] at this
theorem populateL_slotsAt (env : Env F) : ∀ (ts : List (Pdf L)) (h : Host L),
    (Pdf.oidsL ts).Nodup → SlotsAtL (Host.populateList env ts h).slots h.top ts
  | [], h, _ => by simp [SlotsAtL]
  | t :: ts, h, hnd => by
    rw [oidsL_cons, List.nodup_append] at hnd
    rw [SlotsAtL, Host.populateList]
    constructor
    · refine SlotsAt.congr _ _ t _ ?_ (populate_slotsAt env t h hnd.1)
      intro o ho
      rw [populateL_slots_other env ts _ o (fun hc => hnd.2.2 o ho o hc rfl)]
    · have := populateL_slotsAt env ts (Host.populate env t h) hnd.2.1
      rwa [top_populate] at this
end

theorem writeParams_eq (pre : List F) (cnt : F) : ∀ (done news olds post : List F),
    news.length = olds.length →
    writeParams news pre.length done.length (pre ++ (cnt :: (done ++ olds)) ++ post) =
      pre ++ (cnt :: (done ++ news)) ++ post
  | done, [], [], post, _ => rfl
  | done, v :: vs, [], post, h => by simp at h
  | done, [], o :: os, post, h => by simp at h
  | done, v :: vs, o :: os, post, h => by
    rw [writeParams]
    have e1 : (pre ++ (cnt :: (done ++ o :: os)) ++ post).set (pre.length + done.length + 1) v
        = pre ++ (cnt :: ((done ++ [v]) ++ os)) ++ post := by
      rw [List.append_assoc, List.set_append_right _ _ (by omega),
        show pre.length + done.length + 1 - pre.length = done.length + 1 by omega]
      simp [List.set_append]
    rw [e1]
    have := writeParams_eq pre cnt (done ++ [v]) vs os post (by simpa using h)
    rw [List.length_append, List.length_singleton] at this
    rw [this]
    simp

theorem updateParameters_eq (env env' : Env F) (slots : Nat → Slots) :
    ∀ (k : Nat) (t : Pdf L), t.size ≤ k → ∀ (c : Cursor) (pre post : List F),
      SlotsAt slots c t → pre.length = c.par →
      updateParameters env' slots t (pre ++ t.flat (parOf env) ++ post) =
        pre ++ t.flat (parOf env') ++ post
  | 0, .mk n cs, ht, _, _, _, _, _ => by simp [Pdf.size] at ht
  | k + 1, .mk n cs, ht, c, pre, post, hs, hp => by
    have hl : ∀ (ts : List (Pdf L)), Pdf.sizeList ts ≤ k → ∀ (c : Cursor) (pre post : List F),
        SlotsAtL slots c ts → pre.length = c.par →
        updateParametersList env' slots ts (pre ++ Pdf.flatList (parOf env) ts ++ post) =
          pre ++ Pdf.flatList (parOf env') ts ++ post := by
      intro ts
      induction ts with
      | nil => intro _ c pre post _ _; simp [updateParametersList, Pdf.flatList]
      | cons t ts ih =>
        intro hk c pre post hs hp
        rw [SlotsAtL] at hs
        simp only [Pdf.sizeList] at hk
        rw [updateParametersList, Pdf.flatList, Pdf.flatList]
        have h1 := updateParameters_eq env env' slots k t (by omega) c pre
          (Pdf.flatList (parOf env) ts ++ post) hs.1 hp
        rw [show pre ++ (t.flat (parOf env) ++ Pdf.flatList (parOf env) ts) ++ post
          = pre ++ t.flat (parOf env) ++ (Pdf.flatList (parOf env) ts ++ post) by simp, h1]
        have h2 := ih (by omega) (c.adv t) (pre ++ t.flat (parOf env')) post hs.2 (by
          rw [adv_lengths (env := env')]; simp [hp])
        rw [← List.append_assoc, h2]
        simp
    rw [SlotsAt] at hs
    simp only [Pdf.size] at ht
    rw [updateParameters, Pdf.flat, Pdf.flat, hs.1, ← hp]
    have h1 := writeParams_eq pre (ofNat n.params.length) [] (n.params.map env'.val)
      (n.params.map env.val) (Pdf.flatList (parOf env) cs ++ post) (by simp)
    rw [List.nil_append, List.nil_append, List.length_nil] at h1
    rw [show pre ++ (parOf env n ++ Pdf.flatList (parOf env) cs) ++ post =
      pre ++ (ofNat n.params.length :: n.params.map env.val) ++
        (Pdf.flatList (parOf env) cs ++ post) by simp [parOf], h1]
    have h2 := hl cs (by omega) (c.advN n) (pre ++ parOf env' n) post hs.2 (by
      simp [parOf, Cursor.advN, Cursor.incrementIndex, hp])
    rw [show pre ++ (ofNat n.params.length :: n.params.map env'.val) ++
        (Pdf.flatList (parOf env) cs ++ post)
      = (pre ++ parOf env' n) ++ Pdf.flatList (parOf env) cs ++ post by simp [parOf], h2]
    simp

theorem setNormalizations_eq (x : F) (slots : Nat → Slots) :
    ∀ (k : Nat) (t : Pdf L), t.size ≤ k → ∀ (c : Cursor) (pre post : List F),
      SlotsAt slots c t → pre.length = c.nrm →
      setNormalizations x slots t (pre ++ t.flat nrmOf ++ post) =
        pre ++ t.flat (fun _ => [lit 1, x]) ++ post
  | 0, .mk n cs, ht, _, _, _, _, _ => by simp [Pdf.size] at ht
  | k + 1, .mk n cs, ht, c, pre, post, hs, hp => by
    have hl : ∀ (ts : List (Pdf L)), Pdf.sizeList ts ≤ k → ∀ (c : Cursor) (pre post : List F),
        SlotsAtL slots c ts → pre.length = c.nrm →
        setNormalizationsList x slots ts (pre ++ Pdf.flatList nrmOf ts ++ post) =
          pre ++ Pdf.flatList (fun _ => [lit 1, x]) ts ++ post := by
      intro ts
      induction ts with
      | nil => intro _ c pre post _ _; simp [setNormalizationsList, Pdf.flatList]
      | cons t ts ih =>
        intro hk c pre post hs hp
        rw [SlotsAtL] at hs
        simp only [Pdf.sizeList] at hk
        rw [setNormalizationsList, Pdf.flatList, Pdf.flatList]
        have h1 := setNormalizations_eq x slots k t (by omega) c pre
          (Pdf.flatList nrmOf ts ++ post) hs.1 hp
        rw [show pre ++ (t.flat nrmOf ++ Pdf.flatList nrmOf ts) ++ post
          = pre ++ t.flat nrmOf ++ (Pdf.flatList nrmOf ts ++ post) by simp, h1]
        have hlen : (t.flat (fun _ => [lit 1, x]) : List F).length = (t.flat (nrmOf (F := F))).length := by
          have key : ∀ (k : Nat) (t : Pdf L), t.size ≤ k →
              (t.flat (fun _ => [lit 1, x]) : List F).length = (t.flat (nrmOf (F := F))).length := by
            intro k
            induction k with
            | zero => intro t ht; cases t; simp [Pdf.size] at ht
            | succ k ihk =>
              intro t ht
              cases t with
              | mk n cs =>
                have : ∀ ts : List (Pdf L), Pdf.sizeList ts ≤ k →
                    (Pdf.flatList (fun _ => [lit 1, x]) ts : List F).length
                      = (Pdf.flatList (nrmOf (F := F)) ts).length := by
                  intro ts
                  induction ts with
                  | nil => intro _; rfl
                  | cons a ts iht =>
                    intro hk
                    simp only [Pdf.sizeList] at hk
                    simp [Pdf.flatList, ihk a (by omega), iht (by omega)]
                simp only [Pdf.size] at ht
                simp [Pdf.flat, nrmOf, this cs (by omega)]
          exact key t.size t (Nat.le_refl _)
        have h2 := ih (by omega) (c.adv t) (pre ++ t.flat (fun _ => [lit 1, x])) post hs.2 (by
          rw [adv_lengths (env := ⟨fun _ => lit 0, fun _ => 0⟩), List.length_append, hp, hlen])
        rw [← List.append_assoc, h2]
        simp
    rw [SlotsAt] at hs
    simp only [Pdf.size] at ht
    rw [setNormalizations, Pdf.flat, Pdf.flat, hs.1, ← hp]
    have h1 : (pre ++ (nrmOf n ++ Pdf.flatList nrmOf cs) ++ post).set (pre.length + 1) x =
        (pre ++ [lit 1, x]) ++ Pdf.flatList nrmOf cs ++ post := by
      rw [List.append_assoc, List.set_append_right _ _ (by omega),
        show pre.length + 1 - pre.length = 1 by omega]
      simp [nrmOf]
    rw [h1, hl cs (by omega) (c.advN n) (pre ++ [lit 1, x]) post hs.2 (by
      simp [Cursor.advN, Cursor.incrementIndex, hp])]
    simp

end slots

/-! ### getParameters, getObservables -/

theorem mem_pushNew (ret : List Nat) (x y : Nat) : y ∈ pushNew ret x ↔ y ∈ ret ∨ y = x := by
  unfold pushNew
  split
  · rename_i h
    constructor
    · exact Or.inl
    · rintro (h' | rfl) <;> assumption
  · simp

theorem nodup_pushNew {ret : List Nat} (h : ret.Nodup) (x : Nat) : (pushNew ret x).Nodup := by
  unfold pushNew
  split
  · exact h
  · rename_i hx
    rw [List.nodup_append]
    refine ⟨h, List.nodup_singleton x, ?_⟩
    intro a ha b hb
    rw [List.mem_singleton] at hb
    subst hb
    rintro rfl
    exact hx ha

theorem mem_foldl_pushNew (xs ret : List Nat) (y : Nat) :
    y ∈ xs.foldl pushNew ret ↔ y ∈ ret ∨ y ∈ xs := by
  induction xs generalizing ret with
  | nil => simp
  | cons x xs ih => rw [List.foldl_cons, ih, mem_pushNew, List.mem_cons, or_assoc]

theorem nodup_foldl_pushNew (xs : List Nat) {ret : List Nat} (h : ret.Nodup) :
    (xs.foldl pushNew ret).Nodup := by
  induction xs generalizing ret with
  | nil => exact h
  | cons x xs ih => exact ih (nodup_pushNew h x)

theorem foldl_pushNew_prefix (xs ret : List Nat) : ∃ ys, xs.foldl pushNew ret = ret ++ ys := by
  induction xs generalizing ret with
  | nil => exact ⟨[], by simp⟩
  | cons x xs ih =>
    obtain ⟨ys, hy⟩ := ih (pushNew ret x)
    rw [List.foldl_cons, hy]
    unfold pushNew
    split
    · exact ⟨ys, rfl⟩
    · exact ⟨x :: ys, by simp⟩

mutual
theorem mem_gather (own : Node L → List Nat) : ∀ (t : Pdf L) (y : Nat),
    y ∈ gather own t ↔ y ∈ t.flat own
  | .mk n cs, y => by
    rw [gather, mem_gatherList own cs, Pdf.flat, List.mem_append]
theorem mem_gatherList (own : Node L → List Nat) : ∀ (ts : List (Pdf L)) (ret : List Nat) (y : Nat),
    y ∈ gatherList own ts ret ↔ y ∈ ret ∨ y ∈ Pdf.flatList own ts
  | [], ret, y => by simp [gatherList, Pdf.flatList]
  | t :: ts, ret, y => by
    rw [gatherList, mem_gatherList own ts, mem_foldl_pushNew, mem_gather own t, Pdf.flatList,
      List.mem_append, or_assoc]
end

theorem nodup_gatherList (own : Node L → List Nat) : ∀ (ts : List (Pdf L)) (ret : List Nat),
    ret.Nodup → (gatherList own ts ret).Nodup
  | [], ret, h => h
  | t :: ts, ret, h => by
    rw [gatherList]
    exact nodup_gatherList own ts _ (nodup_foldl_pushNew _ h)

theorem gatherList_prefix (own : Node L → List Nat) : ∀ (ts : List (Pdf L)) (ret : List Nat),
    ∃ ys, gatherList own ts ret = ret ++ ys
  | [], ret => ⟨[], by simp [gatherList]⟩
  | t :: ts, ret => by
    obtain ⟨ys, h1⟩ := foldl_pushNew_prefix (gather own t) ret
    obtain ⟨zs, h2⟩ := gatherList_prefix own ts (ret ++ ys)
    exact ⟨ys ++ zs, by rw [gatherList, h1, h2, List.append_assoc]⟩

/-! ### observable indices and the event array -/

theorem setupObservables_other (os : List Nat) (k : Nat) (idx : Nat → Int) (o : Nat)
    (h : o ∉ os) : setupObservables os k idx o = idx o := by
  induction os generalizing k idx with
  | nil => rfl
  | cons a os ih =>
    rw [List.mem_cons, not_or] at h
    rw [setupObservables, ih _ _ h.2]
    simp [h.1]

theorem setupObservables_get (os : List Nat) (hnd : os.Nodup) (k : Nat) (idx : Nat → Int) (i : Nat)
    (hi : i < os.length) : setupObservables os k idx os[i] = ((k + i : Nat) : Int) := by
  induction os generalizing k idx i with
  | nil => simp at hi
  | cons a os ih =>
    rw [List.nodup_cons] at hnd
    rw [setupObservables]
    cases i with
    | zero =>
      rw [List.getElem_cons_zero, setupObservables_other _ _ _ _ hnd.1]
      simp
    | succ i =>
      rw [List.getElem_cons_succ, ih hnd.2 _ _ i (by simpa using hi)]
      congr 1; omega

theorem fillEvent_length (idx : Nat → Int) (dim i : Nat) (row : Nat → F) :
    ∀ (os : List Nat) (arr : List (Option F)), (fillEvent idx dim i row arr os).length = arr.length
  | [], arr => rfl
  | o :: os, arr => by rw [fillEvent, fillEvent_length idx dim i row os]; simp

theorem fillEvents_length (idx : Nat → Int) (os : List Nat) (data : Nat → Nat → F) :
    ∀ (k : Nat) (arr : List (Option F)), (fillEvents idx os data k arr).length = arr.length
  | 0, arr => rfl
  | k + 1, arr => by rw [fillEvents, fillEvent_length, fillEvents_length idx os data k]

theorem fillEvent_other (idx : Nat → Int) (dim i : Nat) (row : Nat → F) (q : Nat) :
    ∀ (os : List Nat) (arr : List (Option F)), (∀ o ∈ os, i * dim + (idx o).toNat ≠ q) →
      (fillEvent idx dim i row arr os)[q]? = arr[q]?
  | [], arr, _ => rfl
  | o :: os, arr, h => by
    rw [fillEvent, fillEvent_other idx dim i row q os _ (fun o' ho => h o' (by simp [ho])),
      List.getElem?_set_ne (h o (by simp))]

theorem fillEvent_get (idx : Nat → Int) (dim i : Nat) (row : Nat → F) (o : Nat) :
    ∀ (os : List Nat) (arr : List (Option F)), o ∈ os →
      (∀ p ∈ os, (idx p).toNat = (idx o).toNat → p = o) →
      i * dim + (idx o).toNat < arr.length →
      (fillEvent idx dim i row arr os)[i * dim + (idx o).toNat]? = some (some (row o))
  | [], arr, h, _, _ => by simp at h
  | p :: os, arr, h, hinj, hlt => by
    rw [fillEvent]
    by_cases ho : o ∈ os
    · exact fillEvent_get idx dim i row o os _ ho (fun p' hp' => hinj p' (by simp [hp']))
        (by simpa using hlt)
    · have hop : o = p := by
        rcases List.mem_cons.1 h with h' | h'
        · exact h'
        · exact absurd h' ho
      subst hop
      rw [fillEvent_other]
      · simp [List.getElem?_set, hlt]
      · intro o' ho' hc
        have := hinj o' (by simp [ho']) (by omega)
        subst this
        exact ho ho'

theorem fillEvents_get (idx : Nat → Int) (os : List Nat) (data : Nat → Nat → F) (o : Nat)
    (ho : o ∈ os) (hinj : ∀ p ∈ os, (idx p).toNat = (idx o).toNat → p = o)
    (hlt : ∀ p ∈ os, (idx p).toNat < os.length) :
    ∀ (k : Nat) (arr : List (Option F)) (i : Nat), i < k → k * os.length ≤ arr.length →
      (fillEvents idx os data k arr)[i * os.length + (idx o).toNat]? = some (some (data i o))
  | 0, arr, i, h, _ => by omega
  | k + 1, arr, i, h, hl => by
    rw [fillEvents]
    have hk : k * os.length + os.length ≤ arr.length := by rw [← Nat.succ_mul]; exact hl
    by_cases hik : i = k
    · subst hik
      refine fillEvent_get idx os.length i (data i) o os _ ho hinj ?_
      rw [fillEvents_length]
      have := hlt o ho
      omega
    · rw [fillEvent_other]
      · exact fillEvents_get idx os data o ho hinj hlt k arr i (by omega) (by omega)
      · intro p hp hc
        have h1 := hlt p hp
        have h2 := hlt o ho
        have h3 : (i + 1) * os.length ≤ k * os.length := Nat.mul_le_mul_right _ (by omega)
        rw [Nat.succ_mul] at h3
        omega

end GooFit
