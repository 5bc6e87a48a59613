import Verif.Spec.Likelihood
import Verif.Props.Norm
import Verif.Props.Fit
/-!
# Lemmas about one call of the minimised function
-/
set_option autoImplicit false
namespace GooFit
open Spec
variable {K : Type} [Field K] [LinearOrder K] [IsStrictOrderedRing K] [FloorRing K]
attribute [local instance] FpOps.ofField
variable {L : Lib K}

/-! ### Trees with given normalisations -/

mutual
/-- the tree with normalisation `ν oid` in every object -/
def Pdf.mapNorm (ν : Nat → K) : Pdf L → Pdf L
  | .mk n cs => .mk { n with norm := ν n.oid } (mapNormL ν cs)
/-- the same for a list -/
def mapNormL (ν : Nat → K) : List (Pdf L) → List (Pdf L)
  | [] => []
  | c :: cs => c.mapNorm ν :: mapNormL ν cs
end

omit [LinearOrder K] [IsStrictOrderedRing K] [FloorRing K] in
theorem mapNormL_eq (ν : Nat → K) : ∀ cs : List (Pdf L), mapNormL ν cs = cs.map (Pdf.mapNorm ν)
  | [] => rfl
  | c :: cs => by rw [mapNormL, mapNormL_eq ν cs]; rfl

omit [LinearOrder K] [IsStrictOrderedRing K] [FloorRing K] in
theorem mapNorm_node (ν : Nat → K) (t : Pdf L) : (t.mapNorm ν).node = { t.node with norm := ν t.node.oid } := by
  cases t; rfl

mutual
theorem flat_mapNorm {α : Type} (ν : Nat → K) (g : Node L → List α)
    (hg : ∀ n x, g { n with norm := x } = g n) : ∀ t : Pdf L, (t.mapNorm ν).flat g = t.flat g
  | .mk n cs => by rw [Pdf.mapNorm, Pdf.flat, Pdf.flat, hg, flatL_mapNorm ν g hg cs]
theorem flatL_mapNorm {α : Type} (ν : Nat → K) (g : Node L → List α)
    (hg : ∀ n x, g { n with norm := x } = g n) :
    ∀ ts : List (Pdf L), Pdf.flatList g (mapNormL ν ts) = Pdf.flatList g ts
  | [] => rfl
  | c :: cs => by rw [mapNormL, Pdf.flatList, Pdf.flatList, flat_mapNorm ν g hg c, flatL_mapNorm ν g hg cs]
end

theorem oids_mapNorm (ν : Nat → K) (t : Pdf L) : (t.mapNorm ν).oids = t.oids :=
  flat_mapNorm ν _ (fun _ _ => rfl) t

mutual
theorem subtrees_mapNorm (ν : Nat → K) : ∀ t : Pdf L, subtrees (t.mapNorm ν) = (subtrees t).map (Pdf.mapNorm ν)
  | .mk n cs => by rw [Pdf.mapNorm, subtrees, subtrees, List.map_cons, subtreesL_mapNorm ν cs]; rfl
theorem subtreesL_mapNorm (ν : Nat → K) :
    ∀ ts : List (Pdf L), subtreesList (mapNormL ν ts) = (subtreesList ts).map (Pdf.mapNorm ν)
  | [] => rfl
  | c :: cs => by
    rw [mapNormL, subtreesList, subtreesList, List.map_append, subtrees_mapNorm ν c, subtreesL_mapNorm ν cs]
end

mutual
theorem mapNorm_congr (ν ν' : Nat → K) : ∀ t : Pdf L, (∀ o ∈ t.oids, ν o = ν' o) → t.mapNorm ν = t.mapNorm ν'
  | .mk n cs, h => by
    rw [Pdf.mapNorm, Pdf.mapNorm, h n.oid (by simp [oids_mk]),
      mapNormL_congr ν ν' cs (fun o ho => h o (by simp [oids_mk, ho]))]
theorem mapNormL_congr (ν ν' : Nat → K) :
    ∀ ts : List (Pdf L), (∀ o ∈ Pdf.oidsL ts, ν o = ν' o) → mapNormL ν ts = mapNormL ν' ts
  | [], _ => rfl
  | c :: cs, h => by
    rw [mapNormL, mapNormL, mapNorm_congr ν ν' c (fun o ho => h o (by simp [oidsL_cons, ho])),
      mapNormL_congr ν ν' cs (fun o ho => h o (by simp [oidsL_cons, ho]))]
end

mutual
theorem mapNorm_size (ν : Nat → K) : ∀ t : Pdf L, (t.mapNorm ν).size = t.size
  | .mk n cs => by rw [Pdf.mapNorm, Pdf.size, Pdf.size, mapNormL_size ν cs]
theorem mapNormL_size (ν : Nat → K) : ∀ ts : List (Pdf L), Pdf.sizeList (mapNormL ν ts) = Pdf.sizeList ts
  | [] => rfl
  | c :: cs => by rw [mapNormL, Pdf.sizeList, Pdf.sizeList, mapNorm_size ν c, mapNormL_size ν cs]
end

/-- the tree has some normalisations -/
theorem mapNorm_self (t : Pdf L) (h : t.oids.Nodup) : ∃ ν, t.mapNorm ν = t := by
  have key : ∀ (k : Nat), (∀ t : Pdf L, t.size ≤ k → t.oids.Nodup → ∃ ν, t.mapNorm ν = t) := by
    intro k
    induction k with
    | zero => intro t ht; cases t; simp [Pdf.size] at ht
    | succ k ih =>
      intro t ht h
      obtain ⟨n, cs⟩ := t
      have hl : ∀ ts : List (Pdf L), Pdf.sizeList ts ≤ k → (Pdf.oidsL ts).Nodup →
          ∃ ν, mapNormL ν ts = ts := by
        intro ts
        induction ts with
        | nil => intro _ _; exact ⟨fun _ => 0, rfl⟩
        | cons c cs ihl =>
          intro hs hn
          rw [Pdf.sizeList] at hs
          rw [oidsL_cons, List.nodup_append] at hn
          obtain ⟨ν1, h1⟩ := ih c (by omega) hn.1
          obtain ⟨ν2, h2⟩ := ihl (by omega) hn.2.1
          classical
          refine ⟨fun o => if o ∈ c.oids then ν1 o else ν2 o, ?_⟩
          rw [mapNormL, mapNorm_congr _ ν1 c (fun o ho => if_pos ho), h1,
            mapNormL_congr _ ν2 cs (fun o ho => if_neg (fun hc => hn.2.2 o hc o ho rfl)), h2]
      rw [Pdf.size] at ht
      rw [oids_mk, List.nodup_cons] at h
      obtain ⟨ν, hν⟩ := hl cs (by omega) h.2
      classical
      refine ⟨fun o => if o = n.oid then n.norm else ν o, ?_⟩
      rw [Pdf.mapNorm, if_pos rfl, mapNormL_congr _ ν cs
        (fun o ho => if_neg (fun hc : o = n.oid => h.1 (hc ▸ ho))), hν]
  exact key t.size t (Nat.le_refl _) h

/-! ### Where things are -/

mutual
theorem slotsAt_mapNorm (ν : Nat → K) (slots : Nat → Slots) : ∀ (t : Pdf L) (c : Cursor),
    SlotsAt slots c (t.mapNorm ν) ↔ SlotsAt slots c t
  | .mk n cs, c => by
    rw [Pdf.mapNorm, SlotsAt, SlotsAt]
    exact and_congr Iff.rfl (slotsAtL_mapNorm ν slots cs (c.advN n))
theorem slotsAtL_mapNorm (ν : Nat → K) (slots : Nat → Slots) : ∀ (ts : List (Pdf L)) (c : Cursor),
    SlotsAtL slots c (mapNormL ν ts) ↔ SlotsAtL slots c ts
  | [], c => Iff.rfl
  | t :: ts, c => by
    rw [mapNormL, SlotsAtL, SlotsAtL, slotsAt_mapNorm ν slots t c]
    have : c.adv (t.mapNorm ν) = c.adv t := adv_mapNorm ν c t
    rw [this, slotsAtL_mapNorm ν slots ts]
theorem adv_mapNorm (ν : Nat → K) (c : Cursor) : ∀ t : Pdf L, c.adv (t.mapNorm ν) = c.adv t
  | .mk n cs => by
    rw [Pdf.mapNorm, Cursor.adv, Cursor.adv]
    exact advL_mapNorm ν (c.advN n) cs
theorem advL_mapNorm (ν : Nat → K) (c : Cursor) : ∀ ts : List (Pdf L), c.advL (mapNormL ν ts) = c.advL ts
  | [] => rfl
  | t :: ts => by
    rw [mapNormL, Cursor.advL, Cursor.advL, adv_mapNorm ν c t, advL_mapNorm ν _ ts]
end

mutual
/-- the function index of an object is its place in storage order -/
theorem slots_fn (slots : Nat → Slots) : ∀ (t : Pdf L) (c : Cursor), SlotsAt slots c t →
    ∀ (k : Nat) (u : Pdf L), (subtrees t)[k]? = some u → (slots u.node.oid).fn = c.fn + k
  | .mk n cs, c, h, k, u, hk => by
    rw [SlotsAt] at h
    cases k with
    | zero =>
      rw [subtrees, List.getElem?_cons_zero, Option.some.injEq] at hk
      subst hk
      show (slots n.oid).fn = _
      rw [h.1]; rfl
    | succ k =>
      rw [subtrees, List.getElem?_cons_succ] at hk
      rw [slots_fnL slots cs _ h.2 k u hk]
      simp [Cursor.advN, Cursor.incrementIndex]; omega
theorem slots_fnL (slots : Nat → Slots) : ∀ (ts : List (Pdf L)) (c : Cursor), SlotsAtL slots c ts →
    ∀ (k : Nat) (u : Pdf L), (subtreesList ts)[k]? = some u → (slots u.node.oid).fn = c.fn + k
  | [], c, _, k, u, hk => by simp [subtreesList] at hk
  | t :: ts, c, h, k, u, hk => by
    rw [SlotsAtL] at h
    rw [subtreesList] at hk
    by_cases hlt : k < (subtrees t).length
    · rw [List.getElem?_append_left hlt] at hk
      exact slots_fn slots t c h.1 k u hk
    · rw [List.getElem?_append_right (by omega)] at hk
      rw [slots_fnL slots ts _ h.2 _ u hk, Cursor.adv_fn]
      rw [subtrees_length] at hlt ⊢
      omega
end

mutual
/-- every tree inside is stored where its object's indices say -/
theorem slots_treeAt (env : Env K) (B : Bufs K) (T : List (Fn L)) (slots : Nat → Slots) :
    ∀ (t : Pdf L) (c : Cursor), SlotsAt slots c t → TreeAt env B T c t →
      ∀ u ∈ subtrees t, TreeAt env B T (slots u.node.oid) u
  | .mk n cs, c, h, ht, u, hu => by
    rw [SlotsAt] at h
    rw [subtrees, List.mem_cons] at hu
    rcases hu with rfl | hu
    · show TreeAt env B T (slots n.oid) _
      rw [h.1]; exact ht
    · rw [TreeAt] at ht
      exact slots_treeAtL env B T slots cs _ h.2 ht.2 u hu
theorem slots_treeAtL (env : Env K) (B : Bufs K) (T : List (Fn L)) (slots : Nat → Slots) :
    ∀ (ts : List (Pdf L)) (c : Cursor), SlotsAtL slots c ts → TreesAt env B T c ts →
      ∀ u ∈ subtreesList ts, TreeAt env B T (slots u.node.oid) u
  | [], c, _, _, u, hu => by simp [subtreesList] at hu
  | t :: ts, c, h, ht, u, hu => by
    rw [SlotsAtL] at h
    rw [TreesAt] at ht
    rw [subtreesList, List.mem_append] at hu
    rcases hu with hu | hu
    · exact slots_treeAt env B T slots t c h.1 ht.1 u hu
    · exact slots_treeAtL env B T slots ts _ h.2 ht.2 u hu
end

/-- one entry changed -/
def upd (ν : Nat → K) (o : Nat) (x : K) : Nat → K := fun p => if p = o then x else ν p

omit [LinearOrder K] [IsStrictOrderedRing K] [FloorRing K] [Field K] in
theorem upd_other (ν : Nat → K) (o p : Nat) (x : K) (h : p ≠ o) : upd ν o x p = ν p := if_neg h

/-- the array of normalisations, as stored -/
def nrmList (ν : Nat → K) (t : Pdf L) : List K := (t.mapNorm ν).flat nrmOf
/-- the same for a list -/
def nrmListL (ν : Nat → K) (ts : List (Pdf L)) : List K := Pdf.flatList nrmOf (mapNormL ν ts)

theorem nrmList_congr (ν ν' : Nat → K) (t : Pdf L) (h : ∀ o ∈ t.oids, ν o = ν' o) :
    nrmList ν t = nrmList ν' t := by
  unfold nrmList; rw [mapNorm_congr ν ν' t h]

theorem nrmListL_congr (ν ν' : Nat → K) (ts : List (Pdf L)) (h : ∀ o ∈ Pdf.oidsL ts, ν o = ν' o) :
    nrmListL ν ts = nrmListL ν' ts := by
  unfold nrmListL; rw [mapNormL_congr ν ν' ts h]

theorem adv_nrm (ν : Nat → K) (c : Cursor) (t : Pdf L) : (c.adv t).nrm = c.nrm + (nrmList ν t).length := by
  rw [← adv_mapNorm ν c t, adv_lengths (env := ⟨fun _ => 0, fun _ => 0⟩)]
  rfl

mutual
/-- writing one object's normalisation -/
theorem set_nrmList (slots : Nat → Slots) (ν : Nat → K) (o : Nat) (x : K) :
    ∀ (t : Pdf L) (c : Cursor) (pre post : List K), SlotsAt slots c t → pre.length = c.nrm →
      t.oids.Nodup → o ∈ t.oids →
      (pre ++ nrmList ν t ++ post).set ((slots o).nrm + 1) x = pre ++ nrmList (upd ν o x) t ++ post
  | .mk n cs, c, pre, post, hs, hp, hn, ho => by
    rw [SlotsAt] at hs
    rw [oids_mk, List.nodup_cons] at hn
    rw [oids_mk, List.mem_cons] at ho
    have e : ∀ μ : Nat → K, nrmList μ (.mk n cs) = [1, μ n.oid] ++ nrmListL μ cs := by
      intro μ
      unfold nrmList nrmListL
      rw [Pdf.mapNorm, Pdf.flat]
      simp [nrmOf, FpOps.lit]
    rw [e, e]
    rcases ho with rfl | ho
    · have hu : nrmListL (upd ν n.oid x) cs = nrmListL ν cs :=
        nrmListL_congr _ _ cs (fun p hp => upd_other _ _ _ _ (fun hc => hn.1 (hc ▸ hp)))
      rw [hu, hs.1, ← hp, List.append_assoc, List.set_append_right _ _ (by omega),
        show pre.length + 1 - pre.length = 1 by omega]
      simp [upd]
    · have hne : n.oid ≠ o := fun hc => hn.1 (hc ▸ ho)
      rw [upd_other _ _ _ _ hne]
      have := set_nrmListL slots ν o x cs (c.advN n) (pre ++ [1, ν n.oid]) post hs.2 (by
        simp [Cursor.advN, Cursor.incrementIndex, hp]) hn.2 ho
      simpa using this
theorem set_nrmListL (slots : Nat → Slots) (ν : Nat → K) (o : Nat) (x : K) :
    ∀ (ts : List (Pdf L)) (c : Cursor) (pre post : List K), SlotsAtL slots c ts → pre.length = c.nrm →
      (Pdf.oidsL ts).Nodup → o ∈ Pdf.oidsL ts →
      (pre ++ nrmListL ν ts ++ post).set ((slots o).nrm + 1) x = pre ++ nrmListL (upd ν o x) ts ++ post
  | [], c, pre, post, hs, hp, hn, ho => by simp [Pdf.oidsL, Pdf.flatList] at ho
  | t :: ts, c, pre, post, hs, hp, hn, ho => by
    rw [SlotsAtL] at hs
    rw [oidsL_cons, List.nodup_append] at hn
    rw [oidsL_cons, List.mem_append] at ho
    have e : ∀ μ : Nat → K, nrmListL μ (t :: ts) = nrmList μ t ++ nrmListL μ ts := fun μ => rfl
    rw [e, e]
    rcases ho with ho | ho
    · have hu : nrmListL (upd ν o x) ts = nrmListL ν ts :=
        nrmListL_congr _ _ ts (fun p hp => upd_other _ _ _ _ (fun hc => hn.2.2 o ho p hp hc.symm))
      rw [hu]
      have := set_nrmList slots ν o x t c pre (nrmListL ν ts ++ post) hs.1 hp hn.1 ho
      simpa using this
    · have hu : nrmList (upd ν o x) t = nrmList ν t :=
        nrmList_congr _ _ t (fun p hp => upd_other _ _ _ _ (fun hc => hn.2.2 p hp o ho hc))
      rw [hu]
      have := set_nrmListL slots ν o x ts (c.adv t) (pre ++ nrmList ν t) post hs.2 (by
        rw [adv_nrm ν]; simp [hp]) hn.2.1 ho
      simpa using this
end

mutual
theorem setNormalizations_foldl (x : K) (slots : Nat → Slots) : ∀ (t : Pdf L) (nrm : List K),
    setNormalizations x slots t nrm = t.oids.foldl (fun a o => a.set ((slots o).nrm + 1) x) nrm
  | .mk n cs, nrm => by
    rw [setNormalizations, setNormalizationsL_foldl x slots cs, oids_mk, List.foldl_cons]
theorem setNormalizationsL_foldl (x : K) (slots : Nat → Slots) : ∀ (ts : List (Pdf L)) (nrm : List K),
    setNormalizationsList x slots ts nrm
      = (Pdf.oidsL ts).foldl (fun a o => a.set ((slots o).nrm + 1) x) nrm
  | [], nrm => rfl
  | t :: ts, nrm => by
    rw [setNormalizationsList, setNormalizationsL_foldl x slots ts, setNormalizations_foldl x slots t,
      oidsL_cons, List.foldl_append]
end

theorem set_many (slots : Nat → Slots) (t : Pdf L) (hs : SlotsAt slots Cursor.zero t) (hn : t.oids.Nodup)
    (x : K) : ∀ (os : List Nat) (ν : Nat → K), (∀ o ∈ os, o ∈ t.oids) →
      os.foldl (fun a o => a.set ((slots o).nrm + 1) x) (nrmList ν t)
        = nrmList (fun p => if p ∈ os then x else ν p) t
  | [], ν, _ => by simp
  | o :: os, ν, h => by
    have h1 := set_nrmList slots ν o x t Cursor.zero [] [] hs rfl hn (h o (by simp))
    simp only [List.nil_append, List.append_nil] at h1
    rw [List.foldl_cons, h1, set_many slots t hs hn x os _ (fun p hp => h p (by simp [hp]))]
    congr 1
    funext p
    by_cases h1 : p ∈ os <;> by_cases h2 : p = o <;> simp [h1, h2, upd]

theorem oid_mem {t u : Pdf L} (h : u ∈ subtrees t) : u.node.oid ∈ t.oids := by
  have : t.oids = (nodes t).map Node.oid := by
    have h := flat_eq_nodes (fun n : Node L => [n.oid]) t.size t (Nat.le_refl _)
    rw [Pdf.oids, h]
    generalize nodes t = l
    induction l with
    | nil => rfl
    | cons a l ih => simpa using ih
  rw [this]
  exact List.mem_map.2 ⟨u.node, List.mem_map.2 ⟨u, h, rfl⟩, rfl⟩

end GooFit
