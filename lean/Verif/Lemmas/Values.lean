import Verif.Spec.Values
import Verif.Props.Likelihood
/-!
# Lemmas about what a PDF answers
-/
set_option autoImplicit false
namespace GooFit
open Spec
variable {K : Type} [Field K] [LinearOrder K] [IsStrictOrderedRing K] [FloorRing K]
attribute [local instance] FpOps.ofField
variable {L : Lib K}

mutual
theorem cached_eq (c : Nat → K) : ∀ t : Pdf L, t.cached c = t.mapNorm c
  | .mk n cs => by rw [Pdf.cached, Pdf.mapNorm, cachedList_eq c cs]
theorem cachedList_eq (c : Nat → K) : ∀ ts : List (Pdf L), cachedList c ts = mapNormL c ts
  | [] => rfl
  | t :: ts => by rw [cachedList, mapNormL, cached_eq c t, cachedList_eq c ts]
end

mutual
theorem hasObject_iff (o : Nat) : ∀ t : Pdf L, t.hasObject o = true ↔ o ∈ t.oids
  | .mk n cs => by
    rw [Pdf.hasObject, oids_mk, Bool.or_eq_true, hasObjectList_iff o cs, List.mem_cons, beq_iff_eq]
theorem hasObjectList_iff (o : Nat) : ∀ ts : List (Pdf L), hasObjectList o ts = true ↔ o ∈ Pdf.oidsL ts
  | [] => by simp [hasObjectList, Pdf.oidsL, Pdf.flatList]
  | t :: ts => by
    rw [hasObjectList, oidsL_cons, Bool.or_eq_true, hasObject_iff o t, hasObjectList_iff o ts, List.mem_append]
end

mutual
theorem treeAt_more {env : Env K} {B : Bufs K} {T : List (Fn L)} (rest : List (Fn L)) :
    ∀ (c : Cursor) (t : Pdf L), TreeAt env B T c t → TreeAt env B (T ++ rest) c t
  | c, .mk n cs, h => by
    rw [TreeAt] at h ⊢
    refine ⟨⟨?_, h.1.par, h.1.con, h.1.obs, h.1.nrm⟩, treesAt_more rest _ cs h.2⟩
    intro k hk
    have := h.1.fn k hk
    rw [List.getElem?_append_left, this]
    rw [List.getElem?_eq_getElem hk] at this
    exact (List.getElem?_eq_some_iff.1 this).1
theorem treesAt_more {env : Env K} {B : Bufs K} {T : List (Fn L)} (rest : List (Fn L)) :
    ∀ (c : Cursor) (ts : List (Pdf L)), TreesAt env B T c ts → TreesAt env B (T ++ rest) c ts
  | _, [], _ => trivial
  | c, t :: ts, h => by
    rw [TreesAt] at h ⊢
    exact ⟨treeAt_more rest c t h.1, treesAt_more rest _ ts h.2⟩
end

/-- what the event operator returns, whatever follows the metric in the table -/
theorem Holds.taker {sem : LeafSem K L} {env : Env K} {t : Pdf L} {m : L.Metric} {ν δ : Nat → K} {s : Machine L}
    (h : Holds env t m ν δ s) (hwf : WellFormed sem env (t.mapNorm δ)) (fuel : Nat) (hfuel : t.size ≤ fuel)
    (e tail : Evt K) (v : K) (hv : denote sem env (t.mapNorm δ) e = some v) (rest : List (Fn L)) :
    metricTaker L { s.onDevice with table := s.onDevice.table ++ rest } fuel e tail =
      L.metric m v tail (δ t.node.oid) := by
  have hd := h.device s.host
  have hat : TreeAt env s.onDevice.bufs s.onDevice.table Cursor.zero (t.mapNorm δ) := by
    rw [hd.1, hd.2]; exact treeAt_setIndices _ _ _
  have hat' := treeAt_more rest _ _ hat
  have hc := callFunction_works fuel (t.mapNorm δ) (Nat.le_trans (Nat.le_of_eq (mapNorm_size δ t)) hfuel) hwf
    Cursor.zero e v hat' hv
  have hn : Cursor.zero.getNormalization s.onDevice.bufs 0 = some (δ t.node.oid) := by
    obtain ⟨n, cs⟩ := t
    rw [Pdf.mapNorm, TreeAt] at hat
    exact hat.1.nrm_get
  have hl : (s.onDevice.table ++ rest)[(Cursor.zero.adv (t.mapNorm δ)).fn]? = some (.metric m) := by
    have ht : s.onDevice.table = t.flat fnOf ++ [.metric m] := h.table
    have hlen : (t.flat (fnOf (L := L))).length = t.size := Pdf.flat_length_one _ (fun _ => rfl) t
    rw [ht, Cursor.adv_fn, mapNorm_size, List.append_assoc, List.getElem?_append_right]
    · simp [hlen, Cursor.zero]
    · simp [hlen, Cursor.zero]
  simp only [metricTaker, hn, hc, bind, Option.bind, hl]

theorem raw_own (cfg : NormSetup L) {sem : LeafSem K L} {val : Nat → K} {idx : Nat → Int} {f : Nat → K → K}
    {os : List Nat} (t : Pdf L) (ht : SumProduct cfg sem val idx f os t) (x : Nat → K) :
    density cfg val f t x * ownIntegral cfg val f t = rawValue cfg val f t x := by
  obtain ⟨n, cs⟩ := t
  rw [SumProduct.eq_def] at ht
  dsimp only at ht
  split at ht
  · rename_i k hk
    obtain ⟨_, o, hb, _, hp⟩ := ht
    unfold ownIntegral rawValue
    rw [density.eq_def]
    simp only [Pdf.node, hk, hb.1]
    exact div_mul_cancel₀ _ (ne_of_gt hp)
  · rename_i hk
    unfold ownIntegral rawValue
    simp only [Pdf.node, hk, mul_one]
  · rename_i hk
    unfold ownIntegral rawValue
    simp only [Pdf.node, hk, mul_one]
  · rename_i hk
    have h3 := ht.2.2
    unfold ownIntegral rawValue
    simp only [Pdf.node, Pdf.comps, hk]
    split at h3
    · rename_i hj
      obtain ⟨o, hob, _, _, hp⟩ := h3
      rw [density.eq_def]
      simp only [hk, hob, hj.2, if_true]
      exact div_mul_cancel₀ _ (ne_of_gt hp)
    · rename_i hj
      cases hob : n.obs with
      | nil => exact mul_one _
      | cons o l =>
        cases l with
        | nil =>
          rw [hob] at hj
          have : ¬ 2 ≤ cs.length := fun h => hj ⟨rfl, h⟩
          simp only [this, if_false, mul_one]
        | cons p l => exact mul_one _
  · rename_i hk
    unfold ownIntegral rawValue
    simp only [Pdf.node, hk, mul_one]
  · rename_i hk
    unfold ownIntegral rawValue
    simp only [Pdf.node, hk, mul_one]
  · rename_i hk
    unfold ownIntegral rawValue
    simp only [Pdf.node, hk, mul_one]
  · rename_i hk
    obtain ⟨⟨o, core, shell, hob, rfl, _, _, _, _, _, hp⟩, _⟩ := ht
    unfold ownIntegral rawValue
    rw [density.eq_def]
    simp only [Pdf.node, Pdf.comps, hk, hob]
    exact div_mul_cancel₀ _ (ne_of_gt hp)
  · exact absurd ht (by simp)

section
variable {log : K → K} {N : Nat}

theorem flatten_holds (val : Nat → K) (c : Control) (u : Pdf (L.metrics log N)) (hn : u.oids.Nodup)
    (s : Asked (L.metrics log N)) :
    Holds ⟨val, s.sess.idx⟩ u (c.metric : (L.metrics log N).Metric) s.cache s.cache (s.flatten val c u).arr := by
  have hu : u.cached s.cache = u.mapNorm s.cache := cached_eq _ u
  have hn' : (u.mapNorm s.cache).oids.Nodup := by rw [oids_mapNorm]; exact hn
  have hb := (populate_eq (env := (⟨val, s.sess.idx⟩ : Env K)) (u.mapNorm s.cache) s.arr.host.clear).1
  have hs := populate_slotsAt (⟨val, s.sess.idx⟩ : Env K) (u.mapNorm s.cache) s.arr.host.clear hn'
  have hb' : (s.arr.host.setIndices (⟨val, s.sess.idx⟩ : Env K) (u.mapNorm s.cache)
    (c.metric : (L.metrics log N).Metric)).bufs = _ := hb
  unfold Asked.flatten
  rw [hu]
  refine ⟨?_, ?_, ?_, ?_, ?_, ?_, (slotsAt_mapNorm _ _ _ _).1 hs⟩
  · show (s.arr.host.setIndices (⟨val, s.sess.idx⟩ : Env K) (u.mapNorm s.cache) _).bufs.par = _
    rw [hb']
    exact flat_mapNorm s.cache (parOf (⟨val, s.sess.idx⟩ : Env K)) (fun _ _ => rfl) _
  · show (s.arr.host.setIndices (⟨val, s.sess.idx⟩ : Env K) (u.mapNorm s.cache) _).bufs.con = _
    rw [hb']
    exact flat_mapNorm s.cache conOf (fun _ _ => rfl) _
  · show (s.arr.host.setIndices (⟨val, s.sess.idx⟩ : Env K) (u.mapNorm s.cache) _).bufs.obs = _
    rw [hb']
    exact flat_mapNorm s.cache (obsOf (⟨val, s.sess.idx⟩ : Env K)) (fun _ _ => rfl) _
  · show (s.arr.host.setIndices (⟨val, s.sess.idx⟩ : Env K) (u.mapNorm s.cache) _).bufs.nrm = _
    rw [hb']
    rfl
  · show (s.arr.host.setIndices (⟨val, s.sess.idx⟩ : Env K) (u.mapNorm s.cache) _).bufs.nrm = _
    rw [hb']
    rfl
  · rw [← flat_mapNorm s.cache fnOf (fun _ _ => rfl)]
    exact table_setIndices _ _ _

variable {cfg : NormSetup (L.metrics log N)} {sem : LeafSem K (L.metrics log N)} {val : Nat → K} {f : Nat → K → K}

/-- normalising a tree that is in the arrays -/
theorem asked_normalize (t : Pdf (L.metrics log N)) (hn : t.oids.Nodup) (s : Asked (L.metrics log N))
    (ht : SumProduct cfg sem val s.sess.idx f s.sess.obs t)
    (hidx : ∀ o ∈ s.sess.obs, 0 ≤ s.sess.idx o ∧ s.sess.idx o < 10) (fuel : Nat) (hfuel : t.size ≤ fuel)
    (m : (L.metrics log N).Metric) (ν δ : Nat → K) (h : Holds ⟨val, s.sess.idx⟩ t m ν δ s.arr) :
    ∃ r s' δ', s.normalize cfg val fuel t = .done (r, s') ∧ s'.sess = s.sess ∧
      Holds ⟨val, s.sess.idx⟩ t m s'.cache δ' s'.arr ∧
      s'.cache t.node.oid = 1 / ownIntegral cfg val f t ∧ 0 < s'.cache t.node.oid ∧
      Gives cfg sem val s.sess.idx f s.sess.obs s'.cache t := by
  obtain ⟨r, ν', δ', a, e1, h2, _, ⟨hpos, hown⟩, hg, _⟩ :=
    normalize_sound hn ht hidx fuel hfuel t ν δ _ ht hn (fun _ hw => hw) h
  have hc : ∀ o ∈ t.oids, (if t.hasObject o then (a.host.bufs.nrm[(a.host.slots o).nrm + 1]?).getD (s.cache o)
      else s.cache o) = ν' o := by
    intro o ho
    rw [if_pos ((hasObject_iff o t).2 ho)]
    rw [oids_eq_map] at ho
    obtain ⟨u, hu, rfl⟩ := List.mem_map.1 ho
    rw [h2.norm u hu]
    rfl
  have hroot := hc _ (oid_mem (node_mem_subtrees t))
  refine ⟨r, { s with arr := a, cache := _ }, δ', by unfold Asked.normalize; rw [e1]; rfl, rfl, ?_, ?_, ?_, ?_⟩
  · exact ⟨h2.par, h2.con, h2.obs, h2.nrm.trans (nrmList_congr _ _ t (fun o ho => (hc o ho).symm)), h2.dev, h2.table,
      h2.slots⟩
  · exact hroot.trans hown
  · show 0 < _
    exact lt_of_lt_of_eq hpos hroot.symm
  · exact hg.congr hc

/-- the value at an event of a tree that is in the arrays with its normalisations -/
theorem asked_taker (t : Pdf (L.metrics log N)) (idx : Nat → Int) (os : List Nat) (arr : Machine (L.metrics log N))
    (ht : SumProduct cfg sem val idx f os t) (fuel : Nat) (hfuel : t.size ≤ fuel)
    (m : (L.metrics log N).Metric) (ν δ : Nat → K) (h : Holds ⟨val, idx⟩ t m ν δ arr)
    (hown : δ t.node.oid = 1 / ownIntegral cfg val f t) (hpos : 0 < δ t.node.oid)
    (hg : Gives cfg sem val idx f os δ t) (x : Nat → K) (hdef : DefinedAt f x t) (e tail : Evt K)
    (he : ∀ o ∈ os, at_ e (idx o) = some (x o)) (rest : List (Fn (L.metrics log N))) :
    ∃ norm, rawValue cfg val f t x * norm = density cfg val f t x ∧
      metricTaker (L.metrics log N) { arr.onDevice with table := arr.onDevice.table ++ rest } fuel e tail =
        (L.metrics log N).metric m (rawValue cfg val f t x) tail norm := by
  obtain ⟨v, hv1, hv2⟩ := hg x e hdef he
  have hv : v = rawValue cfg val f t x := by
    rw [← raw_own cfg t ht x, ← hv2, hown]
    have : ownIntegral cfg val f t ≠ 0 := by
      intro h0
      rw [hown, h0, div_zero] at hpos
      exact absurd hpos (lt_irrefl _)
    field_simp
  refine ⟨δ t.node.oid, by rw [← hv]; exact hv2, ?_⟩
  rw [← hv]
  exact h.taker (sound_wf δ t ht) fuel hfuel e tail v hv1 rest

/-- the same without anything after the metric -/
theorem asked_taker' (t : Pdf (L.metrics log N)) (idx : Nat → Int) (os : List Nat) (arr : Machine (L.metrics log N))
    (ht : SumProduct cfg sem val idx f os t) (fuel : Nat) (hfuel : t.size ≤ fuel)
    (m : (L.metrics log N).Metric) (ν δ : Nat → K) (h : Holds ⟨val, idx⟩ t m ν δ arr)
    (hown : δ t.node.oid = 1 / ownIntegral cfg val f t) (hpos : 0 < δ t.node.oid)
    (hg : Gives cfg sem val idx f os δ t) (x : Nat → K) (hdef : DefinedAt f x t) (e tail : Evt K)
    (he : ∀ o ∈ os, at_ e (idx o) = some (x o)) :
    ∃ norm, rawValue cfg val f t x * norm = density cfg val f t x ∧
      metricTaker (L.metrics log N) arr.onDevice fuel e tail =
        (L.metrics log N).metric m (rawValue cfg val f t x) tail norm := by
  obtain ⟨norm, h1, h2⟩ := asked_taker t idx os arr ht fuel hfuel m ν δ h hown hpos hg x hdef e tail he []
  refine ⟨norm, h1, ?_⟩
  rw [← h2, List.append_nil]

end

/-! ### Sessions -/

/-- the observables are numbered and the arrays are those of the data -/
theorem setData_idx (d : Option (Data K)) (s : Sess K) : (s.setData d).idx = setupObservables s.obs 0 s.idx := by
  rcases d with _ | (⟨num, v⟩ | ⟨num, c, a, e, v⟩) <;> rfl

theorem setData_idx_again (d d' : Option (Data K)) (c : Control) (s : Sess K) :
    (((s.setData d).setFitControl c).setData d').idx = (s.setData d).idx := by
  rw [setData_idx]
  show setupObservables (s.setData d).obs 0 (s.setData d).idx = _
  rw [setData_obs, setData_idx, setupObservables_idem]

theorem numbered_setData (s : Sess K) (hnd : s.obs.Nodup) (d : Option (Data K)) :
    Numbered s.obs (s.setData d).idx := by
  rw [setData_idx]
  exact numbered_setup _ hnd _

theorem numbered_small {os : List Nat} {idx : Nat → Int} (h : Numbered os idx) (hlen : os.length ≤ 10) :
    ∀ o ∈ os, 0 ≤ idx o ∧ idx o < 10 := by
  intro o ho
  obtain ⟨j, hj, rfl⟩ := List.mem_iff_getElem.1 ho
  rw [h j hj]
  omega

/-- an event of unbinned data -/
theorem event_unbinned {os : List Nat} {idx : Nat → Int} (h : Numbered os idx) (s : Sess K) (num : Nat)
    (value : Nat → Nat → K) (ha : s.array = some (eventArray idx os value num)) (i : Nat) (hi : i < num) :
    ∀ o ∈ os, at_ (s.eventAt os.length i) (idx o) = some (value i o) := by
  intro o ho
  obtain ⟨j, hj, rfl⟩ := List.mem_iff_getElem.1 ho
  unfold at_
  rw [h j hj, if_pos (by omega), Int.toNat_natCast]
  unfold Sess.eventAt
  rw [ha]
  exact view_unbinned h value num i j hi hj

end GooFit
