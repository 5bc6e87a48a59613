import Verif.Lemmas.Tree
/-!
# The interpreter computes the denotation
-/
set_option autoImplicit false
namespace GooFit
open FpOps Spec

variable {F : Type} [FpOps F] {L : Lib F} {sem : LeafSem F L} {env : Env F} {B : Bufs F}
  {T : List (Fn L)} {call : Call F} {e : Evt F} {c : Cursor} {n : Node L} {cs : List (Pdf L)}
  {v : F}

/-- storable node -/
abbrev StoN (env : Env F) (n : Node L) : Prop :=
  Storable F n.params.length n.consts.length (n.obs.map env.idx)

theorem NodeAt.numPar (h : NodeAt env B T c n) (s : StoN env n) :
    c.getNumParameters B = some n.params.length := countAt_of h.par s.1
theorem NodeAt.numCon (h : NodeAt env B T c n) (s : StoN env n) :
    c.getNumConstants B = some n.consts.length := countAt_of h.con s.2.1
theorem NodeAt.numObs (h : NodeAt env B T c n) (s : StoN env n) :
    c.getNumObservables B = some n.obs.length :=
  countAt_of h.obs (by have := s.2.2.1; rwa [List.length_map] at this)

theorem values_eq {vs : List F} :
    values (cs.map (compOf sem env)) e = some vs ↔ cs.map (denote sem env · e) = vs.map some := by
  unfold values
  rw [allSome_eq_some, List.map_map]
  rfl

theorem norms_eq : (cs.map (compOf sem env)).map (·.norm) = cs.map (·.node.norm) := by
  rw [List.map_map]; rfl

theorem deviceAdd_works (h : NodeAt env B T c n) (s : StoN env n)
    (ht : TreesAt env B T (c.advN n) cs) (hl : n.params.length + 1 = cs.length)
    (hw : Works sem env B T call cs)
    (hm : meaning sem (L := L) .add (n.params.map env.val) n.consts (n.obs.map env.idx)
      (cs.map (compOf sem env)) e = some v) :
    deviceAdd call B c e = some (v, (c.advN n).advL cs) := by
  obtain ⟨init, last, rfl⟩ : ∃ init last, cs = init ++ [last] :=
    ⟨cs.dropLast, cs.getLast (by rintro rfl; simp at hl), (List.dropLast_concat_getLast _).symm⟩
  simp only [meaning, Option.bind_eq_bind, Option.bind_eq_some_iff, norms_eq,
    Option.pure_def, Option.some.injEq] at hm
  obtain ⟨vs, hvs, vl, hvl, nl, hnl, rfl⟩ := hm
  rw [values_eq] at hvs
  rw [List.map_append] at hvs
  obtain ⟨vs', vlast, rfl⟩ : ∃ a b, vs = a ++ [b] := by
    have hne : vs ≠ [] := by rintro rfl; simp at hvl
    exact ⟨vs.dropLast, vs.getLast hne, (List.dropLast_concat_getLast _).symm⟩
  have hlen : init.length = vs'.length := by
    have := congrArg List.length hvs; simpa using this
  rw [List.map_append] at hvs
  obtain ⟨hv1, hv2⟩ := List.append_inj hvs (by simpa using hlen)
  simp only [List.map_cons, List.map_nil, List.cons.injEq, and_true] at hv2
  simp at hvl
  subst hvl
  simp at hnl
  subst hnl
  rw [TreesAt.append_iff] at ht
  obtain ⟨ht1, ht2⟩ := ht
  rw [TreesAt] at ht2
  have hcall := hw last (by simp) _ e _ ht2.1 hv2
  simp at hl
  unfold deviceAdd
  rw [h.numPar s, h.next s]
  simp only [Option.bind_eq_bind, Option.bind_some]
  rw [hl, addLoop_works init (n.params.map env.val) vs' 0 (c.advN n) _ _
    (fun t h' => hw t (by simp [h'])) ht1 (by simpa using hl)
    (by intro k hk; rw [Nat.zero_add]; exact h.par_get k (by simpa using hk)) hv1]
  simp only [Option.bind_some]
  rw [ht2.1.node.nrm_get, hcall]
  simp only [Option.bind_some, Option.pure_def, Option.some.injEq, Prod.mk.injEq]
  refine ⟨?_, by rw [Cursor.advL_append]; rfl⟩
  unfold mixture weighted Spec.sum
  congr 3
  rw [List.map_append, List.zip_append (by simpa using hlen.symm)]
  have : ∀ (a : List F) (b d : List (F × F)), a.length = b.length → a.zip (b ++ d) = a.zip b := by
    intro a b d hab
    have := List.zip_append (l₁ := a) (r₁ := []) (l₂ := b) (r₂ := d) hab
    simpa using this
  rw [this _ _ _ (by simp [hl, ← hlen])]

theorem deviceAddExt_works (h : NodeAt env B T c n) (s : StoN env n)
    (ht : TreesAt env B T (c.advN n) cs) (hl : n.params.length = cs.length)
    (hw : Works sem env B T call cs)
    (hm : meaning sem (L := L) .addExt (n.params.map env.val) n.consts (n.obs.map env.idx)
      (cs.map (compOf sem env)) e = some v) :
    deviceAddExt call B c e = some (v, (c.advN n).advL cs) := by
  simp only [meaning, Option.bind_eq_bind, Option.bind_eq_some_iff, norms_eq,
    Option.pure_def, Option.some.injEq] at hm
  obtain ⟨vs, hvs, rfl⟩ := hm
  rw [values_eq] at hvs
  unfold deviceAddExt
  rw [h.numPar s, h.next s]
  simp only [Option.bind_eq_bind, Option.bind_some]
  rw [hl, addLoop_works cs (n.params.map env.val) vs 0 (c.advN n) _ _ hw ht (by simpa using hl)
    (by intro k hk; rw [Nat.zero_add]; exact h.par_get k (by simpa using hk)) hvs]
  rfl

theorem deviceProd_works (h : NodeAt env B T c n) (s : StoN env n)
    (ht : TreesAt env B T (c.advN n) cs) (hp : n.params = []) (hc : n.consts = [ofNat cs.length])
    (hx : Exact F cs.length) (hw : Works sem env B T call cs)
    (hm : meaning sem (L := L) .prod (n.params.map env.val) n.consts (n.obs.map env.idx)
      (cs.map (compOf sem env)) e = some v) :
    deviceProd call B c e = some (v, (c.advN n).advL cs) := by
  simp only [meaning, Option.bind_eq_bind, Option.bind_eq_some_iff, norms_eq,
    Option.pure_def, Option.some.injEq] at hm
  obtain ⟨vs, hvs, rfl⟩ := hm
  rw [values_eq] at hvs
  unfold deviceProd
  have hcnt : countAt B.con (c.con + 1) = some cs.length := by
    have h1 := h.con
    rw [conOf, hc, ← List.singleton_append, Slice.append_iff] at h1
    exact countAt_of h1.2 hx
  rw [h.numCon s, h.numObs s, hcnt]
  simp only [Option.bind_eq_bind, Option.bind_some]
  have : c.incrementIndex 1 0 n.consts.length n.obs.length 1 = c.advN n := by
    simp [Cursor.advN, hp]
  rw [this, prodLoop_works cs vs _ _ hw ht hvs]
  rfl

theorem sizeList_eq_sum (ts : List (Pdf L)) : Pdf.sizeList ts = (ts.map Pdf.size).sum := by
  induction ts with
  | nil => rfl
  | cons t ts ih => simp [Pdf.sizeList, ih]

theorem sizeList_append (xs ys : List (Pdf L)) :
    Pdf.sizeList (xs ++ ys) = Pdf.sizeList xs + Pdf.sizeList ys := by
  simp [sizeList_eq_sum]

theorem TreesAt.get {ts : List (Pdf L)} {c : Cursor} (h : TreesAt env B T c ts) (k : Nat)
    (hk : k < ts.length) : TreeAt env B T (c.advL (ts.take k)) ts[k] := by
  have h2 : ts = ts.take k ++ (ts[k] :: ts.drop (k + 1)) := by simp
  rw [h2, TreesAt.append_iff] at h
  exact h.2.1

theorem deviceMapped_works (h : NodeAt env B T c n) (s : StoN env n)
    (ht : TreesAt env B T (c.advN n) cs) (hwf : WellFormedList sem env cs)
    {m : Pdf L} {ts : List (Pdf L)} (hcs : cs = m :: ts)
    (hc : n.consts = ofNat ts.length :: ts.map (fun t => ofNat t.size))
    (hx : ∀ t ∈ ts, Exact F t.size) (hw : Works sem env B T call cs)
    (hm : meaning sem (L := L) .mapped (n.params.map env.val) n.consts (n.obs.map env.idx)
      (cs.map (compOf sem env)) e = some v) :
    deviceMapped call B c e = some (v, (c.advN n).advL cs) := by
  subst hcs
  simp only [meaning, Option.bind_eq_bind, List.map_cons, Option.bind_eq_some_iff] at hm
  obtain ⟨r, hr, hm⟩ := hm
  split at hm
  case isFalse => simp at hm
  rename_i h0
  simp only [Option.bind_eq_some_iff] at hm
  obtain ⟨tc, htc, vt, hvt, hv⟩ := hm
  simp only [Option.pure_def, Option.some.injEq] at hv
  subst hv
  rw [List.getElem?_map, Option.map_eq_some_iff] at htc
  obtain ⟨t, htt, rfl⟩ := htc
  obtain ⟨hk, rfl⟩ := List.getElem?_eq_some_iff.1 htt
  generalize hkk : (nearest r).toNat = k at *
  rw [TreesAt] at ht
  rw [WellFormedList, wellFormedList_iff] at hwf
  have hcall1 := hw m (by simp) _ e _ ht.1 hr
  have htgt := ht.2.get k hk
  have hcall2 := hw ts[k] (by simp) _ e _ htgt hvt
  have hconst : ∀ j : Nat, j < ts.length →
      c.getConstant B (1 + j) = ((ts.map Pdf.size).map (ofNat (F := F)))[j]? := by
    intro j hj
    rw [h.con_get (1 + j) (by simp [hc]; omega), hc, Nat.add_comm 1 j]
    simp [Function.comp_def]
  have hs1 : sumConstants B c k 1 = some ((Pdf.sizeList (ts.take k) : Nat) : Int) := by
    have := sumConstants_works (F := F) (B := B) (pc := c) ((ts.take k).map Pdf.size) 1 (by
      intro j hj
      have hj' : j < k ∧ j < ts.length := by
        rw [List.length_map, List.length_take] at hj; omega
      rw [hconst j hj'.2]
      simp [List.getElem?_take, hj'.1]) (by
      intro x hx'
      obtain ⟨t, ht', rfl⟩ := List.mem_map.1 hx'
      exact hx t (List.mem_of_mem_take ht'))
    rw [List.length_map, List.length_take, Nat.min_eq_left (by omega), ← sizeList_eq_sum] at this
    exact this
  have hs2 : sumConstants B c (n.consts.length - 1) 1 = some ((Pdf.sizeList ts : Nat) : Int) := by
    have := sumConstants_works (F := F) (B := B) (pc := c) (ts.map Pdf.size) 1 (by
      intro j hj
      exact hconst j (by simpa using hj)) (by
      intro x hx'
      obtain ⟨t, ht', rfl⟩ := List.mem_map.1 hx'
      exact hx t ht')
    rw [List.length_map, ← sizeList_eq_sum] at this
    simpa [hc] using this
  set c1 := (c.advN n).adv m with hc1
  have htk : TreesAt env B T c1 (ts.take k) := by
    have h2 : ts = ts.take k ++ ts.drop k := by simp
    have h3 := ht.2
    rw [h2, TreesAt.append_iff] at h3
    exact h3.1
  have hskip1 := TreesAt.skip (sem := sem) (ts.take k) c1 htk
    ((wellFormedList_iff _).2 fun t h' => hwf.2 t (List.mem_of_mem_take h'))
  set c2 := c1.advL (ts.take k) with hc2
  set c3 := c2.adv ts[k] with hc3
  have hdecomp : ts = (ts.take k ++ [ts[k]]) ++ ts.drop (k + 1) := by simp
  have htd : TreesAt env B T c3 (ts.drop (k + 1)) := by
    have h3 := ht.2
    rw [hdecomp, TreesAt.append_iff, Cursor.advL_append] at h3
    exact h3.2
  have hskip2 := TreesAt.skip (sem := sem) (ts.drop (k + 1)) c3 htd
    ((wellFormedList_iff _).2 fun t h' => hwf.2 t (List.mem_of_mem_drop h'))
  have hsum : Pdf.sizeList ts = Pdf.sizeList (ts.take k) + ts[k].size
      + Pdf.sizeList (ts.drop (k + 1)) := by
    have := congrArg Pdf.sizeList hdecomp
    rw [sizeList_append, sizeList_append] at this
    rw [this]
    simp [Pdf.sizeList]
  unfold deviceMapped
  rw [h.numCon s, h.next s]
  simp only [Option.bind_eq_bind, Option.bind_some]
  rw [hcall1]
  simp only [Option.bind_some, hkk]
  rw [hs1]
  simp only [Option.bind_some]
  have e1 : ((c1.fn : Int) + (Pdf.sizeList (ts.take k) : Nat) - c1.fn).toNat
      = Pdf.sizeList (ts.take k) := by omega
  rw [e1, hskip1]
  simp only [Option.bind_some]
  rw [htgt.node.nrm_get]
  simp only [Option.bind_some]
  rw [hcall2]
  simp only [Option.bind_some]
  rw [hs2]
  simp only [Option.bind_some]
  have f3 : c3.fn = c1.fn + Pdf.sizeList (ts.take k) + ts[k].size := by
    rw [hc3, Cursor.adv_fn, hc2, Cursor.advL_fn]
  have e2 : ((c1.fn : Int) + (Pdf.sizeList ts : Nat) - c3.fn).toNat
      = Pdf.sizeList (ts.drop (k + 1)) := by rw [f3, hsum]; omega
  rw [e2, hskip2]
  simp only [Option.bind_some, Option.pure_def, Option.some.injEq, Prod.mk.injEq]
  refine ⟨rfl, ?_⟩
  rw [Cursor.advL]
  conv_rhs => rw [hdecomp]
  rw [Cursor.advL_append, Cursor.advL_append]
  rfl

theorem deviceComposite_works (h : NodeAt env B T c n) (s : StoN env n)
    (ht : TreesAt env B T (c.advN n) cs) (hwf : WellFormedList sem env cs) (hl : cs.length = 2)
    (hw : Works sem env B T call cs)
    (hm : meaning sem (L := L) .composite (n.params.map env.val) n.consts (n.obs.map env.idx)
      (cs.map (compOf sem env)) e = some v) :
    deviceComposite call B c e = some (v, (c.advN n).advL cs) := by
  match cs, hl with
  | [core, shell], _ =>
    simp only [meaning, Option.bind_eq_bind, List.map_cons, List.map_nil,
      Option.bind_eq_some_iff] at hm
    obtain ⟨r, hr, i, hi, hm⟩ := hm
    split at hm
    case isFalse => simp at hm
    rename_i h10
    rw [TreesAt, TreesAt] at ht
    rw [WellFormedList, WellFormedList] at hwf
    have hcall1 := hw core (by simp) _ e _ ht.1 hr
    have hsn := ht.2.1.node
    have hsto : StoN env shell.node := by
      have := hwf.2.1; cases shell; rw [WellFormed] at this; exact this.1
    have hex : Exact F i := hsto.2.2.2.2 i (List.mem_of_mem_head? hi)
    have hpos : 0 < shell.node.obs.length := by
      cases h' : shell.node.obs with
      | nil => simp [compOf, h'] at hi
      | cons a b => simp
    have hob : ((c.advN n).adv core).getObservable B 0 = some (ofInt i) := by
      rw [hsn.obs_get 0 hpos]
      have hi' : (shell.node.obs.map env.idx)[0]? = some i := by
        rw [← List.head?_eq_getElem?]; exact hi
      rw [List.getElem?_map, Option.map_eq_some_iff] at hi'
      obtain ⟨o, ho, rfl⟩ := hi'
      rw [List.getElem?_map, ho]; rfl
    have hfake : fakeEvt (ofInt i : F) r = some (fun k : Nat => if (k : Int) = i then some r else none) := by
      have h' : FpOps.toInt (ofInt i : F) = i := hex
      simp [fakeEvt, h', h10]
    have hcall2 := hw shell (by simp) _ _ _ ht.2.1 hm
    unfold deviceComposite
    rw [h.next s]
    simp only [Option.bind_eq_bind, Option.bind_some]
    rw [hcall1]
    simp only [Option.bind_some]
    rw [hob]
    simp only [Option.bind_some]
    rw [hfake]
    simp only [Option.bind_some]
    rw [hcall2]
    rfl

theorem read_list {os : List Nat} (hx : ∀ o ∈ os.map env.idx, Exact F o) :
    (os.map fun o => (ofInt (env.idx o) : F)).map (Evt.read e) = (os.map env.idx).map (at_ e) := by
  induction os with
  | nil => rfl
  | cons o os ih =>
    simp only [List.map_cons, List.mem_cons, forall_eq_or_imp] at hx ⊢
    rw [read_ofInt e _ hx.1, ih hx.2]

theorem evt_setup (h : NodeAt env B T c n) (hp : n.params = [])
    (hc : n.consts = [ofNat cs.length]) (hx : Exact F cs.length) :
    countAt B.con (c.con + 1) = some cs.length ∧
    c.incrementIndex 1 0 n.consts.length n.obs.length 1 = c.advN n := by
  constructor
  · have h1 := h.con
    rw [conOf, hc, ← List.singleton_append, Slice.append_iff] at h1
    exact countAt_of h1.2 hx
  · simp [Cursor.advN, hp]

theorem obs_take (h : NodeAt env B T c n) (m : Nat) (hm : m ≤ n.obs.length) (k : Nat)
    (hk : k < m) : c.getObservable B (0 + k) =
      ((n.obs.take m).map fun o => (ofInt (env.idx o) : F))[k]? := by
  rw [Nat.zero_add, h.obs_get k (by omega)]
  simp [List.getElem?_map, List.getElem?_take, hk]

theorem deviceEvtAddExt_works (h : NodeAt env B T c n) (s : StoN env n)
    (ht : TreesAt env B T (c.advN n) cs) (hp : n.params = []) (hc : n.consts = [ofNat cs.length])
    (hx : Exact F cs.length) (hl : cs.length ≤ n.obs.length) (hw : Works sem env B T call cs)
    (hm : meaning sem (L := L) .evtAddExt (n.params.map env.val) n.consts (n.obs.map env.idx)
      (cs.map (compOf sem env)) e = some v) :
    deviceEvtAddExt call B c e = some (v, (c.advN n).advL cs) := by
  simp only [meaning, Option.bind_eq_bind, Option.bind_eq_some_iff, norms_eq,
    Option.pure_def, Option.some.injEq, List.length_map] at hm
  obtain ⟨vs, hvs, ws, hws, rfl⟩ := hm
  rw [values_eq] at hvs
  rw [allSome_eq_some] at hws
  obtain ⟨e1, e2⟩ := evt_setup h hp hc hx
  unfold deviceEvtAddExt
  rw [h.numCon s, h.numObs s, e1]
  simp only [Option.bind_eq_bind, Option.bind_some]
  rw [e2, evtAddLoop_works cs ((n.obs.take cs.length).map fun o => (ofInt (env.idx o) : F)) ws vs 0
    (c.advN n) _ _ hw ht (by simp; omega)
    (by intro k hk; exact obs_take h cs.length hl k (by simp at hk; omega))
    (by
      rw [read_list (fun o ho => s.2.2.2.2 o (by
        obtain ⟨x, hx1, hx2⟩ := List.mem_map.1 ho
        exact List.mem_map.2 ⟨x, List.mem_of_mem_take hx1, hx2⟩))]
      rw [List.map_take]; exact hws) hvs]
  rfl

theorem deviceEvtAdd_works (h : NodeAt env B T c n) (s : StoN env n)
    (ht : TreesAt env B T (c.advN n) cs) (hp : n.params = []) (hc : n.consts = [ofNat cs.length])
    (hx : Exact F cs.length) (hne : cs ≠ []) (hl : cs.length ≤ n.obs.length + 1)
    (hw : Works sem env B T call cs)
    (hm : meaning sem (L := L) .evtAdd (n.params.map env.val) n.consts (n.obs.map env.idx)
      (cs.map (compOf sem env)) e = some v) :
    deviceEvtAdd call B c e = some (v, (c.advN n).advL cs) := by
  simp only [meaning, Option.bind_eq_bind, Option.bind_eq_some_iff, norms_eq,
    Option.pure_def, Option.some.injEq, List.length_map] at hm
  obtain ⟨vs, hvs, ws, hws, vl, hvl, nl, hnl, rfl⟩ := hm
  rw [values_eq] at hvs
  rw [allSome_eq_some] at hws
  obtain ⟨e1, e2⟩ := evt_setup h hp hc hx
  obtain ⟨init, last, rfl⟩ : ∃ init last, cs = init ++ [last] :=
    ⟨cs.dropLast, cs.getLast hne, (List.dropLast_concat_getLast _).symm⟩
  rw [List.map_append] at hvs
  obtain ⟨vs', vlast, rfl⟩ : ∃ a b, vs = a ++ [b] := by
    have hne : vs ≠ [] := by rintro rfl; simp at hvl
    exact ⟨vs.dropLast, vs.getLast hne, (List.dropLast_concat_getLast _).symm⟩
  have hlen : init.length = vs'.length := by
    have := congrArg List.length hvs; simpa using this
  rw [List.map_append] at hvs
  obtain ⟨hv1, hv2⟩ := List.append_inj hvs (by simpa using hlen)
  simp only [List.map_cons, List.map_nil, List.cons.injEq, and_true] at hv2
  simp at hvl
  subst hvl
  simp at hnl
  subst hnl
  rw [TreesAt.append_iff] at ht
  obtain ⟨ht1, ht2⟩ := ht
  rw [TreesAt] at ht2
  have hcall := hw last (by simp) _ e _ ht2.1 hv2
  simp only [List.length_append, List.length_singleton] at hl hws
  have hlw : ws.length = init.length := by
    have := congrArg List.length hws; simp at this; omega
  unfold deviceEvtAdd
  rw [h.numCon s, h.numObs s, e1]
  simp only [Option.bind_eq_bind, Option.bind_some, List.length_append, List.length_singleton,
    Nat.add_sub_cancel]
  rw [e2, evtAddLoop_works init ((n.obs.take init.length).map fun o => (ofInt (env.idx o) : F))
    ws vs' 0 (c.advN n) _ _ (fun t h' => hw t (by simp [h'])) ht1 (by simp; omega)
    (by intro k hk; exact obs_take h init.length (by omega) k (by simp at hk; omega))
    (by
      rw [read_list (fun o ho => s.2.2.2.2 o (by
        obtain ⟨x, hx1, hx2⟩ := List.mem_map.1 ho
        exact List.mem_map.2 ⟨x, List.mem_of_mem_take hx1, hx2⟩))]
      rw [List.map_take]; simpa using hws) hv1]
  simp only [Option.bind_some]
  rw [ht2.1.node.nrm_get, hcall]
  simp only [Option.bind_some, Option.pure_def, Option.some.injEq, Prod.mk.injEq]
  refine ⟨?_, by rw [Cursor.advL_append]; rfl⟩
  unfold mixture weighted Spec.sum
  congr 3
  rw [List.map_append, List.zip_append (by simpa using hlen.symm)]
  have : ∀ (a : List F) (b d : List (F × F)), a.length = b.length → a.zip (b ++ d) = a.zip b := by
    intro a b d hab
    have := List.zip_append (l₁ := a) (r₁ := []) (l₂ := b) (r₂ := d) hab
    simpa using this
  rw [this _ _ _ (by simp [hlw, ← hlen])]

theorem deviceConv_works (h : NodeAt env B T c n) (s : StoN env n)
    (ht : TreesAt env B T (c.advN n) cs) (hp : n.params = []) (hc : n.consts.length = 4)
    (ho : n.obs.length = 1) (hl : cs.length = 2) (hw : Works sem env B T call cs)
    (hm : meaning sem (L := L) .conv (n.params.map env.val) n.consts (n.obs.map env.idx)
      (cs.map (compOf sem env)) e = some v) :
    deviceConv L call B c e = some (v, (c.advN n).advL cs) := by
  match cs, hl with
  | [a, b], _ =>
    obtain ⟨o, hoo⟩ := List.length_eq_one_iff.1 ho
    obtain ⟨k0, k1, k2, k3, hk⟩ : ∃ k0 k1 k2 k3, n.consts = [k0, k1, k2, k3] := by
      match h' : n.consts, hc with
      | [k0, k1, k2, k3], _ => exact ⟨k0, k1, k2, k3, rfl⟩
    simp only [meaning, Option.bind_eq_bind, List.map_cons, List.map_nil, hoo,
      Option.bind_eq_some_iff] at hm
    obtain ⟨va, hva, vb, hvb, x, hx, vc, hvc, hv⟩ := hm
    simp only [Option.pure_def, Option.some.injEq] at hv
    subst hv
    rw [TreesAt, TreesAt] at ht
    have hc1 := hw a (by simp) _ e _ ht.1 hva
    have hc2 := hw b (by simp) _ e _ ht.2.1 hvb
    have g0 : c.getObservable B 0 = some (ofInt (env.idx o)) := by
      rw [h.obs_get 0 (by omega), hoo]; rfl
    have gk : ∀ i, i < 4 → c.getConstant B i = [k0, k1, k2, k3][i]? := by
      intro i hi; rw [h.con_get i (by omega), hk]
    have hr : e.read (ofInt (env.idx o) : F) = some x := by
      rw [read_ofInt e _ (s.2.2.2.2 _ (by simp [hoo]))]; exact hx
    have hinc : c.incrementIndex 1 0 4 1 1 = c.advN n := by
      simp [Cursor.advN, hp, hc, ho]
    unfold deviceConv
    simp only [g0, gk 0 (by omega), gk 1 (by omega), gk 2 (by omega), gk 3 (by omega), hr,
      Option.bind_eq_bind, Option.bind_some, List.getElem?_cons_zero, List.getElem?_cons_succ]
    rw [← hk, hvc]
    simp only [Option.bind_some]
    rw [hinc, ht.1.node.nrm_get, hc1]
    simp only [Option.bind_some]
    rw [ht.2.1.node.nrm_get, hc2]
    rfl

theorem ampLoop_works {pc : Cursor} {cache : F} {num : Int} :
    ∀ (ps : List F) (m i : Nat) (ws : List (F × F)) (tot : F × F), ps.length = 2 * m →
      (∀ k : Nat, k < ps.length → pc.getParameter B (i * 2 + k) = ps[k]?) →
      (List.range m).map (fun j => L.wave (i + j) cache num) = ws.map some →
      ampLoop L B pc cache num m i tot =
        some (((pairs ps).zip ws).foldl (fun t p =>
          (add t.1 (sub (mul p.1.1 p.2.1) (mul p.1.2 p.2.2)),
           add t.2 (add (mul p.1.1 p.2.2) (mul p.1.2 p.2.1)))) tot)
  | [], m, i, ws, tot, hl, _, _ => by
    have : m = 0 := by simp at hl; omega
    subst this
    simp [ampLoop, pairs]
  | [a], m, i, ws, tot, hl, _, _ => by simp at hl; omega
  | a :: b :: ps, 0, i, ws, tot, hl, _, _ => by simp at hl
  | a :: b :: ps, m + 1, i, [], tot, hl, _, hw => by simp at hw
  | a :: b :: ps, m + 1, i, w :: ws, tot, hl, hp, hw => by
    have h0 := hp 0 (by simp)
    have h1 := hp 1 (by simp)
    simp only [Nat.add_zero, List.getElem?_cons_zero, List.getElem?_cons_succ] at h0 h1
    rw [List.range_succ_eq_map, List.map_cons, List.map_cons, List.cons.injEq, Nat.add_zero] at hw
    simp only [ampLoop]
    rw [h0, h1, hw.1]
    simp only [Option.bind_eq_bind, Option.bind_some]
    rw [ampLoop_works ps m (i + 1) ws _ (by simp at hl; omega) (by
      intro k hk
      have := hp (k + 2) (by simp; omega)
      rw [show (i + 1) * 2 + k = i * 2 + (k + 2) by omega, this]; simp) (by
      rw [← hw.2, List.map_map]
      apply List.map_congr_left
      intro j _
      simp only [Function.comp]
      congr 1; omega)]
    simp [pairs]

/-- In the Dalitz region the efficiency may be any tree; outside it must be a single PDF. -/
theorem deviceAmp3_works (h : NodeAt env B T c n) (s : StoN env n)
    (ht : TreesAt env B T (c.advN n) cs) (hwf : WellFormedList sem env cs)
    {res : List (Pdf L)} {eff : Pdf L} {cache : F} (hcs : cs = res ++ [eff])
    (hres : ∀ r ∈ res, r.comps = [])
    (hp : n.params.length = 2 * res.length) (hc : n.consts = [ofNat res.length, cache])
    (hx : Exact F res.length) (ho : 3 ≤ n.obs.length) (hw : Works sem env B T call cs)
    (heff : eff.comps = [] ∨ ∃ m12 m13, (at_ e (((n.obs.map env.idx)[0]?).getD 0)) = some m12 ∧
      (at_ e (((n.obs.map env.idx)[1]?).getD 0)) = some m13 ∧ L.inDalitz m12 m13 = true)
    (hm : meaning sem (L := L) .amp3 (n.params.map env.val) n.consts (n.obs.map env.idx)
      (cs.map (compOf sem env)) e = some v) :
    deviceAmp3 L call B c e = some (v, (c.advN n).advL cs) := by
  subst hcs
  match hobs : n.obs, ho with
  | o1 :: o2 :: o3 :: orest, _ =>
    simp only [meaning, hobs, List.map_cons, hc, List.map_append, List.map_nil,
      List.getLast?_append, List.getLast?_singleton, Option.some_or, Option.bind_eq_bind,
      Option.bind_eq_some_iff, List.length_append, List.length_map, List.length_singleton,
      Nat.add_sub_cancel] at hm
    obtain ⟨m12, hm12, m13, hm13, hm⟩ := hm
    have gobs : ∀ i, i < 3 → c.getObservable B i = [ofInt (env.idx o1), ofInt (env.idx o2),
        ofInt (env.idx o3)][i]? := by
      intro i hi
      rw [h.obs_get i (by rw [hobs]; simp; omega), hobs]
      match i, hi with
      | 0, _ => rfl
      | 1, _ => rfl
      | 2, _ => rfl
    have hex : ∀ o ∈ n.obs, Exact F (env.idx o) := fun o ho' =>
      s.2.2.2.2 _ (List.mem_map.2 ⟨o, ho', rfl⟩)
    have r1 : e.read (ofInt (env.idx o1) : F) = some m12 := by
      rw [read_ofInt e _ (hex _ (by simp [hobs]))]; exact hm12
    have r2 : e.read (ofInt (env.idx o2) : F) = some m13 := by
      rw [read_ofInt e _ (hex _ (by simp [hobs]))]; exact hm13
    have gcnt : countAt B.con (c.con + 1) = some res.length := by
      have h1 := h.con
      rw [conOf, hc, ← List.singleton_append, Slice.append_iff] at h1
      exact countAt_of h1.2 hx
    have gcache : c.getConstant B 1 = some cache := by
      rw [h.con_get 1 (by simp [hc]), hc]; rfl
    have hinc : c.incrementIndex 1 (res.length * 2) 2 n.obs.length 1 = c.advN n := by
      simp [Cursor.advN, hp, hc, Nat.mul_comm]
    rw [TreesAt.append_iff] at ht
    rw [wellFormedList_iff] at hwf
    have hsz : Pdf.sizeList res = res.length := by
      have : ∀ l : List (Pdf L), (∀ r ∈ l, r.comps = []) → Pdf.sizeList l = l.length := by
        intro l
        induction l with
        | nil => intro _; rfl
        | cons a l ih =>
          intro hl
          have ha := hl a (by simp)
          cases a with
          | mk na ca =>
            have : ca = [] := ha
            subst this
            simp [Pdf.sizeList, Pdf.size, ih (fun r hr => hl r (by simp [hr]))]; omega
      exact this res hres
    have hskip := TreesAt.skip (sem := sem) res (c.advN n) ht.1
      ((wellFormedList_iff _).2 fun t h' => hwf t (by simp [h']))
    rw [hsz] at hskip
    have hte := ht.2
    rw [TreesAt] at hte
    unfold deviceAmp3
    rw [h.numObs s]
    simp only [gobs 0 (by omega), gobs 1 (by omega), gobs 2 (by omega), r1, r2, gcnt, gcache,
      Option.bind_eq_bind, Option.bind_some, List.getElem?_cons_zero, List.getElem?_cons_succ]
    rw [hinc, hskip]
    simp only [Option.bind_some]
    by_cases hin : L.inDalitz m12 m13 = true
    · rw [if_pos hin] at hm
      rw [if_pos hin]
      simp only [Option.bind_eq_some_iff] at hm
      obtain ⟨num, hnum, ws, hws, ve, hve, hv⟩ := hm
      simp only [Option.pure_def, Option.some.injEq] at hv
      subst hv
      rw [allSome_eq_some] at hws
      have r3 : e.read (ofInt (env.idx o3) : F) = some num := by
        rw [read_ofInt e _ (hex _ (by simp [hobs]))]; exact hnum
      have hcall := hw eff (by simp) _ e _ hte.1 hve
      rw [r3]
      simp only [Option.bind_some]
      rw [ampLoop_works (n.params.map env.val) res.length 0 ws _ (by simpa using hp)
        (by intro k hk; rw [Nat.zero_mul, Nat.zero_add]; exact h.par_get k (by simpa using hk))
        (by simpa using hws)]
      simp only [Option.bind_some]
      rw [hcall]
      simp only [Option.bind_some, Option.pure_def, Option.some.injEq, Prod.mk.injEq]
      exact ⟨rfl, by rw [Cursor.advL_append]; rfl⟩
    · rw [if_neg hin] at hm
      rw [if_neg hin]
      simp only [Option.pure_def, Option.some.injEq] at hm
      subst hm
      have heff' : eff.comps = [] := by
        rcases heff with h' | ⟨a, b, ha, hb, hab⟩
        · exact h'
        · simp only [hobs, List.map_cons, List.getElem?_cons_zero, List.getElem?_cons_succ,
            Option.getD_some] at ha hb
          rw [hm12] at ha; rw [hm13] at hb
          injection ha with ha; injection hb with hb
          subst ha; subst hb
          exact absurd hab hin
      cases eff with
      | mk ne ce =>
        have : ce = [] := heff'
        subst this
        have hse : StoN env ne := by
          have := hwf (.mk ne []) (by simp); rw [WellFormed] at this; exact this.1
        rw [hte.1.node.next hse]
        simp only [Option.bind_some, Option.pure_def, Option.some.injEq, Prod.mk.injEq]
        exact ⟨trivial, by rw [Cursor.advL_append]; rfl⟩

theorem size_le_of_mem {t : Pdf L} {cs : List (Pdf L)} (h : t ∈ cs) : t.size ≤ Pdf.sizeList cs := by
  induction cs with
  | nil => simp at h
  | cons a cs ih =>
    rcases List.mem_cons.1 h with rfl | h'
    · simp [Pdf.sizeList]
    · have := ih h'; simp [Pdf.sizeList]; omega

/-- The interpreter, started where a well-formed tree is stored, returns the tree's value and
leaves the cursor after the tree. -/
theorem callFunction_works : ∀ (fuel : Nat) (t : Pdf L), t.size ≤ fuel → WellFormed sem env t →
    ∀ (c : Cursor) (e : Evt F) (v : F), TreeAt env B T c t → denote sem env t e = some v →
      callFunction L B T fuel c e = some (v, c.adv t)
  | 0, .mk n cs, hs, _, _, _, _, _, _ => by simp [Pdf.size] at hs
  | fuel + 1, .mk n cs, hs, hwf, c, e, v, hat, hd => by
    have hwf0 := hwf
    rw [WellFormed] at hwf
    obtain ⟨s, hreg, hwl⟩ := hwf
    have hwl' := (wellFormedList_iff cs).1 hwl
    rw [TreeAt] at hat
    obtain ⟨hn, ht⟩ := hat
    have hw : Works sem env B T (callFunction L B T fuel) cs := by
      intro t htm c' e' v' hat' hd'
      refine callFunction_works fuel t ?_ (hwl' t htm) c' e' v' hat' hd'
      have := size_le_of_mem htm
      simp [Pdf.size] at hs; omega
    rw [denote, denoteList_eq] at hd
    rw [callFunction, hn.fn_get, Cursor.adv]
    cases hfn : n.fn with
    | leaf k =>
      simp only [Registered, hfn] at hreg
      obtain ⟨rfl, hok⟩ := hreg
      simp only [hfn, meaning] at hd
      have := hok B c n.norm e v (by simpa using s)
        ⟨by simpa [parOf] using hn.par, hn.con, by
          have := hn.obs
          simpa [obsOf, List.map_map, Function.comp_def] using this, hn.nrm⟩ hd
      show L.dev k B c e = _
      rw [this]
      simp [Cursor.advL, Cursor.advN]
    | add =>
      simp only [Registered, hfn] at hreg
      rw [hfn] at hd
      exact deviceAdd_works hn s ht hreg hw hd
    | addExt =>
      simp only [Registered, hfn] at hreg
      rw [hfn] at hd
      exact deviceAddExt_works hn s ht hreg hw hd
    | prod =>
      simp only [Registered, hfn] at hreg
      rw [hfn] at hd
      exact deviceProd_works hn s ht hreg.1 hreg.2.1 hreg.2.2 hw hd
    | mapped =>
      simp only [Registered, hfn] at hreg
      rw [hfn] at hd
      obtain ⟨m, ts, h1, h2, h3⟩ := hreg
      exact deviceMapped_works hn s ht hwl h1 h2 h3 hw hd
    | composite =>
      simp only [Registered, hfn] at hreg
      rw [hfn] at hd
      exact deviceComposite_works hn s ht hwl hreg hw hd
    | evtAdd =>
      simp only [Registered, hfn] at hreg
      rw [hfn] at hd
      exact deviceEvtAdd_works hn s ht hreg.1 hreg.2.1 hreg.2.2.1 hreg.2.2.2.1 hreg.2.2.2.2 hw hd
    | evtAddExt =>
      simp only [Registered, hfn] at hreg
      rw [hfn] at hd
      exact deviceEvtAddExt_works hn s ht hreg.1 hreg.2.1 hreg.2.2.1 hreg.2.2.2 hw hd
    | conv =>
      simp only [Registered, hfn] at hreg
      rw [hfn] at hd
      exact deviceConv_works hn s ht hreg.1 hreg.2.1 hreg.2.2.1 hreg.2.2.2 hw hd
    | convShared =>
      simp only [Registered, hfn] at hreg
    | amp3 =>
      simp only [Registered, hfn] at hreg
      rw [hfn] at hd
      obtain ⟨res, eff, cache, h1, h2, h3, h4, h5, h6, h7⟩ := hreg
      exact deviceAmp3_works hn s ht hwl h1 h2 h4 h5 h6 h7 hw (Or.inl h3) hd
    | metric m =>
      simp only [Registered, hfn] at hreg

mutual
theorem subtrees_length : ∀ t : Pdf L, (subtrees t).length = t.size
  | .mk n cs => by rw [subtrees, List.length_cons, subtreesList_length cs, Pdf.size]; omega
theorem subtreesList_length : ∀ ts : List (Pdf L), (subtreesList ts).length = Pdf.sizeList ts
  | [] => rfl
  | t :: ts => by
    rw [subtreesList, List.length_append, subtrees_length t, subtreesList_length ts, Pdf.sizeList]
end

mutual
theorem subtrees_at : ∀ (t : Pdf L) (c : Cursor), TreeAt env B T c t → WellFormed sem env t →
    ∀ (k : Nat) (u : Pdf L), (subtrees t)[k]? = some u →
      ∃ c', Cursor.skip B k c = some c' ∧ TreeAt env B T c' u ∧ WellFormed sem env u ∧
        u.size ≤ t.size ∧ c'.fn = c.fn + k
  | .mk n cs, c, h, w, k, u, hk => by
    cases k with
    | zero =>
      rw [subtrees, List.getElem?_cons_zero, Option.some.injEq] at hk
      subst hk
      exact ⟨c, rfl, h, w, Nat.le_refl _, rfl⟩
    | succ k =>
      rw [subtrees, List.getElem?_cons_succ] at hk
      rw [TreeAt] at h
      rw [WellFormed] at w
      obtain ⟨c', h1, h2, h3, h4, h5⟩ := subtreesList_at cs (c.advN n) h.2 w.2.2 k u hk
      refine ⟨c', ?_, h2, h3, ?_, ?_⟩
      · simp only [Cursor.skip]
        rw [h.1.next w.1]
        exact h1
      · rw [Pdf.size]; omega
      · rw [h5]; simp [Cursor.advN, Cursor.incrementIndex]; omega
theorem subtreesList_at : ∀ (ts : List (Pdf L)) (c : Cursor), TreesAt env B T c ts →
    WellFormedList sem env ts → ∀ (k : Nat) (u : Pdf L), (subtreesList ts)[k]? = some u →
      ∃ c', Cursor.skip B k c = some c' ∧ TreeAt env B T c' u ∧ WellFormed sem env u ∧
        u.size ≤ Pdf.sizeList ts ∧ c'.fn = c.fn + k
  | [], c, _, _, k, u, hk => by simp [subtreesList] at hk
  | t :: ts, c, h, w, k, u, hk => by
    rw [TreesAt] at h
    rw [WellFormedList] at w
    rw [subtreesList] at hk
    by_cases hlt : k < (subtrees t).length
    · rw [List.getElem?_append_left hlt] at hk
      obtain ⟨c', h1, h2, h3, h4, h5⟩ := subtrees_at t c h.1 w.1 k u hk
      exact ⟨c', h1, h2, h3, by rw [Pdf.sizeList]; omega, h5⟩
    · rw [List.getElem?_append_right (by omega)] at hk
      obtain ⟨c', h1, h2, h3, h4, h5⟩ := subtreesList_at ts (c.adv t) h.2 w.2 _ u hk
      rw [subtrees_length] at h1 h5 hlt
      refine ⟨c', ?_, h2, h3, by rw [Pdf.sizeList]; omega, ?_⟩
      · rw [show k = t.size + (k - t.size) by omega, Cursor.skip_add, TreeAt.skip t c h.1 w.1]
        exact h1
      · rw [h5, Cursor.adv_fn]; omega
end

theorem flat_eq_nodes {α : Type} (g : Node L → List α) :
    ∀ (k : Nat) (t : Pdf L), t.size ≤ k → t.flat g = (nodes t).flatMap g
  | 0, .mk n cs, ht => by simp [Pdf.size] at ht
  | k + 1, .mk n cs, ht => by
    have hl : ∀ ts : List (Pdf L), Pdf.sizeList ts ≤ k →
        Pdf.flatList g ts = ((subtreesList ts).map Pdf.node).flatMap g := by
      intro ts
      induction ts with
      | nil => intro _; rfl
      | cons a ts ih =>
        intro hk
        simp only [Pdf.sizeList] at hk
        rw [Pdf.flatList, subtreesList, List.map_append, List.flatMap_append, ih (by omega),
          flat_eq_nodes g k a (by omega)]
        rfl
    simp only [Pdf.size] at ht
    rw [Pdf.flat, hl cs (by omega)]
    simp [nodes, subtrees, Pdf.node]

theorem mem_flat_iff {α : Type} (g : Node L → List α) (t : Pdf L) (y : α) :
    y ∈ t.flat g ↔ ∃ n ∈ nodes t, y ∈ g n := by
  rw [flat_eq_nodes g t.size t (Nat.le_refl _), List.mem_flatMap]

/-! ### The host arrays -/

/-- Arrays of a flattened list of trees, after given arrays. -/
theorem populate_eq :
    (∀ (t : Pdf L) (h : Host L), (Host.populate env t h).bufs =
        ⟨h.bufs.par ++ t.flat (parOf env), h.bufs.con ++ t.flat conOf,
         h.bufs.obs ++ t.flat (obsOf env), h.bufs.nrm ++ t.flat nrmOf⟩ ∧
      (Host.populate env t h).table = h.table ++ t.flat fnOf) := by
  have key : ∀ (k : Nat) (t : Pdf L), t.size ≤ k → ∀ h : Host L,
      (Host.populate env t h).bufs =
        ⟨h.bufs.par ++ t.flat (parOf env), h.bufs.con ++ t.flat conOf,
         h.bufs.obs ++ t.flat (obsOf env), h.bufs.nrm ++ t.flat nrmOf⟩ ∧
      (Host.populate env t h).table = h.table ++ t.flat fnOf := by
    intro k
    induction k with
    | zero => intro t ht; cases t; simp [Pdf.size] at ht
    | succ k ih =>
      intro t ht h
      cases t with
      | mk n cs =>
        have hl : ∀ (ts : List (Pdf L)), Pdf.sizeList ts ≤ k → ∀ h : Host L,
            (Host.populateList env ts h).bufs =
              ⟨h.bufs.par ++ Pdf.flatList (parOf env) ts, h.bufs.con ++ Pdf.flatList conOf ts,
               h.bufs.obs ++ Pdf.flatList (obsOf env) ts, h.bufs.nrm ++ Pdf.flatList nrmOf ts⟩ ∧
            (Host.populateList env ts h).table = h.table ++ Pdf.flatList fnOf ts := by
          intro ts
          induction ts with
          | nil => intro _ h; simp [Host.populateList, Pdf.flatList]
          | cons a ts iht =>
            intro hk h
            simp only [Pdf.sizeList] at hk
            have h1 := ih a (by omega) h
            have h2 := iht (by omega) (Host.populate env a h)
            rw [Host.populateList, h2.1, h2.2, h1.1, h1.2]
            simp [Pdf.flatList]
        simp only [Pdf.size] at ht
        rw [Host.populate, (hl cs (by omega) _).1, (hl cs (by omega) _).2]
        simp [Host.push, Pdf.flat, parOf, conOf, obsOf, nrmOf, fnOf]
  intro t h
  exact key t.size t (Nat.le_refl _) h

theorem adv_lengths :
    (∀ (t : Pdf L) (c : Cursor), c.adv t = ⟨c.fn + (t.flat fnOf).length,
      c.par + (t.flat (parOf env)).length, c.con + (t.flat conOf).length,
      c.obs + (t.flat (obsOf env)).length, c.nrm + (t.flat nrmOf).length⟩) := by
  have key : ∀ (k : Nat) (t : Pdf L), t.size ≤ k → ∀ c : Cursor,
      c.adv t = ⟨c.fn + (t.flat fnOf).length,
      c.par + (t.flat (parOf env)).length, c.con + (t.flat conOf).length,
      c.obs + (t.flat (obsOf env)).length, c.nrm + (t.flat nrmOf).length⟩ := by
    intro k
    induction k with
    | zero => intro t ht; cases t; simp [Pdf.size] at ht
    | succ k ih =>
      intro t ht c
      cases t with
      | mk n cs =>
        have hl : ∀ (ts : List (Pdf L)), Pdf.sizeList ts ≤ k → ∀ c : Cursor,
            c.advL ts = ⟨c.fn + (Pdf.flatList fnOf ts).length,
              c.par + (Pdf.flatList (parOf env) ts).length, c.con + (Pdf.flatList conOf ts).length,
              c.obs + (Pdf.flatList (obsOf env) ts).length,
              c.nrm + (Pdf.flatList nrmOf ts).length⟩ := by
          intro ts
          induction ts with
          | nil => intro _ c; simp [Cursor.advL, Pdf.flatList]
          | cons a ts iht =>
            intro hk c
            simp only [Pdf.sizeList] at hk
            rw [Cursor.advL, iht (by omega), ih a (by omega)]
            simp [Pdf.flatList, Nat.add_assoc]
        simp only [Pdf.size] at ht
        rw [Cursor.adv, hl cs (by omega)]
        simp only [Pdf.flat, Cursor.advN, Cursor.incrementIndex, parOf, conOf, obsOf, nrmOf, fnOf,
          List.length_append, List.length_cons, List.length_map, List.length_nil, Cursor.mk.injEq]
        refine ⟨?_, ?_, ?_, ?_, ?_⟩ <;> omega
  intro t c
  exact key t.size t (Nat.le_refl _) c

theorem treeAt_of_slices : ∀ (k : Nat) (t : Pdf L), t.size ≤ k → ∀ c : Cursor,
    Slice T c.fn (t.flat fnOf) → Slice B.par c.par (t.flat (parOf env)) →
    Slice B.con c.con (t.flat conOf) → Slice B.obs c.obs (t.flat (obsOf env)) →
    Slice B.nrm c.nrm (t.flat nrmOf) → TreeAt env B T c t
  | 0, .mk n cs, ht, _, _, _, _, _, _ => by simp [Pdf.size] at ht
  | k + 1, .mk n cs, ht, c, h1, h2, h3, h4, h5 => by
    have hl : ∀ (ts : List (Pdf L)), Pdf.sizeList ts ≤ k → ∀ c : Cursor,
        Slice T c.fn (Pdf.flatList fnOf ts) → Slice B.par c.par (Pdf.flatList (parOf env) ts) →
        Slice B.con c.con (Pdf.flatList conOf ts) → Slice B.obs c.obs (Pdf.flatList (obsOf env) ts) →
        Slice B.nrm c.nrm (Pdf.flatList nrmOf ts) → TreesAt env B T c ts := by
      intro ts
      induction ts with
      | nil => intros; simp [TreesAt]
      | cons a ts iht =>
        intro hk c g1 g2 g3 g4 g5
        simp only [Pdf.sizeList] at hk
        simp only [Pdf.flatList, Slice.append_iff] at g1 g2 g3 g4 g5
        rw [TreesAt]
        refine ⟨treeAt_of_slices k a (by omega) c g1.1 g2.1 g3.1 g4.1 g5.1, ?_⟩
        rw [adv_lengths (env := env)]
        exact iht (by omega) _ g1.2 g2.2 g3.2 g4.2 g5.2
    simp only [Pdf.flat, Slice.append_iff] at h1 h2 h3 h4 h5
    simp only [Pdf.size] at ht
    rw [TreeAt]
    refine ⟨⟨h1.1, h2.1, h3.1, h4.1, h5.1⟩, ?_⟩
    apply hl cs (by omega)
    · exact h1.2
    · have := h2.2
      simpa [parOf, Cursor.advN, Cursor.incrementIndex] using this
    · have := h3.2
      simpa [conOf, Cursor.advN, Cursor.incrementIndex] using this
    · have := h4.2
      simpa [obsOf, Cursor.advN, Cursor.incrementIndex] using this
    · have := h5.2
      simpa [nrmOf, Cursor.advN, Cursor.incrementIndex] using this

/-- After flattening after anything and before anything, the tree is where the cursor is. -/
theorem treeAt_populate (t : Pdf L) (h : Host L) (suffix : List (Fn L)) :
    TreeAt env (Host.populate env t h).bufs ((Host.populate env t h).table ++ suffix)
      ⟨h.table.length, h.bufs.par.length, h.bufs.con.length, h.bufs.obs.length,
        h.bufs.nrm.length⟩ t := by
  obtain ⟨h1, h2⟩ := populate_eq (env := env) t h
  rw [h1, h2]
  have key : ∀ {α : Type} (a b : List α), Slice (a ++ b) a.length b := by
    intro α a b; have := Slice.self a b []; simpa using this
  exact treeAt_of_slices t.size t (Nat.le_refl _) _ (Slice.self _ _ _) (key _ _) (key _ _)
    (key _ _) (key _ _)

theorem setIndices_bufs (t : Pdf L) (m : L.Metric) (h : Host L) :
    (h.setIndices env t m).bufs = (Host.populate env t h.clear).bufs ∧
    (h.setIndices env t m).table = (Host.populate env t h.clear).table ++ [.metric m] := ⟨rfl, rfl⟩

theorem treeAt_setIndices (t : Pdf L) (m : L.Metric) (h : Host L) :
    TreeAt env (h.setIndices env t m).bufs (h.setIndices env t m).table Cursor.zero t :=
  treeAt_populate t h.clear [.metric m]

theorem table_setIndices (t : Pdf L) (m : L.Metric) (h : Host L) :
    (h.setIndices env t m).table = t.flat fnOf ++ [.metric m] := by
  rw [(setIndices_bufs t m h).2, (populate_eq t h.clear).2]
  rfl

end GooFit
