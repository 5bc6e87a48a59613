import Verif.Lemmas.TreeEval
import Verif.Spec.TimeTree
import Verif.Props.Tree
/-!
# C105: evaluating a time-dependent three-body amplitude leaves the cursor after all its PDFs
-/
set_option autoImplicit false
namespace GooFit
open Spec FpOps
section generic
variable {F : Type} [FpOps F] {L : Lib F} {sem : LeafSem F L} {env : Env F} {B : Bufs F}
  {T : List (Fn L)} {call : Call F} {e : Evt F} {c : Cursor}

theorem bind_of {α β : Type} {x : Option α} {a : α} {f : α → Option β} (h : x = some a) :
    (x >>= f) = f a := by rw [h]; rfl

theorem rewriteFrom_append (xs : List F) : ∀ (a ys b : List F), xs.length = ys.length →
    rewriteFrom a.length xs (a ++ (ys ++ b)) = a ++ (xs ++ b) := by
  induction xs with
  | nil =>
    intro a ys b h
    cases ys with
    | nil => rfl
    | cons y ys => simp at h
  | cons x xs ih =>
    intro a ys b h
    cases ys with
    | nil => simp at h
    | cons y ys =>
      have h2 := ih (a ++ [x]) ys b (by simpa using h)
      rw [rewriteFrom]
      have : (a ++ (y :: ys ++ b)).set a.length x = a ++ [x] ++ (ys ++ b) := by
        simp [List.set_append_right]
      rw [this]
      simpa using h2

theorem populateList_append (xs ys : List (Pdf L)) (h : Host L) :
    Host.populateList env (xs ++ ys) h = Host.populateList env ys (Host.populateList env xs h) := by
  induction xs generalizing h with
  | nil => rfl
  | cons x xs ih => simp only [List.cons_append, Host.populateList, ih]

/-- the node with the function index after its PDFs as last constant -/
def tdFilled (n : Node L) (stop : Nat) : Node L :=
  ⟨n.oid, n.fn, n.params, n.consts.set (n.consts.length - 1) (ofNat stop), n.obs, n.norm⟩

theorem populateTd_eq (n : Node L) (res : List (Pdf L)) (r : Pdf L) (rest : List (Pdf L)) (h : Host L) :
    let t := Pdf.mk n (res ++ r :: rest)
    let t' := Pdf.mk (tdFilled n (h.table.length + t.size)) (res ++ r :: rest)
    (h.populateTd env n res r rest).bufs = (Host.populate env t' h).bufs ∧
    (h.populateTd env n res r rest).table = (Host.populate env t' h).table := by
  intro t t'
  have h3 : Host.populateList env rest (Host.populate env r (Host.populateList env res (h.push env n)))
      = Host.populate env t h := by
    simp only [t, Host.populate, populateList_append, Host.populateList]
  obtain ⟨b1, b2⟩ := populate_eq (env := env) t h
  obtain ⟨b3, b4⟩ := populate_eq (env := env) t' h
  have hlen : (Host.populate env t h).table.length = h.table.length + t.size := by
    rw [b2, List.length_append, Pdf.flat_length_one _ (fun _ => rfl)]
  unfold Host.populateTd
  dsimp only
  rw [h3, hlen]
  refine ⟨?_, ?_⟩
  · rw [b1, b3]
    simp only [t, t', Pdf.flat, parOf, obsOf, nrmOf, conOf, tdFilled, List.length_set]
    congr 1
    have := rewriteFrom_append (n.consts.set (n.consts.length - 1) (ofNat (h.table.length + t.size)))
      (h.bufs.con ++ [ofNat n.consts.length]) n.consts (Pdf.flatList conOf (res ++ r :: rest)) (by simp)
    simpa [t] using this
  · rw [b2, b4]
    simp only [t, t', Pdf.flat, fnOf, tdFilled]

/-- Flattened after anything and before anything, the tree is where the cursor is. -/
theorem treeAt_populate_followed (t : Pdf L) (h : Host L) (S : Bufs F) (later : List (Fn L)) :
    TreeAt env (followedBy (Host.populate env t h).bufs S) ((Host.populate env t h).table ++ later)
      (endOf h) t := by
  obtain ⟨h1, h2⟩ := populate_eq (env := env) t h
  rw [h1, h2]
  exact treeAt_of_slices t.size t (Nat.le_refl _) _ (Slice.self _ _ _) (Slice.self _ _ _)
    (Slice.self _ _ _) (Slice.self _ _ _) (Slice.self _ _ _)

theorem endOf_congr {h g : Host L} (hb : h.bufs = g.bufs) (ht : h.table = g.table) : endOf h = endOf g := by
  simp only [endOf, hb, ht]

theorem endOf_populate (t : Pdf L) (h : Host L) :
    endOf (Host.populate env t h) = (endOf h).adv t := by
  obtain ⟨h1, h2⟩ := populate_eq (env := env) t h
  rw [adv_lengths (env := env)]
  simp only [endOf, h1, h2, List.length_append]

theorem tdWaves_works (X : TdLib L) {pc : Cursor} {cache : F} {num : Int} :
    ∀ (ps : List F) (m i : Nat) (ws : List ((F × F) × (F × F))) (sA sB : F × F), ps.length = 2 * m →
      (∀ k : Nat, k < ps.length → pc.getParameter B (i * 2 + 5 + k) = ps[k]?) →
      (List.range m).map (fun j => X.waves (i + j) cache num) = ws.map some →
      tdWaves X B pc cache num m i sA sB =
        some (((ws.map Prod.fst).zip (pairs ps)).foldl (fun t p =>
          (add t.1 (sub (mul p.1.1 p.2.1) (mul p.1.2 p.2.2)),
           add t.2 (add (mul p.1.1 p.2.2) (mul p.1.2 p.2.1)))) sA,
          ((ws.map Prod.snd).zip (pairs ps)).foldl (fun t p =>
          (add t.1 (sub (mul p.1.1 p.2.1) (mul p.1.2 p.2.2)),
           add t.2 (add (mul p.1.1 p.2.2) (mul p.1.2 p.2.1)))) sB)
  | [], m, i, ws, sA, sB, hl, _, _ => by
    have : m = 0 := by simp at hl; omega
    subst this
    simp [tdWaves, pairs]
  | [a], m, i, ws, sA, sB, hl, _, _ => by simp at hl; omega
  | a :: b :: ps, 0, i, ws, sA, sB, hl, _, _ => by simp at hl
  | a :: b :: ps, m + 1, i, [], sA, sB, hl, _, hw => by simp at hw
  | a :: b :: ps, m + 1, i, w :: ws, sA, sB, hl, hp, hw => by
    have h0 := hp 0 (by simp)
    have h1 := hp 1 (by simp)
    simp only [Nat.add_zero, List.getElem?_cons_zero, List.getElem?_cons_succ] at h0 h1
    rw [List.range_succ_eq_map, List.map_cons, List.map_cons, List.cons.injEq, Nat.add_zero] at hw
    simp only [tdWaves]
    rw [h0, show i * 2 + 6 = i * 2 + 5 + 1 by omega, h1, hw.1]
    simp only [Option.bind_eq_bind, Option.bind_some]
    rw [tdWaves_works X ps m (i + 1) ws _ _ (by simp at hl; omega) (by
      intro k hk
      have := hp (k + 2) (by simp; omega)
      rw [show (i + 1) * 2 + 5 + k = i * 2 + 5 + (k + 2) by omega, this]; simp) (by
      rw [← hw.2, List.map_map]
      apply List.map_congr_left
      intro j _
      simp only [Function.comp]
      congr 1
      omega)]
    simp [pairs]

theorem tdResolved_eq (X : TdLib L) (R : ResArgs F → Option F) (sA sB : F × F)
    (tau t x y sigma w v : F) (hR : ∀ a v, R a = some v → callResolution X T B c a = some v)
    (hs : tdSmeared X R sA sB tau t x y sigma w = some v) :
    tdResolved X T B c sA sB tau t x y sigma w = some v := by
  unfold tdSmeared at hs
  unfold tdResolved
  dsimp only at hs ⊢
  simp only [Option.bind_eq_bind, Option.bind_eq_some_iff] at hs
  obtain ⟨r, hr, hs⟩ := hs
  rw [hR _ _ hr]
  simp only [Option.bind_eq_bind, Option.bind_some]
  split at hs
  · rename_i hpos
    simp only [Option.bind_eq_some_iff] at hs
    obtain ⟨s, hs1, s2, hs2, hs⟩ := hs
    rw [if_pos hpos, hR _ _ hs1]
    simp only [Option.bind_some]
    rw [hR _ _ hs2]
    exact hs
  · rename_i hpos
    rw [if_neg hpos]
    exact hs

theorem sizeList_leaves : ∀ l : List (Pdf L), (∀ r ∈ l, r.comps = []) → Pdf.sizeList l = l.length := by
  intro l
  induction l with
  | nil => intro _; rfl
  | cons a l ih =>
    intro hl
    have ha := hl a (by simp)
    cases a with
    | mk na ca =>
      have : ca = [] := ha
      subst this
      simp [Pdf.sizeList, Pdf.size, ih (fun r hr => hl r (by simp [hr]))]; omega

theorem slice_ownData {n : Node L} (h : NodeAt env B T c n) :
    OwnData B c (n.params.map env.val) n.consts (n.obs.map env.idx) n.norm := by
  refine ⟨?_, h.con, ?_, h.nrm⟩
  · have := h.par; rw [parOf] at this; simpa using this
  · have := h.obs; rw [obsOf] at this; simpa [List.map_map, Function.comp_def] using this

theorem deviceTddp_works (X : TdLib L) (rsem : ResSem F L) {n : Node L} {res : List (Pdf L)} {rn : Node L}
    {k : L.Leaf} {eff : Pdf L} {cache flag v : F}
    (h : NodeAt env B T c n) (s : StoN env n)
    (ht : TreesAt env B T (c.advN n) (res ++ [.mk rn [], eff])) (hwf : WellFormedList sem env res)
    (hwe : WellFormed sem env eff) (hsr : StoN env rn)
    (hres : ∀ r ∈ res, r.comps = []) (hk : rn.fn = .leaf k)
    (hR : ResOK X rsem k (rn.params.map env.val) rn.consts (rn.obs.map env.idx))
    (hp : n.params.length = 5 + 2 * res.length)
    (hc : n.consts = [ofNat res.length, cache, flag, ofNat (c.fn + (2 + res.length + eff.size))])
    (hx : Exact F res.length) (hy : Exact F ((c.fn + (2 + res.length + eff.size) : Nat) : Int))
    (ho : n.obs.length = 7)
    (hw : Works sem env B T call [eff])
    (hm : tdMeaning X (rsem k (rn.params.map env.val) rn.consts (rn.obs.map env.idx)) (denote sem env eff)
      res.length cache (n.params.map env.val) (n.obs.map env.idx) e = some v) :
    deviceTddp X T call B c e = some (v, (c.advN n).advL (res ++ [.mk rn [], eff])) := by
  match hobs : n.obs, ho with
  | [o0, o1, o2, o3, o4, o5, o6], _ =>
  match hpar : n.params, hp with
  | [], hp | [_], hp | [_, _], hp | [_, _, _], hp | [_, _, _, _], hp => simp at hp <;> omega
  | p0 :: p1 :: p2 :: p3 :: p4 :: ps, hp =>
    have hps : ps.length = 2 * res.length := by simp at hp; omega
    simp only [tdMeaning, hobs, hpar, List.map_cons, List.map_nil, Option.bind_eq_bind,
      Option.bind_eq_some_iff] at hm
    obtain ⟨m12, hm12, m13, hm13, hm⟩ := hm
    have gobs : ∀ i, i < 7 → c.getObservable B i = [ofInt (env.idx o0), ofInt (env.idx o1),
        ofInt (env.idx o2), ofInt (env.idx o3), ofInt (env.idx o4), ofInt (env.idx o5),
        ofInt (env.idx o6)][i]? := by
      intro i hi
      rw [h.obs_get i (by rw [hobs]; simpa using hi), hobs]
      rfl
    have gpar : ∀ i, i < n.params.length → c.getParameter B i =
        (env.val p0 :: env.val p1 :: env.val p2 :: env.val p3 :: env.val p4 :: ps.map env.val)[i]? := by
      intro i hi
      rw [h.par_get i hi, hpar]
      rfl
    have hpl : n.params.length = ps.length + 5 := by rw [hpar]; rfl
    have hex : ∀ o ∈ n.obs, Exact F (env.idx o) := fun o ho' =>
      s.2.2.2.2 _ (List.mem_map.2 ⟨o, ho', rfl⟩)
    have rd : ∀ (o : Nat) (x : F), o ∈ n.obs → at_ e (env.idx o) = some x →
        e.read (ofInt (env.idx o) : F) = some x := by
      intro o x hmem hx'
      rw [read_ofInt e _ (hex _ hmem)]; exact hx'
    have r1 := rd o2 m12 (by simp [hobs]) hm12
    have r2 := rd o3 m13 (by simp [hobs]) hm13
    have hcon := h.con
    rw [conOf, hc] at hcon
    have gcnt : countAt B.con (c.con + 1) = some res.length := by
      have h1 := hcon
      rw [← List.singleton_append, Slice.append_iff] at h1
      exact countAt_of h1.2 hx
    have gstop : countAt B.con (c.con + 4) = some (c.fn + (2 + res.length + eff.size)) := by
      have h1 := hcon
      rw [show ∀ a b c d e : F, [a, b, c, d, e] = [a, b, c, d] ++ [e] from fun _ _ _ _ _ => rfl,
        Slice.append_iff] at h1
      exact countAt_of h1.2 hy
    have gcache : c.getConstant B 1 = some cache := by
      rw [h.con_get 1 (by simp [hc]), hc]; rfl
    have hinc : c.incrementIndex 1 n.params.length n.consts.length n.obs.length 1 = c.advN n := rfl
    rw [TreesAt.append_iff] at ht
    obtain ⟨ht1, ht2⟩ := ht
    have hskip := TreesAt.skip (sem := sem) res (c.advN n) ht1 hwf
    rw [sizeList_leaves res hres] at hskip
    rw [TreesAt, TreesAt] at ht2
    obtain ⟨hr, he, -⟩ := ht2
    have hrn : NodeAt env B T ((c.advN n).advL res) rn := hr.node
    have hnext := hrn.next hsr
    have hadv : ((c.advN n).advL res).adv (.mk rn []) = ((c.advN n).advL res).advN rn := rfl
    rw [hadv] at he
    have hend : (c.advN n).advL (res ++ [.mk rn [], eff])
        = (((c.advN n).advL res).advN rn).adv eff := by
      rw [Cursor.advL_append]; rfl
    unfold deviceTddp
    have q1 := h.numPar s
    have q2 := h.numCon s
    have q3 := h.numObs s
    have h57 : 5 < n.obs.length := by rw [hobs]; simp
    have h67 : 6 < n.obs.length := by rw [hobs]; simp
    have b0 : c.getObservable B 0 = some (ofInt (env.idx o0)) := gobs 0 (by omega)
    have b1 : c.getObservable B 1 = some (ofInt (env.idx o1)) := gobs 1 (by omega)
    have b2 : c.getObservable B 2 = some (ofInt (env.idx o2)) := gobs 2 (by omega)
    have b3 : c.getObservable B 3 = some (ofInt (env.idx o3)) := gobs 3 (by omega)
    have b4 : c.getObservable B 4 = some (ofInt (env.idx o4)) := gobs 4 (by omega)
    have b5 : c.getObservable B 5 = some (ofInt (env.idx o5)) := gobs 5 (by omega)
    have b6 : c.getObservable B 6 = some (ofInt (env.idx o6)) := gobs 6 (by omega)
    have a0 : c.getParameter B 0 = some (env.val p0) := gpar 0 (by omega)
    have a1 : c.getParameter B 1 = some (env.val p1) := gpar 1 (by omega)
    have a2 : c.getParameter B 2 = some (env.val p2) := gpar 2 (by omega)
    have a3 : c.getParameter B 3 = some (env.val p3) := gpar 3 (by omega)
    have a4 : c.getParameter B 4 = some (env.val p4) := gpar 4 (by omega)
    have z5 : obsOrZero c B n.obs.length 5 = some (ofInt (env.idx o5)) := by
      rw [obsOrZero, if_pos h57, b5]
    have z6 : obsOrZero c B n.obs.length 6 = some (ofInt (env.idx o6)) := by
      rw [obsOrZero, if_pos h67, b6]
    have e5 : ∀ id : F, readOrZero e n.obs.length 5 id = e.read id := fun _ => if_pos h57
    have e6 : ∀ id : F, readOrZero e n.obs.length 6 id = e.read id := fun _ => if_pos h67
    simp only [q1, q2, q3, z5, b2, b3, b4, r1, r2, gcnt, Option.bind_eq_bind, Option.bind_some]
    rw [hinc, hend]
    by_cases hin : L.inDalitz m12 m13 = true
    · rw [if_pos hin] at hm
      rw [if_pos hin]
      unfold tddpInside
      simp only [Option.bind_eq_some_iff] at hm
      obtain ⟨num, hnum, ws, hws, tag, htag, t, htime, sg, hsg, w, hmis, r, hsm, ve, hve, hv⟩ := hm
      rw [allSome_eq_some] at hws
      have hcall := hw eff (by simp) _ e _ he hve
      have hxy : tagMixing (env.val p1) (env.val p2) (env.val p3) (env.val p4) (toInt tag)
          = if toInt tag = 1 then (add (env.val p1) (env.val p3), add (env.val p2) (env.val p4))
            else if toInt tag = -1 then (sub (env.val p1) (env.val p3), sub (env.val p2) (env.val p4))
            else (env.val p1, env.val p2) := rfl
      have hres' := tdResolved_eq (T := T) (B := B) (c := (c.advN n).advL res) X _ _ _ _ _ _ _ _ _ _ (by
          intro a v' hv'
          obtain ⟨f, hf, hf'⟩ := hR
          unfold callResolution
          rw [hrn.fn_get, hk]
          simp only [hf]
          refine hf' B _ rn.norm a v' ?_ (slice_ownData hrn) hv'
          simpa using hsr) hsm
      rw [← hxy] at hres'
      have hv' : mul r ve = v := Option.some.inj hv
      have hwv := tdWaves_works (B := B) X (pc := c) (cache := cache) (num := nearest num) (ps.map env.val)
        res.length 0 ws (lit 0, lit 0) (lit 0, lit 0) (by simpa using hps) (by
          intro j hj
          rw [Nat.zero_mul, Nat.zero_add, gpar (5 + j) (by simp at hj; omega), Nat.add_comm 5 j]
          rfl) (by simpa using hws)
      refine (bind_of (rd o4 num (by simp [hobs]) hnum)).trans ?_
      refine (bind_of gcache).trans ?_
      refine (bind_of hwv).trans ?_
      refine (bind_of b0).trans ?_
      refine (bind_of b1).trans ?_
      refine (bind_of z6).trans ?_
      refine (bind_of a0).trans ?_
      refine (bind_of a1).trans ?_
      refine (bind_of a2).trans ?_
      refine (bind_of a3).trans ?_
      refine (bind_of a4).trans ?_
      refine (bind_of ((e6 _).trans (rd o6 tag (by simp [hobs]) htag))).trans ?_
      refine (bind_of (rd o0 t (by simp [hobs]) htime)).trans ?_
      refine (bind_of (rd o1 sg (by simp [hobs]) hsg)).trans ?_
      refine (bind_of hskip).trans ?_
      refine (bind_of ((e5 _).trans (rd o5 w (by simp [hobs]) hmis))).trans ?_
      refine (bind_of hres').trans ?_
      refine (bind_of hnext).trans ?_
      refine (bind_of hcall).trans ?_
      rw [← hv']
      rfl
    · rw [if_neg hin] at hm
      rw [if_neg hin]
      unfold tddpOutside
      simp only [Option.bind_eq_bind]
      rw [gstop, hskip]
      simp only [Option.bind_some]
      rw [hnext]
      simp only [Option.bind_some]
      have hfn : (((c.advN n).advL res).advN rn).fn = c.fn + (2 + res.length) := by
        simp only [Cursor.advN, Cursor.incrementIndex, Cursor.advL_fn, sizeList_leaves res hres]
        omega
      unfold Cursor.skipTo
      rw [hfn, show c.fn + (2 + res.length + eff.size) - (c.fn + (2 + res.length)) = eff.size by omega,
        TreeAt.skip (sem := sem) eff _ he hwe]
      simp only [Option.bind_some, Option.pure_def, Option.some.injEq, Prod.mk.injEq, and_true]
      simpa using hm

/-- **C105.**  A time-dependent three-body amplitude built with one resolution evaluates to its defined value and leaves the
cursor right after all its PDFs (resonances, resolution and efficiency), for every efficiency tree and every event, in the
Dalitz region or outside, wherever the amplitude is stored: whatever was stored before it (`h₀`) and after it (`S`, `later`). -/
theorem C105_amplitude_cursor_partial (sem : LeafSem F L) (X : TdLib L) (rsem : ResSem F L) (env : Env F) (oid : Nat) (fn : Fn L)
    (params obs : List Nat) (cache flag : F) (res : List (Pdf L)) (rn : Node L) (k : L.Leaf) (eff : Pdf L)
    (h₀ : Host L) (S : Bufs F) (later : List (Fn L)) (e : Evt F) (v : F) (fuel : Nat)
    (hp : params.length = 5 + 2 * res.length) (ho : obs.length = 7)
    (hres : ∀ r ∈ res, r.comps = []) (hk : rn.fn = .leaf k)
    (hR : ResOK X rsem k (rn.params.map env.val) rn.consts (rn.obs.map env.idx))
    (hsto : Storable F params.length 4 (obs.map env.idx))
    (hsr : Storable F rn.params.length rn.consts.length (rn.obs.map env.idx))
    (hwf : WellFormedList sem env res) (hwe : WellFormed sem env eff)
    (hx : Exact F res.length) (hy : Exact F ((h₀.table.length + (2 + res.length + eff.size) : Nat) : Int))
    (hfuel : eff.size ≤ fuel)
    (hv : tdMeaning X (rsem k (rn.params.map env.val) rn.consts (rn.obs.map env.idx)) (denote sem env eff) res.length cache
      (params.map env.val) (obs.map env.idx) e = some v) :
    let h := h₀.populateTd env (tdNode oid fn params res.length cache flag obs) res (.mk rn []) [eff]
    let B := followedBy h.bufs S
    let T := h.table ++ later
    deviceTddp X T (callFunction L B T fuel) B (endOf h₀) e = some (v, endOf h) := by
  intro h B T
  set n : Node L := tdNode oid fn params res.length cache flag obs with hn
  set cs : List (Pdf L) := res ++ [.mk rn [], eff] with hcs
  have hsize : (Pdf.mk n cs).size = 2 + res.length + eff.size := by
    rw [Pdf.size, hcs]
    have : ∀ xs ys : List (Pdf L), Pdf.sizeList (xs ++ ys) = Pdf.sizeList xs + Pdf.sizeList ys := by
      intro xs ys
      induction xs with
      | nil => simp [Pdf.sizeList]
      | cons x xs ih => simp [Pdf.sizeList, ih]; omega
    rw [this, sizeList_leaves res hres]
    simp [Pdf.sizeList, Pdf.size]; omega
  obtain ⟨hb, htab⟩ := populateTd_eq (env := env) n res (.mk rn []) [eff] h₀
  rw [← hcs, hsize] at hb htab
  set n' : Node L := tdFilled n (h₀.table.length + (2 + res.length + eff.size)) with hn'
  have hat := treeAt_populate_followed (env := env) (.mk n' cs) h₀ S later
  rw [← hb, ← htab] at hat
  have hend : endOf h = (endOf h₀).adv (.mk n' cs) := by
    rw [← endOf_populate (env := env)]
    exact endOf_congr hb htab
  rw [TreeAt] at hat
  have hw : Works sem env B T (callFunction L B T fuel) [eff] := by
    intro t ht c' e' v' hat' hd'
    obtain rfl : t = eff := by simpa using ht
    exact callFunction_works fuel t hfuel hwe c' e' v' hat' hd'
  rw [hend, Cursor.adv, hcs]
  refine deviceTddp_works (sem := sem) X rsem (n := n') (cache := cache) (flag := flag) hat.1 ?_ hat.2 hwf hwe hsr hres hk hR hp ?_ hx hy
    ho hw hv
  · exact hsto
  · rfl

/-- reading at the end of the arrays -/
theorem next_end (h : Host L) : (endOf h).next h.bufs = none := by
  simp [Cursor.next, Cursor.getNumParameters, countAt, endOf]

theorem skip_end (h : Host L) (k : Nat) (hk : 0 < k) : Cursor.skip h.bufs k (endOf h) = none := by
  cases k with
  | zero => omega
  | succ k => simp [Cursor.skip, next_end]

/-- **C105 (violated by the code).**  The constructor with the mother's mass registers `SPECIAL_RESOLUTION_FLAG` where the function
index after the efficiency is read from (`src/PDFs/physics/Amp3Body_TD.cu:61, 416`): for every event outside the Dalitz region, every
such amplitude used as the fitted PDF runs past the end of the arrays, whatever its resolutions and efficiency are. -/
theorem C105_violation_mass_outside (sem : LeafSem F L) (X : TdLib L) (env : Env F) (oid : Nat) (fn : Fn L) (params obs : List Nat)
    (cache flag low step : F) (res : List (Pdf L)) (rn : Node L) (rest : List (Pdf L)) (h₀ : Host L) (m : L.Metric)
    (call : Call F) (e : Evt F) (o0 o1 o2 o3 : Nat) (os : List Nat) (m12 m13 : F)
    (ho : obs = o0 :: o1 :: o2 :: o3 :: os) (ho' : obs.length = 8)
    (hres : ∀ r ∈ res, r.comps = []) (hwf : WellFormedList sem env res) (hwr : WellFormedList sem env rest)
    (hsto : Storable F params.length 7 (obs.map env.idx))
    (hsr : Storable F rn.params.length rn.consts.length (rn.obs.map env.idx))
    (hx : Exact F res.length) (hf : Exact F (999999999 : Nat))
    (hsmall : 2 + res.length + Pdf.sizeList rest < 999999999)
    (hm12 : at_ e (env.idx o2) = some m12) (hm13 : at_ e (env.idx o3) = some m13) (hout : L.inDalitz m12 m13 = false) :
    let h := h₀.clear.populateTd env (tdNodeMass oid fn params res.length cache flag low step obs) res (.mk rn []) rest
    deviceTddp X (h.table ++ [.metric m]) call h.bufs Cursor.zero e = none := by
  intro h
  set n : Node L := tdNodeMass oid fn params res.length cache flag low step obs with hn
  set cs : List (Pdf L) := res ++ .mk rn [] :: rest with hcs
  obtain ⟨hb, htab⟩ := populateTd_eq (env := env) n res (.mk rn []) rest h₀.clear
  rw [← hcs] at hb htab
  set n' : Node L := tdFilled n (h₀.clear.table.length + (Pdf.mk n cs).size) with hn'
  have hat := treeAt_populate (env := env) (.mk n' cs) h₀.clear [.metric m]
  rw [← hb, ← htab] at hat
  have hat : TreeAt env h.bufs (h.table ++ [.metric m]) Cursor.zero (.mk n' cs) := hat
  have hend : endOf h = Cursor.zero.adv (.mk n' cs) := by
    have := endOf_populate (env := env) (.mk n' cs) h₀.clear
    rw [show (Cursor.zero : Cursor) = endOf h₀.clear from rfl, ← this]
    exact endOf_congr hb htab
  rw [TreeAt] at hat
  obtain ⟨hnode, ht⟩ := hat
  have hs' : StoN env n' := hsto
  rw [hcs, TreesAt.append_iff, TreesAt] at ht
  obtain ⟨ht1, hr, ht3⟩ := ht
  have hskip := TreesAt.skip (sem := sem) res _ ht1 hwf
  rw [sizeList_leaves res hres] at hskip
  have hrn : NodeAt env h.bufs (h.table ++ [.metric m]) ((Cursor.zero.advN n').advL res) rn := hr.node
  have hnext := hrn.next hsr
  have hskip3 := TreesAt.skip (sem := sem) rest _ ht3 hwr
  have gobs : ∀ (i o : Nat) (x : F), n'.obs[i]? = some o → at_ e (env.idx o) = some x →
      ∃ id, Cursor.zero.getObservable h.bufs i = some id ∧ e.read id = some x := by
    intro i o x hi hx'
    have hlt : i < n'.obs.length := (List.getElem?_eq_some_iff.1 hi).1
    refine ⟨ofInt (env.idx o), ?_, ?_⟩
    · rw [hnode.obs_get i hlt, List.getElem?_map, hi]; rfl
    · rw [read_ofInt e _ (hs'.2.2.2.2 _ (List.mem_map.2 ⟨o, List.mem_of_getElem? hi, rfl⟩))]; exact hx'
  have hobs : n'.obs = o0 :: o1 :: o2 :: o3 :: os := ho
  obtain ⟨id2, g2, r2⟩ := gobs 2 o2 m12 (by rw [hobs]; rfl) hm12
  obtain ⟨id3, g3, r3⟩ := gobs 3 o3 m13 (by rw [hobs]; rfl) hm13
  have hlen8 : n'.obs.length = 8 := ho'
  obtain ⟨id4, g4⟩ : ∃ id, Cursor.zero.getObservable h.bufs 4 = some id :=
    ⟨_, (hnode.obs_get 4 (by omega)).trans (List.getElem?_eq_getElem (by simp; omega))⟩
  obtain ⟨id5, g5⟩ : ∃ id, Cursor.zero.getObservable h.bufs 5 = some id :=
    ⟨_, (hnode.obs_get 5 (by omega)).trans (List.getElem?_eq_getElem (by simp; omega))⟩
  have z5 : obsOrZero Cursor.zero h.bufs n'.obs.length 5 = some id5 := by
    rw [obsOrZero, if_pos (by omega), g5]
  have hcon := hnode.con
  obtain ⟨last, hlast⟩ : ∃ last : F, conOf n' = [ofNat 7, ofNat res.length, cache, flag, ofNat 999999999, low, step, last] :=
    ⟨_, rfl⟩
  rw [hlast] at hcon
  have gcnt : countAt h.bufs.con (Cursor.zero.con + 1) = some res.length := by
    have h1 := hcon
    rw [← List.singleton_append, Slice.append_iff] at h1
    exact countAt_of h1.2 hx
  have gstop : countAt h.bufs.con (Cursor.zero.con + 4) = some 999999999 := by
    have h1 := hcon
    rw [show ∀ a b c d e f g i : F, [a, b, c, d, e, f, g, i] = [a, b, c, d] ++ [e, f, g, i] from fun _ _ _ _ _ _ _ _ => rfl,
      Slice.append_iff] at h1
    exact countAt_of h1.2 hf
  have hfin : ((((Cursor.zero.advN n').advL res).advN rn).advL rest) = endOf h := by
    rw [hend, Cursor.adv, hcs, Cursor.advL_append]; rfl
  have hfn : (((Cursor.zero.advN n').advL res).advN rn).fn = 2 + res.length := by
    simp only [Cursor.advN, Cursor.incrementIndex, Cursor.advL_fn, sizeList_leaves res hres, Cursor.zero]
    omega
  have hrun : ((((Cursor.zero.advN n').advL res).advN rn).skipTo h.bufs 999999999) = none := by
    unfold Cursor.skipTo
    rw [hfn, show 999999999 - (2 + res.length) = Pdf.sizeList rest + (999999999 - (2 + res.length) - Pdf.sizeList rest) by omega,
      Cursor.skip_add]
    have hskip3' : Cursor.skip h.bufs (Pdf.sizeList rest) (((Cursor.zero.advN n').advL res).advN rn)
        = some ((((Cursor.zero.advN n').advL res).advN rn).advL rest) := hskip3
    rw [hskip3', hfin]
    exact skip_end h _ (by omega)
  refine (bind_of (hnode.numPar hs')).trans ?_
  refine (bind_of (hnode.numCon hs')).trans ?_
  refine (bind_of (hnode.numObs hs')).trans ?_
  refine (bind_of g2).trans ?_
  refine (bind_of g3).trans ?_
  refine (bind_of g4).trans ?_
  refine (bind_of z5).trans ?_
  refine (bind_of r2).trans ?_
  refine (bind_of r3).trans ?_
  refine (bind_of gcnt).trans ?_
  show (if L.inDalitz m12 m13 = true then _ else _) = none
  rw [if_neg (by rw [hout]; simp)]
  refine (bind_of gstop).trans ?_
  refine (bind_of hskip).trans ?_
  refine (bind_of hnext).trans ?_
  show (Cursor.skipTo _ _ _ >>= _) = none
  rw [hrun]
  rfl

end generic

/-! ### A concrete amplitude -/
namespace TdDemo

/-- The basic PDFs of the examples and a time resolution. -/
inductive Leaf where
  | lin
  | val
  | truth
  | amp

/-- The device functions; a resolution, or the amplitude itself, is no basic PDF. -/
def lib : Lib ℚ where
  Leaf := Leaf
  dev := fun k => match k with
    | .lin => Demo.dev .lin
    | .val => Demo.dev .val
    | .truth | .amp => fun _ _ _ => none
  conv := fun _ _ => none
  inDalitz := fun a b => decide (a + b < 5)
  wave := fun _ _ _ => none
  Metric := Bool
  metric := fun _ v _ norm => some (v * norm)

/-- Waves `i + 1` and `i`, and a resolution with one parameter. -/
def X : TdLib lib where
  neg := fun x => -x
  isPos := fun x => decide (0 < x)
  waves := fun i _ _ => some (((i : ℚ) + 1, 0), ((i : ℚ), 1))
  res := fun k => match k with
    | .truth => some fun B c a => (c.getParameter B 0).map fun s =>
      s * (a.coshterm + 2 * a.costerm + 3 * a.sinhterm + 5 * a.sinterm + a.tau + a.dtime + a.xmixing + 7 * a.ymixing + a.sigma)
    | _ => none

/-- What the resolution computes. -/
def rsem : ResSem ℚ lib := fun k ps _ _ a =>
  match k, ps with
  | .truth, [s] =>
    some (s * (a.coshterm + 2 * a.costerm + 3 * a.sinhterm + 5 * a.sinterm + a.tau + a.dtime + a.xmixing + 7 * a.ymixing + a.sigma))
  | _, _ => none

/-- What the basic PDFs compute. -/
def sem : LeafSem ℚ lib := fun k ps ks os e =>
  match k, ps, ks, os with
  | .lin, [p], [], [o] => (at_ e o).map (p * ·)
  | .val, [], [], [o] => at_ e o
  | _, _, _, _ => none

/-- A `lin` PDF of variable `v` and observable `o`. -/
def lin (oid v o : Nat) : Pdf lib := .mk ⟨oid, .leaf .lin, [v], [], [o], 1⟩ []
/-- A `val` PDF of observable `o`. -/
def val (oid o : Nat) : Pdf lib := .mk ⟨oid, .leaf .val, [], [], [o], 1⟩ []
/-- The resolution. -/
def truth : Node lib := ⟨3, .leaf .truth, [2], [], [], 1⟩
/-- The efficiency: a product. -/
def eff : Pdf lib := .mk ⟨4, .prod, [], [2], [2, 3], 1⟩ [lin 5 1 2, lin 6 2 3]
/-- The two resonances. -/
def res : List (Pdf lib) := [val 1 2, val 2 3]
/-- Variable `v` is `v / 2 + 1`; observable `o` is at event position `o`. -/
def env : Env ℚ := ⟨fun v => v / 2 + 1, fun o => o⟩
/-- Parameters and observables of the amplitude. -/
def params : List Nat := [0, 1, 2, 3, 4, 5, 6, 7, 8]
/-- The event's columns: decay time, its error, `m12`, `m13`, event number, mistag, tag. -/
def obs : List Nat := [0, 1, 2, 3, 4, 5, 6]
/-- Something already stored. -/
def before : Host lib := Host.populate env (lin 9 0 2) ⟨⟨[], [], [], []⟩, [], fun _ => Cursor.zero⟩
/-- The event at `m12 = 1`, `m13 = y`. -/
def evt (y : ℚ) : Evt ℚ := fun k => [some 3, some 1, some 1, some y, some 0, some (1/4), some 1, some 2][k]?.join

theorem lin_ok (p : ℚ) (o : Int) : LeafOK sem Leaf.lin [p] [] [o] := by
  intro B c norm e v hs ho hv
  exact Demo.lin_ok p o B c norm e v hs ho hv
theorem val_ok (o : Int) : LeafOK sem Leaf.val [] [] [o] := by
  intro B c norm e v hs ho hv
  exact Demo.val_ok o B c norm e v hs ho hv
theorem lin_wf (env : Env ℚ) (oid v o : Nat) : WellFormed sem env (lin oid v o) :=
  ⟨Demo.sto _ _ _, ⟨rfl, lin_ok _ _⟩, trivial⟩
theorem val_wf (env : Env ℚ) (oid o : Nat) : WellFormed sem env (val oid o) :=
  ⟨Demo.sto _ _ _, ⟨rfl, val_ok _⟩, trivial⟩
theorem eff_wf : WellFormed sem env eff :=
  ⟨Demo.sto _ _ _, ⟨rfl, rfl, exact_rat _⟩, lin_wf _ _ _ _, lin_wf _ _ _ _, trivial⟩
theorem truth_ok (s : ℚ) : ResOK X rsem Leaf.truth [s] [] [] := by
  refine ⟨_, rfl, ?_⟩
  intro B c norm a v _ ho hv
  have hp := ho.1 1 (by simp)
  simp only [List.getElem?_cons_succ, List.getElem?_cons_zero] at hp
  rw [Cursor.getParameter, Nat.add_zero, hp]
  exact hv

/-- Two resolutions, and the mother's mass as eighth column. -/
def massHost (rest : List (Pdf lib)) : Host lib :=
  (Host.clear before).populateTd env (tdNodeMass 0 (.leaf .amp) params res.length 0 1 0 1 [0, 1, 2, 3, 4, 5, 6, 7]) res (.mk truth []) rest

end TdDemo

/-- The hypotheses of C105 are met by an amplitude with two resonances, a resolution with a parameter and a product as efficiency,
stored after another PDF: in the region (`1 + 3 < 5`) its value is not 0, outside it is 0, and the cursor ends at the same place. -/
example : (∃ v, v ≠ 0 ∧ ∃ c, c = endOf (TdDemo.before.populateTd TdDemo.env (tdNode (L := TdDemo.lib) 0 (.leaf TdDemo.Leaf.amp) TdDemo.params TdDemo.res.length 0 1 TdDemo.obs)
      TdDemo.res (.mk TdDemo.truth []) [TdDemo.eff]) ∧ c.fn = 8 ∧
    ∀ (S : Bufs ℚ) (later : List (Fn TdDemo.lib)),
      let h := TdDemo.before.populateTd TdDemo.env (tdNode (L := TdDemo.lib) 0 (.leaf TdDemo.Leaf.amp) TdDemo.params TdDemo.res.length 0 1 TdDemo.obs)
        TdDemo.res (.mk TdDemo.truth []) [TdDemo.eff]
      deviceTddp TdDemo.X (h.table ++ later) (callFunction TdDemo.lib (followedBy h.bufs S) (h.table ++ later) 3) (followedBy h.bufs S)
        (endOf TdDemo.before) (TdDemo.evt 3) = some (v, c) ∧
      deviceTddp TdDemo.X (h.table ++ later) (callFunction TdDemo.lib (followedBy h.bufs S) (h.table ++ later) 3) (followedBy h.bufs S)
        (endOf TdDemo.before) (TdDemo.evt 7) = some (0, c)) := by
  have key := fun (S : Bufs ℚ) (later : List (Fn TdDemo.lib)) (e : Evt ℚ) (v : ℚ) =>
    C105_amplitude_cursor_partial TdDemo.sem TdDemo.X TdDemo.rsem TdDemo.env 0 (.leaf .amp) TdDemo.params TdDemo.obs 0 1 TdDemo.res TdDemo.truth
      TdDemo.Leaf.truth TdDemo.eff TdDemo.before S later e v 3 rfl rfl (by decide) rfl (TdDemo.truth_ok _) (Demo.sto _ _ _)
      (Demo.sto _ _ _) ⟨TdDemo.val_wf _ _ _, TdDemo.val_wf _ _ _, trivial⟩ TdDemo.eff_wf (exact_rat _) (exact_rat _) (by decide)
  have hv : (tdMeaning TdDemo.X (TdDemo.rsem .truth (TdDemo.truth.params.map TdDemo.env.val) TdDemo.truth.consts
      (TdDemo.truth.obs.map TdDemo.env.idx)) (denote TdDemo.sem TdDemo.env TdDemo.eff) TdDemo.res.length 0
      (TdDemo.params.map TdDemo.env.val) (TdDemo.obs.map TdDemo.env.idx) (TdDemo.evt 3)).getD 0 ≠ 0 := by decide +kernel
  cases h3 : tdMeaning TdDemo.X (TdDemo.rsem .truth (TdDemo.truth.params.map TdDemo.env.val) TdDemo.truth.consts
      (TdDemo.truth.obs.map TdDemo.env.idx)) (denote TdDemo.sem TdDemo.env TdDemo.eff) TdDemo.res.length 0
      (TdDemo.params.map TdDemo.env.val) (TdDemo.obs.map TdDemo.env.idx) (TdDemo.evt 3) with
  | none => rw [h3] at hv; exact absurd rfl hv
  | some v =>
    rw [h3] at hv
    refine ⟨v, hv, _, rfl, by decide +kernel, fun S later => ⟨key S later _ v h3, key S later _ 0 (by decide +kernel)⟩⟩

/-- **C105 (violated by the code).**  With the mother's mass and one resolution, an event outside the region is undefined behaviour. -/
example (call : Call ℚ) : deviceTddp TdDemo.X ((TdDemo.massHost [TdDemo.eff]).table ++ [.metric true]) call (TdDemo.massHost [TdDemo.eff]).bufs
    Cursor.zero (TdDemo.evt 7) = none := by
  have h := C105_violation_mass_outside TdDemo.sem TdDemo.X TdDemo.env 0 (.leaf .amp) TdDemo.params [0, 1, 2, 3, 4, 5, 6, 7] 0 1 0 1 TdDemo.res
    TdDemo.truth [TdDemo.eff] TdDemo.before true call (TdDemo.evt 7) 0 1 2 3 [4, 5, 6, 7] 1 7 rfl rfl (by decide)
    ⟨TdDemo.val_wf _ _ _, TdDemo.val_wf _ _ _, trivial⟩ ⟨TdDemo.eff_wf, trivial⟩ (Demo.sto _ _ _) (Demo.sto _ _ _) (exact_rat _)
    (exact_rat _) (by decide +kernel) (by decide +kernel) (by decide +kernel) (by decide +kernel)
  exact h

/-- **C105 (violated by the code).**  With two resolutions the second one is called as the efficiency, also in the region
(`src/PDFs/physics/Amp3Body_TD.cu:249-252`): undefined, where with one resolution the value is defined. -/
theorem C105_violation_two_resolutions :
    deviceTddp TdDemo.X ((TdDemo.massHost [.mk TdDemo.truth [], TdDemo.eff]).table ++ [.metric true])
      (callFunction TdDemo.lib (TdDemo.massHost [.mk TdDemo.truth [], TdDemo.eff]).bufs
        ((TdDemo.massHost [.mk TdDemo.truth [], TdDemo.eff]).table ++ [.metric true]) 9)
      (TdDemo.massHost [.mk TdDemo.truth [], TdDemo.eff]).bufs Cursor.zero (TdDemo.evt 3) = none ∧
    ((deviceTddp TdDemo.X ((TdDemo.massHost [TdDemo.eff]).table ++ [.metric true])
      (callFunction TdDemo.lib (TdDemo.massHost [TdDemo.eff]).bufs ((TdDemo.massHost [TdDemo.eff]).table ++ [.metric true]) 9)
      (TdDemo.massHost [TdDemo.eff]).bufs Cursor.zero (TdDemo.evt 3)).map (fun r => r.2.fn)) = some 7 := by
  constructor <;> decide +kernel

end GooFit
