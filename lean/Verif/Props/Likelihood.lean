import Verif.Lemmas.LikelihoodSound
/-!
# The function the minimiser minimises: C86
-/
set_option autoImplicit false
namespace GooFit
open Spec
variable {K : Type} [Field K] [LinearOrder K] [IsStrictOrderedRing K] [FloorRing K]
attribute [local instance] FpOps.ofField
variable {L : Lib K}

theorem entryTerm_raw (log : K → K) (c : Control) (hc : c ≠ .eval ∧ c ≠ .binnedError) (d : Data K) (i : Nat)
    (p r r' : K) : entryTerm log c d i p r = entryTerm log c d i p r' := by
  cases d <;> cases c <;> first | rfl | exact absurd rfl hc.1 | exact absurd rfl hc.2

/-- events as the kernels see them -/
theorem event_at (s₀ : Sess K) (hnd : s₀.obs.Nodup) (d : Data K)
    (hm : Matches (s₀.setData (some d)).ctl d) (i : Nat) (hi : i < entries d) :
    ∀ o ∈ (s₀.setData (some d)).obs,
      at_ ((s₀.setData (some d)).eventAt (s₀.setData (some d)).eventSize i) ((s₀.setData (some d)).idx o) =
        some (coord d i o) := by
  intro o ho
  have hok : (s₀.setData (some d)).Ok := Sess.Ok.setData _ _
  have hnd' : (s₀.setData (some d)).obs.Nodup := by rw [setData_obs]; exact hnd
  have hn := hok.numbered hnd' (setData_data (some d) s₀)
  obtain ⟨j, hj, rfl⟩ := List.mem_iff_getElem.1 ho
  have hx := hn j hj
  unfold at_
  rw [hx, if_pos (by omega), Int.toNat_natCast]
  exact hok.slot hnd' (setData_data (some d) s₀) hm i j hi hj

theorem idx_small (s₀ : Sess K) (hnd : s₀.obs.Nodup) (hlen : s₀.obs.length ≤ 10) (d : Data K) :
    ∀ o ∈ (s₀.setData (some d)).obs,
      0 ≤ (s₀.setData (some d)).idx o ∧ (s₀.setData (some d)).idx o < 10 := by
  intro o ho
  have hok : (s₀.setData (some d)).Ok := Sess.Ok.setData _ _
  have hn := hok.numbered (by rw [setData_obs]; exact hnd) (setData_data (some d) s₀)
  obtain ⟨j, hj, rfl⟩ := List.mem_iff_getElem.1 ho
  have hx := hn j hj
  rw [setData_obs] at hj
  rw [hx]
  omega

/-- one call, from any arrays that hold the tree, when entry `i` contributes `T i p` for a density `p` there -/
theorem fcn_sound_gen (log : K → K) (x₀ : ExtSess K) (hnd : x₀.sess.obs.Nodup) (hlen : x₀.sess.obs.length ≤ 10)
    (d : Data K) (x : ExtSess K) (hx : x = x₀.setData (some d))
    (hm : Matches x.sess.ctl d) (T : Nat → K → K)
    (hT : ∀ i < entries d, ∀ (pdf : Evt K → Option K) (norm v : K),
      pdf (x.sess.eventAt x.sess.eventSize i) = some v →
      x.sess.valueAt log pdf norm x.sess.eventSize i = some (T i (v * norm)))
    (cfg : NormSetup (L.metrics log x.sess.total)) (sem : LeafSem K (L.metrics log x.sess.total))
    (val : Nat → K) (f : Nat → K → K) (t : Pdf (L.metrics log x.sess.total)) (hn : t.oids.Nodup)
    (ht : SumProduct cfg sem val x.sess.idx f x.sess.obs t) (hdef : ∀ i < entries d, DefinedAt f (coord d i) t)
    (fuel : Nat) (hfuel : t.size ≤ fuel) (val₀ : Nat → K) (ν δ : Nat → K) (s : Machine (L.metrics log x.sess.total))
    (h : Holds ⟨val₀, x.sess.idx⟩ t x.sess.ctl.metric ν δ s) :
    let shape := ((List.range (entries d)).map fun i => T i (density cfg val f t (coord d i))).sum
    (shape = 0 → s.fcn log x cfg fuel t val = .aborted) ∧
    (shape ≠ 0 → ∃ s', s.fcn log x cfg fuel t val =
      .done (shape + (match yieldsOf val t with
        | none => 0
        | some ws => ws.sum - numEvents d * log ws.sum), s')) := by
  intro shape
  have hsess : x.sess = x₀.sess.setData (some d) := by rw [hx]; rfl
  have hnum : x.numEvents = numEvents d := by rw [hx]; exact x₀.setData_numEvents d
  have hidx : ∀ o ∈ x.sess.obs, 0 ≤ x.sess.idx o ∧ x.sess.idx o < 10 := by
    rw [hsess]; exact idx_small x₀.sess hnd hlen d
  have h1 := h.update ⟨val, x.sess.idx⟩ rfl
  obtain ⟨r, ν', δ', s', e1, h2, _, ⟨hpos, _⟩, hg, _⟩ :=
    normalize_sound hn ht hidx fuel hfuel t ν δ _ ht hn (fun _ hw => hw) h1
  have h3 := h2.sync
  have hent : x.sess.numEntries = entries d := by rw [hsess]; cases d <;> rfl
  have hval : ∀ i < entries d, metricTaker (L.metrics log x.sess.total) s'.sync.onDevice fuel
      (x.sess.eventAt x.sess.eventSize i) (x.sess.tailAt x.sess.eventSize i) =
      some (T i (density cfg val f t (coord d i))) := by
    intro i hi
    obtain ⟨v, hv1, hv2⟩ := hg (coord d i) (x.sess.eventAt x.sess.eventSize i) (hdef i hi) (by
      rw [hsess] at hm ⊢
      exact event_at x₀.sess hnd d hm i hi)
    have hmt : metricTaker (L.metrics log x.sess.total) s'.sync.onDevice fuel
        (x.sess.eventAt x.sess.eventSize i) (x.sess.tailAt x.sess.eventSize i) =
        metricTaker (L.metrics log x.sess.total)
          (s'.host.setIndices ⟨val, x.sess.idx⟩ (t.mapNorm ν') x.sess.ctl.metric) fuel
          (x.sess.eventAt x.sess.eventSize i) (x.sess.tailAt x.sess.eventSize i) := by
      unfold metricTaker
      rw [(h3.device s'.host).1, (h3.device s'.host).2]
    rw [hmt]
    have := C23_tree_metric log x.sess L sem ⟨val, x.sess.idx⟩ (t.mapNorm ν') s'.host fuel
      (Nat.le_trans (Nat.le_of_eq (mapNorm_size ν' t)) hfuel) (sound_wf ν' t ht) x.sess.eventSize i v hv1
    have hnorm : (t.mapNorm ν').node.norm = ν' t.node.oid := by cases t; rfl
    refine this.trans ((congrArg (fun z => Sess.valueAt log (denote sem ⟨val, x.sess.idx⟩ (t.mapNorm ν')) z
      x.sess x.sess.eventSize i) hnorm).trans ?_)
    rw [hT i hi _ _ v hv1, hv2]
  have hcol := collect_eq _ _ _ hval
  have hnl : s.fcn log x cfg fuel t val = if shape = 0 then .aborted else
      match t.node.fn with
      | .addExt =>
        .done (shape + ((((t.node.params.map val).take t.comps.length).foldl (· + ·) 0) - x.numEvents *
          log (((t.node.params.map val).take t.comps.length).foldl (· + ·) 0)), s'.sync)
      | _ => .done (shape, s'.sync) := by
    unfold Machine.fcn Machine.calculateNLL
    rw [e1]
    simp only [Ran.andThen]
    rw [h2.norm t (node_mem_subtrees t)]
    dsimp only
    rw [if_neg (not_le.2 hpos), hent, hcol]
    rfl
  rw [hnl]
  constructor
  · intro h0
    rw [if_pos h0]
  · intro h0
    rw [if_neg h0]
    refine ⟨s'.sync, ?_⟩
    have hsum : ∀ (l : List K) (a : K), l.foldl (· + ·) a = a + l.sum := by
      intro l
      induction l with
      | nil => intro a; simp
      | cons y l ih => intro a; rw [List.foldl_cons, ih, List.sum_cons]; ring
    cases hk : t.node.fn with
    | addExt =>
      have hl : t.node.params.length = t.comps.length := by
        obtain ⟨n, cs⟩ := t
        have hk' : n.fn = .addExt := hk
        rw [SumProduct.eq_def] at ht
        simp only [hk'] at ht
        exact ht.1
      simp only [yieldsOf, hk]
      rw [List.take_of_length_le (by rw [List.length_map, hl]), hsum, zero_add, hnum]
    | _ => simp only [yieldsOf, hk, add_zero]

/-- one call, from any arrays that hold the tree -/
theorem fcn_sound (log : K → K) (x₀ : ExtSess K) (hnd : x₀.sess.obs.Nodup) (hlen : x₀.sess.obs.length ≤ 10)
    (d : Data K) (x : ExtSess K) (hx : x = x₀.setData (some d))
    (hm : Matches x.sess.ctl d) (hctl : x.sess.ctl ≠ .eval ∧ x.sess.ctl ≠ .binnedError)
    (hev : x.sess.ctl = .binnedNll ∨ x.sess.ctl = .binnedChisq → numEvents d = (entries d : K))
    (cfg : NormSetup (L.metrics log x.sess.total)) (sem : LeafSem K (L.metrics log x.sess.total))
    (val : Nat → K) (f : Nat → K → K) (t : Pdf (L.metrics log x.sess.total)) (hn : t.oids.Nodup)
    (ht : SumProduct cfg sem val x.sess.idx f x.sess.obs t) (hdef : ∀ i < entries d, DefinedAt f (coord d i) t)
    (fuel : Nat) (hfuel : t.size ≤ fuel) (val₀ : Nat → K) (ν δ : Nat → K) (s : Machine (L.metrics log x.sess.total))
    (h : Holds ⟨val₀, x.sess.idx⟩ t x.sess.ctl.metric ν δ s) :
    let shape := ((List.range (entries d)).map fun i =>
      entryTerm log x.sess.ctl d i (density cfg val f t (coord d i)) 0).sum
    (shape = 0 → s.fcn log x cfg fuel t val = .aborted) ∧
    (shape ≠ 0 → ∃ s', s.fcn log x cfg fuel t val =
      .done (objective log x.sess.ctl d (density cfg val f t) (yieldsOf val t), s')) := by
  refine fcn_sound_gen log x₀ hnd hlen d x hx hm (fun i p => entryTerm log x.sess.ctl d i p 0) ?_ cfg sem val f t hn ht hdef
    fuel hfuel val₀ ν δ s h
  intro i hi pdf norm v hv
  have hsess : x.sess = x₀.sess.setData (some d) := by rw [hx]; rfl
  have hf := C23_metric_formula_partial log pdf norm x₀.sess hnd d i hi v (by rw [← hsess]; exact hm)
    (by rw [← hsess]; exact hev) (by rw [← hsess]; exact hv)
  rw [← hsess] at hf
  rw [hf, entryTerm_raw log _ hctl d i _ v 0]

/-- an earlier call leaves the arrays holding the tree -/
theorem fcn_holds (log : K → K) (x : ExtSess K) (cfg : NormSetup (L.metrics log x.sess.total)) (fuel : Nat)
    (t : Pdf (L.metrics log x.sess.total)) (hn : t.oids.Nodup) (val val₀ : Nat → K) (ν δ : Nat → K)
    (s : Machine (L.metrics log x.sess.total)) (h : Holds ⟨val₀, x.sess.idx⟩ t x.sess.ctl.metric ν δ s)
    (r : K) (s' : Machine (L.metrics log x.sess.total)) (he : s.fcn log x cfg fuel t val = .done (r, s')) :
    ∃ ν' δ', Holds ⟨val, x.sess.idx⟩ t x.sess.ctl.metric ν' δ' s' := by
  have h1 := h.update ⟨val, x.sess.idx⟩ rfl
  unfold Machine.fcn Machine.calculateNLL at he
  obtain ⟨p, hp, he⟩ := Ran.andThen_done he
  obtain ⟨ν1, δ1, h2⟩ := normalize_holds cfg val fuel hn t ν δ _ p.1 p.2 (fun _ hw => hw) h1 hp
  refine ⟨ν1, ν1, ?_⟩
  dsimp only at he
  split at he
  · exact absurd he (by simp)
  · split at he
    · exact absurd he (by simp)
    · split at he
      · exact absurd he (by simp)
      · split at he
        · exact absurd he (by simp)
        · split at he
          all_goals
            simp only [Ran.done.injEq, Prod.mk.injEq] at he
            rw [← he.2]
            exact h2.sync

theorem fcnAll_holds (log : K → K) (x : ExtSess K) (cfg : NormSetup (L.metrics log x.sess.total)) (fuel : Nat)
    (t : Pdf (L.metrics log x.sess.total)) (hn : t.oids.Nodup) :
    ∀ (vals : List (Nat → K)) (val₀ : Nat → K) (ν δ : Nat → K) (s : Machine (L.metrics log x.sess.total)),
      Holds ⟨val₀, x.sess.idx⟩ t x.sess.ctl.metric ν δ s →
      ∀ (rs : List K) (s' : Machine (L.metrics log x.sess.total)),
        s.fcnAll log x cfg fuel t vals = .done (rs, s') →
        ∃ val₁ ν' δ', Holds ⟨val₁, x.sess.idx⟩ t x.sess.ctl.metric ν' δ' s'
  | [], val₀, ν, δ, s, h, rs, s', he => by
    simp only [Machine.fcnAll, Ran.done.injEq, Prod.mk.injEq] at he
    rw [← he.2]
    exact ⟨val₀, ν, δ, h⟩
  | val :: vals, val₀, ν, δ, s, h, rs, s', he => by
    rw [Machine.fcnAll] at he
    obtain ⟨p, hp, he⟩ := Ran.andThen_done he
    obtain ⟨q, hq, he⟩ := Ran.andThen_done he
    obtain ⟨ν1, δ1, h1⟩ := fcn_holds log x cfg fuel t hn val val₀ ν δ s h p.1 p.2 hp
    simp only [Ran.done.injEq, Prod.mk.injEq] at he
    rw [← he.2]
    exact fcnAll_holds log x cfg fuel t hn vals val ν1 δ1 p.2 h1 q.1 q.2 hq

/-- **C86, partial.** A PDF tree of basic PDFs of one observable each, sums, extended sums, sums with common
normalisation of basic PDFs, sums whose weights are observables, maps, products of PDFs of different observables, products of basic PDFs
of one observable and composites of two basic PDFs of one observable, all distinct objects, gets
data at whose entries the density is defined (map functions choose existing components).  The minimiser makes any number of calls at any parameter values, none of which stops the program.
Whatever they were, the next call, at values `val`, returns the sum over the entries of the data of the
fit control's formula with the tree's normalised density there, plus the Poisson term of the total
yield if the root is an extended sum; it stops the program exactly if the sum without the Poisson
term is zero.  Missing: other classes of PDF, more than ten observables, the violations of C23-C26. -/
theorem C86_objective_partial (log : K → K) (x₀ : ExtSess K) (hnd : x₀.sess.obs.Nodup)
    (hlen : x₀.sess.obs.length ≤ 10) (d : Data K) :
    let x := x₀.setData (some d)
    Matches x.sess.ctl d → x.sess.ctl ≠ .eval ∧ x.sess.ctl ≠ .binnedError →
    (x.sess.ctl = .binnedNll ∨ x.sess.ctl = .binnedChisq → numEvents d = (entries d : K)) →
    ∀ (cfg : NormSetup (L.metrics log x.sess.total)) (t : Pdf (L.metrics log x.sess.total))
      (h₀ : Host (L.metrics log x.sess.total)) (fuel : Nat) (val₀ : Nat → K) (vals : List (Nat → K))
      (rs : List K) (s : Machine (L.metrics log x.sess.total)),
    ((nodes t).map Node.oid).Nodup → t.size ≤ fuel →
    (Machine.start log x val₀ t h₀).fcnAll log x cfg fuel t vals = .done (rs, s) →
    ∀ (sem : LeafSem K (L.metrics log x.sess.total)) (val : Nat → K) (f : Nat → K → K),
    SumProduct cfg sem val x.sess.idx f x.sess.obs t → (∀ i < entries d, DefinedAt f (coord d i) t) →
    let shape := ((List.range (entries d)).map fun i =>
      entryTerm log x.sess.ctl d i (density cfg val f t (coord d i)) 0).sum
    (shape = 0 → s.fcn log x cfg fuel t val = .aborted) ∧
    (shape ≠ 0 → ∃ s', s.fcn log x cfg fuel t val =
      .done (objective log x.sess.ctl d (density cfg val f t) (yieldsOf val t), s')) := by
  intro x hm hctl hev cfg t h₀ fuel val₀ vals rs s hobj hfuel hall sem val f ht hdef
  have hn : t.oids.Nodup := by
    rw [oids_eq_map]
    simpa [nodes, List.map_map, Function.comp_def] using hobj
  obtain ⟨ν, hν⟩ := Holds.start ⟨val₀, x.sess.idx⟩ t x.sess.ctl.metric h₀ hn
  obtain ⟨val₁, ν1, δ1, h1⟩ := fcnAll_holds log x cfg fuel t hn vals val₀ ν ν _ hν rs s hall
  exact fcn_sound log x₀ hnd hlen d x rfl hm hctl hev cfg sem val f t hn ht hdef fuel hfuel val₁ ν1 δ1 s h1

/-- the calls of a fit, when entry `i` contributes `T i p` for a density `p` there -/
theorem fcnAll_gen (log : K → K) (x₀ : ExtSess K) (hnd : x₀.sess.obs.Nodup)
    (hlen : x₀.sess.obs.length ≤ 10) (d : Data K) :
    let x := x₀.setData (some d)
    Matches x.sess.ctl d → ∀ T : Nat → K → K,
    (∀ i < entries d, ∀ (pdf : Evt K → Option K) (norm v : K),
      pdf (x.sess.eventAt x.sess.eventSize i) = some v →
      x.sess.valueAt log pdf norm x.sess.eventSize i = some (T i (v * norm))) →
    ∀ (cfg : NormSetup (L.metrics log x.sess.total)) (t : Pdf (L.metrics log x.sess.total))
      (h₀ : Host (L.metrics log x.sess.total)) (fuel : Nat) (val₀ : Nat → K) (vals : List (Nat → K)),
    ((nodes t).map Node.oid).Nodup → t.size ≤ fuel →
    ∀ (sem : LeafSem K (L.metrics log x.sess.total)) (f : (Nat → K) → Nat → K → K),
    (∀ val ∈ vals, SumProduct cfg sem val x.sess.idx (f val) x.sess.obs t ∧
      (∀ i < entries d, DefinedAt (f val) (coord d i) t) ∧
      ((List.range (entries d)).map fun i => T i (density cfg val (f val) t (coord d i))).sum ≠ 0) →
    ∃ s, (Machine.start log x val₀ t h₀).fcnAll log x cfg fuel t vals =
      .done (vals.map fun val => ((List.range (entries d)).map fun i => T i (density cfg val (f val) t (coord d i))).sum + (match yieldsOf val t with
        | none => 0
        | some ws => ws.sum - numEvents d * log ws.sum), s) := by
  intro x hm T hT cfg t h₀ fuel val₀ vals hobj hfuel sem f hall
  have hn : t.oids.Nodup := by
    rw [oids_eq_map]
    simpa [nodes, List.map_map, Function.comp_def] using hobj
  obtain ⟨ν, hν⟩ := Holds.start ⟨val₀, x.sess.idx⟩ t x.sess.ctl.metric h₀ hn
  have key : ∀ (vals : List (Nat → K)) (val₀ ν δ : Nat → K) (s : Machine (L.metrics log x.sess.total)),
      Holds ⟨val₀, x.sess.idx⟩ t x.sess.ctl.metric ν δ s →
      (∀ val ∈ vals, SumProduct cfg sem val x.sess.idx (f val) x.sess.obs t ∧
        (∀ i < entries d, DefinedAt (f val) (coord d i) t) ∧
        ((List.range (entries d)).map fun i => T i (density cfg val (f val) t (coord d i))).sum ≠ 0) →
      ∃ s', s.fcnAll log x cfg fuel t vals =
        .done (vals.map fun val =>
          ((List.range (entries d)).map fun i => T i (density cfg val (f val) t (coord d i))).sum + (match yieldsOf val t with
        | none => 0
        | some ws => ws.sum - numEvents d * log ws.sum), s') := by
    intro vals
    induction vals with
    | nil => intro _ _ _ s _ _; exact ⟨s, rfl⟩
    | cons val vals ih =>
      intro val₀ ν δ s h hall
      obtain ⟨ht, hdef, h0⟩ := hall val (by simp)
      obtain ⟨s1, e1⟩ := (fcn_sound_gen log x₀ hnd hlen d x rfl hm T hT cfg sem val (f val) t hn ht hdef fuel hfuel
        val₀ ν δ s h).2 h0
      obtain ⟨ν1, δ1, h1⟩ := fcn_holds log x cfg fuel t hn val val₀ ν δ s h _ s1 e1
      obtain ⟨s2, e2⟩ := ih val ν1 δ1 s1 h1 (fun v hv => hall v (by simp [hv]))
      refine ⟨s2, ?_⟩
      rw [Machine.fcnAll, e1]
      show (s1.fcnAll log x cfg fuel t vals).andThen _ = _
      rw [e2]
      rfl
  exact key vals val₀ ν ν _ hν hall

/-- **C86, partial**, for all calls: the minimiser gets the function above at each of the points it asks
for, in any order and as often as it asks, as long as the sum over the data is nowhere zero. -/
theorem C86_every_call_partial (log : K → K) (x₀ : ExtSess K) (hnd : x₀.sess.obs.Nodup)
    (hlen : x₀.sess.obs.length ≤ 10) (d : Data K) :
    let x := x₀.setData (some d)
    Matches x.sess.ctl d → x.sess.ctl ≠ .eval ∧ x.sess.ctl ≠ .binnedError →
    (x.sess.ctl = .binnedNll ∨ x.sess.ctl = .binnedChisq → numEvents d = (entries d : K)) →
    ∀ (cfg : NormSetup (L.metrics log x.sess.total)) (t : Pdf (L.metrics log x.sess.total))
      (h₀ : Host (L.metrics log x.sess.total)) (fuel : Nat) (val₀ : Nat → K) (vals : List (Nat → K)),
    ((nodes t).map Node.oid).Nodup → t.size ≤ fuel →
    ∀ (sem : LeafSem K (L.metrics log x.sess.total)) (f : (Nat → K) → Nat → K → K),
    (∀ val ∈ vals, SumProduct cfg sem val x.sess.idx (f val) x.sess.obs t ∧
      (∀ i < entries d, DefinedAt (f val) (coord d i) t) ∧
      ((List.range (entries d)).map fun i =>
        entryTerm log x.sess.ctl d i (density cfg val (f val) t (coord d i)) 0).sum ≠ 0) →
    ∃ s, (Machine.start log x val₀ t h₀).fcnAll log x cfg fuel t vals =
      .done (vals.map fun val => objective log x.sess.ctl d (density cfg val (f val) t) (yieldsOf val t), s) := by
  intro x hm hctl hev cfg t h₀ fuel val₀ vals hobj hfuel sem f hall
  refine fcnAll_gen log x₀ hnd hlen d hm (fun i p => entryTerm log x.sess.ctl d i p 0) ?_ cfg t h₀ fuel val₀ vals hobj hfuel
    sem f hall
  intro i hi pdf norm v hv
  have hf := C23_metric_formula_partial log pdf norm x₀.sess hnd d i hi v hm hev hv
  exact hf.trans (congrArg some (entryTerm_raw log _ hctl d i _ v 0))

/-- The numbers a sequence of calls returned. -/
def Ran.numbers {α : Type} : Ran (List K × α) → Option (List K)
  | .done (rs, _) => some rs
  | _ => none

namespace Demo

/-- Two events, at 1 and 3. -/
def lhData : Data ℚ := .unbinned 2 (fun i _ => if i = 0 then 1 else 3)
/-- The session with that data. -/
def lhSess : ExtSess ℚ := (ExtSess.fresh [0] (fun _ => -1)).setData (some lhData)
/-- A stand-in for the logarithm. -/
def lhLog (y : ℚ) : ℚ := y - 1
/-- The demo library with the metrics. -/
abbrev lhLib : Lib ℚ := lib.metrics lhLog lhSess.sess.total
/-- Meaning of its basic PDFs. -/
def lhSem : LeafSem ℚ lhLib := sem
/-- Observable 0 from 0 to 4 in four bins; nothing else set. -/
def lhCfg : NormSetup lhLib :=
  ⟨fun _ => (0, 4, 4), fun _ => -1, ⟨fun _ => false, fun _ => false⟩, fun _ _ _ => none⟩
/-- A linear basic PDF. -/
def lhLin (oid : Nat) : Pdf lhLib := .mk ⟨oid, .leaf Leaf.lin, [1], [], [0], 1⟩ []
/-- The observable itself. -/
def lhVal (oid : Nat) : Pdf lhLib := .mk ⟨oid, .leaf Leaf.val, [], [], [0], 1⟩ []
/-- `AddPdf(v0; lin, ProdPdf(lin, val))`. -/
def lhTree : Pdf lhLib :=
  .mk ⟨0, .add, [0], [], [0], 1⟩ [lhLin 1, .mk ⟨2, .prod, [], [2], [0], 1⟩ [lhLin 3, lhVal 4]]
/-- The values of the basic PDFs. -/
def lhF (val : Nat → ℚ) (oid : Nat) (X : ℚ) : ℚ := if oid = 4 then X else val 1 * X
/-- Fraction `a`, slope `b`. -/
def lhPoint (a b : ℚ) : Nat → ℚ := fun v => if v = 0 then a else b
/-- Nothing in the arrays. -/
def lhHost : Host lhLib := ⟨⟨[], [], [], []⟩, [], fun _ => ⟨0, 0, 0, 0, 0⟩⟩

theorem lh_idx : lhSess.sess.idx 0 = 0 := by decide

theorem lhLin_ok (oid : Nat) (h : oid ≠ 4) (val : Nat → ℚ) :
    BasicOK lhSem val lhSess.sess.idx (lhF val) lhSess.sess.obs Leaf.lin (lhLin oid).node 0 := by
  refine ⟨rfl, by decide, lin_ok (val 1) _, ?_⟩
  intro e X he
  show (at_ e (lhSess.sess.idx 0)).map (val 1 * ·) = _
  rw [he]
  show some (val 1 * X) = some (if oid = 4 then X else val 1 * X)
  rw [if_neg h]

theorem lhVal_ok (val : Nat → ℚ) :
    BasicOK lhSem val lhSess.sess.idx (lhF val) lhSess.sess.obs Leaf.val (lhVal 4).node 0 :=
  ⟨rfl, by decide, val_ok _, fun _ _ he => he⟩

theorem lhLin_integral (val : Nat → ℚ) (oid : Nat) (h : oid ≠ 4) :
    basicIntegral lhCfg val (lhF val) (lhLin oid).node Leaf.lin 0 = 8 * val 1 := by
  show gridIntegral1 0 4 4 (lhF val oid) = _
  unfold gridIntegral1 lhF cellCenter
  simp only [if_neg h, List.range, List.range.loop, List.map_cons, List.map_nil, List.sum_cons, List.sum_nil]
  norm_num
  ring

theorem lhProd_integral (val : Nat → ℚ) :
    gridOver lhCfg 2 0 (fun X => ([lhLin 3, lhVal 4].map fun c => lhF val c.node.oid X).prod) = 21 * val 1 := by
  show gridIntegral1 0 4 4 _ = _
  unfold gridIntegral1 cellCenter
  simp only [List.range, List.range.loop, List.map_cons, List.map_nil, List.sum_cons, List.sum_nil,
    List.prod_cons, List.prod_nil, lhLin, lhVal, Pdf.node, lhF]
  norm_num
  ring

/-- The tree meets the hypotheses at every point with a positive slope. -/
theorem lh_sound (val : Nat → ℚ) (h : 0 < val 1) :
    SumProduct lhCfg lhSem val lhSess.sess.idx (lhF val) lhSess.sess.obs lhTree := by
  have hg : ∀ oid, HasGrid lhCfg oid 0 := fun oid => ⟨by decide +kernel, by show 0 < 4; decide⟩
  refine ⟨rfl, fun h => absurd h (by decide), ⟨rfl, 0, lhLin_ok 1 (by decide) val, hg _, ?_⟩, ⟨rfl, rfl, ?_⟩, trivial⟩
  · exact (lhLin_integral val 1 (by decide)).symm ▸ (by linarith)
  · rw [if_pos ⟨rfl, by decide⟩]
    refine ⟨0, rfl, hg _, ?_, ?_⟩
    · intro c hc
      rcases List.mem_cons.1 hc with rfl | hc
      · exact ⟨rfl, Leaf.lin, rfl, rfl, lhLin_ok 3 (by decide) val⟩
      · rcases List.mem_cons.1 hc with rfl | hc
        · exact ⟨rfl, Leaf.val, rfl, rfl, lhVal_ok val⟩
        · exact absurd hc (by simp)
    · exact (lhProd_integral val).symm ▸ (by linarith)

/-- The hypotheses are met, and three calls at two points return the same numbers as the specification: the
second one is not the first one's. -/
example : Matches lhSess.sess.ctl lhData ∧ lhSess.sess.ctl = .unbinnedNll ∧
    ((nodes lhTree).map Node.oid).Nodup ∧ lhTree.size = 5 ∧
    ((Machine.start lhLog lhSess (lhPoint 0 1) lhTree lhHost).fcnAll lhLog lhSess lhCfg 5 lhTree
      [lhPoint (1/2) 2, lhPoint (1/4) 3, lhPoint (1/2) 2]).numbers =
      some ([lhPoint (1/2) 2, lhPoint (1/4) 3, lhPoint (1/2) 2].map fun val =>
        objective lhLog .unbinnedNll lhData (density lhCfg val (lhF val) lhTree) (yieldsOf val lhTree)) ∧
    objective lhLog .unbinnedNll lhData (density lhCfg (lhPoint (1/2) 2) (lhF (lhPoint (1/2) 2)) lhTree)
      (yieldsOf (lhPoint (1/2) 2) lhTree) ≠
    objective lhLog .unbinnedNll lhData (density lhCfg (lhPoint (1/4) 3) (lhF (lhPoint (1/4) 3)) lhTree)
      (yieldsOf (lhPoint (1/4) 3) lhTree) := by
  refine ⟨rfl, rfl, by decide, rfl, by decide +kernel, by decide +kernel⟩

/-- Two events: observable 0 at 1 and 3, observable 1 (a category, and a weight) at 0 and 1. -/
def lmData : Data ℚ := .unbinned 2 (fun i o => if o = 1 then i else if i = 0 then 1 else 3)
/-- The session with that data. -/
def lmSess : ExtSess ℚ := (ExtSess.fresh [0, 1] (fun _ => -1)).setData (some lmData)
/-- The demo library with the metrics. -/
abbrev lmLib : Lib ℚ := lib.metrics lhLog lmSess.sess.total
/-- Meaning of its basic PDFs. -/
def lmSem : LeafSem ℚ lmLib := sem
/-- Observable 0 from 0 to 4 in four bins, object 2 with common normalisation. -/
def lmCfg : NormSetup lmLib :=
  ⟨fun _ => (0, 4, 4), fun _ => -1, ⟨fun o => o == 2, fun _ => false⟩, fun _ _ _ => none⟩
/-- A linear basic PDF. -/
def lmLin (oid : Nat) : Pdf lmLib := .mk ⟨oid, .leaf Leaf.lin, [1], [], [0], 1⟩ []
/-- Observable `o` itself. -/
def lmVal (oid o : Nat) : Pdf lmLib := .mk ⟨oid, .leaf Leaf.val, [], [], [o], 1⟩ []
/-- A map by observable 1 with two targets: a sum with common normalisation, and a sum weighted with observable 1
of a basic PDF and a composite. -/
def lmTree : Pdf lmLib :=
  .mk ⟨0, .mapped, [], [2, 3, 5], [1, 0], 1⟩ [lmVal 1 1,
    .mk ⟨2, .add, [0], [], [0], 1⟩ [lmLin 3, lmVal 4 0],
    .mk ⟨5, .evtAdd, [], [2], [1, 0], 1⟩ [lmLin 6, .mk ⟨7, .composite, [], [], [0], 1⟩ [lmVal 8 0, lmLin 9]]]
/-- The values of the basic PDFs. -/
def lmF (val : Nat → ℚ) (oid : Nat) (X : ℚ) : ℚ := if oid = 3 ∨ oid = 6 ∨ oid = 9 then val 1 * X else X
/-- Nothing in the arrays. -/
def lmHost : Host lmLib := ⟨⟨[], [], [], []⟩, [], fun _ => ⟨0, 0, 0, 0, 0⟩⟩

theorem lmLin_ok (oid : Nat) (h : oid = 3 ∨ oid = 6 ∨ oid = 9) (val : Nat → ℚ) :
    BasicOK lmSem val lmSess.sess.idx (lmF val) lmSess.sess.obs Leaf.lin (lmLin oid).node 0 := by
  refine ⟨rfl, by decide, lin_ok (val 1) _, ?_⟩
  intro e X he
  show (at_ e (lmSess.sess.idx 0)).map (val 1 * ·) = _
  rw [he]
  show some (val 1 * X) = some (if oid = 3 ∨ oid = 6 ∨ oid = 9 then val 1 * X else X)
  rw [if_pos h]

theorem lmVal_ok (oid o : Nat) (ho : o ∈ lmSess.sess.obs) (h : ¬ (oid = 3 ∨ oid = 6 ∨ oid = 9)) (val : Nat → ℚ) :
    BasicOK lmSem val lmSess.sess.idx (lmF val) lmSess.sess.obs Leaf.val (lmVal oid o).node o := by
  refine ⟨rfl, ho, val_ok _, ?_⟩
  intro e X he
  show at_ e (lmSess.sess.idx o) = some (if oid = 3 ∨ oid = 6 ∨ oid = 9 then val 1 * X else X)
  rw [he, if_neg h]

/-- The tree meets the hypotheses: fraction 1/4, slope 3. -/
theorem lm_sound : SumProduct lmCfg lmSem (lhPoint (1/4) 3) lmSess.sess.idx (lmF (lhPoint (1/4) 3)) lmSess.sess.obs lmTree := by
  have hg : ∀ oid, HasGrid lmCfg oid 0 := fun oid => ⟨by decide +kernel, by show 0 < 4; decide⟩
  have hlin : ∀ oid, oid = 3 ∨ oid = 6 ∨ oid = 9 → SumProduct lmCfg lmSem (lhPoint (1/4) 3) lmSess.sess.idx
      (lmF (lhPoint (1/4) 3)) lmSess.sess.obs (lmLin oid) := by
    intro oid h
    refine ⟨rfl, 0, lmLin_ok oid h _, hg _, ?_⟩
    rcases h with rfl | rfl | rfl <;> decide +kernel
  have hval : ∀ oid, oid = 4 ∨ oid = 8 → SumProduct lmCfg lmSem (lhPoint (1/4) 3) lmSess.sess.idx
      (lmF (lhPoint (1/4) 3)) lmSess.sess.obs (lmVal oid 0) := by
    intro oid h
    refine ⟨rfl, 0, lmVal_ok oid 0 (by decide) (by omega) _, hg _, ?_⟩
    rcases h with rfl | rfl <;> decide +kernel
  refine ⟨by decide +kernel, ⟨Leaf.val, 1, rfl, rfl, lmVal_ok 1 1 (by decide) (by decide) _⟩, ?_, ?_, trivial⟩
  · refine ⟨rfl, fun _ => ⟨?_, by decide +kernel⟩, hlin 3 (by simp), hval 4 (by simp), trivial⟩
    intro c hc
    rcases List.mem_cons.1 hc with rfl | hc
    · exact ⟨Leaf.lin, rfl⟩
    · rcases List.mem_cons.1 hc with rfl | hc
      · exact ⟨Leaf.val, rfl⟩
      · exact absurd hc (by simp)
  · refine ⟨rfl, by decide +kernel, by decide, by decide, by decide, hlin 6 (by simp), ?_, trivial⟩
    refine ⟨⟨0, lmVal 8 0, lmLin 9, rfl, rfl, rfl, rfl, ⟨Leaf.val, rfl⟩, ⟨Leaf.lin, rfl⟩, hg _, by decide +kernel⟩,
      hval 8 (by simp), hlin 9 (by simp), trivial⟩

/-- The map function chooses an existing component at both events. -/
theorem lm_defined : ∀ i < entries lmData, DefinedAt (lmF (lhPoint (1/4) 3)) (coord lmData i) lmTree := by
  intro i hi
  have : i = 0 ∨ i = 1 := by
    have : i < 2 := hi
    omega
  rcases this with rfl | rfl
  · refine ⟨by decide +kernel, ?_⟩
    have : (chosen (lmF (lhPoint (1/4) 3)) (coord lmData 0) (lmVal 1 1)).toNat = 0 := by decide +kernel
    show DefinedNth _ _ (chosen (lmF (lhPoint (1/4) 3)) (coord lmData 0) (lmVal 1 1)).toNat _
    rw [this]
    exact ⟨trivial, trivial, trivial⟩
  · refine ⟨by decide +kernel, ?_⟩
    have : (chosen (lmF (lhPoint (1/4) 3)) (coord lmData 1) (lmVal 1 1)).toNat = 1 := by decide +kernel
    show DefinedNth _ _ (chosen (lmF (lhPoint (1/4) 3)) (coord lmData 1) (lmVal 1 1)).toNat _
    rw [this]
    exact ⟨trivial, trivial, trivial⟩

/-- The hypotheses are met, and what is returned is what the specification says: the first event's density is
`(1/4·3·1 + 3/4·1) / (1/4·24 + 3/4·8)`, the second's, with weight one, `3·3 / 24`. -/
example : Matches lmSess.sess.ctl lmData ∧ ((nodes lmTree).map Node.oid).Nodup ∧ lmTree.size = 10 ∧
    density lmCfg (lhPoint (1/4) 3) (lmF (lhPoint (1/4) 3)) lmTree (coord lmData 0) = 1/8 ∧
    density lmCfg (lhPoint (1/4) 3) (lmF (lhPoint (1/4) 3)) lmTree (coord lmData 1) = 3/8 ∧
    ((Machine.start lhLog lmSess (lhPoint 0 1) lmTree lmHost).fcnAll lhLog lmSess lmCfg 10 lmTree
      [lhPoint (1/4) 3]).numbers =
      some [objective lhLog .unbinnedNll lmData (density lmCfg (lhPoint (1/4) 3) (lmF (lhPoint (1/4) 3)) lmTree) none] := by
  refine ⟨rfl, by decide, rfl, by decide +kernel, by decide +kernel, by decide +kernel⟩

/-- The same PDF object in both places of a sum. -/
def lhTwice : Pdf lhLib := .mk ⟨0, .add, [0], [], [0], 1⟩ [lhLin 1, lhLin 1]

end Demo

/-- **C86 (violated by the code)** when one PDF object is used twice in the tree: `normalize()` writes the
normalisation to the object's last place in the arrays only, the first keeps the one, so that
the sum of a PDF with itself is not that PDF. -/
theorem C86_violation_shared_component :
    SumProduct Demo.lhCfg Demo.lhSem (Demo.lhPoint (1/2) 2) Demo.lhSess.sess.idx (Demo.lhF (Demo.lhPoint (1/2) 2))
      Demo.lhSess.sess.obs Demo.lhTwice ∧
    objective Demo.lhLog .unbinnedNll Demo.lhData
      (density Demo.lhCfg (Demo.lhPoint (1/2) 2) (Demo.lhF (Demo.lhPoint (1/2) 2)) Demo.lhTwice) none = 3/2 ∧
    ((Machine.start Demo.lhLog Demo.lhSess (Demo.lhPoint (1/2) 2) Demo.lhTwice Demo.lhHost).fcnAll Demo.lhLog
      Demo.lhSess Demo.lhCfg 5 Demo.lhTwice [Demo.lhPoint (1/2) 2]).numbers = some [-9/4] := by
  have hg : ∀ oid, HasGrid Demo.lhCfg oid 0 := fun oid => ⟨by decide +kernel, by show 0 < 4; decide⟩
  have hl : SumProduct Demo.lhCfg Demo.lhSem (Demo.lhPoint (1/2) 2) Demo.lhSess.sess.idx
      (Demo.lhF (Demo.lhPoint (1/2) 2)) Demo.lhSess.sess.obs (Demo.lhLin 1) := by
    refine ⟨rfl, 0, Demo.lhLin_ok 1 (by decide) _, hg _, ?_⟩
    refine (Demo.lhLin_integral _ 1 (by decide)).symm ▸ ?_
    decide +kernel
  refine ⟨⟨rfl, fun h => absurd h (by decide), hl, hl, trivial⟩, by decide +kernel, by decide +kernel⟩

end GooFit
