import Verif.Lemmas.Values
/-!
# What a PDF answers when asked for values: C90
-/
set_option autoImplicit false
namespace GooFit
open Spec
variable {K : Type} [Field K] [LinearOrder K] [IsStrictOrderedRing K] [FloorRing K]
attribute [local instance] FpOps.ofField
variable {L : Lib K}

theorem accepts_iff {log : K → K} {N : Nat} (cfg : NormSetup (L.metrics log N)) (os : List Nat) (x : Nat → K) :
    Asked.accepts cfg os x = true ↔ ∀ o ∈ os, Allowed (cfg.range o) (x o) := by
  unfold Asked.accepts
  rw [List.all_eq_true]
  refine forall_congr' fun o => forall_congr' fun _ => ?_
  unfold Asked.inRange Allowed
  simp only [Bool.or_eq_true, Bool.and_eq_true, decide_eq_true_eq]
  constructor
  · rintro (h | h)
    · exact Or.inl h.symm
    · exact Or.inr ⟨h.2, h.1⟩
  · rintro (h | h)
    · exact Or.inl h.symm
    · exact Or.inr ⟨h.2, h.1⟩

section
variable {log : K → K} {N : Nat} {cfg : NormSetup (L.metrics log N)} {sem : LeafSem K (L.metrics log N)}
  {val : Nat → K} {f : Nat → K → K}

/-- after a fit control was set and the tree normalised, data of points are evaluated -/
theorem normalized_control (s₀ : Sess K) (hnd : s₀.obs.Nodup) (hlen : s₀.obs.length ≤ 10) (d : Option (Data K))
    (s : Asked (L.metrics log N)) (hs : s.sess = s₀.setData d) (t : Pdf (L.metrics log N)) (hn : t.oids.Nodup)
    (ht : SumProduct cfg sem val s.sess.idx f s.sess.obs t) (fuel : Nat) (hfuel : t.size ≤ fuel) (c : Control) :
    ∃ r s' δ, (s.setFitControl val t c).normalize cfg val fuel t = .done (r, s') ∧
      s'.sess = s.sess.setFitControl c ∧
      Holds ⟨val, s.sess.idx⟩ t (c.metric : (L.metrics log N).Metric) s'.cache δ s'.arr ∧
      s'.cache t.node.oid = 1 / ownIntegral cfg val f t ∧ 0 < s'.cache t.node.oid ∧
      Gives cfg sem val s.sess.idx f s.sess.obs s'.cache t := by
  have hobs : s.sess.obs = s₀.obs := by rw [hs, setData_obs]
  have hidx : ∀ o ∈ s.sess.obs, 0 ≤ s.sess.idx o ∧ s.sess.idx o < 10 := by
    rw [hobs, hs]; exact numbered_small (numbered_setData s₀ hnd d) hlen
  exact asked_normalize t hn (s.setFitControl val t c) ht hidx fuel hfuel _ _ _
    (flatten_holds val c t hn { s with sess := s.sess.setFitControl c })

/-- points put in as data after that, with the normalisations kept -/
theorem points_holds (s₀ : Sess K) (hnd : s₀.obs.Nodup) (d : Option (Data K)) (idx : Nat → Int)
    (hidx : idx = (s₀.setData d).idx) (c : Control) (hc : c.binnedFit = false)
    (s : Asked (L.metrics log N)) (hs : s.sess = (s₀.setData d).setFitControl c) (t : Pdf (L.metrics log N))
    (hn : t.oids.Nodup) (num : Nat) (value : Nat → Nat → K) :
    (s.setData val t (some (.unbinned num value))).sess.idx = idx ∧
    (s.setData val t (some (.unbinned num value))).sess.obs = s₀.obs ∧
    (s.setData val t (some (.unbinned num value))).sess.numEntries = num ∧
    (s.setData val t (some (.unbinned num value))).cache = s.cache ∧
    Holds ⟨val, idx⟩ t (c.metric : (L.metrics log N).Metric) s.cache s.cache
      (s.setData val t (some (.unbinned num value))).arr ∧
    ∀ i < num, ∀ o ∈ s₀.obs, at_ ((s.setData val t (some (.unbinned num value))).sess.eventAt s₀.obs.length i) (idx o) =
      some (value i o) := by
  have hi : (s.sess.setData (some (.unbinned num value))).idx = idx := by
    rw [hs, setData_idx_again, hidx]
  have ho : s.sess.obs = s₀.obs := by rw [hs]; exact setData_obs d s₀
  have hh := flatten_holds val (s.sess.setData (some (.unbinned num value))).ctl t hn
    { s with sess := s.sess.setData (some (.unbinned num value)) }
  have hctl : (s.sess.setData (some (.unbinned num value))).ctl = c := by rw [hs]; rfl
  refine ⟨hi, (setData_obs _ _).trans ho, rfl, rfl, ?_, ?_⟩
  · rw [← hi]
    rw [hctl] at hh
    have : s.setData val t (some (.unbinned num value)) =
      Asked.flatten val c t { s with sess := s.sess.setData (some (.unbinned num value)) } := by
      unfold Asked.setData
      dsimp only
      rw [hctl]
    rw [this]
    exact hh
  · have hnum : Numbered s₀.obs idx := by rw [hidx]; exact numbered_setData s₀ hnd d
    intro i hi'
    refine event_unbinned hnum _ num value ?_ i hi'
    show some (eventArray (setupObservables s.sess.obs 0 s.sess.idx) s.sess.obs value num) = _
    have : setupObservables s.sess.obs 0 s.sess.idx = idx := hi
    rw [this, ho]

end

theorem nodup_oids {t : Pdf L} (h : ((nodes t).map Node.oid).Nodup) : t.oids.Nodup := by
  rw [oids_eq_map]
  simpa [nodes, List.map_map, Function.comp_def] using h

/-- what the three metrics make of a value -/
theorem metric_reported (log : K → K) (N : Nat) (q : EvalFunc) (raw norm p : K) (h : raw * norm = p) (tail : Evt K) :
    (L.metrics log N).metric (q.control.metric : (L.metrics log N).Metric) raw tail norm =
      some (reported log q p raw) := by
  rw [← h]
  cases q <;> rfl

/-- **C90, partial**, `getValue`.  A PDF of the kinds of C86 that has been given data (or has had its data taken away) once, whatever
was done with the arrays and the normalisations the objects keep since: asked at a point where all observables are in
range and the density is defined, `getValue` returns the density there, the value without normalisation, or minus the logarithm of the density, for
the present values of the parameters, and the PDF still has its data; at any other point it raises an exception.
Missing: other classes of PDF, more than ten observables, PDFs that were never given data
(`C90_violation_no_data`). -/
theorem C90_value_partial (log : K → K) (N : Nat) (s₀ : Sess K) (hnd : s₀.obs.Nodup) (hlen : s₀.obs.length ≤ 10)
    (d : Option (Data K)) (s : Asked (L.metrics log N)) (hs : s.sess = s₀.setData d)
    (cfg : NormSetup (L.metrics log N)) (sem : LeafSem K (L.metrics log N)) (val : Nat → K) (f : Nat → K → K)
    (t : Pdf (L.metrics log N)) (hobj : ((nodes t).map Node.oid).Nodup)
    (ht : SumProduct cfg sem val s.sess.idx f s.sess.obs t) (fuel : Nat) (hfuel : t.size ≤ fuel) (x : Nat → K)
    (q : EvalFunc) :
    (DefinedAt f x t → (∀ o ∈ s₀.obs, Allowed (cfg.range o) (x o)) →
      ∃ s', s.getValue cfg val fuel t x q =
        .done (reported log q (density cfg val f t x) (rawValue cfg val f t x), s') ∧
        s'.sess.data = d ∧ s'.sess.obs = s₀.obs ∧ s'.sess.idx = s.sess.idx ∧
        ∃ s₁ : Sess K, s₁.obs = s₀.obs ∧ s'.sess = s₁.setData d) ∧
    (¬ (∀ o ∈ s₀.obs, Allowed (cfg.range o) (x o)) → s.getValue cfg val fuel t x q = .aborted) := by
  have hn := nodup_oids hobj
  obtain ⟨r, s2, δ, e1, hsess, h2, hown, hpos, hg⟩ :=
    normalized_control s₀ hnd hlen d s hs t hn ht fuel hfuel q.control
  have hobs : s.sess.obs = s₀.obs := by rw [hs, setData_obs]
  have hobs2 : s2.sync.sess.obs = s₀.obs := by
    show s2.sess.obs = _
    rw [hsess]; exact hobs
  constructor
  · intro hdef hx
    have hacc := (accepts_iff cfg s2.sync.sess.obs x).2 (by rw [hobs2]; exact hx)
    obtain ⟨hi, ho, hnum, _, h3, hev⟩ := points_holds (val := val) s₀ hnd d s.sess.idx (by rw [hs]) q.control
      (by cases q <;> rfl) s2.sync (by show s2.sess = _; rw [hsess, hs]) t hn 1 (fun _ => x)
    obtain ⟨norm, n1, n2⟩ := asked_taker' t s.sess.idx s.sess.obs _ ht fuel hfuel _ _ _ h3 hown hpos hg x hdef _
      ((s2.sync.setData val t (some (.unbinned 1 fun _ => x))).sess.tailAt s₀.obs.length 0)
      (by rw [hobs]; exact hev 0 (by omega))
    have hevl : (s2.sync.setData val t (some (.unbinned 1 fun _ => x))).evaluate fuel =
        some [reported log q (density cfg val f t x) (rawValue cfg val f t x)] := by
      unfold Asked.evaluate
      rw [hnum, ho]
      refine (collect_eq _ (fun _ => reported log q (density cfg val f t x) (rawValue cfg val f t x)) 1 ?_).trans rfl
      intro i hi'
      obtain rfl : i = 0 := by omega
      rw [n2]
      exact metric_reported log N q _ _ _ n1 _
    refine ⟨(s2.sync.setData val t (some (.unbinned 1 fun _ => x))).setData val t s2.sync.sess.data, ?_, ?_, ?_, ?_, ?_⟩
    · unfold Asked.getValue
      rw [e1]
      simp only [Ran.andThen]
      rw [hacc]
      simp only [Bool.not_true, Bool.false_eq_true, if_false]
      rw [hevl]
    · show (Sess.setData s2.sess.data _).data = d
      rw [setData_data, hsess, hs]
      exact setData_data d s₀
    · show (Sess.setData s2.sess.data _).obs = _
      rw [setData_obs]
      exact ho
    · show (Sess.setData s2.sess.data _).idx = _
      rw [setData_idx, ho, hi, hs, setData_idx, setupObservables_idem]
    · refine ⟨(s2.sync.setData val t (some (.unbinned 1 fun _ => x))).sess, ho, ?_⟩
      have : s2.sync.sess.data = d := by
        show s2.sess.data = d
        rw [hsess, hs]
        exact setData_data d s₀
      rw [this]
      rfl
  · intro hx
    have hacc : Asked.accepts cfg s2.sync.sess.obs x = false := by
      rw [Bool.eq_false_iff]
      intro h
      apply hx
      have := (accepts_iff cfg s2.sync.sess.obs x).1 h
      rwa [hobs2] at this
    unfold Asked.getValue
    rw [e1]
    simp only [Ran.andThen]
    rw [hacc]
    rfl

theorem center_allowed (r : K × K × Nat) (h : r.1 ≤ r.2.1) (i : Nat) (hi : i < r.2.2) :
    Allowed r (Asked.center r i) := by
  right
  unfold Asked.center
  have hn : (0 : K) < (r.2.2 : K) := by exact_mod_cast (by omega : 0 < r.2.2)
  have hi0 : (0 : K) ≤ (i : K) := Nat.cast_nonneg i
  have hi1 : (i : K) + 1 ≤ (r.2.2 : K) := by exact_mod_cast hi
  have hw : 0 ≤ r.2.1 - r.1 := sub_nonneg.2 h
  have hq : 0 ≤ (r.2.1 - r.1) / (r.2.2 : K) := div_nonneg hw hn.le
  have hm : (r.2.2 : K) * ((r.2.1 - r.1) / (r.2.2 : K)) = r.2.1 - r.1 := by field_simp
  have h1 : 0 ≤ ((i : K) + 1 / 2) * ((r.2.1 - r.1) / (r.2.2 : K)) := mul_nonneg (by linarith) hq
  have h2 : ((i : K) + 1 / 2) * ((r.2.1 - r.1) / (r.2.2 : K)) ≤ (r.2.2 : K) * ((r.2.1 - r.1) / (r.2.2 : K)) :=
    mul_le_mul_of_nonneg_right (by linarith) hq
  constructor <;> linarith

/-- **C90, partial**, `evaluateAtPoints`: a PDF as in `C90_value_partial`, the other observables in range.  The numbers returned are the
densities with observable `var` at its bin centres, in order, and the others where they are; the PDF keeps its data.
The observable itself is left at the last bin centre (`C90_violation_observable_moved`). -/
theorem C90_points_partial (log : K → K) (N : Nat) (s₀ : Sess K) (hnd : s₀.obs.Nodup) (hlen : s₀.obs.length ≤ 10)
    (d : Option (Data K)) (s : Asked (L.metrics log N)) (hs : s.sess = s₀.setData d)
    (cfg : NormSetup (L.metrics log N)) (sem : LeafSem K (L.metrics log N)) (val : Nat → K) (f : Nat → K → K)
    (t : Pdf (L.metrics log N)) (hobj : ((nodes t).map Node.oid).Nodup)
    (ht : SumProduct cfg sem val s.sess.idx f s.sess.obs t) (fuel : Nat) (hfuel : t.size ≤ fuel) (x : Nat → K)
    (var : Nat) (hr : (cfg.range var).1 ≤ (cfg.range var).2.1)
    (hdef : ∀ i < (cfg.range var).2.2, DefinedAt f (atBin (cfg.range var) var x i) t)
    (hx : ∀ o ∈ s₀.obs, o ≠ var → Allowed (cfg.range o) (x o)) :
    ∃ s', s.evaluateAtPoints cfg val fuel t x var =
      .done ((List.range (cfg.range var).2.2).map fun i => density cfg val f t (atBin (cfg.range var) var x i),
        if (cfg.range var).2.2 = 0 then x else atBin (cfg.range var) var x ((cfg.range var).2.2 - 1), s') ∧
      s'.sess.data = d ∧ s'.sess.obs = s₀.obs ∧ s'.sess.idx = s.sess.idx ∧
      ∃ s₁ : Sess K, s₁.obs = s₀.obs ∧ s'.sess = s₁.setData d := by
  have hn := nodup_oids hobj
  obtain ⟨r, s2, δ, e1, hsess, h2, hown, hpos, hg⟩ :=
    normalized_control s₀ hnd hlen d s hs t hn ht fuel hfuel .eval
  have hobs : s.sess.obs = s₀.obs := by rw [hs, setData_obs]
  have hobs2 : s2.sync.sess.obs = s₀.obs := by
    show s2.sess.obs = _
    rw [hsess]; exact hobs
  have hdata : s2.sync.sess.data = d := by
    show s2.sess.data = d
    rw [hsess, hs]
    exact setData_data d s₀
  have hacc : (List.range (cfg.range var).2.2).all (fun i =>
      Asked.accepts cfg s2.sync.sess.obs (Asked.pointAt cfg var x i)) = true := by
    rw [List.all_eq_true]
    intro i hi
    rw [accepts_iff, hobs2]
    intro o ho
    unfold Asked.pointAt
    split
    · rename_i h
      rw [h]
      exact center_allowed _ hr i (List.mem_range.1 hi)
    · rename_i h
      exact hx o ho h
  obtain ⟨hi, ho, hnum, _, h3, hev⟩ := points_holds (val := val) s₀ hnd d s.sess.idx (by rw [hs]) .eval rfl s2.sync
    (by show s2.sess = _; rw [hsess, hs]) t hn (cfg.range var).2.2 (Asked.pointAt cfg var x)
  generalize hS : s2.sync.setData val t (some (.unbinned (cfg.range var).2.2 (Asked.pointAt cfg var x))) = S at *
  obtain ⟨r', s3, δ', e2, hsess3, h4, hown3, hpos3, hg3⟩ := asked_normalize t hn S
    (by rw [hi, ho, ← hobs]; exact ht)
    (by rw [hi, ho, hs]; exact numbered_small (numbered_setData s₀ hnd d) hlen) fuel hfuel _ _ _
    (by rw [hi]; exact h3)
  rw [hi] at h4 hg3
  rw [ho, ← hobs] at hg3
  have h5 := h4.sync
  have hraw : ∀ i < (cfg.range var).2.2,
      metricTaker (L.metrics log N) s3.sync.arr.onDevice fuel (S.sess.eventAt s₀.obs.length i)
        (S.sess.tailAt s₀.obs.length i) = some (rawValue cfg val f t (Asked.pointAt cfg var x i)) := by
    intro i hi'
    obtain ⟨norm, n1, n2⟩ := asked_taker' t s.sess.idx s.sess.obs _ ht fuel hfuel _ _ _ h5 hown3 hpos3 hg3
      (Asked.pointAt cfg var x i) (hdef i hi') (S.sess.eventAt s₀.obs.length i) (S.sess.tailAt s₀.obs.length i)
      (by rw [hobs]; exact hev i hi')
    exact n2.trans (metric_reported log N .eval _ _ _ n1 _)
  have hevl : s3.sync.evaluate fuel =
      some ((List.range (cfg.range var).2.2).map fun i => rawValue cfg val f t (Asked.pointAt cfg var x i)) := by
    unfold Asked.evaluate
    rw [show s3.sync.sess = S.sess from hsess3, hnum, ho]
    exact collect_eq _ _ _ hraw
  have hnorm : s3.sync.arr.host.bufs.nrm[(s3.sync.arr.host.slots t.node.oid).nrm + 1]? = some (s3.cache t.node.oid) :=
    h5.norm t (node_mem_subtrees t)
  have hpt : ∀ i, Asked.pointAt cfg var x i = atBin (cfg.range var) var x i := by
    intro i
    funext o
    unfold Asked.pointAt atBin Asked.center cellCenter
    rfl
  refine ⟨s3.sync.setData val t s2.sync.sess.data, ?_, ?_, ?_, ?_, ?_⟩
  · unfold Asked.evaluateAtPoints
    rw [e1]
    simp only [Ran.andThen]
    rw [hacc]
    simp only [Bool.not_true, Bool.false_eq_true, if_false]
    rw [hS, e2]
    dsimp only
    rw [hevl, hnorm]
    simp only [Ran.done.injEq, Prod.mk.injEq, List.map_map, and_true, hpt]
    apply List.map_congr_left
    intro i _
    simp only [Function.comp_apply]
    rw [hown3, ← raw_own cfg t ht]
    have : ownIntegral cfg val f t ≠ 0 := by
      intro h0
      rw [hown3, h0, div_zero] at hpos3
      exact absurd hpos3 (lt_irrefl _)
    field_simp
  · show (Sess.setData s2.sync.sess.data _).data = d
    rw [setData_data, hdata]
  · show (Sess.setData s2.sync.sess.data _).obs = _
    rw [setData_obs, show s3.sync.sess = S.sess from hsess3, ho]
  · show (Sess.setData s2.sync.sess.data _).idx = _
    rw [setData_idx, show s3.sync.sess = S.sess from hsess3, ho, hi, hs, setData_idx, setupObservables_idem]
  · refine ⟨s3.sync.sess, by rw [show s3.sync.sess = S.sess from hsess3, ho], ?_⟩
    rw [hdata]
    rfl

theorem foldl_sum_of_values (l : List K) : l.foldl (· + ·) 0 = l.sum := by
  have key : ∀ (l : List K) (a : K), l.foldl (· + ·) a = a + l.sum := by
    intro l
    induction l with
    | nil => intro a; simp
    | cons y l ih => intro a; rw [List.foldl_cons, ih, List.sum_cons]; ring
  rw [key, zero_add]

/-- **C90, partial**, `plotToROOT`: the histogram's bins are proportional to the density at their centres, and the area under the histogram is the
factor asked for, as long as the densities do not add up to zero. -/
theorem C90_plot_partial (log : K → K) (N : Nat) (s₀ : Sess K) (hnd : s₀.obs.Nodup) (hlen : s₀.obs.length ≤ 10)
    (d : Option (Data K)) (s : Asked (L.metrics log N)) (hs : s.sess = s₀.setData d)
    (cfg : NormSetup (L.metrics log N)) (sem : LeafSem K (L.metrics log N)) (val : Nat → K) (f : Nat → K → K)
    (t : Pdf (L.metrics log N)) (hobj : ((nodes t).map Node.oid).Nodup)
    (ht : SumProduct cfg sem val s.sess.idx f s.sess.obs t) (fuel : Nat) (hfuel : t.size ≤ fuel) (x : Nat → K)
    (var : Nat) (hr : (cfg.range var).1 < (cfg.range var).2.1) (hb : 0 < (cfg.range var).2.2)
    (hdef : ∀ i < (cfg.range var).2.2, DefinedAt f (atBin (cfg.range var) var x i) t)
    (hx : ∀ o ∈ s₀.obs, o ≠ var → Allowed (cfg.range o) (x o)) (a : K)
    (h0 : ((List.range (cfg.range var).2.2).map fun i => density cfg val f t (atBin (cfg.range var) var x i)).sum ≠ 0) :
    ∃ hist x' s', s.plotToROOT cfg val fuel t x var a = .done (hist, x', s') ∧
      hist.length = (cfg.range var).2.2 ∧
      (∃ k, ∀ i (hi : i < hist.length), hist[i] = k * density cfg val f t (atBin (cfg.range var) var x i)) ∧
      (hist.map (· * (((cfg.range var).2.1 - (cfg.range var).1) / ((cfg.range var).2.2 : K)))).sum = a := by
  obtain ⟨s', e, _⟩ := C90_points_partial log N s₀ hnd hlen d s hs cfg sem val f t hobj ht fuel hfuel x var hr.le hdef hx
  generalize hvs : (List.range (cfg.range var).2.2).map (fun i => density cfg val f t (atBin (cfg.range var) var x i)) = vs at *
  have hlenv : vs.length = (cfg.range var).2.2 := by rw [← hvs]; simp
  have hbin : ((cfg.range var).2.1 - (cfg.range var).1) / ((cfg.range var).2.2 : K) ≠ 0 :=
    div_ne_zero (sub_ne_zero.2 (ne_of_gt hr)) (by exact_mod_cast (by omega : (cfg.range var).2.2 ≠ 0))
  generalize hw : ((cfg.range var).2.1 - (cfg.range var).1) / ((cfg.range var).2.2 : K) = w at *
  refine ⟨vs.map fun v => v * a / vs.sum / w,
    if (cfg.range var).2.2 = 0 then x else atBin (cfg.range var) var x ((cfg.range var).2.2 - 1), s', ?_, by simp [hlenv], ⟨a / vs.sum / w, ?_⟩, ?_⟩
  · unfold Asked.plotToROOT
    rw [e]
    simp only [Ran.andThen]
    rw [foldl_sum_of_values, hw]
  · intro i hi
    rw [List.length_map] at hi
    rw [List.getElem_map]
    have : vs[i] = density cfg val f t (atBin (cfg.range var) var x i) := by
      simp only [← hvs, List.getElem_map, List.getElem_range]
    rw [this]
    ring
  · rw [List.map_map]
    have : ((fun x => x * w) ∘ fun v => v * a / vs.sum / w) = fun v => (a / vs.sum) * v := by
      funext v
      simp only [Function.comp_apply]
      field_simp
    rw [this, List.sum_map_mul_left, List.map_id', div_mul_cancel₀ _ h0]

/-! ### Components -/

theorem componentValues_sound {log : K → K} {N : Nat} {cfg : NormSetup (L.metrics log N)}
    {sem : LeafSem K (L.metrics log N)} {val : Nat → K} {f : Nat → K → K} (sess : Sess K) (hlen : sess.obs.length ≤ 10)
    (hnum : Numbered sess.obs sess.idx) (num : Nat) (value : Nat → Nat → K)
    (hent : sess.numEntries = num) (harr : sess.array = some (eventArray sess.idx sess.obs value num)) (fuel : Nat) :
    ∀ (cs : List (Pdf (L.metrics log N))) (s : Asked (L.metrics log N)), s.sess = sess →
      (∀ c ∈ cs, c.oids.Nodup ∧ c.size ≤ fuel ∧ SumProduct cfg sem val sess.idx f sess.obs c ∧
        ∀ i < num, DefinedAt f (value i) c) →
      ∃ s', s.componentValues cfg val fuel cs =
        .done (cs.map fun c => (List.range num).map fun i => density cfg val f c (value i), s') ∧ s'.sess = sess
  | [], s, hs, _ => ⟨s, rfl, hs⟩
  | c :: cs, s, hs, hcs => by
    obtain ⟨hn, hfuel, ht, hdef⟩ := hcs c (by simp)
    obtain ⟨r, s1, δ, e1, hsess, h1, hown, hpos, hg⟩ := asked_normalize c hn (s.flatten val .prob c)
      (by show SumProduct cfg sem val s.sess.idx f s.sess.obs c; rw [hs]; exact ht)
      (by show ∀ o ∈ s.sess.obs, 0 ≤ s.sess.idx o ∧ s.sess.idx o < 10; rw [hs]; exact numbered_small hnum hlen)
      fuel hfuel _ _ _ (flatten_holds val .prob c hn s)
    have hs1 : s1.sess = sess := hsess.trans hs
    have h1 : Holds ⟨val, sess.idx⟩ c (Control.prob.metric : (L.metrics log N).Metric) s1.cache δ s1.arr := by
      rw [← hs]; exact h1
    have hg : Gives cfg sem val sess.idx f sess.obs s1.cache c := by rw [← hs]; exact hg
    have hev : (Asked.sync { s1 with arr := { s1.arr with host := { s1.arr.host with
        table := s1.arr.host.table ++ [.metric (L := L.metrics log N) MetricKind.prob] } } }).evaluate fuel =
        some ((List.range num).map fun i => density cfg val f c (value i)) := by
      unfold Asked.evaluate
      show collect (fun i => metricTaker (L.metrics log N) { s1.sync.arr.onDevice with
        table := s1.sync.arr.onDevice.table ++ [.metric (L := L.metrics log N) MetricKind.prob] } fuel
        (s1.sess.eventAt s1.sess.obs.length i) (s1.sess.tailAt s1.sess.obs.length i)) s1.sess.numEntries = _
      rw [hs1, hent]
      refine collect_eq _ _ _ fun i hi => ?_
      obtain ⟨norm, n1, n2⟩ := asked_taker c sess.idx sess.obs _ ht fuel hfuel _ _ _ h1.sync hown hpos hg (value i) (hdef i hi)
        (sess.eventAt sess.obs.length i) (sess.tailAt sess.obs.length i)
        (event_unbinned hnum sess num value harr i hi) [.metric (L := L.metrics log N) MetricKind.prob]
      exact n2.trans (metric_reported log N .prob _ _ _ n1 _)
    obtain ⟨s2, e2, hs2⟩ := componentValues_sound sess hlen hnum num value hent harr fuel cs _
      (show (Asked.sync { s1 with arr := { s1.arr with host := { s1.arr.host with
        table := s1.arr.host.table ++ [.metric (L := L.metrics log N) MetricKind.prob] } } }).sess = sess from hs1)
      (fun c' hc' => hcs c' (by simp [hc']))
    refine ⟨s2, ?_, hs2⟩
    rw [Asked.componentValues, e1]
    simp only [Ran.andThen]
    rw [hev]
    dsimp only
    rw [e2]
    rfl

/-- **C90, partial**, `getCompProbsAtDataPoints`: a PDF as in `C90_value_partial` with unbinned data, whose components are of those kinds as well.
The first list returned has the PDF's density at each event, the others that of each component, normalised on its own, in the order
of the components; the PDF keeps its data and its fit control.  Missing: binned data, which is read with the stride of
unbinned data. -/
theorem C90_components_partial (log : K → K) (N : Nat) (s₀ : Sess K) (hnd : s₀.obs.Nodup) (hlen : s₀.obs.length ≤ 10)
    (num : Nat) (value : Nat → Nat → K) (s : Asked (L.metrics log N))
    (hs : s.sess = s₀.setData (some (.unbinned num value)))
    (cfg : NormSetup (L.metrics log N)) (sem : LeafSem K (L.metrics log N)) (val : Nat → K) (f : Nat → K → K)
    (t : Pdf (L.metrics log N)) (hobj : ((nodes t).map Node.oid).Nodup)
    (ht : SumProduct cfg sem val s.sess.idx f s.sess.obs t)
    (hdef : ∀ i < num, DefinedAt f (value i) t)
    (hcs : ∀ c ∈ t.comps, SumProduct cfg sem val s.sess.idx f s.sess.obs c ∧ ∀ i < num, DefinedAt f (value i) c) (fuel : Nat) (hfuel : t.size ≤ fuel) :
    ∃ s', s.getCompProbs cfg val fuel t =
      .done ((t :: t.comps).map fun u => (List.range num).map fun i => density cfg val f u (value i), s') ∧
      s'.sess = s.sess := by
  have hn := nodup_oids hobj
  obtain ⟨r, s2, δ, e1, hsess, h2, hown, hpos, hg⟩ :=
    normalized_control s₀ hnd hlen _ s hs t hn ht fuel hfuel .prob
  have hobs : s.sess.obs = s₀.obs := by rw [hs, setData_obs]
  have hnumb : Numbered s.sess.obs s.sess.idx := by rw [hobs, hs]; exact numbered_setData s₀ hnd _
  have hent : (s.sess.setFitControl .prob).numEntries = num := by rw [hs]; rfl
  have harr : (s.sess.setFitControl .prob).array = some (eventArray s.sess.idx s.sess.obs value num) := by rw [hs]; rfl
  have hev : s2.sync.evaluate fuel = some ((List.range num).map fun i => density cfg val f t (value i)) := by
    unfold Asked.evaluate
    rw [show s2.sync.sess = s.sess.setFitControl .prob from hsess, hent]
    refine collect_eq _ _ _ fun i hi => ?_
    obtain ⟨norm, n1, n2⟩ := asked_taker' t s.sess.idx s.sess.obs _ ht fuel hfuel _ _ _ h2.sync hown hpos hg (value i) (hdef i hi)
      ((s.sess.setFitControl .prob).eventAt s.sess.obs.length i) ((s.sess.setFitControl .prob).tailAt s.sess.obs.length i)
      (event_unbinned hnumb _ num value harr i hi)
    exact n2.trans (metric_reported log N .prob _ _ _ n1 _)
  obtain ⟨s3, e3, hs3⟩ := componentValues_sound (cfg := cfg) (sem := sem) (val := val) (f := f)
    (s.sess.setFitControl .prob) (by show s.sess.obs.length ≤ 10; rw [hobs]; exact hlen) hnumb num value hent harr fuel
    t.comps s2.sync hsess (by
      intro c hc
      obtain ⟨n, cs⟩ := t
      have hmem : ∀ c ∈ cs, c.oids.Sublist (Pdf.oidsL cs) ∧ c.size ≤ Pdf.sizeList cs := by
        clear * -
        induction cs with
        | nil => intro c hc; exact absurd hc (by simp)
        | cons a cs ih =>
          intro c hc
          rw [oidsL_cons, Pdf.sizeList]
          rcases List.mem_cons.1 hc with rfl | hc
          · exact ⟨List.sublist_append_left _ _, by omega⟩
          · exact ⟨(ih c hc).1.trans (List.sublist_append_right _ _), by have := (ih c hc).2; omega⟩
      rw [oids_mk, List.nodup_cons] at hn
      rw [Pdf.size] at hfuel
      refine ⟨(hmem c hc).1.nodup hn.2, by have := (hmem c hc).2; omega, hcs c hc⟩)
  refine ⟨s3.setFitControl val t s.sess.ctl, ?_, ?_⟩
  · unfold Asked.getCompProbs
    rw [e1]
    simp only [Ran.andThen]
    rw [hev]
    dsimp only
    rw [e3]
    rfl
  · show s3.sess.setFitControl s.sess.ctl = s.sess
    rw [hs3]
    rfl

/-! ### Scans -/

theorem scanPoints_eq (lower upper : K) (n : Nat) (hn : 0 < n) (h : lower < upper) :
    scanPoints upper ((upper - lower) / (n : K)) (n + 1) (lower + 1 / 2 * ((upper - lower) / (n : K))) =
      (List.range n).map fun i => cellCenter lower upper n i := by
  have hn' : (0 : K) < (n : K) := by exact_mod_cast hn
  have hw : 0 < (upper - lower) / (n : K) := div_pos (sub_pos.2 h) hn'
  have hm : (n : K) * ((upper - lower) / (n : K)) = upper - lower := by field_simp
  generalize (upper - lower) / (n : K) = w at *
  have key : ∀ j k : Nat, j + k = n →
      scanPoints upper w (j + 1) (lower + ((k : K) + 1 / 2) * w) =
        (List.range' k j).map fun i : Nat => lower + ((i : K) + 1 / 2) * w := by
    intro j
    induction j with
    | zero =>
      intro k hk
      have hk' : (k : K) = (n : K) := by exact_mod_cast (by omega : k = n)
      have : ¬ (lower + ((k : K) + 1 / 2) * w < upper) := by
        rw [hk', not_lt]
        have : (1 / 2 : K) * w > 0 := mul_pos (by norm_num) hw
        nlinarith
      rw [scanPoints, if_neg this]
      rfl
    | succ j ih =>
      intro k hk
      have hk' : (k : K) + 1 ≤ (n : K) := by exact_mod_cast (by omega : k + 1 ≤ n)
      have hlt : lower + ((k : K) + 1 / 2) * w < upper := by
        have : ((k : K) + 1 / 2) * w < (n : K) * w := mul_lt_mul_of_pos_right (by linarith) hw
        linarith
      rw [scanPoints, if_pos hlt, List.range'_succ, List.map_cons, ← ih (k + 1) (by omega)]
      congr 2
      push_cast
      ring
  have := key n 0 rfl
  rw [List.range_eq_range', ← show lower + (((0 : Nat) : K) + 1 / 2) * w = lower + 1 / 2 * w by simp, this]
  apply List.map_congr_left
  intro i _
  unfold cellCenter
  rw [show (upper - lower) / (n : K) = w by rw [← hm]; field_simp]

/-- **C90 (violated by the code)**, `scan`: it visits the bin centres of the observable, one after the other, but what it returns is, for every
one of them, the same number: the function minimised at the present values of the parameters.  The events are
not touched when the value of an observable is set. -/
theorem C90_violation_scan (log : K → K) (x₀ : ExtSess K) (hnd : x₀.sess.obs.Nodup) (hlen : x₀.sess.obs.length ≤ 10)
    (d : Data K) :
    let x := x₀.setData (some d)
    Matches x.sess.ctl d → x.sess.ctl ≠ .eval ∧ x.sess.ctl ≠ .binnedError →
    (x.sess.ctl = .binnedNll ∨ x.sess.ctl = .binnedChisq → numEvents d = (entries d : K)) →
    ∀ (cfg : NormSetup (L.metrics log x.sess.total)) (t : Pdf (L.metrics log x.sess.total))
      (h₀ : Host (L.metrics log x.sess.total)) (fuel : Nat) (val₀ val : Nat → K),
    ((nodes t).map Node.oid).Nodup → t.size ≤ fuel →
    ∀ (sem : LeafSem K (L.metrics log x.sess.total)) (f : Nat → K → K),
    SumProduct cfg sem val x.sess.idx f x.sess.obs t → (∀ i < entries d, DefinedAt f (coord d i) t) →
    ((List.range (entries d)).map fun i =>
        entryTerm log x.sess.ctl d i (density cfg val f t (coord d i)) 0).sum ≠ 0 →
    ∀ var, (cfg.range var).1 < (cfg.range var).2.1 → 0 < (cfg.range var).2.2 →
    scanPoints (cfg.range var).2.1 (((cfg.range var).2.1 - (cfg.range var).1) / ((cfg.range var).2.2 : K))
        ((cfg.range var).2.2 + 1)
        ((cfg.range var).1 + 1 / 2 * (((cfg.range var).2.1 - (cfg.range var).1) / ((cfg.range var).2.2 : K))) =
      (List.range (cfg.range var).2.2).map (cellCenter (cfg.range var).1 (cfg.range var).2.1 (cfg.range var).2.2) ∧
    ∃ s, (Machine.start log x val₀ t h₀).scan log x cfg fuel t val var =
      .done (List.replicate (cfg.range var).2.2
        (objective log x.sess.ctl d (density cfg val f t) (yieldsOf val t)), s) := by
  intro x hm hctl hev cfg t h₀ fuel val₀ val hobj hfuel sem f ht hdef hne var hr hb
  have hp := scanPoints_eq (cfg.range var).1 (cfg.range var).2.1 (cfg.range var).2.2 hb hr
  refine ⟨hp, ?_⟩
  obtain ⟨s, hs⟩ := C86_every_call_partial log x₀ hnd hlen d hm hctl hev cfg t h₀ fuel val₀
    (List.replicate (cfg.range var).2.2 val) hobj hfuel sem (fun _ => f) (by
      intro v hv
      rw [List.eq_of_mem_replicate hv]
      exact ⟨ht, hdef, hne⟩)
  refine ⟨s, ?_⟩
  unfold Machine.scan
  dsimp only
  rw [hp, List.map_map]
  have e : ((List.range (cfg.range var).2.2).map
      ((fun _ => val) ∘ fun i => cellCenter (cfg.range var).1 (cfg.range var).2.1 (cfg.range var).2.2 i)) =
      List.replicate (cfg.range var).2.2 val := by
    apply List.ext_getElem (by simp)
    intro i h1 h2
    simp
  rw [e]
  refine hs.trans ?_
  rw [List.map_replicate]

/-! ### With MPI -/

/-- **C90**, several ranks: whatever each of them has computed, every rank gets all of it, in the order of the ranks. -/
theorem C90_gathered {α : Type} (zero : α) (locals : List (List α)) :
    gatherResults zero (locals.map List.length).sum locals = some locals.flatten := by
  unfold gatherResults
  dsimp only
  have key : ∀ (ls : List (List α)) (pre : List α) (rest : List α), (ls.map List.length).sum ≤ rest.length →
      ((mpiDisplacements pre.length (ls.map List.length)).zip ls).foldlM (fun arr p => gatherOne arr p.1 p.2)
        (pre ++ rest) = some (pre ++ ls.flatten ++ rest.drop (ls.map List.length).sum) := by
    intro ls
    induction ls with
    | nil => intro pre rest _; simp [mpiDisplacements]
    | cons l ls ih =>
      intro pre rest h
      rw [List.map_cons, List.sum_cons] at h
      rw [List.map_cons, mpiDisplacements, List.zip_cons_cons, List.foldlM_cons]
      have h1 : gatherOne (pre ++ rest) pre.length l = some ((pre ++ l) ++ rest.drop l.length) := by
        unfold gatherOne
        rw [if_pos (by simp; omega)]
        simp
      rw [h1]
      have := ih (pre ++ l) (rest.drop l.length) (by simp; omega)
      rw [List.length_append] at this
      show List.foldlM _ _ _ = _
      rw [this]
      simp
  have := key locals [] (List.replicate (locals.map List.length).sum zero) (by simp)
  simpa using this

namespace Demo

/-- The answers. -/
def answer {α β : Type} : Ran (α × β) → Option α
  | .done (a, _) => some a
  | _ => none

/-- A PDF object with the data of C86's example, garbage in the arrays and in the normalisations kept. -/
def asked : Asked lhLib :=
  ⟨lhSess.sess, ⟨⟨⟨[7], [8, 9], [], [3]⟩, [], fun _ => ⟨1, 2, 3, 4, 5⟩⟩, [6]⟩, fun o => 10 + o⟩

/-- The hypotheses are met: fraction 1/4, slope 3, asked in all three ways at 1 and at 3. -/
example : asked.sess = (ExtSess.fresh [0] (fun _ => -1)).sess.setData (some lhData) ∧
    SumProduct lhCfg lhSem (lhPoint (1/4) 3) asked.sess.idx (lhF (lhPoint (1/4) 3)) asked.sess.obs lhTree ∧
    answer (asked.getValue lhCfg (lhPoint (1/4) 3) 5 lhTree (fun _ => 1) .prob) = some (1/4 * (1/8) + 3/4 * (1/21)) ∧
    answer (asked.getValue lhCfg (lhPoint (1/4) 3) 5 lhTree (fun _ => 3) .nll) = some (1 - (1/4 * (3/8) + 3/4 * (9/21))) ∧
    answer (asked.getValue lhCfg (lhPoint (1/4) 3) 5 (lhLin 1) (fun _ => 3) .eval) = some 9 ∧
    answer (asked.getValue lhCfg (lhPoint (1/4) 3) 5 lhTree (fun _ => 5) .prob) = none :=
  ⟨rfl, lh_sound _ (by decide +kernel), by decide +kernel, by decide +kernel, by decide +kernel, by decide +kernel⟩

/-- The curve, the histogram of area 10, and the components at the events. -/
example : answer (asked.evaluateAtPoints lhCfg (lhPoint (1/4) 3) 5 lhTree (fun _ => 1) 0) =
      some ((List.range 4).map fun i => density lhCfg (lhPoint (1/4) 3) (lhF (lhPoint (1/4) 3)) lhTree
        (fun _ => (i : ℚ) + 1/2)) ∧
    answer (asked.plotToROOT lhCfg (lhPoint 1 3) 5 lhTree (fun _ => 1) 0 16) = some [1, 3, 5, 7] ∧
    answer (asked.getCompProbs lhCfg (lhPoint (1/4) 3) 5 (.mk ⟨0, .add, [0], [], [0], 1⟩ [lhLin 1, lhVal 4])) =
      some [[1/8, 3/8], [1/8, 3/8], [1/8, 3/8]] ∧
    gatherResults 0 5 [[1, 2], [], [3, 4, 5]] = some [1, 2, 3, 4, 5] := by
  refine ⟨by decide +kernel, by decide +kernel, by decide +kernel, by decide⟩

/-- An object that was never given data. -/
def askedFresh : Asked lhLib := { asked with sess := Sess.fresh [0] fun _ => -1 }

end Demo

/-- **C90 (violated by the code)** for a PDF that was never given data: the observables have no numbers yet, `getValue` normalises before it
makes them, and the grid operator writes outside the array of the event. -/
theorem C90_violation_no_data :
    Demo.askedFresh.getValue Demo.lhCfg (Demo.lhPoint (1/4) 3) 5 Demo.lhTree (fun _ => 1) .prob = .ub ∧
    Demo.askedFresh.evaluateAtPoints Demo.lhCfg (Demo.lhPoint (1/4) 3) 5 Demo.lhTree (fun _ => 1) 0 = .ub := by
  constructor <;> rfl

/-- **C90 (violated by the code)**: asking for the curve moves the observable.  Asked at 1, the PDF's value differs from what it is after a
plot was drawn, although nobody set anything. -/
theorem C90_violation_observable_moved :
    (match Demo.asked.evaluateAtPoints Demo.lhCfg (Demo.lhPoint (1/4) 3) 5 Demo.lhTree (fun _ => 1) 0 with
      | .done (_, x, s) => (x 0, Demo.answer (s.getValue Demo.lhCfg (Demo.lhPoint (1/4) 3) 5 Demo.lhTree x .prob))
      | _ => (0, none)) = (7/2, some (1/4 * (7/16) + 3/4 * (7/12))) ∧
    Demo.answer (Demo.asked.getValue Demo.lhCfg (Demo.lhPoint (1/4) 3) 5 Demo.lhTree (fun _ => 1) .prob) =
      some (1/4 * (1/8) + 3/4 * (1/21)) := by
  constructor <;> decide +kernel

end GooFit
