import Verif.Spec.World
import Verif.Lemmas.Fit
import Verif.Props.Tree
/-!
# C47: PDFs used alternately
-/
set_option autoImplicit false
namespace GooFit
open Spec
variable {F : Type} [FpOps F] {L : Lib F}

/-- Two states of the global arrays that look the same to the objects in `S`. -/
structure Agree (S : List Nat) (h h' : Host L) : Prop where
  bufs : h.bufs = h'.bufs
  table : h.table = h'.table
  slots : ∀ o ∈ S, h.slots o = h'.slots o

theorem Agree.push {S : List Nat} {h h' : Host L} (ha : Agree S h h') (env env' : Env F) (n : Node L)
    (hval : env.val = env'.val) (hidx : ∀ o ∈ n.obs, env.idx o = env'.idx o) :
    Agree (n.oid :: S) (h.push env n) (h'.push env' n) := by
  obtain ⟨h1, h2, h3⟩ := ha
  have hm : (n.obs.map fun o => (FpOps.ofInt (env.idx o) : F)) = n.obs.map fun o => FpOps.ofInt (env'.idx o) :=
    List.map_congr_left fun o ho => by rw [hidx o ho]
  refine ⟨?_, ?_, ?_⟩
  · simp only [Host.push, h1, hval, hm]
  · simp only [Host.push, h2]
  · intro o ho
    simp only [Host.push, h1, h2]
    by_cases hon : o = n.oid
    · simp [hon]
    · rw [if_neg hon, if_neg hon]
      exact h3 o (by simpa [hon] using ho)

mutual
theorem Agree.populate (env env' : Env F) (hval : env.val = env'.val) : ∀ (t : Pdf L) {S : List Nat} {h h' : Host L},
    Agree S h h' → (∀ n ∈ nodes t, ∀ o ∈ n.obs, env.idx o = env'.idx o) →
    Agree (t.objects ++ S) (Host.populate env t h) (Host.populate env' t h')
  | .mk n cs, S, h, h', ha, hidx => by
    have h1 := ha.push env env' n hval (hidx n (by simp [nodes, subtrees, Pdf.node]))
    have h2 := Agree.populateList env env' hval cs h1 (by
      intro m hm
      exact hidx m (by
        simp only [nodes, subtrees, List.map_cons, List.mem_cons]
        exact Or.inr hm))
    unfold Host.populate
    refine ⟨h2.bufs, h2.table, fun o ho => h2.slots o ?_⟩
    simp only [Pdf.objects, List.cons_append, List.mem_cons, List.mem_append] at ho ⊢
    tauto
theorem Agree.populateList (env env' : Env F) (hval : env.val = env'.val) : ∀ (ts : List (Pdf L)) {S : List Nat} {h h' : Host L},
    Agree S h h' → (∀ n ∈ (subtreesList ts).map Pdf.node, ∀ o ∈ n.obs, env.idx o = env'.idx o) →
    Agree (Pdf.objectsList ts ++ S) (Host.populateList env ts h) (Host.populateList env' ts h')
  | [], S, h, h', ha, _ => by simpa [Pdf.objectsList, Host.populateList] using ha
  | t :: ts, S, h, h', ha, hidx => by
    have h1 := Agree.populate env env' hval t ha (by
      intro n hn
      exact hidx n (by
        simp only [subtreesList, List.map_append, List.mem_append]
        exact Or.inl hn))
    have h2 := Agree.populateList env env' hval ts h1 (by
      intro n hn
      exact hidx n (by
        simp only [subtreesList, List.map_append, List.mem_append]
        exact Or.inr hn))
    unfold Host.populateList
    refine ⟨h2.bufs, h2.table, fun o ho => h2.slots o ?_⟩
    simp only [Pdf.objectsList, List.mem_append] at ho ⊢
    tauto
end

/-- After flattening the same tree, the arrays look the same to its objects, whatever was there before. -/
theorem Agree.setIndices (env env' : Env F) (hval : env.val = env'.val) (t : Pdf L) (m : L.Metric) (h h' : Host L)
    (hidx : ∀ n ∈ nodes t, ∀ o ∈ n.obs, env.idx o = env'.idx o) :
    Agree t.objects (h.setIndices env t m) (h'.setIndices env' t m) := by
  have h0 : Agree [] h.clear h'.clear := ⟨rfl, rfl, by simp⟩
  have h1 := Agree.populate env env' hval t h0 hidx
  refine ⟨?_, ?_, fun o ho => ?_⟩
  · exact h1.bufs
  · simp only [Host.setIndices, h1.table]
  · exact h1.slots o (by simpa using ho)

mutual
theorem updateParameters_congr (env env' : Env F) (hval : env.val = env'.val) (s s' : Nat → Slots) :
    ∀ (t : Pdf L) (par : List F), (∀ o ∈ t.objects, s o = s' o) →
      updateParameters env s t par = updateParameters env' s' t par
  | .mk n cs, par, hs => by
    unfold updateParameters
    rw [hval, hs n.oid (by simp [Pdf.objects])]
    exact updateParametersList_congr env env' hval s s' cs _ fun o ho => hs o (by simp [Pdf.objects, ho])
theorem updateParametersList_congr (env env' : Env F) (hval : env.val = env'.val) (s s' : Nat → Slots) :
    ∀ (ts : List (Pdf L)) (par : List F), (∀ o ∈ Pdf.objectsList ts, s o = s' o) →
      updateParametersList env s ts par = updateParametersList env' s' ts par
  | [], par, _ => rfl
  | t :: ts, par, hs => by
    unfold updateParametersList
    rw [updateParameters_congr env env' hval s s' t par fun o ho => hs o (by simp [Pdf.objectsList, ho])]
    exact updateParametersList_congr env env' hval s s' ts _ fun o ho => hs o (by simp [Pdf.objectsList, ho])
end

theorem Agree.update {t : Pdf L} {h h' : Host L} (ha : Agree t.objects h h') (env env' : Env F) (hval : env.val = env'.val) :
    Agree t.objects (h.updateParameters env t) (h'.updateParameters env' t) := by
  refine ⟨?_, ha.table, ha.slots⟩
  simp only [Host.updateParameters, ha.bufs, updateParameters_congr env env' hval h.slots h'.slots t _ ha.slots]

omit [FpOps F] in
theorem fillEvent_congr (idx idx' : Nat → Int) (dim i : Nat) (row : Nat → F) : ∀ (os : List Nat) (arr : List (Option F)),
    (∀ o ∈ os, idx o = idx' o) → fillEvent idx dim i row arr os = fillEvent idx' dim i row arr os
  | [], arr, _ => rfl
  | o :: os, arr, h => by
    unfold fillEvent
    rw [h o (by simp)]
    exact fillEvent_congr idx idx' dim i row os _ fun x hx => h x (by simp [hx])

omit [FpOps F] in
theorem eventArray_congr (idx idx' : Nat → Int) (os : List Nat) (data : Nat → Nat → F) (num : Nat)
    (h : ∀ o ∈ os, idx o = idx' o) : eventArray idx os data num = eventArray idx' os data num := by
  unfold eventArray
  generalize List.replicate (num * os.length) (none : Option F) = arr
  induction num with
  | zero => rfl
  | succ k ih =>
    unfold fillEvents
    rw [ih]
    exact fillEvent_congr idx idx' _ _ _ os _ h

/-- Two programs whose state as far as PDF `p` is concerned is the same before its tree is flattened again. -/
structure Base (p : Nat) (w w' : Prog L) : Prop where
  val : w.val = w'.val
  metric : w.metric p = w'.metric p
  array : w.array p = w'.array p
  num : w.num p = w'.num p

/-- ... and after. -/
structure Rel (pdfs : Nat → Pdf L) (p : Nat) (w w' : Prog L) : Prop extends Base p w w' where
  host : Agree (pdfs p).objects w.host w'.host

theorem Rel.evaluate {pdfs : Nat → Pdf L} {p : Nat} {w w' : Prog L} (h : Rel pdfs p w w') (fuel : Nat) :
    w.evaluate pdfs fuel p = w'.evaluate pdfs fuel p := by
  unfold Prog.evaluate
  rw [h.num, h.array]
  apply List.map_congr_left
  intro i _
  simp only [metricTaker, h.host.bufs, h.host.table]

theorem Rel.refresh {pdfs : Nat → Pdf L} {p : Nat} {w w' : Prog L} (h : Rel pdfs p w w') (o : WOp L) (ho : Refresh p o) :
    Rel pdfs p (w.step pdfs o) (w'.step pdfs o) := by
  cases o with
  | setVar v x => exact ⟨⟨by simp only [Prog.step, h.val], h.metric, h.array, h.num⟩, h.host⟩
  | copyParams q =>
    cases (ho : q = p)
    refine ⟨⟨h.val, h.metric, h.array, h.num⟩, ?_⟩
    exact h.host.update _ _ h.val
  | _ => exact ho.elim

theorem Rel.refreshAll {pdfs : Nat → Pdf L} {p : Nat} (post : List (WOp L)) : ∀ {w w' : Prog L}, Rel pdfs p w w' →
    (∀ o ∈ post, Refresh p o) → Rel pdfs p (w.run pdfs post) (w'.run pdfs post) := by
  induction post with
  | nil => exact fun h _ => h
  | cons o os ih =>
    intro w w' h hp
    exact ih (h.refresh o (hp o (by simp))) fun x hx => hp x (by simp [hx])

/-- Giving a PDF its data makes its state independent of everything done with others. -/
theorem Base.setData {pdfs : Nat → Pdf L} (hpr : Program pdfs) {p : Nat} {w w' : Prog L} (h : Base p w w') (n : Nat)
    (data : Nat → Nat → F) : Rel pdfs p (w.step pdfs (.setData p n data)) (w'.step pdfs (.setData p n data)) := by
  have hi : ∀ o ∈ (pdfs p).node.obs, setupObservables (pdfs p).node.obs 0 w.idx o = setupObservables (pdfs p).node.obs 0 w'.idx o :=
    fun o ho => setupObservables_indep _ 0 _ _ o ho
  refine ⟨⟨h.val, h.metric, ?_, ?_⟩, ?_⟩
  · simp only [Prog.step, if_pos]
    rw [eventArray_congr _ _ _ data n hi]
  · simp only [Prog.step, if_pos]
  · show Agree _ (w.host.setIndices _ _ (w.metric (pdfs p).node.oid)) (w'.host.setIndices _ _ (w'.metric (pdfs p).node.oid))
    rw [hpr.oid, h.metric]
    exact Agree.setIndices _ _ h.val _ _ _ _ fun m hm o ho => hi o (hpr.obs p m hm o ho)

/-- An operation on another PDF, of which `p` is no component. -/
theorem Base.other {pdfs : Nat → Pdf L} {p : Nat} {w w' : Prog L} (h : Base p w w') (o : WOp L) (hm : Mine p o = false)
    (hc : ∀ q, o.about = some q → p ∉ (pdfs q).objects) : Base p (w.step pdfs o) w' := by
  cases o with
  | setVar v x => simp [Mine, WOp.about] at hm
  | construct q m => exact ⟨h.val, by simp [Prog.step, Prog.setControl, Prog.flatten, hc q rfl, h.metric], h.array, h.num⟩
  | setControl q m => exact ⟨h.val, by simp [Prog.step, Prog.setControl, Prog.flatten, hc q rfl, h.metric], h.array, h.num⟩
  | copyParams q => exact ⟨h.val, h.metric, h.array, h.num⟩
  | setData q n d =>
    have hq : p ≠ q := by rintro rfl; simp [Mine, WOp.about] at hm
    exact ⟨h.val, h.metric, by simp [Prog.step, Prog.flatten, hq, h.array], by simp [Prog.step, Prog.flatten, hq, h.num]⟩

/-- The same operation in both programs. -/
theorem Base.same {pdfs : Nat → Pdf L} (hpr : Program pdfs) {p : Nat} {w w' : Prog L} (h : Base p w w') (o : WOp L) (hm : Mine p o = true) :
    Base p (w.step pdfs o) (w'.step pdfs o) := by
  have hself : p ∈ (pdfs p).objects := by
    have := hpr.oid p
    cases hp : pdfs p with
    | mk n cs => rw [hp] at this; simp [Pdf.objects, ← this, Pdf.node]
  cases o with
  | setVar v x => exact ⟨by simp [Prog.step, h.val], h.metric, h.array, h.num⟩
  | construct q m =>
    have hq : q = p := by simpa [Mine, WOp.about] using hm
    subst hq
    exact ⟨h.val, by simp [Prog.step, Prog.setControl, Prog.flatten, hself], h.array, h.num⟩
  | setControl q m =>
    have hq : q = p := by simpa [Mine, WOp.about] using hm
    subst hq
    exact ⟨h.val, by simp [Prog.step, Prog.setControl, Prog.flatten, hself], h.array, h.num⟩
  | copyParams q => exact ⟨h.val, h.metric, h.array, h.num⟩
  | setData q n d =>
    have hq : q = p := by simpa [Mine, WOp.about] using hm
    subst hq
    exact (h.setData hpr n d).toBase

theorem Base.run {pdfs : Nat → Pdf L} (hpr : Program pdfs) {p : Nat} (ops : List (WOp L)) : ∀ {w w' : Prog L}, Base p w w' →
    (∀ o ∈ ops, ∀ q, o.about = some q → q ≠ p → p ∉ (pdfs q).objects) →
    Base p (w.run pdfs ops) (w'.run pdfs (ops.filter (Mine p))) := by
  induction ops with
  | nil => exact fun h _ => h
  | cons o os ih =>
    intro w w' h hc
    have hc' : ∀ o ∈ os, ∀ q, o.about = some q → q ≠ p → p ∉ (pdfs q).objects := fun x hx => hc x (by simp [hx])
    by_cases hm : Mine p o = true
    · rw [List.filter_cons_of_pos hm]
      exact ih (h.same hpr o hm) hc'
    · rw [List.filter_cons_of_neg hm]
      have hm' : Mine p o = false := by simpa using hm
      refine ih (h.other o hm' fun q hq => ?_) hc'
      refine hc o (by simp) q hq ?_
      rintro rfl
      simp [Mine, hq] at hm

/-- **C47, each PDF after its own `setData`.**  Whatever was done before with any PDFs of which `p` is no component, in any order:
after `setData` on `p`, and any settings of variables and copies of its own parameters, the values of `p` at its events are those
it has in the program without the other PDFs.  The total number of events is `p`'s, too. -/
theorem C47_own_data_partial (pdfs : Nat → Pdf L) (hpr : Program pdfs) (p : Nat) (ops post : List (WOp L)) (n : Nat)
    (data : Nat → Nat → F) (w : Prog L) (fuel : Nat)
    (hc : ∀ o ∈ ops, ∀ q, o.about = some q → q ≠ p → p ∉ (pdfs q).objects) (hpost : ∀ o ∈ post, Refresh p o) :
    (w.run pdfs (ops ++ .setData p n data :: post)).evaluate pdfs fuel p
        = (w.run pdfs (ops.filter (Mine p) ++ .setData p n data :: post)).evaluate pdfs fuel p
      ∧ (w.run pdfs (ops ++ .setData p n data :: post)).total = n := by
  have hb := Base.run hpr ops (w := w) (w' := w) ⟨rfl, rfl, rfl, rfl⟩ hc
  have hr := (hb.setData hpr n data).refreshAll post hpost
  constructor
  · have := hr.evaluate fuel
    simpa [Prog.run, List.foldl_append] using this
  · have ht : ∀ (post : List (WOp L)) (w : Prog L), (∀ o ∈ post, Refresh p o) → (w.run pdfs post).total = w.total := by
      intro post
      induction post with
      | nil => exact fun _ _ => rfl
      | cons o os ih =>
        intro w h
        have h1 : (w.step pdfs o).total = w.total := by
          have := h o (by simp)
          cases o <;> first | rfl | exact this.elim
        show ((w.step pdfs o).run pdfs os).total = w.total
        rw [ih _ fun x hx => h x (by simp [hx]), h1]
    have : w.run pdfs (ops ++ .setData p n data :: post) = ((w.run pdfs ops).step pdfs (.setData p n data)).run pdfs post := by
      simp [Prog.run, List.foldl_append]
    rw [this, ht post _ hpost]
    rfl

theorem numbered_step {pdfs : Nat → Pdf L} (hpr : Program pdfs) {p : Nat} (w : Prog L) (o : WOp L)
    (hcons : ∀ q n d, o = .setData q n d → ∀ j v : Nat, (pdfs q).node.obs[j]? = some v → v ∈ (pdfs p).node.obs →
      (pdfs p).node.obs[j]? = some v)
    (h : (w.array p).isSome → Numbered (pdfs p).node.obs w.idx) :
    ((w.step pdfs o).array p).isSome → Numbered (pdfs p).node.obs (w.step pdfs o).idx := by
  cases o with
  | setData q n d =>
    intro hs
    by_cases hq : p = q
    · subst hq
      exact numbered_setup _ (hpr.nodup p) _
    · have hold : Numbered (pdfs p).node.obs w.idx := h (by simpa [Prog.step, Prog.flatten, hq] using hs)
      intro k hk
      show setupObservables (pdfs q).node.obs 0 w.idx _ = _
      by_cases hm : (pdfs p).node.obs[k] ∈ (pdfs q).node.obs
      · obtain ⟨j, hj, hje⟩ := List.getElem_of_mem hm
        have := hcons q n d rfl j _ (by rw [List.getElem?_eq_getElem hj, hje]) (List.getElem_mem hk)
        obtain ⟨hjp, hjv⟩ := List.getElem?_eq_some_iff.mp this
        have hjk : j = k := (List.Nodup.getElem_inj_iff (hpr.nodup p)).mp hjv
        rw [← hje, setupObservables_get _ (hpr.nodup q) 0 _ j hj, hjk]
        simp
      · rw [setupObservables_other _ _ _ _ hm]
        exact hold k hk
  | _ => exact h

theorem numbered_run {pdfs : Nat → Pdf L} (hpr : Program pdfs) {p : Nat} (ops : List (WOp L)) : ∀ (w : Prog L),
    (∀ o ∈ ops, ∀ q n d, o = .setData q n d → ∀ j v : Nat, (pdfs q).node.obs[j]? = some v → v ∈ (pdfs p).node.obs →
      (pdfs p).node.obs[j]? = some v) →
    ((w.array p).isSome → Numbered (pdfs p).node.obs w.idx) →
    ((w.run pdfs ops).array p).isSome → Numbered (pdfs p).node.obs (w.run pdfs ops).idx := by
  induction ops with
  | nil => exact fun _ _ h => h
  | cons o os ih =>
    intro w hcons h
    exact ih (w.step pdfs o) (fun x hx => hcons x (by simp [hx])) (numbered_step hpr w o (hcons o (by simp)) h)

/-- **C47, alternating.**  Give several PDFs their data and use them in turn: if before every use of `p` its fit control is set
anew (or its data), `p` has data, `p` is no component of the others, and the PDFs number their common observables alike, then
the values of `p` are those it has in the program without the others. -/
theorem C47_alternating_partial (pdfs : Nat → Pdf L) (hpr : Program pdfs) (p : Nat) (ops post : List (WOp L)) (f : WOp L)
    (w : Prog L) (fuel : Nat) (hf : Flattens p f)
    (hc : ∀ o ∈ ops, ∀ q, o.about = some q → q ≠ p → p ∉ (pdfs q).objects) (hpost : ∀ o ∈ post, Refresh p o)
    (hfresh : w.array p = none) (hdata : ∃ o ∈ ops, ∃ n d, o = WOp.setData p n d)
    (hcons : ∀ o ∈ ops, ∀ q n d, o = WOp.setData q n d → ∀ j v : Nat, (pdfs q).node.obs[j]? = some v → v ∈ (pdfs p).node.obs →
      (pdfs p).node.obs[j]? = some v) :
    (w.run pdfs (ops ++ f :: post)).evaluate pdfs fuel p
      = (w.run pdfs (ops.filter (Mine p) ++ f :: post)).evaluate pdfs fuel p := by
  have hb := Base.run hpr ops (w := w) (w' := w) ⟨rfl, rfl, rfl, rfl⟩ hc
  have hr : Rel pdfs p ((w.run pdfs ops).step pdfs f) ((w.run pdfs (ops.filter (Mine p))).step pdfs f) := by
    cases f with
    | setData q n d => cases (hf : q = p); exact hb.setData hpr n d
    | setControl q m =>
      cases (hf : q = p)
      have hsome : ∀ (ops : List (WOp L)) (w : Prog L), (w.array p).isSome ∨ (∃ o ∈ ops, ∃ n d, o = WOp.setData p n d) →
          ((w.run pdfs ops).array p).isSome := by
        intro ops
        induction ops with
        | nil => intro w h; rcases h with h | ⟨o, ho, _⟩; exacts [h, absurd ho (by simp)]
        | cons o os ih =>
          intro w h
          refine ih (w.step pdfs o) ?_
          rcases h with h | ⟨x, hx, n, d, rfl⟩
          · left
            cases o with
            | setData q n d =>
              by_cases hq : p = q
              · simp [Prog.step, hq]
              · simpa [Prog.step, Prog.flatten, hq] using h
            | _ => exact h
          · rcases List.mem_cons.mp hx with rfl | hx
            · left; simp [Prog.step]
            · exact Or.inr ⟨_, hx, n, d, rfl⟩
      have hn1 := numbered_run hpr ops w hcons (by simp [hfresh]) (hsome ops w (Or.inr hdata))
      have hn2 := numbered_run hpr (ops.filter (Mine p)) w (fun o ho => hcons o (List.mem_of_mem_filter ho)) (by simp [hfresh])
        (by rw [← hb.array]; exact hsome ops w (Or.inr hdata))
      have hs := hb.same hpr (.setControl p m) (by simp [Mine, WOp.about])
      refine ⟨hs, ?_⟩
      have hidx : ∀ o ∈ (pdfs p).node.obs, (w.run pdfs ops).idx o = (w.run pdfs (ops.filter (Mine p))).idx o := by
        intro o ho
        obtain ⟨k, hk, rfl⟩ := List.getElem_of_mem ho
        rw [hn1 k hk, hn2 k hk]
      have hself : p ∈ (pdfs p).objects := by
        have := hpr.oid p
        cases hp : pdfs p with
        | mk n cs => rw [hp] at this; simp [Pdf.objects, ← this, Pdf.node]
      simp only [Prog.step, Prog.setControl, Prog.flatten, hpr.oid, if_pos hself]
      exact Agree.setIndices _ _ hb.val _ _ _ _ fun n hn o ho => hidx o (hpr.obs p n hn o ho)
    | _ => exact hf.elim
  have := (hr.refreshAll post hpost).evaluate fuel
  simpa [Prog.run, List.foldl_append] using this

/-- What the values are: the metric of the tree's value at the events given. -/
theorem C47_value_partial (sem : LeafSem F L) (pdfs : Nat → Pdf L) (hpr : Program pdfs) (p : Nat) (ops : List (WOp L)) (n : Nat)
    (data : Nat → Nat → F) (w : Prog L) (fuel : Nat) (hfuel : (pdfs p).size ≤ fuel)
    (i : Nat) (hi : i < n) (v : F)
    (hwf : WellFormed sem ⟨(w.run pdfs ops).val, setupObservables (pdfs p).node.obs 0 (w.run pdfs ops).idx⟩ (pdfs p))
    (hv : ∀ e : Evt F, (∀ (j : Nat) (hj : j < (pdfs p).node.obs.length), e j = some (data i (pdfs p).node.obs[j])) →
      denote sem ⟨(w.run pdfs ops).val, setupObservables (pdfs p).node.obs 0 (w.run pdfs ops).idx⟩ (pdfs p) e = some v) :
    ∃ tail, ((w.run pdfs (ops ++ [.setData p n data])).evaluate pdfs fuel p)[i]?
      = some (L.metric ((w.run pdfs ops).metric p) v tail (pdfs p).node.norm) := by
  have hrun : w.run pdfs (ops ++ [.setData p n data]) = (w.run pdfs ops).step pdfs (.setData p n data) := by
    simp [Prog.run, List.foldl_append]
  rw [hrun]
  generalize w.run pdfs ops = u at *
  unfold Prog.evaluate
  have hnum : (u.step pdfs (.setData p n data)).num p = n := by simp [Prog.step]
  have harr : (u.step pdfs (.setData p n data)).array p
      = some (eventArray (setupObservables (pdfs p).node.obs 0 u.idx) (pdfs p).node.obs data n) := by simp [Prog.step]
  rw [hnum, harr]
  simp only [List.getElem?_map, List.getElem?_range hi, Option.map_some, Option.getD_some]
  refine ⟨tailView (eventArray (setupObservables (pdfs p).node.obs 0 u.idx) (pdfs p).node.obs data n) (pdfs p).node.obs.length i,
    congrArg some ?_⟩
  have hh : (u.step pdfs (.setData p n data)).host
      = u.host.setIndices ⟨u.val, setupObservables (pdfs p).node.obs 0 u.idx⟩ (pdfs p) (u.metric p) := by
    simp only [Prog.step, Prog.flatten, hpr.oid]
  rw [hh]
  refine C14_metric_applied sem _ (pdfs p) (u.metric p) u.host _ _ v fuel hfuel hwf (hv _ ?_)
  intro j hj
  exact view_unbinned (numbered_setup _ (hpr.nodup p) _) data n i j hi hj

/-! ### Concrete cases -/

namespace WorldDemo
/-- PDF 0 is `v1·x`, PDF 1 is `v2·x`, PDF 2 is `v0·(v1·x) + (1-v0)·(v1·y)`, PDF 5 has the observables in the other order, and
PDF 6 has PDF 0 as a component.  All others are `x`. -/
def pdfs : Nat → Pdf Demo.lib
  | 0 => Demo.lin 0 1 0 1
  | 1 => Demo.lin 1 2 0 1
  | 2 => .mk ⟨2, .add, [0], [], [0, 1], 1⟩ [Demo.lin 3 1 0 1, Demo.lin 4 1 1 1]
  | 5 => .mk ⟨5, .prod, [], [2], [1, 0], 1⟩ [Demo.val 7 1, Demo.val 8 0]
  | 6 => .mk ⟨6, .prod, [], [1], [0], 1⟩ [Demo.lin 0 1 0 1]
  | q => Demo.val q 0

/-- `v0 = 1/4`, `v1 = 2`, `v2 = 3`. -/
def world : Prog Demo.lib := ⟨Demo.host, Demo.env.val, fun _ => -1, fun _ => true, fun _ => none, fun _ => 0, 0⟩

/-- One event, `x = 10`, `y = 11`; and three events. -/
def data : Nat → Nat → ℚ := fun _ o => if o = 0 then 10 else 11

/-- The program is one in the sense of `Program`. -/
theorem program : Program pdfs := by
  refine ⟨?_, ?_, ?_⟩
  · intro q
    match q with
    | 0 | 1 | 2 | 3 | 4 | 5 | 6 => rfl
    | q + 7 => rfl
  · intro q
    match q with
    | 0 | 1 | 2 | 3 | 4 | 5 | 6 =>
      simp [pdfs, nodes, subtrees, subtreesList, Pdf.node, Demo.lin, Demo.val]
    | q + 7 => simp [pdfs, nodes, subtrees, subtreesList, Pdf.node, Demo.val]
  · intro q
    match q with
    | 0 | 1 | 2 | 3 | 4 | 5 | 6 => simp [pdfs, Pdf.node, Demo.lin, Demo.val]
    | q + 7 => simp [pdfs, Pdf.node, Demo.val]
end WorldDemo

open WorldDemo

/-- A case of `C47_own_data_partial` and `C47_alternating_partial`: PDFs 0 and 1 used in turn. -/
example : ((world.run pdfs [.construct 0 true, .construct 1 true, .setData 0 1 data, .setData 1 3 data, .setControl 0 true]).evaluate
      pdfs 9 0 = [some 20])
    ∧ ((world.run pdfs [.construct 0 true, .construct 1 true, .setData 0 1 data, .setControl 0 true, .setVar 1 5, .setData 1 3 data]).evaluate
      pdfs 9 1 = [some 30, some 30, some 30]) := by decide +kernel

/-- **Violation of C47.**  PDF 0 has its data, another PDF is constructed: PDF 0 now has the values of the other PDF. -/
theorem C47_violation_construct :
    (world.run pdfs [.construct 0 true, .setData 0 1 data]).evaluate pdfs 9 0 = [some 20]
      ∧ (world.run pdfs [.construct 0 true, .setData 0 1 data, .construct 1 true]).evaluate pdfs 9 0 = [some 30] := by
  decide +kernel

/-- **Violation of C47.**  The same if another PDF is given data, and the total number of events is the other's. -/
theorem C47_violation_set_data :
    (world.run pdfs [.setData 0 1 data, .setData 1 3 data]).evaluate pdfs 9 0 = [some 30]
      ∧ (world.run pdfs [.setData 0 1 data, .setData 1 3 data]).total = 3
      ∧ (world.run pdfs [.setData 0 1 data, .setData 1 3 data, .setControl 0 true]).total = 3 := by
  decide +kernel

/-- **Violation of C47.**  Copying the parameters of another PDF overwrites those of the PDF in use. -/
theorem C47_violation_copy_params :
    (world.run pdfs [.setData 1 3 data, .setData 0 1 data]).evaluate pdfs 9 0 = [some 20]
      ∧ (world.run pdfs [.setData 1 3 data, .setData 0 1 data, .copyParams 1]).evaluate pdfs 9 0 = [some 30] := by
  decide +kernel

/-- **Violation of C47.**  PDF 5 has the same observables in the other order.  After it was given data, PDF 2 reads `y` for `x`,
even if its fit control is set anew. -/
theorem C47_violation_renumbered :
    (world.run pdfs [.setData 2 1 data, .setControl 2 true]).evaluate pdfs 9 2 = [some (43 / 2)]
      ∧ (world.run pdfs [.setData 2 1 data, .setData 5 1 data, .setControl 2 true]).evaluate pdfs 9 2 = [some (41 / 2)] := by
  decide +kernel

/-- **Violation of C47.**  Setting the fit control of a PDF changes that of its components, for good. -/
theorem C47_violation_component :
    (world.run pdfs [.construct 0 true, .setData 0 1 data]).evaluate pdfs 9 0 = [some 20]
      ∧ (world.run pdfs [.construct 0 true, .construct 6 true, .setControl 6 false, .setData 0 1 data]).evaluate pdfs 9 0
        = [some 1000] := by
  decide +kernel

end GooFit
