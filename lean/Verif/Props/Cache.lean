import Verif.Model.Cache
import Verif.Spec.Cache
import Verif.Props.Minuit
import Mathlib.Data.List.Induction
/-!
# C30: cached work is redone whenever a parameter it depends on has changed

`cacheRun t redo compute h d empty ops` is the life of a PDF `t` under a fit manager, together with quantities that
are cached between evaluations.
-/
set_option autoImplicit false
namespace GooFit
open Spec FpOps

section
variable {F : Type} [FpOps F] [DecidableEq F] {L : Lib F} {C W D : Type}

/-- The events of the fit manager in a history. -/
def fitOps (ops : List (CacheOp F D)) : List (MnOp F) :=
  ops.filterMap fun
    | .fit op => some op
    | _ => none

/-- The variables evolve as in the life of the manager. -/
theorem cacheRun_mnRun (t : Pdf L) (redo : Bool → Pars F → C → Bool) (compute : C → (Nat → F) → D → W) (h : Pars F) (d : D)
    (empty : C → W) (ops : List (CacheOp F D)) (s : Pars F × D × Cached C W)
    (hr : cacheRun t redo compute h d empty ops = some s) : mnRun t h (fitOps ops) = some s.1 := by
  unfold cacheRun at hr
  simp only [bind, Option.bind] at hr
  cases h0 : mnRun t h [] with
  | none => rw [h0] at hr; exact absurd hr (by simp)
  | some h1 =>
    rw [h0] at hr
    simp only at hr
    have key : ∀ (ops : List (CacheOp F D)) (pre : List (MnOp F)) (s0 s : Pars F × D × Cached C W),
        mnRun t h pre = some s0.1 → ops.foldlM (cacheStep t redo compute) s0 = some s →
        mnRun t h (pre ++ fitOps ops) = some s.1 := by
      intro ops
      induction ops with
      | nil =>
        intro pre s0 s hp hs
        simp only [List.foldlM_nil, pure, Option.some.injEq] at hs
        subst hs
        simpa [fitOps] using hp
      | cons op ops ih =>
        intro pre s0 s hp hs
        rw [List.foldlM_cons] at hs
        simp only [bind, Option.bind] at hs
        cases hst : cacheStep t redo compute s0 op with
        | none => rw [hst] at hs; exact absurd hs (by simp)
        | some s1 =>
          rw [hst] at hs
          simp only at hs
          cases op with
          | fit op =>
            simp only [cacheStep, bind, Option.bind] at hst
            cases hm : mnStep t s0.1 op with
            | none => rw [hm] at hst; exact absurd hst (by simp)
            | some h2 =>
              rw [hm] at hst
              simp only [pure, Option.some.injEq] at hst
              have := ih (pre ++ [op]) s1 s (by rw [mnRun_snoc t h s0.1 pre op hp, hm, ← hst]) hs
              simpa [fitOps] using this
          | evaluate =>
            simp only [cacheStep, Option.some.injEq] at hst
            exact ih pre s1 s (by rw [hp, ← hst]) hs
          | reset =>
            simp only [cacheStep, Option.some.injEq] at hst
            exact ih pre s1 s (by rw [hp, ← hst]) hs
          | surround d =>
            simp only [cacheStep, Option.some.injEq] at hst
            exact ih pre s1 s (by rw [hp, ← hst]) hs
    exact key ops [] _ s h0 hr

/-- The last event of a history. -/
theorem cacheRun_snoc (t : Pdf L) (redo : Bool → Pars F → C → Bool) (compute : C → (Nat → F) → D → W) (h : Pars F) (d : D)
    (empty : C → W) (ops : List (CacheOp F D)) (op : CacheOp F D) (s : Pars F × D × Cached C W)
    (hr : cacheRun t redo compute h d empty (ops ++ [op]) = some s) :
    ∃ s0, cacheRun t redo compute h d empty ops = some s0 ∧ cacheStep t redo compute s0 op = some s := by
  unfold cacheRun at hr ⊢
  simp only [bind, Option.bind] at hr ⊢
  cases h0 : mnRun t h [] with
  | none => rw [h0] at hr; exact absurd hr (by simp)
  | some h1 =>
    rw [h0] at hr
    simp only at hr ⊢
    rw [List.foldlM_append] at hr
    simp only [bind, Option.bind] at hr
    cases hs : ops.foldlM (cacheStep t redo compute) (h1, d, ⟨true, empty⟩) with
    | none => rw [hs] at hr; exact absurd hr (by simp)
    | some s0 =>
      rw [hs] at hr
      simp only [List.foldlM_cons, List.foldlM_nil, bind, Option.bind, pure] at hr
      refine ⟨s0, rfl, ?_⟩
      cases hst : cacheStep t redo compute s0 op with
      | none => rw [hst] at hr; exact absurd hr (by simp)
      | some s1 => rw [hst] at hr; exact hr

/-- Events that evaluate the PDF, and so refresh its caches. -/
def CacheOp.evaluates : CacheOp F D → Bool
  | .fit op => op.evaluates
  | .evaluate => true
  | _ => false

/-- Events of a fit: calls of the FCN, evaluations, resets, and setters of errors and of the fixed flag; no other setter
of a variable, no read-back of results, no new data. -/
def CacheOp.quiet : CacheOp F D → Bool
  | .fit (.callAt _) => true
  | .fit .callHere => true
  | .fit (.setError _ _) => true
  | .fit (.setFixed _ _) => true
  | .evaluate => true
  | .reset => true
  | _ => false

/-- A call of the FCN marks every parameter it changes. -/
theorem call_unchanged (t : Pdf L) (h h' : Pars F) (op : MnOp F) (hop : op.evaluates = true) (hix : Indexed t.getParameters h)
    (hs : mnStep t h op = some h') (i : Nat) (hi : i ∈ t.getParameters) (hb : ∀ x, sub x (h i).blind = x)
    (hc : (h' i).changed = false) : (h' i).value = (h i).value := by
  have key : ∀ values force, fromMinuitVector t values force h = some h' → (h' i).value = (h i).value := by
    intro values force hv
    obtain ⟨k, hk⟩ := List.getElem?_of_mem hi
    obtain ⟨x, _, hx⟩ := (fromMinuitVector_spec t values force h h' hix hv).1 k i hk
    rw [hx] at hc ⊢
    simp only at hc ⊢
    cases force with
    | true => simp at hc
    | false =>
      simp only [Bool.false_eq_true, if_false, decide_eq_false_iff_not, not_not] at hc
      rw [hb, hc]
  cases op with
  | callAt v => exact key v false hs
  | callHere =>
    simp only [mnStep, fcnHere, bind, Option.bind] at hs
    cases hm : makeMinuitVector t.getParameters h with
    | none => rw [hm] at hs; exact absurd hs (by simp)
    | some v => rw [hm] at hs; exact key v true hs
  | _ => exact absurd hop (by simp [MnOp.evaluates])

/-- A call of the FCN without arguments marks every parameter. -/
theorem callHere_changed (t : Pdf L) (h h' : Pars F) (hix : Indexed t.getParameters h)
    (hs : mnStep t h .callHere = some h') (i : Nat) (hi : i ∈ t.getParameters) : (h' i).changed = true := by
  simp only [mnStep, fcnHere, bind, Option.bind] at hs
  cases hm : makeMinuitVector t.getParameters h with
  | none => rw [hm] at hs; exact absurd hs (by simp)
  | some v =>
    rw [hm] at hs
    obtain ⟨k, hk⟩ := List.getElem?_of_mem hi
    obtain ⟨x, _, hx⟩ := (fromMinuitVector_spec t v true h h' hix hs).1 k i hk
    rw [hx]
    rfl

theorem blind_kept (t : Pdf L) (h h' : Pars F) (op : MnOp F) (hq : (CacheOp.fit op : CacheOp F D).quiet = true)
    (hix : Indexed t.getParameters h) (hs : mnStep t h op = some h') (i : Nat) :
    (h' i).blind = (h i).blind ∧ (op.evaluates = false → (h' i).value = (h i).value) := by
  have key : ∀ values force, fromMinuitVector t values force h = some h' → (h' i).blind = (h i).blind := by
    intro values force hv
    obtain ⟨q1, q2⟩ := fromMinuitVector_spec t values force h h' hix hv
    by_cases hi : i ∈ t.getParameters
    · obtain ⟨k, hk⟩ := List.getElem?_of_mem hi
      obtain ⟨x, _, hx⟩ := q1 k i hk
      rw [hx]
    · rw [q2 i hi]
  have key2 : ∀ (j : Nat) (f : ParVar F → ParVar F), (∀ v, (f v).blind = v.blind ∧ (f v).value = v.value) →
      ((h.modify j f) i).blind = (h i).blind ∧ ((h.modify j f) i).value = (h i).value := by
    intro j f hf
    by_cases hij : i = j
    · subst hij; rw [Pars.modify_same]; exact hf _
    · rw [Pars.modify_other _ _ hij]; exact ⟨rfl, rfl⟩
  cases op with
  | callAt v => exact ⟨key v false hs, fun he => absurd he (by simp [MnOp.evaluates])⟩
  | callHere =>
    simp only [mnStep, fcnHere, bind, Option.bind] at hs
    cases hm : makeMinuitVector t.getParameters h with
    | none => rw [hm] at hs; exact absurd hs (by simp)
    | some v => rw [hm] at hs; exact ⟨key v true hs, fun he => absurd he (by simp [MnOp.evaluates])⟩
  | setError j x =>
    simp only [mnStep, Option.some.injEq] at hs
    subst hs
    obtain ⟨a, b⟩ := key2 j (fun v => { v with error := x }) (fun _ => ⟨rfl, rfl⟩)
    exact ⟨a, fun _ => b⟩
  | setFixed j x =>
    simp only [mnStep, Option.some.injEq] at hs
    subst hs
    obtain ⟨a, b⟩ := key2 j (fun v => { v with fixed := x }) (fun _ => ⟨rfl, rfl⟩)
    exact ⟨a, fun _ => b⟩
  | setParams _ => exact absurd hq (by simp [CacheOp.quiet])
  | setValue _ _ => exact absurd hq (by simp [CacheOp.quiet])
  | setBlind _ _ => exact absurd hq (by simp [CacheOp.quiet])

omit [FpOps F] [DecidableEq F] in
theorem normalize_fresh (redo : Bool → Pars F → C → Bool) (compute : C → (Nat → F) → D → W) (h0 h : Pars F) (d : D)
    (s : Cached C W) (c : C) (watch : List Nat) (hredo : redo s.force h c = (s.force || watch.any fun i => (h i).changed))
    (hdep : DependsOn (compute c) watch)
    (hinv : s.force = true ∨ Fresh compute s.content (fun i => (h0 i).value) d c)
    (hsame : ∀ i ∈ watch, (h i).changed = false → (h i).value = (h0 i).value) :
    Fresh compute (s.normalize redo compute h d).content (fun i => (h i).value) d c := by
  unfold Cached.normalize Fresh
  simp only
  by_cases hr : redo s.force h c = true
  · rw [if_pos hr]
  · rw [if_neg hr]
    rw [hredo, Bool.or_eq_true, not_or] at hr
    rcases hinv with hf | hf
    · exact absurd hf hr.1
    · rw [hf]
      apply hdep
      intro i hi
      refine (hsame i hi ?_).symm
      rw [Bool.eq_false_iff]
      exact fun hc => hr.2 (List.any_eq_true.mpr ⟨i, hi, hc⟩)

/-- The invariant behind the property: during a fit, whatever is not marked to be recomputed is fresh. -/
theorem cache_invariant (t : Pdf L) (redo : Bool → Pars F → C → Bool) (compute : C → (Nat → F) → D → W) (h : Pars F) (d : D)
    (empty : C → W) (c : C) (watch : List Nat)
    (hredo : ∀ f h, redo f h c = (f || watch.any fun i => (h i).changed)) (hdep : DependsOn (compute c) watch)
    (hwatch : ∀ i ∈ watch, i ∈ t.getParameters) (hblind : ∀ i ∈ watch, ∀ x, sub x (h i).blind = x)
    (ops : List (CacheOp F D)) (hq : ∀ op ∈ ops, op.quiet = true) (s : Pars F × D × Cached C W)
    (hr : cacheRun t redo compute h d empty ops = some s) :
    (s.2.2.force = true ∨ Fresh compute s.2.2.content (fun i => (s.1 i).value) s.2.1 c)
      ∧ (∀ i ∈ watch, ∀ x, sub x (s.1 i).blind = x) := by
  induction ops using List.reverseRecOn generalizing s with
  | nil =>
    unfold cacheRun at hr
    simp only [bind, Option.bind] at hr
    cases h0 : mnRun t h [] with
    | none => rw [h0] at hr; exact absurd hr (by simp)
    | some h1 =>
      rw [h0] at hr
      simp only [List.foldlM_nil, pure, Option.some.injEq] at hr
      subst hr
      refine ⟨Or.inl rfl, ?_⟩
      intro i hi
      have hb : (h1 i).blind = (h i).blind := by
        unfold mnRun at h0
        simp only [bind, Option.bind] at h0
        cases hc : paramsCtor t h with
        | none => rw [hc] at h0; exact absurd h0 (by simp)
        | some r =>
          rw [hc] at h0
          simp only [List.foldlM_nil, pure, Option.some.injEq] at h0
          rw [← h0, markChanged_spec, if_pos (hwatch i hi)]
          obtain ⟨k, hk⟩ := List.getElem?_of_mem (hwatch i hi)
          have := ((paramsLoop_spec t.getParameters [] h).1 r.1 r.2 hc).2.2.2.1 k i hk
          simp only [this]
      intro x
      rw [hb]
      exact hblind i hi x
  | append_singleton ops op ih =>
    obtain ⟨s0, hs0, hst⟩ := cacheRun_snoc t redo compute h d empty ops op s hr
    obtain ⟨i1, i2⟩ := ih (fun o ho => hq o (by simp [ho])) s0 hs0
    have hix : Indexed t.getParameters s0.1 := (mnRun_indexed t h s0.1 _ (cacheRun_mnRun t redo compute h d empty ops s0 hs0)).1
    have hqop := hq op (by simp)
    cases op with
    | fit op =>
      simp only [cacheStep, bind, Option.bind] at hst
      cases hm : mnStep t s0.1 op with
      | none => rw [hm] at hst; exact absurd hst (by simp)
      | some h2 =>
        rw [hm] at hst
        simp only [pure, Option.some.injEq] at hst
        subst hst
        have hbk := fun i => blind_kept t s0.1 h2 op hqop hix hm i
        refine ⟨?_, fun i hi x => by simp only [(hbk i).1]; exact i2 i hi x⟩
        by_cases he : op.evaluates = true
        · right
          simp only [he, if_true]
          exact normalize_fresh redo compute s0.1 h2 s0.2.1 s0.2.2 c watch (hredo _ _) hdep i1
            (fun i hi hc => call_unchanged t s0.1 h2 op he hix hm i (hwatch i hi) (i2 i hi) hc)
        · rw [if_neg he]
          have hv : (fun i => (h2 i).value) = fun i => (s0.1 i).value := funext fun i => (hbk i).2 (by simpa using he)
          rcases i1 with i1 | i1
          · exact Or.inl i1
          · right
            show Fresh compute s0.2.2.content (fun i => (h2 i).value) s0.2.1 c
            rw [hv]
            exact i1
    | evaluate =>
      simp only [cacheStep, Option.some.injEq] at hst
      subst hst
      exact ⟨Or.inr (normalize_fresh redo compute s0.1 s0.1 s0.2.1 s0.2.2 c watch (hredo _ _) hdep i1 (fun _ _ _ => rfl)), i2⟩
    | reset =>
      simp only [cacheStep, Option.some.injEq] at hst
      subst hst
      exact ⟨Or.inl rfl, i2⟩
    | surround d => exact absurd hqop (by simp [CacheOp.quiet])

/-- After an event that evaluates, nothing is left to be recomputed. -/
theorem evaluates_force (t : Pdf L) (redo : Bool → Pars F → C → Bool) (compute : C → (Nat → F) → D → W)
    (s0 s : Pars F × D × Cached C W) (op : CacheOp F D) (hop : op.evaluates = true)
    (hst : cacheStep t redo compute s0 op = some s) : s.2.2.force = false := by
  cases op with
  | fit op =>
    simp only [cacheStep, bind, Option.bind] at hst
    cases hm : mnStep t s0.1 op with
    | none => rw [hm] at hst; exact absurd hst (by simp)
    | some h2 =>
      rw [hm] at hst
      simp only [pure, Option.some.injEq] at hst
      subst hst
      have he : op.evaluates = true := hop
      simp [he, Cached.normalize]
  | evaluate =>
    simp only [cacheStep, Option.some.injEq] at hst
    subst hst
    rfl
  | reset => exact absurd hop (by simp [CacheOp.evaluates])
  | surround d => exact absurd hop (by simp [CacheOp.evaluates])

theorem cache_fresh (t : Pdf L) (redo : Bool → Pars F → C → Bool) (compute : C → (Nat → F) → D → W) (h : Pars F) (d : D)
    (empty : C → W) (c : C) (watch : List Nat)
    (hredo : ∀ f h, redo f h c = (f || watch.any fun i => (h i).changed)) (hdep : DependsOn (compute c) watch)
    (hwatch : ∀ i ∈ watch, i ∈ t.getParameters) (hblind : ∀ i ∈ watch, ∀ x, sub x (h i).blind = x)
    (ops : List (CacheOp F D)) (op : CacheOp F D) (hq : ∀ o ∈ ops ++ [op], o.quiet = true) (hop : op.evaluates = true)
    (s : Pars F × D × Cached C W) (hr : cacheRun t redo compute h d empty (ops ++ [op]) = some s) :
    Fresh compute s.2.2.content (fun i => (s.1 i).value) s.2.1 c := by
  obtain ⟨s0, _, hst⟩ := cacheRun_snoc t redo compute h d empty ops op s hr
  have hf := evaluates_force t redo compute s0 s op hop hst
  rcases (cache_invariant t redo compute h d empty c watch hredo hdep hwatch hblind (ops ++ [op]) hq s hr).1 with h1 | h1
  · rw [hf] at h1; exact absurd h1 (by simp)
  · exact h1

omit [FpOps F] [DecidableEq F] in
theorem dependsOn_mono {compute : (Nat → F) → D → W} {a b : List Nat} (h : DependsOn compute a) (hab : ∀ i ∈ a, i ∈ b) :
    DependsOn compute b := fun v v' d hv => h v v' d fun i hi => hv i (hab i hi)

/-- **C30, convolution workspaces.**  During every fit (any sequence of FCN calls, evaluations and changes of the integration
range), after every evaluation both workspaces are what a fresh computation would give, if model and resolution are PDFs
without components and their parameters are not blinded.  Missing: parameters of components
(`C30_violation_nested`), blinded parameters, values set by the user or read back after a fit
(`C30_violation_after_fit`), variables shared with another PDF (`C30_violation_two_pdfs`). -/
theorem C30_convolution_partial (t model resolution : Pdf L) (compute : Bool → (Nat → F) → D → W) (h : Pars F) (d : D)
    (empty : Bool → W)
    (hmodel : DependsOn (compute false) model.getParameters) (hresol : DependsOn (compute true) resolution.getParameters)
    (hown : ∀ i, (i ∈ model.getParameters → i ∈ model.ownParams) ∧ (i ∈ resolution.getParameters → i ∈ resolution.ownParams))
    (hpart : ∀ i, i ∈ model.ownParams ∨ i ∈ resolution.ownParams → i ∈ t.getParameters)
    (hblind : ∀ i ∈ t.getParameters, ∀ x, sub x (h i).blind = x)
    (ops : List (CacheOp F D)) (op : CacheOp F D) (hq : ∀ o ∈ ops ++ [op], o.quiet = true) (hop : op.evaluates = true)
    (s : Pars F × D × Cached Bool W) (hr : cacheRun t (convRedo model resolution) compute h d empty (ops ++ [op]) = some s) :
    ∀ c, Fresh compute s.2.2.content (fun i => (s.1 i).value) s.2.1 c := by
  intro c
  cases c with
  | false =>
    exact cache_fresh t _ compute h d empty false model.ownParams (fun _ _ => rfl)
      (dependsOn_mono hmodel fun i hi => (hown i).1 hi) (fun i hi => hpart i (Or.inl hi))
      (fun i hi => hblind i (hpart i (Or.inl hi))) ops op hq hop s hr
  | true =>
    exact cache_fresh t _ compute h d empty true resolution.ownParams (fun _ _ => rfl)
      (dependsOn_mono hresol fun i hi => (hown i).2 hi) (fun i hi => hpart i (Or.inr hi))
      (fun i hi => hblind i (hpart i (Or.inr hi))) ops op hq hop s hr

/-- **C30, resonance waves and integrals.**  During every fit, after every evaluation each cached wave and each cached
integral is what a fresh computation would give, if the resonances have no components, the efficiency has no parameters,
and the resonances' parameters are not blinded.  Missing, besides what is missing for convolutions: an efficiency with
parameters (`C30_violation_efficiency`), new data or limits without `setDataSize` (`C30_violation_new_data`). -/
theorem C30_amplitude_partial (t efficiency : Pdf L) (resonances : List (Pdf L)) (compute : AmpCell → (Nat → F) → D → W)
    (h : Pars F) (d : D) (empty : AmpCell → W)
    (hwave : ∀ (i : Nat) r, resonances[i]? = some r → DependsOn (compute (.wave i)) r.getParameters)
    (hint : ∀ (i j : Nat) r q, resonances[i]? = some r → resonances[j]? = some q →
      DependsOn (compute (.integral i j)) (r.getParameters ++ q.getParameters ++ efficiency.getParameters))
    (heff : efficiency.getParameters = [])
    (hown : ∀ r ∈ resonances, ∀ i ∈ r.getParameters, i ∈ r.ownParams)
    (hpart : ∀ r ∈ resonances, ∀ i ∈ r.ownParams, i ∈ t.getParameters)
    (hblind : ∀ i ∈ t.getParameters, ∀ x, sub x (h i).blind = x)
    (ops : List (CacheOp F D)) (op : CacheOp F D) (hq : ∀ o ∈ ops ++ [op], o.quiet = true) (hop : op.evaluates = true)
    (s : Pars F × D × Cached AmpCell W) (hr : cacheRun t (ampRedo resonances) compute h d empty (ops ++ [op]) = some s)
    (i j : Nat) (hi : i < resonances.length) (hj : j < resonances.length) :
    Fresh compute s.2.2.content (fun i => (s.1 i).value) s.2.1 (.wave i)
      ∧ Fresh compute s.2.2.content (fun i => (s.1 i).value) s.2.1 (.integral i j) := by
  have hgi : resonances[i]? = some resonances[i] := List.getElem?_eq_getElem hi
  have hgj : resonances[j]? = some resonances[j] := List.getElem?_eq_getElem hj
  have hmi : resonances[i] ∈ resonances := List.getElem_mem hi
  have hmj : resonances[j] ∈ resonances := List.getElem_mem hj
  constructor
  · refine cache_fresh t _ compute h d empty (.wave i) resonances[i].ownParams ?_
      (dependsOn_mono (hwave i _ hgi) (hown _ hmi)) (hpart _ hmi) (fun k hk => hblind k (hpart _ hmi k hk)) ops op hq hop s hr
    intro f h
    simp only [ampRedo, redoIntegral, hgi, Pdf.parametersChanged]
  · refine cache_fresh t _ compute h d empty (.integral i j) (resonances[i].ownParams ++ resonances[j].ownParams) ?_
      (dependsOn_mono (hint i j _ _ hgi hgj) ?_) ?_ ?_ ops op hq hop s hr
    · intro f h
      simp only [ampRedo, redoIntegral, hgi, hgj, Pdf.parametersChanged, List.any_append]
      cases f <;> simp
    · intro k hk
      rw [heff, List.append_nil, List.mem_append] at hk
      rw [List.mem_append]
      exact hk.imp (hown _ hmi k) (hown _ hmj k)
    · intro k hk
      rw [List.mem_append] at hk
      exact hk.elim (hpart _ hmi k) (hpart _ hmj k)
    · intro k hk
      rw [List.mem_append] at hk
      exact hblind k (hk.elim (hpart _ hmi k) (hpart _ hmj k))

/-- **C30 after a reset.**  After any history whatsoever, once the caches are reset the next evaluation makes them
fresh. -/
theorem C30_reset (t : Pdf L) (redo : Bool → Pars F → C → Bool) (compute : C → (Nat → F) → D → W) (h : Pars F) (d : D)
    (empty : C → W) (c : C)
    (hredo : ∀ h, redo true h c = true) (ops : List (CacheOp F D)) (op : CacheOp F D) (hop : op.evaluates = true)
    (s : Pars F × D × Cached C W) (hr : cacheRun t redo compute h d empty (ops ++ [.reset] ++ [op]) = some s) :
    Fresh compute s.2.2.content (fun i => (s.1 i).value) s.2.1 c := by
  obtain ⟨s0, hs0, hst⟩ := cacheRun_snoc t redo compute h d empty _ op s hr
  obtain ⟨s1, _, hst1⟩ := cacheRun_snoc t redo compute h d empty _ .reset s0 hs0
  simp only [cacheStep, Option.some.injEq] at hst1
  subst hst1
  cases op with
  | fit op =>
    simp only [cacheStep, bind, Option.bind] at hst
    cases hm : mnStep t s1.1 op with
    | none => rw [hm] at hst; exact absurd hst (by simp)
    | some h2 =>
      rw [hm] at hst
      simp only [pure, Option.some.injEq] at hst
      subst hst
      have he : op.evaluates = true := hop
      simp only [he, if_true, Cached.normalize, Fresh, hredo]
  | evaluate =>
    simp only [cacheStep, Option.some.injEq] at hst
    subst hst
    simp only [Cached.normalize, Fresh, hredo, if_true]
  | reset => exact absurd hop (by simp [CacheOp.evaluates])
  | surround d => exact absurd hop (by simp [CacheOp.evaluates])

/-- The reset of a convolution and of an amplitude forces every quantity. -/
theorem C30_reset_forces (model resolution : Pdf L) (resonances : List (Pdf L)) (h : Pars F) :
    (∀ c, convRedo model resolution true h c = true)
      ∧ ∀ i j, i < resonances.length → j < resonances.length →
        ampRedo resonances true h (.wave i) = true ∧ ampRedo resonances true h (.integral i j) = true := by
  constructor
  · intro c; cases c <;> rfl
  · intro i j hi hj
    simp [ampRedo, redoIntegral, List.getElem?_eq_getElem hi, List.getElem?_eq_getElem hj]

/-- **C30 for the FCN without arguments.**  After any history whatsoever, also with blinded parameters and values set by the
user, calling the FCN without arguments recomputes every quantity that watches a parameter. -/
theorem C30_fcn_here (t : Pdf L) (redo : Bool → Pars F → C → Bool) (compute : C → (Nat → F) → D → W) (h : Pars F) (d : D)
    (empty : C → W) (c : C) (i : Nat) (hi : i ∈ t.getParameters)
    (hredo : ∀ f h, (h i).changed = true → redo f h c = true) (ops : List (CacheOp F D))
    (s : Pars F × D × Cached C W) (hr : cacheRun t redo compute h d empty (ops ++ [.fit .callHere]) = some s) :
    Fresh compute s.2.2.content (fun i => (s.1 i).value) s.2.1 c := by
  obtain ⟨s0, hs0, hst⟩ := cacheRun_snoc t redo compute h d empty _ _ s hr
  have hix : Indexed t.getParameters s0.1 := (mnRun_indexed t h s0.1 _ (cacheRun_mnRun t redo compute h d empty ops s0 hs0)).1
  simp only [cacheStep, bind, Option.bind] at hst
  cases hm : mnStep t s0.1 .callHere with
  | none => rw [hm] at hst; exact absurd hst (by simp)
  | some h2 =>
    rw [hm] at hst
    simp only [pure, Option.some.injEq] at hst
    subst hst
    have := hredo s0.2.2.force h2 (callHere_changed t s0.1 h2 hix hm i hi)
    simp only [MnOp.evaluates, if_true, Cached.normalize, Fresh, this]

end

/-! ### Concrete PDFs -/

namespace CacheDemo
open Demo

/-- The model: a PDF of variable 0; the resolution: a PDF of variable 1. -/
def model : Pdf lib := lin 1 0 0 1
def resolution : Pdf lib := lin 2 1 0 1
/-- The convolution of the two. -/
def conv : Pdf lib := .mk ⟨3, .conv, [], [-10, 10, 1 / 100, 0], [0], 1⟩ [model, resolution]
/-- A model whose parameter belongs to a component: a product of one PDF. -/
def nested : Pdf lib := .mk ⟨4, .prod, [], [], [0], 1⟩ [lin 1 0 0 1]
/-- Its convolution. -/
def convNested : Pdf lib := .mk ⟨3, .conv, [], [-10, 10, 1 / 100, 0], [0], 1⟩ [nested, resolution]
/-- What the workspaces are computed from. -/
def compute : Bool → (Nat → ℚ) → Unit → ℚ
  | false, v, _ => v 0
  | true, v, _ => v 1
/-- Two free variables. -/
def pars : Pars ℚ := fun i =>
  { name := if i = 0 then "a" else "b", value := 0, error := 1, lower := 0, upper := 10, blind := 0, fixed := false,
    changed := true, fitterIndex := -1 }

/-- The content of a cache and the value it should have. -/
def look (r : Option (Pars ℚ × Unit × Cached Bool ℚ)) : Option (ℚ × ℚ) :=
  r.map fun s => (s.2.2.content false, (s.1 0).value)

end CacheDemo

open CacheDemo in
/-- The hypotheses of `C30_convolution_partial` hold for this convolution and a fit of three calls, and the history runs. -/
example : ∃ s, cacheRun conv (convRedo model resolution) compute pars () (fun _ => 0)
      ([.fit (.callAt [1, 5]), .fit (.callAt [1, 6])] ++ [.fit (.callAt [2, 6])]) = some s
    ∧ s.2.2.content false = 2 ∧ s.2.2.content true = 6 := by
  have hsome : (cacheRun conv (convRedo model resolution) compute pars () (fun _ => 0)
      ([.fit (.callAt [1, 5]), .fit (.callAt [1, 6])] ++ [.fit (.callAt [2, 6])])).isSome = true := by decide +kernel
  obtain ⟨s, hs⟩ := Option.isSome_iff_exists.mp hsome
  have hf := C30_convolution_partial conv model resolution compute pars () (fun _ => 0)
    (fun v v' d hv => hv 0 (by decide)) (fun v v' d hv => hv 1 (by decide))
    (fun i => ⟨fun hi => hi, fun hi => hi⟩)
    (by
      intro i hi
      have : i = 0 ∨ i = 1 := by
        rcases hi with hi | hi
        · left; simpa [model, Demo.lin, Pdf.ownParams] using hi
        · right; simpa [resolution, Demo.lin, Pdf.ownParams] using hi
      rcases this with rfl | rfl <;> decide)
    (by
      intro i _ x
      show x - 0 = x
      exact sub_zero x)
    [.fit (.callAt [1, 5]), .fit (.callAt [1, 6])] (.fit (.callAt [2, 6])) (by decide) rfl s hs
  have h0 : (cacheRun conv (convRedo model resolution) compute pars () (fun _ => 0)
      ([.fit (.callAt [1, 5]), .fit (.callAt [1, 6])] ++ [.fit (.callAt [2, 6])])).map (fun s => ((s.1 0).value, (s.1 1).value))
      = some (2, 6) := by decide +kernel
  rw [hs] at h0
  simp only [Option.map_some, Option.some.injEq, Prod.mk.injEq] at h0
  exact ⟨s, hs, (hf false).trans h0.1, (hf true).trans h0.2⟩

open CacheDemo in
/-- **Violation of C30.**  If the model of a convolution is itself a combination, a change of a component's parameter is not
noticed: after two calls of the FCN the workspace still holds the first value. -/
theorem C30_violation_nested :
    look (cacheRun convNested (convRedo nested resolution) compute pars () (fun _ => 0)
      [.fit (.callAt [1, 5]), .fit (.callAt [2, 5])]) = some (1, 2) := by decide +kernel

open CacheDemo in
/-- **Violation of C30.**  The results of a fit are written into the variables without marking them; evaluating the PDF after
the fit (for a plot) uses the workspace of the last call of the FCN. -/
theorem C30_violation_after_fit :
    look (cacheRun conv (convRedo model resolution) compute pars () (fun _ => 0)
      [.fit (.callAt [1, 5]), .fit (.callAt [1, 6]), .fit (.setParams fun _ => (3, 1)), .evaluate]) = some (1, 3) := by
  decide +kernel

open CacheDemo in
/-- **Violation of C30.**  A value set by the user after a fit is not noticed either. -/
theorem C30_violation_set_value :
    look (cacheRun conv (convRedo model resolution) compute pars () (fun _ => 0)
      [.fit (.callAt [1, 5]), .fit (.callAt [1, 6]), .fit (.setValue 0 4), .evaluate]) = some (1, 4) := by
  decide +kernel

open CacheDemo in
/-- **Violation of C30.**  With a blinded parameter, a call of the FCN that changes the value can look like no change: the
offset is 1, and after 2 the minimiser tries 1. -/
theorem C30_violation_blinded :
    look (cacheRun conv (convRedo model resolution) compute (fun i => { pars i with blind := if i = 0 then 1 else 0 }) ()
      (fun _ => 0) [.fit (.callAt [2, 5]), .fit (.callAt [1, 5])]) = some (1, 0) := by
  decide +kernel

open CacheDemo in
/-- **Violation of C30.**  Two convolutions that share a variable: a value pushed through the first is not marked as changed
when it is pushed through the second, whose workspace then stays behind. -/
theorem C30_violation_two_pdfs :
    (do
      let s ← cacheRun conv (convRedo model resolution) compute pars () (fun _ => 0)
        [.fit (.callAt [1, 5])] -- the second PDF, filled at 1
      let h ← fcnAt conv [2, 5] s.1 -- the first PDF is evaluated at 2
      let s' ← cacheStep conv (convRedo model resolution) compute (h, (), s.2.2) (.fit (.callAt [2, 5])) -- and the second
      look (some s')) = some (1, 2) := by
  decide +kernel

namespace CacheDemo
open Demo
/-- An amplitude of one resonance (variable 2), coefficients 0 and 1, efficiency with variable 3. -/
def resonance : Pdf lib := lin 1 2 0 1
def efficiency : Pdf lib := lin 2 3 0 1
def amp : Pdf lib := .mk ⟨3, .amp3, [0, 1], [1, 0], [0, 1, 2], 1⟩ [resonance, efficiency]
/-- The integral depends on the resonance's and the efficiency's parameter and on the data. -/
def ampCompute : AmpCell → (Nat → ℚ) → ℚ → ℚ
  | .wave _, v, d => v 2 + d
  | .integral _ _, v, _ => v 2 * v 3
/-- Four variables. -/
def ampPars : Pars ℚ := fun i =>
  { name := if i = 0 then "a" else if i = 1 then "b" else if i = 2 then "c" else "d", value := 0, error := 1, lower := 0,
    upper := 10, blind := 0, fixed := false, changed := true, fitterIndex := -1 }
/-- The cached wave and integral and what they should be. -/
def ampLook (r : Option (Pars ℚ × ℚ × Cached AmpCell ℚ)) : Option ((ℚ × ℚ) × (ℚ × ℚ)) :=
  r.map fun s => ((s.2.2.content (.wave 0), ampCompute (.wave 0) (fun i => (s.1 i).value) s.2.1),
    (s.2.2.content (.integral 0 0), ampCompute (.integral 0 0) (fun i => (s.1 i).value) s.2.1))
end CacheDemo

open CacheDemo in
/-- **Violation of C30.**  A change of a parameter of the efficiency does not cause the integrals to be redone. -/
theorem C30_violation_efficiency :
    ampLook (cacheRun amp (ampRedo [resonance]) ampCompute ampPars 0 (fun _ => 0)
      [.fit (.callAt [1, 1, 2, 5]), .fit (.callAt [1, 1, 2, 6])]) = some ((2, 2), (10, 12)) := by decide +kernel

open CacheDemo in
/-- **Violation of C30.**  New data without a call of `setDataSize`: the waves are those of the old data. -/
theorem C30_violation_new_data :
    ampLook (cacheRun amp (ampRedo [resonance]) ampCompute ampPars 0 (fun _ => 0)
      [.fit (.callAt [1, 1, 2, 5]), .fit (.callAt [1, 2, 2, 5]), .surround 7, .evaluate]) = some ((2, 9), (10, 10)) := by
  decide +kernel

open CacheDemo in
/-- A fit of the amplitude with the efficiency's parameter kept: the conclusion of `C30_amplitude_partial` on a concrete
history. -/
example : ∃ s, cacheRun amp (ampRedo [resonance]) (fun c v d => ampCompute c (fun i => if i = 3 then 1 else v i) d) ampPars 0
      (fun _ => 0) ([.fit (.callAt [1, 1, 2, 5])] ++ [.fit (.callAt [1, 2, 3, 5])]) = some s
    ∧ s.2.2.content (.integral 0 0) = 3 := by
  have hsome : (cacheRun amp (ampRedo [resonance]) (fun c v d => ampCompute c (fun i => if i = 3 then 1 else v i) d) ampPars 0
      (fun _ => 0) ([.fit (.callAt [1, 1, 2, 5])] ++ [.fit (.callAt [1, 2, 3, 5])])).isSome = true := by decide +kernel
  obtain ⟨s, hs⟩ := Option.isSome_iff_exists.mp hsome
  have hf := C30_amplitude_partial amp (Demo.val 2 0) [resonance] (fun c v d => ampCompute c (fun i => if i = 3 then 1 else v i) d)
    ampPars 0 (fun _ => 0)
    (by
      intro i r hr v v' d hv
      cases i with
      | zero =>
        simp only [List.getElem?_cons_zero, Option.some.injEq] at hr
        subst hr
        have := hv 2 (by decide)
        simp [ampCompute, this]
      | succ i => simp at hr)
    (by
      intro i j r q hr hq v v' d hv
      cases i with
      | zero =>
        simp only [List.getElem?_cons_zero, Option.some.injEq] at hr
        subst hr
        have := hv 2 (List.mem_append_left _ (List.mem_append_left _ (by decide)))
        simp [ampCompute, this]
      | succ i => simp at hr)
    (by decide) (by
      intro r hr i hi
      rw [List.mem_singleton] at hr
      subst hr
      exact hi)
    (by
      intro r hr i hi
      rw [List.mem_singleton] at hr
      subst hr
      have : i = 2 := by simpa [resonance, Demo.lin, Pdf.ownParams] using hi
      subst this
      decide)
    (by intro i _ x; show x - 0 = x; exact sub_zero x)
    [.fit (.callAt [1, 1, 2, 5])] (.fit (.callAt [1, 2, 3, 5])) (by decide) rfl s hs 0 0 (by decide) (by decide)
  have h0 : (cacheRun amp (ampRedo [resonance]) (fun c v d => ampCompute c (fun i => if i = 3 then 1 else v i) d) ampPars 0
      (fun _ => 0) ([.fit (.callAt [1, 1, 2, 5])] ++ [.fit (.callAt [1, 2, 3, 5])])).map (fun s => (s.1 2).value)
      = some 3 := by decide +kernel
  rw [hs] at h0
  simp only [Option.map_some, Option.some.injEq] at h0
  refine ⟨s, hs, hf.2.trans ?_⟩
  simp [ampCompute, h0]

end GooFit
