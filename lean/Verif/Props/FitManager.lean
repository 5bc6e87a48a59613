import Verif.Lemmas.FitManager
import Verif.Props.Minuit
import Mathlib.LinearAlgebra.Matrix.Notation
import Mathlib.Tactic.FinCases
/-!
# C75: what a fit manager does

`Mgr2.run t h ops` is the life of a `FitManagerMinuit2` constructed for the PDF `t` on the variables `h`: fits, in which Minuit does
anything (`MinRun`), calls of the FCN and setters of the variables.
-/
set_option autoImplicit false
namespace GooFit
open Spec FpOps

section
variable {F : Type} [FpOps F] [DecidableEq F] {L : Lib F}

/-- **C75, status.** Before the first fit the manager reports 50; after a fit, whatever else happens before the next, it reports 0
if that fit is valid, has a covariance, and neither missed the distance to the minimum nor the call limit, and 51 otherwise.  As a
boolean it is true exactly when it reports 0. -/
theorem C75_status (t : Pdf L) (h h' : Pars F) (m : Mgr2 F) (ops : List (MgrOp F)) (hr : Mgr2.run t h ops = some (m, h')) :
    ((∀ r, .fit r ∉ ops) → m.retval.code = 50)
    ∧ (∀ pre r post, ops = pre ++ .fit r :: post → (∀ r', .fit r' ∉ post) →
        m.retval.code = if r.isValid = true ∧ r.hasCovariance = true ∧ r.isAboveMaxEdm = false ∧ r.hasReachedCallLimit = false
          then 0 else 51)
    ∧ (m.ok = true ↔ m.retval.code = 0) := by
  refine ⟨?_, ?_, by cases h : m.retval <;> simp [Mgr2.ok, h, FitErrors.code]⟩
  · intro hno
    have : m.retval = .NotRun := by
      induction ops using List.reverseRecOn generalizing m h' with
      | nil => exact (Mgr2.run_nil t h h' m hr).2.1
      | append_singleton ops op ih =>
        rw [Mgr2.run_snoc] at hr
        cases h0 : Mgr2.run t h ops with
        | none => rw [h0] at hr; exact absurd hr (by simp)
        | some s =>
          rw [h0] at hr
          have hso := Mgr2.step_other t s (m, h') op hr fun r hr' => hno r (by simp [hr'])
          rw [hso.2.1]
          exact ih s.2 s.1 h0 fun r hr' => hno r (by simp [hr'])
    rw [this]; rfl
  · intro pre r post hops hno
    have : m.retval = (if r.isValid && r.hasCovariance && !r.isAboveMaxEdm && !r.hasReachedCallLimit then FitErrors.Valid
          else FitErrors.InValid) := by
      subst hops
      induction post using List.reverseRecOn generalizing m h' with
      | nil =>
        rw [Mgr2.run_snoc] at hr
        cases h0 : Mgr2.run t h pre with
        | none => rw [h0] at hr; exact absurd hr (by simp)
        | some s =>
          rw [h0] at hr
          obtain ⟨_, _, _, _, _, _, e, _⟩ := Mgr2.fit_parts t s.1 m s.2 h' r hr
          exact e
      | append_singleton post op ih =>
        rw [← List.cons_append, ← List.append_assoc, Mgr2.run_snoc] at hr
        cases h0 : Mgr2.run t h (pre ++ .fit r :: post) with
        | none => rw [h0] at hr; exact absurd hr (by simp)
        | some s =>
          rw [h0] at hr
          have hso := Mgr2.step_other t s (m, h') op hr fun r hr' => hno r (by simp [hr'])
          rw [hso.2.1]
          exact ih s.2 s.1 (fun r hr' => hno r (by simp [hr'])) h0
    rw [this]
    cases r.isValid <;> cases r.hasCovariance <;> cases r.isAboveMaxEdm <;> cases r.hasReachedCallLimit <;> rfl

/-- **C75, results.** After a fit every parameter of the PDF has the value and error of the minimum for it, no other variable has
changed, and the next fit starts from those values and errors. -/
theorem C75_results (t : Pdf L) (h h0 h' : Pars F) (m0 m : Mgr2 F) (ops : List (MgrOp F)) (r : MinRun F)
    (h0r : Mgr2.run t h ops = some (m0, h0)) (hr : Mgr2.run t h (ops ++ [.fit r]) = some (m, h')) :
    (∀ (k i : Nat), t.getParameters[k]? = some i → (h' i).value = r.value k ∧ (h' i).error = r.error k
      ∧ ∃ p p0, m.mn[k]? = some p ∧ m0.mn[k]? = some p0 ∧ p.name = p0.name ∧ p.value = r.value k
          ∧ p.kind = p0.kind.setError (r.error k))
    ∧ (∀ i, i ∉ t.getParameters → h' i = h0 i)
    ∧ m.mn.length = t.getParameters.length := by
  have hlen : ∀ (ops : List (MgrOp F)) (m : Mgr2 F) (h' : Pars F), Mgr2.run t h ops = some (m, h') →
      m.mn.length = t.getParameters.length := by
    intro ops
    induction ops using List.reverseRecOn with
    | nil =>
      intro m h' hr
      obtain ⟨⟨g, hg⟩, _⟩ := Mgr2.run_nil t h h' m hr
      exact (C29_declared t h g m.mn hg).1
    | append_singleton ops op ih =>
      intro m h' hr
      rw [Mgr2.run_snoc] at hr
      cases h0 : Mgr2.run t h ops with
      | none => rw [h0] at hr; exact absurd hr (by simp)
      | some s =>
        rw [h0] at hr
        by_cases hop : ∃ r, op = .fit r
        · obtain ⟨r, rfl⟩ := hop
          obtain ⟨_, _, _, _, e, _⟩ := Mgr2.fit_parts t s.1 m s.2 h' r hr
          rw [e, mnReadBack_length]
          exact ih s.1 s.2 h0
        · rw [(Mgr2.step_other t s (m, h') op hr fun r hr' => hop ⟨r, hr'⟩).1]
          exact ih s.1 s.2 h0
  obtain ⟨ops', hops'⟩ := Mgr2.run_mnRun t h ops m0 h0 h0r
  obtain ⟨opsm, hopsm⟩ := Mgr2.run_mnRun t h _ m h' hr
  have hrun := hr
  rw [Mgr2.run_snoc, h0r] at hr
  obtain ⟨o2, h1, e1, e2, e3, _, _, _, e7⟩ := Mgr2.fit_parts t m0 m h0 h' r hr
  obtain ⟨hix, _⟩ := mnRun_indexed t h h' opsm hopsm
  obtain ⟨s1, s2, s3, s4⟩ := setGooFitParams_spec t.getParameters (fun k => (r.value k, r.error k)) h1
  refine ⟨?_, ?_, hlen _ _ _ hrun⟩
  · intro k i hk
    have hv := s3 i (List.mem_of_getElem? hk)
    have hfi : (h1 i).fitterIndex = k := by
      rw [← s2 i, ← e2]
      exact hix.2 k i hk
    rw [hfi, ← e2] at hv
    have hp := mnReadBack_spec h' t.getParameters m0.mn hix k i hk
    rw [← e3] at hp
    have hk' : k < m0.mn.length := by
      rw [hlen _ _ _ h0r]
      exact (List.getElem?_eq_some_iff.mp hk).1
    rw [List.getElem?_eq_getElem hk'] at hp
    refine ⟨hv.1, hv.2, _, m0.mn[k], hp, List.getElem?_eq_getElem hk', rfl, hv.1, ?_⟩
    show MnKind.setError (h' i).error _ = _
    rw [hv.2]
  · intro i hi
    rw [e2, s4 i hi]
    -- calls of the FCN touch parameters only
    subst e7
    have : ∀ (vs : List (List F)) (g g' : Pars F), Indexed t.getParameters g → (vs.map MnOp.callAt).foldlM (mnStep t) g = some g' →
        g' i = g i := by
      intro vs
      induction vs with
      | nil =>
        intro g g' _ hg
        simp only [List.map_nil, List.foldlM_nil, pure, Option.some.injEq] at hg
        rw [hg]
      | cons v vs ih =>
        intro g g' hgi hg
        simp only [List.map_cons, List.foldlM_cons, bind, Option.bind] at hg
        cases hs : mnStep t g (.callAt v) with
        | none => rw [hs] at hg; exact absurd hg (by simp)
        | some g1 =>
          rw [hs] at hg
          have q := (fromMinuitVector_spec t v false g g1 hgi hs).2 i hi
          obtain ⟨n1, n2, _⟩ := fromMinuitVector_indexed t v false g g1 hgi hs
          rw [ih g1 g' (hgi.congr n1 n2) hg, q]
    exact this _ _ _ (mnRun_indexed t h h0 ops' hops').1 e1

/-- The declaration of a parameter never changes its kind. -/
theorem Mgr2.run_kind (t : Pdf L) (h h' : Pars F) (m : Mgr2 F) (ops : List (MgrOp F)) (hr : Mgr2.run t h ops = some (m, h'))
    (k i : Nat) (hk : t.getParameters[k]? = some i) :
    ∃ p, m.mn[k]? = some p ∧ ((h i).fixed = true → p.kind = .constant)
      ∧ ((h i).fixed = false → (h i).lower ≠ (h i).upper → ∃ e, p.kind = .limited e (h i).lower (h i).upper) := by
  induction ops using List.reverseRecOn generalizing m h' with
  | nil =>
    obtain ⟨⟨g, hg⟩, _⟩ := Mgr2.run_nil t h h' m hr
    obtain ⟨p, p1, _, _, p2, _, p3⟩ := (C29_declared t h g m.mn hg).2 k i hk
    exact ⟨p, p1, p2, fun a b => ⟨_, p3 a b⟩⟩
  | append_singleton ops op ih =>
    have hr0 := hr
    rw [Mgr2.run_snoc] at hr
    cases h0 : Mgr2.run t h ops with
    | none => rw [h0] at hr; exact absurd hr (by simp)
    | some s =>
      rw [h0] at hr
      obtain ⟨p, p1, p2, p3⟩ := ih s.2 s.1 h0
      by_cases hop : ∃ r, op = .fit r
      · obtain ⟨r, rfl⟩ := hop
        obtain ⟨q, q0, e1, e2, _, _, e5⟩ := ((C75_results t h s.2 h' s.1 m ops r h0 hr0).1 k i hk).2.2
        rw [p1] at e2
        obtain rfl := Option.some.inj e2
        refine ⟨q, e1, fun hf => by rw [e5, p2 hf]; rfl, fun a b => ?_⟩
        obtain ⟨e, he⟩ := p3 a b
        exact ⟨_, by rw [e5, he]; rfl⟩
      · rw [(Mgr2.step_other t s (m, h') op hr fun r hr' => hop ⟨r, hr'⟩).1]
        exact ⟨p, p1, p2, p3⟩

/-- **C75, fixed variables and limits.** As long as Minuit respects what it is told in every fit, then in every fit of the history a
variable that was fixed when the manager was constructed is at its value at every point tried and after the fit, and a variable
that had limits is within them. -/
theorem C75_respected [LE F] (t : Pdf L) (h : Pars F) (ops : List (MgrOp F))
    (hmin : ∀ pre r post m1 h1, ops = pre ++ .fit r :: post → Mgr2.run t h pre = some (m1, h1) → Respects m1.mn r)
    (pre post : List (MgrOp F)) (r : MinRun F) (hops : ops = pre ++ .fit r :: post) (m : Mgr2 F) (h' : Pars F)
    (hr : Mgr2.run t h (pre ++ [.fit r]) = some (m, h')) (k i : Nat) (hk : t.getParameters[k]? = some i) :
    ((h i).fixed = true →
      (∀ v ∈ r.calls ++ r.minosCalls, v[k]? = some (h i).value) ∧ (h' i).value = (h i).value)
    ∧ ((h i).fixed = false → (h i).lower ≠ (h i).upper →
      (∀ v ∈ r.calls ++ r.minosCalls, ∃ x, v[k]? = some x ∧ (h i).lower ≤ x ∧ x ≤ (h i).upper)
        ∧ (h i).lower ≤ (h' i).value ∧ (h' i).value ≤ (h i).upper) := by
  -- the minimiser's value of a fixed variable never changes
  have hval : ∀ (pre : List (MgrOp F)) (m0 : Mgr2 F) (h0 : Pars F), (∃ post, ops = pre ++ post) → Mgr2.run t h pre = some (m0, h0) →
      (h i).fixed = true → ∃ p, m0.mn[k]? = some p ∧ p.kind = .constant ∧ p.value = (h i).value := by
    intro pre
    induction pre using List.reverseRecOn with
    | nil =>
      intro m0 h0 _ hr hf
      obtain ⟨⟨g, hg⟩, _⟩ := Mgr2.run_nil t h h0 m0 hr
      obtain ⟨p, p1, _, p3, p2, _⟩ := (C29_declared t h g m0.mn hg).2 k i hk
      exact ⟨p, p1, p2 hf, p3⟩
    | append_singleton pre op ih =>
      rintro m1 h1 ⟨post, hpost⟩ hr hf
      have hr0 := hr
      rw [Mgr2.run_snoc] at hr
      cases h0 : Mgr2.run t h pre with
      | none => rw [h0] at hr; exact absurd hr (by simp)
      | some s =>
        rw [h0] at hr
        obtain ⟨p, p1, p2, p3⟩ := ih s.1 s.2 ⟨op :: post, by rw [hpost]; simp⟩ h0 hf
        by_cases hop : ∃ r, op = .fit r
        · obtain ⟨r, rfl⟩ := hop
          obtain ⟨q, q0, e1, e2, _, e4, e5⟩ := ((C75_results t h s.2 h1 s.1 m1 pre r h0 hr0).1 k i hk).2.2
          rw [p1] at e2
          obtain rfl := Option.some.inj e2
          have hres := hmin pre r post s.1 s.2 (by rw [hpost]; simp) h0
          exact ⟨q, e1, by rw [e5, p2]; rfl, by rw [e4, (hres.constant k p p1 p2).2, p3]⟩
        · rw [(Mgr2.step_other t s (m1, h1) op hr fun r hr' => hop ⟨r, hr'⟩).1]
          exact ⟨p, p1, p2, p3⟩
  have hr0 := hr
  rw [Mgr2.run_snoc] at hr
  cases h0 : Mgr2.run t h pre with
  | none => rw [h0] at hr; exact absurd hr (by simp)
  | some s =>
    have hres := hmin pre r post s.1 s.2 hops h0
    have hv := ((C75_results t h s.2 h' s.1 m pre r h0 hr0).1 k i hk).1
    constructor
    · intro hf
      obtain ⟨p, p1, p2, p3⟩ := hval pre s.1 s.2 ⟨_, hops⟩ h0 hf
      obtain ⟨c1, c2⟩ := hres.constant k p p1 p2
      rw [hv, ← p3]
      exact ⟨c1, c2⟩
    · intro hf hl
      obtain ⟨p, p1, _, p3⟩ := Mgr2.run_kind t h s.2 s.1 pre h0 k i hk
      obtain ⟨e, he⟩ := p3 hf hl
      rw [hv]
      exact hres.limited k p e _ _ p1 he

/-- **C75, what a fit does not see.** Setting values, errors or fixed flags of the variables after the construction of the manager
changes nothing of what the minimiser is told: between two fits, and before the first, the declaration is the same. -/
theorem C75_declaration_frozen (t : Pdf L) (h h1 h2 : Pars F) (m1 m2 : Mgr2 F) (pre post : List (MgrOp F))
    (hno : ∀ r, .fit r ∉ post) (h1r : Mgr2.run t h pre = some (m1, h1)) (h2r : Mgr2.run t h (pre ++ post) = some (m2, h2)) :
    m2.mn = m1.mn := by
  induction post using List.reverseRecOn generalizing m2 h2 with
  | nil =>
    rw [List.append_nil, h1r] at h2r
    simp only [Option.some.injEq, Prod.mk.injEq] at h2r
    rw [h2r.1]
  | append_singleton post op ih =>
    rw [← List.append_assoc, Mgr2.run_snoc] at h2r
    cases h0 : Mgr2.run t h (pre ++ post) with
    | none => rw [h0] at h2r; exact absurd h2r (by simp)
    | some s =>
      rw [h0] at h2r
      rw [(Mgr2.step_other t s (m2, h2) op h2r fun r hr' => hno r (by simp [hr'])).1]
      exact ih s.2 s.1 (fun r hr' => hno r (by simp [hr'])) h0

/-- **C75, the Minos switch.** Minos is on exactly if the last `setMinos` switched it on. -/
theorem C75_minos_switch (t : Pdf L) (h h' : Pars F) (m : Mgr2 F) (ops : List (MgrOp F)) (hr : Mgr2.run t h ops = some (m, h')) :
    m.minos = true ↔ ∃ pre post, ops = pre ++ .setMinos true :: post ∧ ∀ b, .setMinos b ∉ post := by
  induction ops using List.reverseRecOn generalizing m h' with
  | nil => simp [(Mgr2.run_nil t h h' m hr).2.2.2]
  | append_singleton ops op ih =>
    rw [Mgr2.run_snoc] at hr
    cases h0 : Mgr2.run t h ops with
    | none => rw [h0] at hr; exact absurd hr (by simp)
    | some s =>
      rw [h0] at hr
      have ih' := ih s.2 s.1 h0
      have other : (∀ b, op ≠ .setMinos b) → m.minos = s.1.minos →
          (m.minos = true ↔ ∃ pre post, ops ++ [op] = pre ++ .setMinos true :: post ∧ ∀ b, .setMinos b ∉ post) := by
        intro hop hm
        rw [hm, ih']
        constructor
        · rintro ⟨pre, post, e, hno⟩
          exact ⟨pre, post ++ [op], by rw [e]; simp, fun b hb => by
            rcases List.mem_append.mp hb with hb | hb
            · exact hno b hb
            · exact hop b (List.mem_singleton.mp hb).symm⟩
        · rintro ⟨pre, post, e, hno⟩
          rcases List.eq_nil_or_concat post with rfl | ⟨post', x, rfl⟩
          · have := (List.append_inj' e rfl).2
            exact absurd (List.cons.inj this).1 (hop true)
          · rw [List.concat_eq_append, ← List.cons_append, ← List.append_assoc] at e
            exact ⟨pre, post', (List.append_inj' e rfl).1, fun b hb => hno b (by simp [hb])⟩
      have one : ∀ o : MnOp F, (mnStep t s.2 o).map (fun h => (s.1, h)) = some (m, h') → m.minos = s.1.minos := by
        intro o ho
        cases hs : mnStep t s.2 o with
        | none => rw [hs] at ho; exact absurd ho (by simp)
        | some g' =>
          rw [hs] at ho
          simp only [Option.map_some, Option.some.injEq, Prod.mk.injEq] at ho
          rw [← ho.1]
      cases op with
      | fit r =>
        obtain ⟨_, _, _, _, _, e, _⟩ := Mgr2.fit_parts t s.1 m s.2 h' r hr
        exact other (by simp) e
      | setMinos b =>
        simp only [Option.bind, Mgr2.step, Option.some.injEq, Prod.mk.injEq] at hr
        rw [← hr.1]
        constructor
        · intro hb
          simp only at hb
          subst hb
          exact ⟨ops, [], rfl, by simp⟩
        · rintro ⟨pre, post, e, hno⟩
          rcases List.eq_nil_or_concat post with rfl | ⟨post', x, rfl⟩
          · have := (List.append_inj' e rfl).2
            simp at this
            exact this
          · rw [List.concat_eq_append, ← List.cons_append, ← List.append_assoc] at e
            have := (List.append_inj' e rfl).2
            simp only [List.cons.injEq, and_true] at this
            exact absurd (by simp [this]) (hno b)
      | callAt v => exact other (by simp) (one _ hr)
      | callHere => exact other (by simp) (one _ hr)
      | setValue i x => exact other (by simp) (one (.setValue i x) hr)
      | setError i x => exact other (by simp) (one (.setError i x) hr)
      | setBlind i x => exact other (by simp) (one (.setBlind i x) hr)
      | setFixed i b => exact other (by simp) (one (.setFixed i b) hr)

omit [FpOps F] [DecidableEq F] in
/-- Positions instead of the indices stored in the variables. -/
theorem minos_positions (p : Nat → Bool) (g : Int → F × F) (fi : Nat → Int) (is : List Nat) (s : Nat)
    (hf : ∀ (k i : Nat), is[k]? = some i → fi i = ((s + k : Nat) : Int)) :
    (is.filter p).map (fun i => g (fi i)) = ((is.zipIdx s).filter fun q => p q.1).map fun q => g q.2 := by
  induction is generalizing s with
  | nil => rfl
  | cons i is ih =>
    have h0 : fi i = (s : Int) := by simpa using hf 0 i rfl
    have ih' := ih (s + 1) fun k j hk => by
      have := hf (k + 1) j (by simpa using hk)
      rw [this]; push_cast; ring
    rw [List.zipIdx_cons, List.filter_cons, List.filter_cons]
    by_cases hp : p i = true
    · simp only [hp, if_true, List.map_cons, h0, ih']
    · simp only [hp, if_false, ih', Bool.false_eq_true]

/-- **C75, Minos, in part.** A fit with Minos switched on adds one pair of errors for every variable that is not fixed, in the order of
the parameter list, each belonging to its variable; so after the first such fit these are the errors reported.  Missing: later
fits, whose errors come behind the earlier ones, see `C75_violation_minos`. -/
theorem C75_minos_partial (t : Pdf L) (h h0 h' : Pars F) (m0 m : Mgr2 F) (ops : List (MgrOp F)) (r : MinRun F)
    (h0r : Mgr2.run t h ops = some (m0, h0)) (hr : Mgr2.run t h (ops ++ [.fit r]) = some (m, h')) :
    m.minosErrors = m0.minosErrors ++ if m0.minos then
        (t.getParameters.zipIdx.filter fun q => !(h0 q.1).fixed).map fun q => r.minos q.2
      else [] := by
  obtain ⟨ops', hops'⟩ := Mgr2.run_mnRun t h ops m0 h0 h0r
  rw [Mgr2.run_snoc, h0r] at hr
  obtain ⟨o2, h1, e1, e2, e3, _, _, e6, e7⟩ := Mgr2.fit_parts t m0 m h0 h' r hr
  obtain ⟨hix, _⟩ := mnRun_indexed t h h0 ops' hops'
  subst e7
  have key : ∀ (vs : List (List F)) (g g' : Pars F), Indexed t.getParameters g → (vs.map MnOp.callAt).foldlM (mnStep t) g = some g' →
      ∀ i, (g' i).fixed = (g i).fixed ∧ (g' i).fitterIndex = (g i).fitterIndex := by
    intro vs
    induction vs with
    | nil =>
      intro g g' _ hg i
      simp only [List.map_nil, List.foldlM_nil, pure, Option.some.injEq] at hg
      rw [hg]
      exact ⟨rfl, rfl⟩
    | cons v vs ih =>
      intro g g' hgi hg i
      simp only [List.map_cons, List.foldlM_cons, bind, Option.bind] at hg
      cases hs : mnStep t g (.callAt v) with
      | none => rw [hs] at hg; exact absurd hg (by simp)
      | some g1 =>
        rw [hs] at hg
        obtain ⟨q1, q2⟩ := fromMinuitVector_spec t v false g g1 hgi hs
        obtain ⟨n1, n2, _⟩ := fromMinuitVector_indexed t v false g g1 hgi hs
        obtain ⟨a, b⟩ := ih g1 g' (hgi.congr n1 n2) hg i
        refine ⟨?_, b.trans (n2 i)⟩
        rw [a]
        by_cases hi : i ∈ t.getParameters
        · obtain ⟨k, hk⟩ := List.getElem?_of_mem hi
          obtain ⟨x, _, hx⟩ := q1 k i hk
          rw [hx]
        · rw [q2 i hi]
  have hk := key _ _ _ hix e1
  rw [e6]
  cases hm : m0.minos with
  | false => simp
  | true =>
    simp only [if_true]
    congr 1
    have := minos_positions (fun i => !(h0 i).fixed) r.minos (fun i => (h0 i).fitterIndex) t.getParameters 0
      (fun k i hk => by rw [hix.2 k i hk]; simp)
    rw [← this]
    have e8 : (fun i => !(h1 i).fixed) = fun i => !(h0 i).fixed := funext fun i => by rw [(hk i).1]
    rw [e8]
    exact List.map_congr_left fun i _ => by rw [(hk i).2]

end

/-! ### Errors -/

/-- **C75, errors.** For a negative log likelihood that is parabolic around its minimum with covariance matrix `C` (`A` is its
inverse), the error Minuit reports with the `Up` of the FCN is the square root of the variance. -/
theorem C75_errors {n : Nat} (C A : Matrix (Fin n) (Fin n) ℝ) (hA : A.IsSymm) (hpos : ∀ x : Fin n → ℝ, 0 ≤ x ⬝ᵥ A.mulVec x)
    (hinv : A * C = 1) (i : Fin n) (hi : 0 < C i i) (x₀ : Fin n → ℝ) (nll0 : ℝ) :
    IsError (fun x => nll0 + 1 / 2 * ((x - x₀) ⬝ᵥ A.mulVec (x - x₀))) x₀ upMinuit2 i (√(C i i)) := by
  have := quad_error C A hA hpos hinv i hi x₀ nll0 (1 / 2) upMinuit2 (by norm_num) (by norm_num [upMinuit2])
  have e : (upMinuit2 : ℝ) / (1 / 2) * C i i = C i i := by norm_num [upMinuit2]
  rwa [e] at this

/-- **C75 (violated by the code).** `Up` is one half for every metric.  In a chi-square fit with covariance matrix `C` the error
reported is too small by a factor of the square root of two. -/
theorem C75_violation_chisq {n : Nat} (C A : Matrix (Fin n) (Fin n) ℝ) (hA : A.IsSymm) (hpos : ∀ x : Fin n → ℝ, 0 ≤ x ⬝ᵥ A.mulVec x)
    (hinv : A * C = 1) (i : Fin n) (hi : 0 < C i i) (x₀ : Fin n → ℝ) (chisq0 e : ℝ)
    (he : IsError (fun x => chisq0 + (x - x₀) ⬝ᵥ A.mulVec (x - x₀)) x₀ upMinuit2 i e) : e = √(C i i) / √2 := by
  have := quad_error C A hA hpos hinv i hi x₀ chisq0 1 upMinuit2 (by norm_num) (by norm_num [upMinuit2])
  have e1 : (fun x => chisq0 + 1 * ((x - x₀) ⬝ᵥ A.mulVec (x - x₀))) = fun x => chisq0 + (x - x₀) ⬝ᵥ A.mulVec (x - x₀) := by
    funext x; rw [one_mul]
  rw [e1] at this
  rw [he.unique this, ← Real.sqrt_div hi.le]
  congr 1
  rw [upMinuit2]; ring

/-- **C75 (violated by the code).** Minuit1 is left with its default `Up` of one, so the errors of a likelihood fit are too large by
the square root of two. -/
theorem C75_violation_minuit1 {n : Nat} (C A : Matrix (Fin n) (Fin n) ℝ) (hA : A.IsSymm)
    (hpos : ∀ x : Fin n → ℝ, 0 ≤ x ⬝ᵥ A.mulVec x) (hinv : A * C = 1) (i : Fin n) (hi : 0 < C i i) (x₀ : Fin n → ℝ) (nll0 e : ℝ)
    (he : IsError (fun x => nll0 + 1 / 2 * ((x - x₀) ⬝ᵥ A.mulVec (x - x₀))) x₀ upMinuit1 i e) : e = √2 * √(C i i) := by
  have := quad_error C A hA hpos hinv i hi x₀ nll0 (1 / 2) upMinuit1 (by norm_num) (by norm_num [upMinuit1])
  rw [he.unique this, ← Real.sqrt_mul (by norm_num : (0:ℝ) ≤ 2)]
  congr 1
  rw [upMinuit1]; ring

/-- Two correlated parameters: `C = [[2, 1], [1, 1]]`, inverse `[[1, -1], [-1, 2]]`. -/
example : IsError (fun x : Fin 2 → ℝ => 7 + 1 / 2 * ((x - 0) ⬝ᵥ (!![1, -1; -1, 2] : Matrix (Fin 2) (Fin 2) ℝ).mulVec (x - 0)))
    0 upMinuit2 0 (√2) := by
  have := C75_errors !![2, 1; 1, 1] !![1, -1; -1, 2] (by ext i j; fin_cases i <;> fin_cases j <;> rfl)
    (by
      intro x
      simp only [dotProduct, Matrix.mulVec, Fin.sum_univ_two, Matrix.of_apply, Matrix.cons_val', Matrix.cons_val_zero,
        Matrix.cons_val_one, Matrix.cons_val_fin_one]
      nlinarith [sq_nonneg (x 0 - x 1), sq_nonneg (x 1)])
    (by ext i j; fin_cases i <;> fin_cases j <;> norm_num [Matrix.mul_apply, Fin.sum_univ_two]) 0 (by norm_num) 0 7
  simpa using this

/-! ### Minuit1 -/

section
variable {F : Type} [FpOps F] [DecidableEq F] {L : Lib F}

/-- **C75, both managers evaluate the same point.** A call by Minuit1 with given parameters leaves all variables as a call by Minuit2
with them does. -/
theorem C75_same_point (t : Pdf L) (h : Pars F) (v : List F) : eval1 t v h = fcnAt t v h := by
  unfold eval1 fcnAt fromMinuitVector
  have : ∀ (is : List Nat), (∀ i ∈ is, i ∈ t.flat Node.params) → ∀ h : Pars F, evalLoop1 t v is h = fromLoop t v false is h := by
    intro is
    induction is with
    | nil => intro _ h; rfl
    | cons i is ih =>
      intro hsub h
      unfold evalLoop1 fromLoop
      simp only [bind, Option.bind]
      cases hx : atInt v (h i).fitterIndex with
      | none => rfl
      | some x =>
        dsimp only
        rw [ih fun j hj => hsub j (List.mem_cons_of_mem _ hj)]
        congr 1
        funext j
        rw [updateVariable_apply, updateVariable_apply]
        have hi := hsub i (List.mem_cons_self ..)
        by_cases hj : j = i
        · subst hj
          simp [Pars.modify_same, hi]
        · simp [Pars.modify_same, Pars.modify_other _ _ hj]
  exact this _ (fun i hi => (mem_gather Node.params t i).mp hi) h

end

/-- With a call limit the settings decide what Minuit1 does around Migrad. -/
theorem C75_minuit1_partial (m : Mgr1) (hm : m.callLimit = true) :
    ("MIGRAD" ∈ m.commands) ∧ ("MINOS" ∈ m.commands ↔ m.useMinos = true) ∧ ("IMPROVE" ∈ m.commands ↔ m.useImprove = true)
      ∧ (m.commands.head? = some "HESSE" ↔ m.useHesseBefore = true)
      ∧ ("HESSE" ∈ m.commands.dropWhile (· ≠ "MIGRAD") ↔ m.useHesse = true) := by
  obtain ⟨c, b, h, mi, im⟩ := m
  simp only at hm
  subst hm
  cases b <;> cases h <;> cases mi <;> cases im <;> decide

/-- **C75 (violated by the code).** Without a call limit, all of these settings are ignored: asking Minuit1 for Minos errors has no
effect. -/
theorem C75_violation_minuit1_settings (m : Mgr1) (hm : m.callLimit = false) : m.commands = ["MIGRAD"] := by
  simp [Mgr1.commands, hm]

/-! ### Concrete cases -/

deriving instance DecidableEq for MnKind
deriving instance DecidableEq for MnPar

namespace Demo

/-- A fit of the demo tree that ends at the given values. -/
def fitTo (x : Int → ℚ) (y : ℚ) : MinRun ℚ :=
  { calls := [[x 0, x 1, x 2]], value := x, error := fun _ => 1 / 10, isValid := true, hasCovariance := true, isAboveMaxEdm := false,
    hasReachedCallLimit := false, minosCalls := [], minos := fun k => (-y - k, y + k) }

/-- The variables with `c` fixed. -/
def parsFixed : Pars ℚ := pars.modify 2 fun v => { v with fixed := true }

end Demo

/-- Minuit respects the declaration in a fit that ends inside the limits. -/
theorem Demo.respects (x : Int → ℚ) (y : ℚ) (h0 : 0 ≤ x 0 ∧ x 0 ≤ 10) (h1 : 0 ≤ x 1 ∧ x 1 ≤ 10) (h2 : x 2 = 3) (e0 e1 x0 x1 : ℚ) :
    Respects [⟨"a", x0, .limited e0 0 10⟩, ⟨"b", x1, .limited e1 0 10⟩, ⟨"c", (3 : ℚ), .constant⟩] (Demo.fitTo x y) := by
  constructor
  · intro k p hp hc
    match k, hp with
    | 0, hp => simp at hp; subst hp; exact absurd hc (by simp)
    | 1, hp => simp at hp; subst hp; exact absurd hc (by simp)
    | 2, hp => simp at hp; subst hp; simp [Demo.fitTo, h2]
    | k + 3, hp => simp at hp
  · intro k p e lo hi hp hc
    match k, hp with
    | 0, hp => simp at hp; subst hp; simp at hc; obtain ⟨_, rfl, rfl⟩ := hc; simp [Demo.fitTo, h0]
    | 1, hp => simp at hp; subst hp; simp at hc; obtain ⟨_, rfl, rfl⟩ := hc; simp [Demo.fitTo, h1]
    | 2, hp => simp at hp; subst hp; exact absurd hc (by simp)
    | k + 3, hp => simp at hp

/-- Two fits of the demo tree with `c` fixed: the hypotheses of the theorems are met. -/
example : (Mgr2.run Demo.tree Demo.parsFixed [.fit (Demo.fitTo (fun k => if k = 0 then 7 else if k = 1 then 8 else 3) 1)]).map
      (fun s => (s.1.mn, s.1.ok, s.1.retval.code, [(s.2 0).value, (s.2 1).value, (s.2 2).value, (s.2 0).error]))
    = some ([⟨"a", 7, .limited (1 / 10) 0 10⟩, ⟨"b", 8, .limited (1 / 10) 0 10⟩, ⟨"c", 3, .constant⟩], true, 0, [7, 8, 3, 1 / 10]) := by
  decide +kernel

/-- The hypothesis of `C75_respected` is met in that life, in which `c` is fixed at 3 and `a` has limits. -/
example : ∀ pre r post m1 h1, [MgrOp.fit (Demo.fitTo (fun k => if k = 0 then 7 else if k = 1 then 8 else 3) 1)] = pre ++ .fit r :: post →
    Mgr2.run Demo.tree Demo.parsFixed pre = some (m1, h1) → Respects m1.mn r := by
  intro pre r post m1 h1 he hr
  have hpre : pre = [] := by
    cases pre with
    | nil => rfl
    | cons a pre => simp at he
  subst hpre
  simp only [List.nil_append, List.cons.injEq, MgrOp.fit.injEq] at he
  obtain ⟨rfl, _⟩ := he
  have e1 : (Mgr2.run Demo.tree Demo.parsFixed []).map (fun s => s.1.mn)
      = some [⟨"a", 0, .limited 1 0 10⟩, ⟨"b", 2, .limited 1 0 10⟩, ⟨"c", 3, .constant⟩] := by decide +kernel
  rw [hr] at e1
  simp only [Option.map_some, Option.some.injEq] at e1
  rw [e1]
  exact Demo.respects _ _ (by norm_num) (by norm_num) (by norm_num) _ _ _ _

/-- **C75 (violated by the code).** A variable that is fixed after the manager has been constructed is fitted all the same, by a
minimiser that respects all it was told: `a` is fixed at 0, and is 7 after the fit. -/
theorem C75_violation_fixed_later :
    ∃ m1 h1 m h', Mgr2.run Demo.tree Demo.parsFixed [.setFixed 0 true] = some (m1, h1) ∧ (h1 0).fixed = true ∧ (h1 0).value = 0
      ∧ Respects m1.mn (Demo.fitTo (fun k => if k = 0 then 7 else if k = 1 then 8 else 3) 1)
      ∧ Mgr2.run Demo.tree Demo.parsFixed
          [.setFixed 0 true, .fit (Demo.fitTo (fun k => if k = 0 then 7 else if k = 1 then 8 else 3) 1)] = some (m, h')
      ∧ (h' 0).fixed = true ∧ (h' 0).value = 7 := by
  have e1 : (Mgr2.run Demo.tree Demo.parsFixed [.setFixed 0 true]).map (fun s => (s.1.mn, (s.2 0).fixed, (s.2 0).value))
      = some ([⟨"a", 0, .limited 1 0 10⟩, ⟨"b", 2, .limited 1 0 10⟩, ⟨"c", 3, .constant⟩], true, 0) := by decide +kernel
  have e2 : (Mgr2.run Demo.tree Demo.parsFixed
          [.setFixed 0 true, .fit (Demo.fitTo (fun k => if k = 0 then 7 else if k = 1 then 8 else 3) 1)]).map
      (fun s => ((s.2 0).fixed, (s.2 0).value)) = some (true, 7) := by decide +kernel
  cases h1 : Mgr2.run Demo.tree Demo.parsFixed [.setFixed 0 true] with
  | none => rw [h1] at e1; exact absurd e1 (by simp)
  | some s1 =>
    rw [h1] at e1
    simp only [Option.map_some, Option.some.injEq, Prod.mk.injEq] at e1
    cases h2 : Mgr2.run Demo.tree Demo.parsFixed
          [.setFixed 0 true, .fit (Demo.fitTo (fun k => if k = 0 then 7 else if k = 1 then 8 else 3) 1)] with
    | none => rw [h2] at e2; exact absurd e2 (by simp)
    | some s2 =>
      rw [h2] at e2
      simp only [Option.map_some, Option.some.injEq, Prod.mk.injEq] at e2
      refine ⟨s1.1, s1.2, s2.1, s2.2, rfl, e1.2.1, e1.2.2, ?_, rfl, e2.1, e2.2⟩
      rw [e1.1]
      exact Demo.respects _ _ (by norm_num) (by norm_num) (by norm_num) _ _ _ _

/-- **C75 (violated by the code).** A value set after the construction is not where the fit starts. -/
theorem C75_violation_start :
    (Mgr2.run Demo.tree Demo.parsFixed [.setValue 0 5]).map (fun s => ((s.2 0).value, s.1.mn[0]?.map (·.value)))
      = some (5, some 0) := by decide +kernel

/-- **C75 (violated by the code).** The Minos errors of a second fit come behind those of the first, so the list begins with the errors
of a fit that is over. -/
theorem C75_violation_minos :
    (Mgr2.run Demo.tree Demo.parsFixed [.setMinos true, .fit (Demo.fitTo (fun _ => 3) 1), .fit (Demo.fitTo (fun _ => 3) 5)]).map
      (fun s => s.1.minosErrors) = some [(-1, 1), (-2, 2), (-5, 5), (-6, 6)] := by decide +kernel

end GooFit
