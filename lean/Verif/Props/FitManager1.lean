import Verif.Props.FitManager
import Verif.Model.FitManager1
import Mathlib.Tactic.Tauto
/-!
# C75 for Minuit1

`mgr1Run refuses t h ops` is the life of a `FitManagerMinuit1` constructed for the PDF `t` on the variables `h`.
-/
set_option autoImplicit false
namespace GooFit
open Spec FpOps

section
variable {F : Type} {L : Lib F}

private theorem loop1_spec (refuses : Mn1Par F → Bool) : ∀ (is : List Nat) (mn mn' : List (Mn1Par F)) (h h' : Pars F),
    is.Nodup → minuit1Loop refuses is mn h = some (mn', h') →
    mn' = mn ++ (is.map fun i => ⟨(h i).name, (h i).value, (h i).error, (h i).lower, (h i).upper, (h i).fixed⟩)
    ∧ (∀ (k i : Nat), is[k]? = some i → h' i = { h i with fitterIndex := ((mn.length + k : Nat) : Int) })
    ∧ (∀ i, i ∉ is → h' i = h i)
  | [], mn, mn', h, h', _, hr => by
    simp only [minuit1Loop, Option.some.injEq, Prod.mk.injEq] at hr
    obtain ⟨rfl, rfl⟩ := hr
    exact ⟨by simp, by simp, fun _ _ => rfl⟩
  | i :: is, mn, mn', h, h', hnd, hr => by
    rw [minuit1Loop] at hr
    split at hr
    · exact absurd hr (by simp)
    rw [List.nodup_cons] at hnd
    obtain ⟨q1, q2, q3⟩ := loop1_spec refuses is _ mn' _ h' hnd.2 hr
    have hoth : ∀ j ∈ is, h.modify i (fun v => { v with fitterIndex := ((mn.length : Nat) : Int) }) j = h j := by
      intro j hj
      exact Pars.modify_other _ _ (fun e => hnd.1 (e ▸ hj))
    refine ⟨?_, ?_, ?_⟩
    · rw [q1, List.append_assoc, List.map_cons]
      congr 1
      rw [List.singleton_append]
      congr 1
      · rw [Pars.modify_same]
      · exact List.map_congr_left fun j hj => by rw [hoth j hj]
    · intro k j hk
      cases k with
      | zero =>
        simp only [List.getElem?_cons_zero, Option.some.injEq] at hk
        subst hk
        rw [q3 i hnd.1, Pars.modify_same]
        simp
      | succ k =>
        rw [List.getElem?_cons_succ] at hk
        rw [q2 k j hk, hoth j (List.mem_of_getElem? hk)]
        simp
        omega
    · intro j hj
      rw [List.mem_cons, not_or] at hj
      rw [q3 j hj.2, Pars.modify_other _ _ hj.1]

/-- **C75, what Minuit1 is told.** If no variable serves as two parameters of the PDF, Minuit1 is told one parameter per variable, in
the order of the parameter list, with the variable's name, value, error and limits, and fixed if the variable is; the constructor
changes nothing of the variables but their place in that list. -/
theorem C75_minuit1_declared (refuses : Mn1Par F → Bool) (t : Pdf L) (hnd : t.getParameters.Nodup) (h h' : Pars F)
    (mn : List (Mn1Par F)) (hr : minuit1Ctor refuses t h = some (mn, h')) :
    mn.length = t.getParameters.length
    ∧ (∀ (k i : Nat), t.getParameters[k]? = some i →
        mn[k]? = some ⟨(h i).name, (h i).value, (h i).error, (h i).lower, (h i).upper, (h i).fixed⟩)
    ∧ ∀ i, { h' i with fitterIndex := (h i).fitterIndex } = h i := by
  obtain ⟨q1, q2, q3⟩ := loop1_spec refuses _ _ _ _ _ hnd hr
  rw [List.nil_append] at q1
  refine ⟨by rw [q1, List.length_map], ?_, ?_⟩
  · intro k i hk
    rw [q1, List.getElem?_map, hk]
    rfl
  · intro i
    by_cases hi : i ∈ t.getParameters
    · obtain ⟨k, hk⟩ := List.getElem?_of_mem hi
      rw [q2 k i hk]
    · rw [q3 i hi]

/-- every parameter knows its position -/
private def Placed (t : Pdf L) (h : Pars F) : Prop :=
  ∀ (k i : Nat), t.getParameters[k]? = some i → (h i).fitterIndex = (k : Int)

variable [FpOps F] [DecidableEq F]

/-- a call keeps positions and names, and touches parameters only -/
private theorem eval1_keeps (t : Pdf L) (v : List F) (h h' : Pars F) (he : eval1 t v h = some h') :
    (∀ i, (h' i).fitterIndex = (h i).fitterIndex) ∧ (∀ i, i ∉ t.getParameters → h' i = h i) := by
  unfold eval1 at he
  have : ∀ (is : List Nat), (∀ i ∈ is, i ∈ t.getParameters) → ∀ h : Pars F, evalLoop1 t v is h = some h' →
      (∀ i, (h' i).fitterIndex = (h i).fitterIndex) ∧ (∀ i, i ∉ t.getParameters → h' i = h i) := by
    intro is
    induction is with
    | nil =>
      intro _ h he
      simp only [evalLoop1, Option.some.injEq] at he
      subst he
      exact ⟨fun _ => rfl, fun _ _ => rfl⟩
    | cons i is ih =>
      intro hsub h he
      unfold evalLoop1 at he
      simp only [bind, Option.bind] at he
      cases hx : atInt v (h i).fitterIndex with
      | none => rw [hx] at he; exact absurd he (by simp)
      | some x =>
        rw [hx] at he
        dsimp only at he
        obtain ⟨q1, q2⟩ := ih (fun j hj => hsub j (List.mem_cons_of_mem _ hj)) _ he
        have hi := hsub i (List.mem_cons_self ..)
        constructor
        · intro j
          rw [q1 j, updateVariable_apply]
          by_cases hj : j = i
          · subst hj
            simp only [Pars.modify_same]
            split <;> rfl
          · simp only [Pars.modify_other _ _ hj]
            split <;> rfl
        · intro j hj
          rw [q2 j hj, updateVariable_apply]
          have hji : j ≠ i := fun e => hj (e ▸ hi)
          have hjt : j ∉ t.flat Node.params := fun hm => hj ((mem_gather Node.params t j).mpr hm)
          simp only [Pars.modify_other _ _ hji]
          rw [if_neg (fun hc => hjt hc.1)]
  exact this _ (fun _ hi => hi) h he

omit [FpOps F] [DecidableEq F] in
private theorem markAll (is : List Nat) (h : Pars F) :
    ∀ i, is.foldl (fun h i => h.modify i fun v => { v with changed := true }) h i
      = if i ∈ is then { h i with changed := true } else h i := by
  induction is generalizing h with
  | nil => intro i; simp
  | cons j is ih =>
    intro i
    rw [List.foldl_cons, ih]
    by_cases hij : i = j
    · subst hij
      simp [Pars.modify_same]
    · simp [Pars.modify_other _ _ hij, hij]

omit [FpOps F] [DecidableEq F] in
private theorem readBack1 (is : List Nat) (value error : Int → F) (h : Pars F) (hnd : is.Nodup) :
    (∀ i ∈ is, is.foldl (fun h i =>
        let k := (h i).fitterIndex
        let h := h.modify i fun v => { v with value := value k }
        h.modify i fun v => { v with error := error k }) h i
      = { h i with value := value (h i).fitterIndex, error := error (h i).fitterIndex })
    ∧ (∀ i, i ∉ is → is.foldl (fun h i =>
        let k := (h i).fitterIndex
        let h := h.modify i fun v => { v with value := value k }
        h.modify i fun v => { v with error := error k }) h i = h i) := by
  induction is generalizing h with
  | nil => simp
  | cons j is ih =>
    rw [List.nodup_cons] at hnd
    obtain ⟨q1, q2⟩ := ih ((h.modify j fun v => { v with value := value (h j).fitterIndex }).modify j
      fun v => { v with error := error (h j).fitterIndex }) hnd.2
    constructor
    · intro i hi
      rw [List.foldl_cons]
      rw [List.mem_cons] at hi
      rcases hi with rfl | hi
      · refine (q2 i hnd.1).trans ?_
        simp only [Pars.modify_same]
      · have hij : i ≠ j := fun e => hnd.1 (e ▸ hi)
        refine (q1 i hi).trans ?_
        simp only [Pars.modify_other _ _ hij]
    · intro i hi
      rw [List.mem_cons, not_or] at hi
      rw [List.foldl_cons]
      refine (q2 i hi.2).trans ?_
      simp only [Pars.modify_other _ _ hi.1]

private theorem calls_keep (t : Pdf L) : ∀ (vs : List (List F)) (h h' : Pars F),
    vs.foldlM (fun h v => eval1 t v h) h = some h' →
    (∀ i, (h' i).fitterIndex = (h i).fitterIndex) ∧ (∀ i, i ∉ t.getParameters → h' i = h i)
  | [], h, h', hr => by
    simp only [List.foldlM_nil, pure, Option.some.injEq] at hr
    subst hr
    exact ⟨fun _ => rfl, fun _ _ => rfl⟩
  | v :: vs, h, h', hr => by
    simp only [List.foldlM_cons, bind, Option.bind] at hr
    cases h1 : eval1 t v h with
    | none => rw [h1] at hr; exact absurd hr (by simp)
    | some g =>
      rw [h1] at hr
      obtain ⟨a1, a2⟩ := eval1_keeps t v h g h1
      obtain ⟨b1, b2⟩ := calls_keep t vs g h' hr
      exact ⟨fun i => (b1 i).trans (a1 i), fun i hi => (b2 i hi).trans (a2 i hi)⟩

/-- what a fit does -/
private theorem fit1_parts (t : Pdf L) (hnd : t.getParameters.Nodup) (h h' : Pars F) (r : MinRun F) (hr : fit1 t h r = some h') :
    (∀ i, (h' i).fitterIndex = (h i).fitterIndex)
    ∧ (∀ i ∈ t.getParameters, (h' i).value = r.value (h i).fitterIndex ∧ (h' i).error = r.error (h i).fitterIndex)
    ∧ (∀ i, i ∉ t.getParameters → h' i = h i) := by
  unfold fit1 at hr
  simp only [bind, Option.bind] at hr
  have hm := markAll t.getParameters h
  revert hr hm
  generalize t.getParameters.foldl (fun (h : Pars F) i => h.modify i fun v => { v with changed := true }) h = h1
  intro hr hm
  cases h2 : r.calls.foldlM (fun h v => eval1 t v h) h1 with
  | none => rw [h2] at hr; exact absurd hr (by simp)
  | some g =>
    rw [h2] at hr
    obtain ⟨a1, a2⟩ := calls_keep t _ _ _ h2
    obtain ⟨b1, b2⟩ := readBack1 t.getParameters r.value r.error g hnd
    have he := Option.some.inj hr
    have hf : ∀ i, (h1 i).fitterIndex = (h i).fitterIndex := by
      intro i
      rw [hm i]
      split <;> rfl
    refine ⟨?_, ?_, ?_⟩
    · intro i
      rw [← hf i, ← a1 i, ← he]
      by_cases hi : i ∈ t.getParameters
      · exact (congrArg ParVar.fitterIndex (b1 i hi)).trans rfl
      · exact congrArg ParVar.fitterIndex (b2 i hi)
    · intro i hi
      rw [← hf i, ← a1 i, ← he]
      exact ⟨congrArg ParVar.value (b1 i hi), congrArg ParVar.error (b1 i hi)⟩
    · intro i hi
      rw [← he]
      refine (b2 i hi).trans ?_
      rw [a2 i hi, hm i, if_neg hi]

private theorem step1_placed (t : Pdf L) (hnd : t.getParameters.Nodup) (h h' : Pars F) (op : Mgr1Op F)
    (hr : mgr1Step t h op = some h') (i : Nat) : (h' i).fitterIndex = (h i).fitterIndex := by
  have hset : ∀ (j : Nat) (f : ParVar F → ParVar F), (∀ v, (f v).fitterIndex = v.fitterIndex) → some (h.modify j f) = some h' →
      (h' i).fitterIndex = (h i).fitterIndex := by
    intro j f hf he
    rw [← Option.some.inj he]
    by_cases hij : i = j
    · subst hij
      rw [Pars.modify_same, hf]
    · rw [Pars.modify_other _ _ hij]
  cases op with
  | fit r => exact (fit1_parts t hnd h h' r hr).1 i
  | callAt v => exact (eval1_keeps t v h h' hr).1 i
  | setValue j x => exact hset j (fun v => { v with value := x }) (fun _ => rfl) hr
  | setError j x => exact hset j (fun v => { v with error := x }) (fun _ => rfl) hr
  | setBlind j x => exact hset j (fun v => { v with blind := x }) (fun _ => rfl) hr
  | setFixed j x => exact hset j (fun v => { v with fixed := x }) (fun _ => rfl) hr

private theorem run1_placed (refuses : Mn1Par F → Bool) (t : Pdf L) (hnd : t.getParameters.Nodup) (h : Pars F) :
    ∀ (ops : List (Mgr1Op F)) (h' : Pars F), mgr1Run refuses t h ops = some h' → Placed t h' := by
  intro ops h' hr
  unfold mgr1Run at hr
  simp only [bind, Option.bind] at hr
  cases hc : minuit1Ctor refuses t h with
  | none => rw [hc] at hr; exact absurd hr (by simp)
  | some s =>
    rw [hc] at hr
    obtain ⟨mn, g⟩ := s
    dsimp only at hr
    obtain ⟨_, q2, q3⟩ := loop1_spec refuses _ _ _ _ _ hnd hc
    have hg : Placed t g := by
      intro k i hk
      rw [q2 k i hk]
      simp
    clear hc q2 q3
    induction ops generalizing g with
    | nil =>
      simp only [List.foldlM_nil, pure, Option.some.injEq] at hr
      exact hr ▸ hg
    | cons op ops ih =>
      simp only [List.foldlM_cons, bind, Option.bind] at hr
      cases h1 : mgr1Step t g op with
      | none => rw [h1] at hr; exact absurd hr (by simp)
      | some g1 =>
        rw [h1] at hr
        exact ih g1 hr fun k i hk => (step1_placed t hnd g g1 op h1 i).trans (hg k i hk)

private theorem run1_snoc (refuses : Mn1Par F → Bool) (t : Pdf L) (h h0 : Pars F) (ops : List (Mgr1Op F)) (op : Mgr1Op F)
    (h0r : mgr1Run refuses t h ops = some h0) : mgr1Run refuses t h (ops ++ [op]) = mgr1Step t h0 op := by
  unfold mgr1Run at h0r ⊢
  simp only [bind, Option.bind] at h0r ⊢
  cases hc : minuit1Ctor refuses t h with
  | none => rw [hc] at h0r; exact absurd h0r (by simp)
  | some s =>
    rw [hc] at h0r
    dsimp only at h0r ⊢
    rw [List.foldlM_append, h0r]
    simp

/-- **C75, results of Minuit1.** After a fit, whatever has happened before, every parameter of the PDF has the value and error Minuit1
reports for the parameter declared for it, and no other variable has changed. -/
theorem C75_minuit1_results (refuses : Mn1Par F → Bool) (t : Pdf L) (hnd : t.getParameters.Nodup) (h h0 h' : Pars F)
    (ops : List (Mgr1Op F)) (r : MinRun F) (h0r : mgr1Run refuses t h ops = some h0)
    (hr : mgr1Run refuses t h (ops ++ [.fit r]) = some h') :
    (∀ (k i : Nat), t.getParameters[k]? = some i → (h' i).value = r.value k ∧ (h' i).error = r.error k)
    ∧ (∀ i, i ∉ t.getParameters → h' i = h0 i) := by
  rw [run1_snoc refuses t h h0 ops _ h0r] at hr
  have hp := run1_placed refuses t hnd h ops h0 h0r
  obtain ⟨_, q2, q3⟩ := fit1_parts t hnd h0 h' r hr
  refine ⟨?_, q3⟩
  intro k i hk
  have := q2 i (List.mem_of_getElem? hk)
  rwa [hp k i hk] at this

/-- **C75, the points of Minuit1, in part.** If the parameters have different names, a call by Minuit1, whatever has happened before,
sets every parameter to the number given for it, without its blinding offset, marks it as changed exactly if it is not what
the parameter was, and leaves the other variables alone.  Missing: parameters that share a name, see
`C75_violation_minuit1_names`. -/
theorem C75_minuit1_point_partial (refuses : Mn1Par F → Bool) (t : Pdf L) (h h0 h' : Pars F) (ops : List (Mgr1Op F)) (v : List F)
    (h0r : mgr1Run refuses t h ops = some h0) (hr : mgr1Run refuses t h (ops ++ [.callAt v]) = some h')
    (hnames : (t.getParameters.map fun i => (h0 i).name).Nodup) :
    (∀ (k i : Nat), t.getParameters[k]? = some i → ∃ x, v[k]? = some x ∧ (h' i).value = sub x (h0 i).blind
      ∧ ((h' i).changed = true ↔ (h0 i).value ≠ x) ∧ (h' i).error = (h0 i).error)
    ∧ (∀ i, i ∉ t.getParameters → h' i = h0 i) := by
  rw [run1_snoc refuses t h h0 ops _ h0r] at hr
  have hp := run1_placed refuses t (List.Nodup.of_map _ hnames) h ops h0 h0r
  have hr' : fromMinuitVector t v false h0 = some h' := by
    rw [← hr]
    exact (C75_same_point t h0 v).symm
  obtain ⟨q1, q2⟩ := fromMinuitVector_spec t v false h0 h' ⟨hnames, hp⟩ hr'
  refine ⟨?_, q2⟩
  intro k i hk
  obtain ⟨x, hx, he⟩ := q1 k i hk
  refine ⟨x, hx, by rw [he], ?_, by rw [he]⟩
  rw [he]
  simp

private theorem evalStep (t : Pdf L) (v : List F) (i : Nat) (is : List Nat) (h h' : Pars F)
    (he : evalLoop1 t v (i :: is) h = some h') (hi : i ∈ t.flat Node.params) :
    ∃ x, atInt v (h i).fitterIndex = some x ∧ ∃ h1, evalLoop1 t v is h1 = some h'
      ∧ (∀ j, (h1 j).name = (h j).name ∧ (h1 j).blind = (h j).blind ∧ (h1 j).fitterIndex = (h j).fitterIndex)
      ∧ (∀ j ∈ t.flat Node.params, (h j).name = (h i).name → (h1 j).value = sub x (h i).blind)
      ∧ (∀ j, (h j).name ≠ (h i).name → h1 j = h j) := by
  unfold evalLoop1 at he
  simp only [bind, Option.bind] at he
  cases hx : atInt v (h i).fitterIndex with
  | none => rw [hx] at he; exact absurd he (by simp)
  | some x =>
    rw [hx] at he
    dsimp only at he
    refine ⟨x, rfl, _, he, ?_, ?_, ?_⟩
    · intro j
      rw [updateVariable_apply]
      by_cases hj : j = i
      · subst hj
        simp only [Pars.modify_same]
        split <;> exact ⟨rfl, rfl, rfl⟩
      · simp only [Pars.modify_other _ _ hj]
        split <;> exact ⟨rfl, rfl, rfl⟩
    · intro j hj hn
      rw [updateVariable_apply]
      by_cases hji : j = i
      · subst hji
        simp [Pars.modify_same, hj]
      · simp [Pars.modify_other _ _ hji, Pars.modify_same, hj, hn]
    · intro j hn
      have hji : j ≠ i := fun e => hn (by rw [e])
      rw [updateVariable_apply]
      simp [Pars.modify_other _ _ hji, Pars.modify_same, hn]

private theorem evalLoop_last (t : Pdf L) (v : List F) (i : Nat) (post : List Nat) (h' : Pars F) :
    ∀ (pre : List Nat) (h : Pars F), (∀ j ∈ pre ++ i :: post, j ∈ t.flat Node.params) →
      (∀ j ∈ post, (h j).name ≠ (h i).name) → evalLoop1 t v (pre ++ i :: post) h = some h' →
      ∃ x, atInt v (h i).fitterIndex = some x
        ∧ ∀ j ∈ t.flat Node.params, (h j).name = (h i).name → (h' j).value = sub x (h i).blind
  | [], h, hsub, hpost, he => by
    obtain ⟨x, hx, h1, he1, q1, q2, _⟩ := evalStep t v i post h h' he (hsub i (by simp))
    refine ⟨x, hx, ?_⟩
    have hlater : ∀ (post : List Nat) (g : Pars F), (∀ j ∈ post, j ∈ t.flat Node.params) → ∀ n, (∀ j ∈ post, (g j).name ≠ n) →
        evalLoop1 t v post g = some h' → ∀ j, (g j).name = n → h' j = g j := by
      intro post
      induction post with
      | nil =>
        intro g _ n _ hg j _
        simp only [evalLoop1, Option.some.injEq] at hg
        rw [hg]
      | cons k post ih =>
        intro g hs n hne hg j hn
        obtain ⟨_, _, g1, hg1, r1, _, r3⟩ := evalStep t v k post g h' hg (hs k (by simp))
        have hjk : (g j).name ≠ (g k).name := by
          rw [hn]
          exact (hne k (by simp)).symm
        rw [ih g1 (fun j hj => hs j (List.mem_cons_of_mem _ hj)) n
          (fun j hj => by rw [(r1 j).1]; exact hne j (List.mem_cons_of_mem _ hj)) hg1 j (by rw [(r1 j).1, hn]), r3 j hjk]
    intro j hj hn
    rw [hlater post h1 (fun j hj => hsub j (by simp [hj])) (h i).name (fun j hj => by rw [(q1 j).1]; exact hpost j hj) he1 j
      (by rw [(q1 j).1, hn]), q2 j hj hn]
  | k :: pre, h, hsub, hpost, he => by
    rw [List.cons_append] at he
    obtain ⟨_, _, h1, he1, q1, _, _⟩ := evalStep t v k _ h h' he (hsub k (by simp))
    obtain ⟨x, hx, hq⟩ := evalLoop_last t v i post h' pre h1 (fun j hj => hsub j (by simp at hj ⊢; tauto))
      (fun j hj => by rw [(q1 j).1, (q1 i).1]; exact hpost j hj) he1
    rw [(q1 i).2.2] at hx
    refine ⟨x, hx, fun j hj hn => ?_⟩
    rw [hq j hj (by rw [(q1 j).1, (q1 i).1, hn]), (q1 i).2.1]

/-- **C75 (violated by the code).** The manager of Minuit1 does not refuse two different variables with the same name, as that of
Minuit2 does: it declares two parameters to Minuit1, but at every point gives both variables the number, and the blinding offset, of
the later one.  So what the PDF returns never depends on the earlier parameter. -/
theorem C75_violation_minuit1_names (refuses : Mn1Par F → Bool) (t : Pdf L) (hnd : t.getParameters.Nodup) (h h0 h' : Pars F)
    (ops : List (Mgr1Op F)) (v : List F)
    (h0r : mgr1Run refuses t h ops = some h0) (hr : mgr1Run refuses t h (ops ++ [.callAt v]) = some h')
    (k l i j : Nat) (hk : t.getParameters[k]? = some i) (hl : t.getParameters[l]? = some j) (hkl : k < l)
    (hname : (h0 i).name = (h0 j).name)
    (hlast : ∀ (m n : Nat), t.getParameters[m]? = some n → l < m → (h0 n).name ≠ (h0 j).name) :
    i ≠ j ∧ ∃ y, v[l]? = some y ∧ (h' j).value = sub y (h0 j).blind ∧ (h' i).value = sub y (h0 j).blind := by
  have hij : i ≠ j := by
    intro e
    have h1 := (List.getElem?_eq_some_iff.mp hk)
    have h2 := (List.getElem?_eq_some_iff.mp hl)
    exact absurd ((List.Nodup.getElem_inj_iff hnd).mp (h1.2.trans (e.trans h2.2.symm))) (by omega)
  refine ⟨hij, ?_⟩
  rw [run1_snoc refuses t h h0 ops _ h0r] at hr
  have hp := run1_placed refuses t hnd h ops h0 h0r
  have hll := (List.getElem?_eq_some_iff.mp hl).1
  have hsplit : t.getParameters = t.getParameters.take l ++ j :: t.getParameters.drop (l + 1) := by
    have := List.take_append_drop l t.getParameters
    rw [List.drop_eq_getElem_cons hll, (List.getElem?_eq_some_iff.mp hl).2] at this
    exact this.symm
  have hmem : ∀ n, n ∈ t.getParameters ↔ n ∈ t.flat Node.params := fun n => mem_gather Node.params t n
  have he : evalLoop1 t v t.getParameters h0 = some h' := hr
  rw [hsplit] at he
  obtain ⟨y, hy, hq⟩ := evalLoop_last t v j _ h' _ h0 (fun n hn => (hmem n).mp (hsplit ▸ hn)) (by
    intro n hn
    obtain ⟨m, hm⟩ := List.getElem?_of_mem hn
    rw [List.getElem?_drop] at hm
    exact hlast _ n hm (by omega)) he
  rw [hp l j hl] at hy
  refine ⟨y, ?_, hq j ((hmem j).mp (List.mem_of_getElem? hl)) rfl, hq i ((hmem i).mp (List.mem_of_getElem? hk)) hname⟩
  simpa [atInt] using hy

end

namespace Demo

/-- Minuit accepts everything but a parameter without error. -/
def noError : Mn1Par ℚ → Bool := fun p => decide (p.error = 0)

/-- The demo variables with `b` renamed to `a`. -/
def parsSame : Pars ℚ := pars.modify 1 fun v => { v with name := "a" }

end Demo

/-- A fit of the demo tree by Minuit1 after another: the hypotheses of the theorems are met. -/
example : Demo.tree.getParameters.Nodup ∧ (mgr1Run Demo.noError Demo.tree Demo.pars
      [.fit (Demo.fitTo (fun k => if k = 0 then 1 else if k = 1 then 2 else 3) 1), .setValue 0 5, .callAt [4, 5, 6],
        .fit (Demo.fitTo (fun k => if k = 0 then 7 else if k = 1 then 8 else 9) 1)]).map
      (fun h => [(h 0).value, (h 1).value, (h 2).value, (h 0).error]) = some [7, 8, 9, 1 / 10]
    ∧ ((mgr1Run Demo.noError Demo.tree Demo.pars [.callAt [7, 8, 9]]).map
      (fun h => [(h 0).value, (h 1).value, (h 2).value]) = some [7, 15 / 2, 9])
    ∧ (Demo.tree.getParameters.map fun i => (Demo.pars i).name).Nodup := by
  refine ⟨by decide, by decide +kernel, by decide +kernel, by decide⟩

/-- The demo tree with two variables named `a`. -/
example : mnRun Demo.tree Demo.parsSame [] = none
    ∧ ((minuit1Ctor Demo.noError Demo.tree Demo.parsSame).map fun s => s.1.map Mn1Par.name) = some ["a", "a", "c"]
    ∧ (mgr1Run Demo.noError Demo.tree Demo.parsSame [.callAt [7, 8, 9]]).map
        (fun h => [(h 0).value, (h 1).value, (h 2).value]) = some [15 / 2, 15 / 2, 9] := by
  refine ⟨by decide +kernel, by decide +kernel, by decide +kernel⟩

end GooFit
