import Verif.Lemmas.Minuit
import Verif.Model.FpField
import Verif.Props.Tree
/-!
# C29: the minimiser's vector and the variables

`mnRun t h ops` is the life of a fit manager for the PDF `t`: its constructor on the variables `h`, then
any calls of the FCN, read-backs and setters.
-/
set_option autoImplicit false
namespace GooFit
open Spec FpOps

section
variable {F : Type} [FpOps F] [DecidableEq F] {L : Lib F}

/-- A fit manager can be constructed exactly for a PDF whose parameter list has no name twice. -/
theorem C29_accepts (t : Pdf L) (h : Pars F) :
    (∃ h', mnRun t h [] = some h') ↔ (t.getParameters.map fun i => (h i).name).Nodup := by
  obtain ⟨q1, q2⟩ := paramsLoop_spec t.getParameters [] h
  constructor
  · rintro ⟨h', hr⟩
    unfold mnRun at hr
    simp only [bind, Option.bind] at hr
    cases hc : paramsCtor t h with
    | none => rw [hc] at hr; exact absurd hr (by simp)
    | some r => exact (q1 r.1 r.2 hc).2.2.1
  · intro hnd
    obtain ⟨r, hr⟩ := q2 (by simp) hnd
    unfold mnRun paramsCtor
    rw [hr]
    simp [bind, Option.bind]

/-- **C29, what the minimiser is told.** One parameter per variable, in the order of the parameter list, with the
variable's name and value; constant if the variable is fixed, without limits if the two limits are equal, with
the variable's limits otherwise. -/
theorem C29_declared (t : Pdf L) (h h' : Pars F) (mn : List (MnPar F)) (hr : paramsCtor t h = some (mn, h')) :
    mn.length = t.getParameters.length
      ∧ ∀ (k i : Nat), t.getParameters[k]? = some i → ∃ p, mn[k]? = some p ∧ p.name = (h i).name ∧ p.value = (h i).value
        ∧ ((h i).fixed = true → p.kind = .constant)
        ∧ ((h i).fixed = false → (h i).lower = (h i).upper → p.kind = .free (h i).error)
        ∧ ((h i).fixed = false → (h i).lower ≠ (h i).upper → p.kind = .limited (h i).error (h i).lower (h i).upper) := by
  have hl := paramsLoop_list _ _ _ _ _ hr
  rw [List.nil_append] at hl
  refine ⟨by rw [hl, List.length_map], ?_⟩
  intro k i hk
  refine ⟨⟨(h i).name, (h i).value, (h i).mnKind⟩, by rw [hl, List.getElem?_map, hk]; rfl, rfl, rfl, ?_, ?_, ?_⟩
  · intro hf
    simp [ParVar.mnKind, hf]
  · intro hf he
    simp [ParVar.mnKind, hf, he]
  · intro hf he
    simp [ParVar.mnKind, hf, he]

theorem mnRun_snoc (t : Pdf L) (h h1 : Pars F) (ops : List (MnOp F)) (op : MnOp F) (hr : mnRun t h ops = some h1) :
    mnRun t h (ops ++ [op]) = mnStep t h1 op := by
  unfold mnRun at hr ⊢
  simp only [bind, Option.bind] at hr ⊢
  cases hc : paramsCtor t h with
  | none => rw [hc] at hr; exact absurd hr (by simp)
  | some r =>
    rw [hc] at hr
    simp only at hr ⊢
    rw [List.foldlM_append, hr]
    simp only [bind, Option.bind, List.foldlM_cons, List.foldlM_nil, pure]
    cases mnStep t h1 op <;> rfl

/-- **C29.** After any history of the manager, calling the FCN with values `v` gives every parameter of
the PDF its own entry of `v` minus its blinding offset, whatever its position in the tree, and touches
no other variable. -/
theorem C29_pushed (t : Pdf L) (h h1 : Pars F) (ops : List (MnOp F)) (hr : mnRun t h ops = some h1) (v : List F)
    (hlen : t.getParameters.length ≤ v.length) :
    ∃ h2, mnRun t h (ops ++ [.callAt v]) = some h2
      ∧ (∀ (k i : Nat), t.getParameters[k]? = some i → ∃ x, v[k]? = some x ∧ (h2 i).value = sub x (h1 i).blind)
      ∧ (∀ i, i ∉ t.getParameters → h2 i = h1 i)
      ∧ ∀ i, (h2 i).blind = (h1 i).blind := by
  obtain ⟨hix, _⟩ := mnRun_indexed t h h1 ops hr
  obtain ⟨h2, h2r⟩ := fromMinuitVector_some t v false h1 hix hlen
  obtain ⟨q1, q2⟩ := fromMinuitVector_spec t v false h1 h2 hix h2r
  refine ⟨h2, by rw [mnRun_snoc t h h1 ops _ hr]; exact h2r, ?_, q2, (fromMinuitVector_indexed t v false h1 h2 hix h2r).2.2⟩
  intro k i hk
  obtain ⟨x, hx, he⟩ := q1 k i hk
  exact ⟨x, hx, by rw [he]⟩

/-- Too short a vector is refused. -/
theorem C29_short_vector (t : Pdf L) (h h1 : Pars F) (ops : List (MnOp F)) (hr : mnRun t h ops = some h1) (v : List F)
    (hlen : v.length < t.getParameters.length) : mnRun t h (ops ++ [.callAt v]) = none := by
  obtain ⟨hix, _⟩ := mnRun_indexed t h h1 ops hr
  rw [mnRun_snoc t h h1 ops _ hr]
  cases hc : mnStep t h1 (.callAt v) with
  | none => rfl
  | some h2 =>
    obtain ⟨q1, _⟩ := fromMinuitVector_spec t v false h1 h2 hix hc
    obtain ⟨x, hx, _⟩ := q1 v.length _ (List.getElem?_eq_getElem hlen)
    rw [List.getElem?_eq_none (Nat.le_refl _)] at hx
    exact absurd hx (by simp)

/-- **C29, on the device.** The evaluation that follows sees those values: every event is evaluated with
`v` minus the blinding.  (For trees without a PDF object at two places, as in C16.) -/
theorem C29_pdf_sees_partial (sem : LeafSem F L) (t : Pdf L) (h h1 : Pars F) (ops : List (MnOp F))
    (hr : mnRun t h ops = some h1) (v : List F) (hlen : t.getParameters.length ≤ v.length)
    (env : Env F) (m : L.Metric) (h₀ : Host L) (hobj : ((nodes t).map Node.oid).Nodup) (env' : Env F)
    (hidx : env'.idx = env.idx)
    (hval : ∀ (k i : Nat) (x : F), t.getParameters[k]? = some i → v[k]? = some x → env'.val i = sub x (h1 i).blind)
    (hother : ∀ i, i ∉ t.getParameters → env'.val i = (h1 i).value)
    (e : Evt F) (y : F) (hwf : WellFormed sem env' t) (hv : denote sem env' t e = some y) :
    ∃ h2, mnRun t h (ops ++ [.callAt v]) = some h2
      ∧ let host := (h₀.setIndices env t m).updateParameters ⟨fun i => (h2 i).value, env.idx⟩ t
        (callFunction L host.bufs host.table t.size Cursor.zero e).map Prod.fst = some y := by
  obtain ⟨h2, r1, r2, r3, _⟩ := C29_pushed t h h1 ops hr v hlen
  refine ⟨h2, r1, ?_⟩
  have hE : (⟨fun i => (h2 i).value, env.idx⟩ : Env F) = env' := by
    obtain ⟨val', idx'⟩ := env'
    subst hidx
    congr 1
    funext i
    by_cases hi : i ∈ t.getParameters
    · obtain ⟨k, hk⟩ := List.getElem?_of_mem hi
      obtain ⟨x, hx, he⟩ := r2 k i hk
      rw [he]
      exact (hval k i x hk hx).symm
    · rw [r3 i hi]
      exact (hother i hi).symm
  rw [hE]
  exact C16_update_evaluates_partial sem env env' hidx t m h₀ hobj e y t.size (Nat.le_refl _) hwf hv

/-- Reading back the result of a fit: the `k`-th parameter gets the minimiser's `k`-th value and
error. -/
theorem C29_read_back (t : Pdf L) (h h1 : Pars F) (ops : List (MnOp F)) (hr : mnRun t h ops = some h1) (state : Int → F × F) :
    ∃ h2, mnRun t h (ops ++ [.setParams state]) = some h2
      ∧ (∀ (k i : Nat), t.getParameters[k]? = some i → (h2 i).value = (state k).1 ∧ (h2 i).error = (state k).2)
      ∧ ∀ i, i ∉ t.getParameters → h2 i = h1 i := by
  obtain ⟨hix, _⟩ := mnRun_indexed t h h1 ops hr
  obtain ⟨_, _, s3, s4⟩ := setGooFitParams_spec t.getParameters state h1
  refine ⟨_, by rw [mnRun_snoc t h h1 ops _ hr]; rfl, ?_, s4⟩
  intro k i hk
  have := s3 i (List.mem_of_getElem? hk)
  rw [hix.2 k i hk] at this
  exact this

/-- The flag "changed since the last iteration" after a call of the FCN compares the stored value, from
which the blinding was subtracted, with the minimiser's value, from which it was not. -/
theorem C29_changed_exact (t : Pdf L) (h h1 : Pars F) (ops : List (MnOp F)) (hr : mnRun t h ops = some h1) (v : List F)
    (h2 : Pars F) (hr2 : mnRun t h (ops ++ [.callAt v]) = some h2) (k i : Nat) (hk : t.getParameters[k]? = some i) :
    ∃ x, v[k]? = some x ∧ ((h2 i).changed = true ↔ (h1 i).value ≠ x) := by
  obtain ⟨hix, _⟩ := mnRun_indexed t h h1 ops hr
  rw [mnRun_snoc t h h1 ops _ hr] at hr2
  obtain ⟨x, hx, he⟩ := (fromMinuitVector_spec t v false h1 h2 hix hr2).1 k i hk
  refine ⟨x, hx, ?_⟩
  rw [he]
  simp

end

section
variable {K : Type} [Field K] [LinearOrder K] [IsStrictOrderedRing K] [FloorRing K]
attribute [local instance] FpOps.ofField
variable {L : Lib K}

/-- The value every parameter has after one call of the FCN without arguments. -/
theorem callHere_values (t : Pdf L) (h h1 : Pars K) (ops : List (MnOp K)) (hr : mnRun t h ops = some h1) :
    ∃ h2, mnRun t h (ops ++ [.callHere]) = some h2
      ∧ (∀ i, (h2 i).value = if i ∈ t.getParameters then (h1 i).value - (h1 i).blind else (h1 i).value)
      ∧ ∀ i, (h2 i).blind = (h1 i).blind := by
  obtain ⟨hix, _⟩ := mnRun_indexed t h h1 ops hr
  obtain ⟨h2, h2r⟩ := fromMinuitVector_some t (t.getParameters.map fun i => (h1 i).value) true h1 hix (by simp)
  have hs : mnStep t h1 .callHere = some h2 := by
    simp only [mnStep, fcnHere, bind, Option.bind, makeMinuitVector_eq h1 _ hix]
    exact h2r
  obtain ⟨q1, q2⟩ := fromMinuitVector_spec t _ true h1 h2 hix h2r
  refine ⟨h2, by rw [mnRun_snoc t h h1 ops _ hr, hs], ?_, (fromMinuitVector_indexed t _ true h1 h2 hix h2r).2.2⟩
  intro i
  by_cases hi : i ∈ t.getParameters
  · rw [if_pos hi]
    obtain ⟨k, hk⟩ := List.getElem?_of_mem hi
    obtain ⟨x, hx, he⟩ := q1 k i hk
    rw [List.getElem?_map, hk] at hx
    simp only [Option.map_some, Option.some.injEq] at hx
    rw [he, ← hx]
    rfl
  · rw [if_neg hi, q2 i hi]

/-- What repeated calls of the FCN without arguments do, for any number of repetitions: every parameter
moves down by its blinding offset each time. -/
theorem C29_repeated_calls (t : Pdf L) (h h1 : Pars K) (ops : List (MnOp K)) (hr : mnRun t h ops = some h1) (n : Nat) :
    ∃ h2, mnRun t h (ops ++ List.replicate n .callHere) = some h2
      ∧ (∀ i ∈ t.getParameters, (h2 i).value = (h1 i).value - n * (h1 i).blind)
      ∧ (∀ i, i ∉ t.getParameters → (h2 i).value = (h1 i).value)
      ∧ ∀ i, (h2 i).blind = (h1 i).blind := by
  induction n with
  | zero => exact ⟨h1, by simpa using hr, by simp, by simp, fun _ => rfl⟩
  | succ n ih =>
    obtain ⟨h2, r1, r2, r3, r4⟩ := ih
    obtain ⟨h3, s1, s2, s3⟩ := callHere_values t h h2 _ r1
    refine ⟨h3, by rw [List.replicate_succ', ← List.append_assoc]; exact s1, ?_, ?_, fun i => by rw [s3, r4]⟩
    · intro i hi
      rw [s2 i, if_pos hi, r2 i hi, r4]
      push_cast
      ring
    · intro i hi
      rw [s2 i, if_neg hi, r3 i hi]

/-- **C29, partial.** Without blinding, building the vector and pushing it back leaves every variable's
value as it was, any number of times.  Missing: blinded parameters. -/
theorem C29_round_trip_partial (t : Pdf L) (h h1 : Pars K) (ops : List (MnOp K)) (hr : mnRun t h ops = some h1) (n : Nat)
    (hb : ∀ i ∈ t.getParameters, (h1 i).blind = 0) :
    ∃ h2, mnRun t h (ops ++ List.replicate n .callHere) = some h2 ∧ ∀ i, (h2 i).value = (h1 i).value := by
  obtain ⟨h2, r1, r2, r3, _⟩ := C29_repeated_calls t h h1 ops hr n
  refine ⟨h2, r1, ?_⟩
  intro i
  by_cases hi : i ∈ t.getParameters
  · rw [r2 i hi, hb i hi, mul_zero, sub_zero]
  · exact r3 i hi

/-- **C29 (violated by the code).** With a blinded parameter the same call changes the model every time:
no two of any number of repetitions see the same value. -/
theorem C29_violation_drift (t : Pdf L) (h h1 : Pars K) (ops : List (MnOp K)) (hr : mnRun t h ops = some h1) (i : Nat)
    (hi : i ∈ t.getParameters) (hb : (h1 i).blind ≠ 0) (m n : Nat) (hmn : m ≠ n) (h2 h3 : Pars K)
    (hm : mnRun t h (ops ++ List.replicate m .callHere) = some h2)
    (hn : mnRun t h (ops ++ List.replicate n .callHere) = some h3) : (h2 i).value ≠ (h3 i).value := by
  obtain ⟨g2, a1, a2, _⟩ := C29_repeated_calls t h h1 ops hr m
  obtain ⟨g3, b1, b2, _⟩ := C29_repeated_calls t h h1 ops hr n
  rw [hm] at a1
  rw [hn] at b1
  obtain rfl := Option.some.inj a1
  obtain rfl := Option.some.inj b1
  rw [a2 i hi, b2 i hi]
  intro he
  have : (m : K) * (h1 i).blind = n * (h1 i).blind := by linarith
  exact hmn (Nat.cast_injective (mul_right_cancel₀ hb this))

/-- **C29, partial.** Without blinding the flag says exactly whether the value changed. -/
theorem C29_changed_partial (t : Pdf L) (h h1 : Pars K) (ops : List (MnOp K)) (hr : mnRun t h ops = some h1) (v : List K)
    (h2 : Pars K) (hr2 : mnRun t h (ops ++ [.callAt v]) = some h2) (i : Nat) (hi : i ∈ t.getParameters)
    (hb : (h1 i).blind = 0) : (h2 i).changed = true ↔ (h2 i).value ≠ (h1 i).value := by
  obtain ⟨hix, _⟩ := mnRun_indexed t h h1 ops hr
  rw [mnRun_snoc t h h1 ops _ hr] at hr2
  obtain ⟨k, hk⟩ := List.getElem?_of_mem hi
  obtain ⟨x, hx, he⟩ := (fromMinuitVector_spec t v false h1 h2 hix hr2).1 k i hk
  rw [he, hb]
  have : (sub x (0 : K)) = x := by show x - 0 = x; exact sub_zero x
  rw [this]
  simp only [Bool.false_eq_true, if_false, decide_eq_true_eq]
  exact ne_comm

/-- **C29 (violated by the code).** With blinding the flag is wrong in both directions: a value pushed
twice counts as changed, and pushing the blinded image of the previous value changes the model while
the flag says it did not. -/
theorem C29_violation_changed (t : Pdf L) (h h1 : Pars K) (ops : List (MnOp K)) (hr : mnRun t h ops = some h1) (i : Nat)
    (hi : i ∈ t.getParameters) (hb : (h1 i).blind ≠ 0) :
    (∀ v h2 h3, mnRun t h (ops ++ [.callAt v]) = some h2 → mnRun t h (ops ++ [.callAt v] ++ [.callAt v]) = some h3 →
      (h3 i).value = (h2 i).value ∧ (h3 i).changed = true)
    ∧ ∃ v h2, mnRun t h (ops ++ [.callAt v]) = some h2 ∧ (h2 i).value ≠ (h1 i).value ∧ (h2 i).changed = false := by
  obtain ⟨hix, _⟩ := mnRun_indexed t h h1 ops hr
  obtain ⟨k, hk⟩ := List.getElem?_of_mem hi
  constructor
  · intro v h2 h3 r2 r3
    obtain ⟨hix2, _⟩ := mnRun_indexed t h h2 _ r2
    rw [mnRun_snoc t h h2 _ _ r2] at r3
    rw [mnRun_snoc t h h1 _ _ hr] at r2
    obtain ⟨x, hx, he⟩ := (fromMinuitVector_spec t v false h1 h2 hix r2).1 k i hk
    obtain ⟨y, hy, he'⟩ := (fromMinuitVector_spec t v false h2 h3 hix2 r3).1 k i hk
    have hxy : y = x := by rw [hx] at hy; exact (Option.some.inj hy).symm
    rw [he', he, hxy]
    refine ⟨rfl, ?_⟩
    simp only [Bool.false_eq_true, if_false, decide_eq_true_eq]
    show x - (h1 i).blind ≠ x
    intro h0
    exact hb (by linarith)
  · obtain ⟨h2, h2r⟩ := fromMinuitVector_some t (t.getParameters.map fun i => (h1 i).value) false h1 hix (by simp)
    refine ⟨_, h2, by rw [mnRun_snoc t h h1 ops _ hr]; exact h2r, ?_⟩
    obtain ⟨x, hx, he⟩ := (fromMinuitVector_spec t _ false h1 h2 hix h2r).1 k i hk
    rw [List.getElem?_map, hk] at hx
    simp only [Option.map_some, Option.some.injEq] at hx
    rw [he, ← hx]
    constructor
    · show (h1 i).value - (h1 i).blind ≠ (h1 i).value
      intro h0
      exact hb (by linarith)
    · simp

end

/-! ### Concrete cases -/
namespace Demo

/-- Variables `a`, `b`, `c` with values 0, 2, 3; `b` is blinded by 1/2. -/
def pars : Pars ℚ := fun i =>
  { name := if i = 0 then "a" else if i = 1 then "b" else "c", value := if i = 0 then 0 else if i = 1 then 2 else 3,
    error := 1, lower := 0, upper := 10, blind := if i = 1 then 1 / 2 else 0, fixed := false, changed := false,
    fitterIndex := -1 }

end Demo

/-- The demo tree's parameters have distinct names, one of them is blinded and used in two PDFs. -/
example : (∃ h', mnRun Demo.tree Demo.pars [] = some h')
    ∧ (1 : Nat) ∈ Demo.tree.getParameters ∧ (Demo.pars 1).blind ≠ 0 := by
  refine ⟨(C29_accepts _ _).mpr (by decide), by decide, ?_⟩
  show (if (1 : Nat) = 1 then (1 / 2 : ℚ) else 0) ≠ 0
  norm_num

/-- The manager of the demo tree can be constructed, and tells Minuit three parameters. -/
example : ∃ mn h', paramsCtor Demo.tree Demo.pars = some (mn, h') ∧ mn.length = 3 := by
  obtain ⟨h0, hr⟩ := (C29_accepts Demo.tree Demo.pars).mpr (by decide)
  unfold mnRun at hr
  simp only [bind, Option.bind] at hr
  cases hc : paramsCtor Demo.tree Demo.pars with
  | none => rw [hc] at hr; exact absurd hr (by simp)
  | some r => exact ⟨r.1, r.2, rfl, (C29_declared _ _ _ _ hc).1.trans (by decide)⟩

/-- Pushing `[7, 8, 9]` makes the PDF see `7`, `7.5`, `9`. -/
example : (mnRun Demo.tree Demo.pars [.callAt [7, 8, 9]]).map (fun h => [(h 0).value, (h 1).value, (h 2).value])
    = some [7, 15 / 2, 9] := by decide +kernel

/-- **C29 (violated by the code).** A PDF in which one variable serves as two parameters cannot be
fitted: the manager's constructor throws. -/
theorem C29_violation_repeated_variable {F : Type} [FpOps F] [DecidableEq F] {L : Lib F} (t : Pdf L) (h : Pars F) (v : Nat)
    (ht : t.getParameters = [v, v]) : mnRun t h [] = none := by
  cases hc : mnRun t h [] with
  | none => rfl
  | some h' =>
    have := (C29_accepts t h).mp ⟨h', hc⟩
    rw [ht] at this
    simp at this

/-- **C29 (violated by the code).** Positions are stored in the shared variables, so a second fit manager
that uses a variable at another position breaks the first: after constructing the manager of a PDF of
variable `b` alone, pushing `[7, 8, 9]` through the first manager gives `b` the entry of `a`. -/
theorem C29_violation_two_managers :
    (do
      let h ← mnRun Demo.tree Demo.pars []
      let h ← mnRun (Demo.lin 9 1 0 1) h []
      let h ← fcnAt Demo.tree [7, 8, 9] h
      return ((h 0).value, (h 1).value + (h 1).blind, (h 2).value)) = some ((7, 7, 9) : ℚ × ℚ × ℚ) := by
  decide +kernel

end GooFit
