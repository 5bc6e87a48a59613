import Verif.Lemmas.Variable
/-!
# C01, C02: handles and constructors
-/
namespace GooFit
open Spec

/-- **C01.** For every program (list of constructions, copies, assignments and setter calls,
with arbitrary cell contents) every getter, the name and the comparison of any two handles
answer as if handles were names of objects: equal exactly for the same object, a write through
one name is seen through all names of that object and through no other. -/
theorem C01_handles_are_names {V : Type} (ops : List (VarOp V)) :
    (∀ k f, (World.run ops).read k f = (Objs.run ops).read k f) ∧
    (∀ k, (World.run ops).name k = (Objs.run ops).name k) ∧
    (∀ k l, (World.run ops).eq k l = (Objs.run ops).eq k l) :=
  ⟨fun k f => (VarSim.run ops).read_eq k f, fun k => (VarSim.run ops).name_eq k,
   fun k l => (VarSim.run ops).eq_eq k l⟩

/-- C01, spelled out for one write: after any program, setting member `f` through handle `k`
is read back by exactly the handles that compare equal to `k`; all other handles and all other
members read what they read before. -/
theorem C01_write_visible_iff_equal {V : Type} (ops : List (VarOp V)) (k : Nat) (f : Field) (v : V)
    (l : Nat) (g : Field) (hk : ∃ x, (World.run ops).read k f = some x) :
    (World.run (ops ++ [.set k f v])).read l g =
      if g = f ∧ (World.run ops).eq k l = some true then some v else (World.run ops).read l g := by
  have H := VarSim.run ops
  have H' := VarSim.run (ops ++ [.set k f v])
  rw [H'.read_eq, H.read_eq, H.eq_eq]
  rw [H.read_eq] at hk
  have hrun : Objs.run (ops ++ [.set k f v]) = (Objs.run ops).step (.set k f v) := by
    simp [Objs.run]
  rw [hrun]
  generalize Objs.run ops = s at *
  obtain ⟨x, hx⟩ := hk
  simp only [Objs.read, Option.bind_eq_bind, Option.bind_eq_some_iff] at hx
  obtain ⟨o, ho, y, hy, _⟩ := hx
  have hstep : s.step (.set k f v) = { s with objs := s.objs.modify o fun x =>
      { x with val := fun g => if g = f then v else x.val g } } := by
    simp [Objs.step, ho]
  rw [hstep]
  simp only [Objs.read, Objs.eq, ho]
  cases hl : s.names[l]? with
  | none => simp
  | some p =>
    simp only [Option.bind_eq_bind, Option.bind_some, List.getElem?_modify]
    by_cases hop : o = p
    · subst hop; simp [hy]; by_cases hg : g = f <;> simp [hg]
    · have : ¬ ((o == p) = true) := by simpa using hop
      cases s.objs[p]? <;> simp [hop]

/-- Non-vacuity: a program with two objects, a copy and an assignment; writing through the copy
is seen by the original and not by the other object. -/
example :
    let ops : List (VarOp Nat) := [.construct "a" false (fun _ => 1), .construct "b" false (fun _ => 2),
      .copy 0, .set 2 .value 7, .construct "c" false (fun _ => 9), .assign 3 1, .set 3 .lower 5]
    (World.run ops).read 0 .value = some 7 ∧ (World.run ops).read 1 .value = some 2 ∧
    (World.run ops).read 1 .lower = some 5 ∧ (World.run ops).eq 0 2 = some true ∧
    (World.run ops).eq 0 1 = some false ∧ (World.run ops).eq 1 3 = some true := by decide

/-- **C02 (partial).** What the constructors deliver, for all arguments: the two-argument form is
handed to the minimiser as a constant; the four- and five-argument forms are free and limited to
`[dn, up]` (unlimited when `dn = up`), and test in-range exactly when the value is between the
limits or the limits coincide.  Missing with respect to C02: the three-argument form and the
in-range test of the two-argument form, which the code violates (below). -/
theorem C02_constructors_partial (n : String) (v e dn up : Rat) :
    (mkVar2 n v).minuitKind = .constant ∧
    (dn ≠ up → (mkVar4 n v dn up).minuitKind = .limited (1/10 * (up - dn)) dn up) ∧
    (dn ≠ up → (mkVar5 n v e dn up).minuitKind = .limited e dn up) ∧
    (mkVar5 n v e dn dn).minuitKind = .free e ∧
    (mkVar5 n v e dn up true).minuitKind = .constant ∧
    ((mkVar4 n v dn up).inRange = true ↔ dn = up ∨ (dn ≤ v ∧ v ≤ up)) ∧
    ((mkVar5 n v e dn up).inRange = true ↔ dn = up ∨ (dn ≤ v ∧ v ≤ up)) ∧
    (mkVar3 n v e).inRange = true := by
  refine ⟨rfl, ?_, ?_, ?_, rfl, ?_, ?_, ?_⟩
  · intro h; simp [VarInit.minuitKind, mkVar4, h]
  · intro h; simp [VarInit.minuitKind, mkVar5, h]
  · simp [VarInit.minuitKind, mkVar5]
  · simp only [VarInit.inRange, mkVar4, Bool.or_eq_true, beq_iff_eq, Bool.and_eq_true]
    exact ⟨fun h => h.elim (fun h => .inl h.symm) (fun h => .inr ⟨of_decide_eq_true h.2, of_decide_eq_true h.1⟩),
      fun h => h.elim (fun h => .inl h.symm) (fun h => .inr ⟨decide_eq_true h.2, decide_eq_true h.1⟩)⟩
  · simp only [VarInit.inRange, mkVar5, Bool.or_eq_true, beq_iff_eq, Bool.and_eq_true]
    exact ⟨fun h => h.elim (fun h => .inl h.symm) (fun h => .inr ⟨of_decide_eq_true h.2, of_decide_eq_true h.1⟩),
      fun h => h.elim (fun h => .inl h.symm) (fun h => .inr ⟨decide_eq_true h.2, decide_eq_true h.1⟩)⟩
  · simp [VarInit.inRange, mkVar3]

/-- **C02 (partial), fields.** The members after construction, for all arguments: name and value as given; an error of 0.002 by
default and of a tenth of the range when only limits are given, otherwise as given; limits as given, or equal (none) in the form
with an error; no blinding; and marked as changed, so that the first evaluation uses the value.  Missing: the limits of the
two-argument form, which are inverted (below). -/
theorem C02_fields_partial (n : String) (v e dn up : Rat) (fix : Bool) :
    (∀ w ∈ [mkVar2 n v, mkVar3 n v e, mkVar4 n v dn up, mkVar5 n v e dn up fix],
      w.name = n ∧ w.value = v ∧ w.blind = 0 ∧ w.changed = true)
    ∧ [(mkVar2 n v).error, (mkVar3 n v e).error, (mkVar4 n v dn up).error, (mkVar5 n v e dn up fix).error]
        = [1 / 500, e, (up - dn) / 10, e]
    ∧ (mkVar3 n v e).lower = (mkVar3 n v e).upper
    ∧ ((mkVar4 n v dn up).lower, (mkVar4 n v dn up).upper) = (dn, up)
    ∧ ((mkVar5 n v e dn up fix).lower, (mkVar5 n v e dn up fix).upper, (mkVar5 n v e dn up fix).fixed) = (dn, up, fix) := by
  refine ⟨?_, ?_, rfl, rfl, rfl⟩
  · intro w hw
    simp only [List.mem_cons, List.not_mem_nil, or_false] at hw
    rcases hw with rfl | rfl | rfl | rfl <;> exact ⟨rfl, rfl, rfl, rfl⟩
  · simp only [mkVar2, mkVar3, mkVar4, mkVar5, List.cons.injEq, and_true, true_and]
    exact ⟨by norm_num, by ring⟩

/-- **C02 is violated**: `Variable(name, v, err)`, documented as "a free variable without
limits", is handed to the minimiser as a constant — for every argument. -/
theorem C02_violation_three_arg_is_constant (n : String) (v e : Rat) :
    (mkVar3 n v e).minuitKind = .constant ∧ (mkVar3 n v e).minuitKind ≠ .free e := by
  constructor
  · rfl
  · simp [VarInit.minuitKind, mkVar3]

/-- **C02 is violated**: a constant built by `Variable(name, v)` never tests in-range (its limits
are inverted). -/
theorem C02_violation_two_arg_out_of_range (n : String) (v : Rat) :
    (mkVar2 n v).inRange = false := by
  have h1 : ¬ (v - 1/100 = v + 1/100) := by intro h; linarith
  have h2 : ¬ (v ≤ v - 1/100) := by intro h; linarith
  simp only [VarInit.inRange, mkVar2, ge_iff_le, Bool.or_eq_false_iff, beq_eq_false_iff_ne, ne_eq,
    Bool.and_eq_false_iff, decide_eq_false_iff_not]
  exact ⟨h1, Or.inl (decide_eq_false h2)⟩

example : (mkVar4 "m" 1 0 2).inRange = true ∧ (mkVar4 "m" 3 0 2).inRange = false := by decide +kernel

end GooFit
