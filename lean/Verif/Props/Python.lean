import Verif.Lemmas.Python
/-!
# C84: objects made from Python live as long as they can be touched

A program is a list of statements (`Op`): constructors of the module, lists, attaching data, describing a
decay, taking members, dropping variables, and, at any point the interpreter likes, the destruction of
any object no variable reaches.  `Spec.Sound` says that whatever the program can still touch exists and
that nothing was deleted that may not be.
-/
set_option autoImplicit false
namespace GooFit
open GooFit.Py GooFit.Spec

/-- C84. In every program made of covered statements, whatever the order in which variables are dropped
and objects destroyed, everything the remaining variables can touch exists.  Partial: removal from a list
given to a constructor, `getDecayInfo`, the methods `getParams`, `getFCN`, `getDataSet`, and five
constructors are not covered; each of them is a violation below. -/
theorem C84_alive_partial (ops : List Op) (h : Heap) (hc : ∀ op ∈ ops, Covered op)
    (hr : Heap.run ops = some h) : Sound h :=
  (fold_inv ops _ h lifeInv_empty hc hr).sound

/-- Two PDFs in a list, their sum, a data set attached to it, a fit manager for it; then every variable but
the manager is dropped. -/
def exampleProgram : List Op :=
  [.new .plain [], .new .plain [], .new .plain [], .newList [0, 1], .new .addPdfList [2, 2, 3],
   .new .plain [], .setData 4 (some 5), .new .fitManager [4], .drop 0, .drop 1, .drop 2, .drop 3, .drop 4,
   .drop 5]

/-- The program runs, the string may be destroyed afterwards, and the manager still reaches the PDFs and
the data, which exist. -/
example : (∀ op ∈ exampleProgram ++ [.collect 2], Covered op) ∧
    ∃ h, Heap.run (exampleProgram ++ [.collect 2]) = some h ∧ h.roots = [6] ∧
      Touched h 0 ∧ Touched h 1 ∧ Touched h 5 ∧ ¬Alive h 2 := by
  obtain ⟨h0, hr, hS, ho, hroots⟩ : ∃ h0, Heap.run exampleProgram = some h0 ∧
      closedUnder h0 [6, 4, 3, 0, 1, 5] = true ∧
      (h0.objs.map fun o => (o.cxx, o.data)) =
        [([], none), ([], none), ([], none), ([], none), ([0, 1], some 5), ([], none), ([4], none)] ∧
      h0.roots = [6] := ⟨_, rfl, rfl, rfl, rfl⟩
  have hlen : h0.objs.length = 7 := by simpa using congrArg List.length ho
  have hobj : ∀ x : Id, x < 7 → ∃ o, h0.objs[x]? = some o := fun x hx =>
    ⟨_, List.getElem?_eq_getElem (by rw [hlen]; exact hx)⟩
  have hget : ∀ (x : Id) (o : Obj), h0.objs[x]? = some o → some (o.cxx, o.data) =
      ([([], none), ([], none), ([], none), ([], none), ([0, 1], some 5), ([], none), ([4], none)] :
        List (List Id × Option Id))[x]? := by
    intro x o hx
    rw [← ho, List.getElem?_map, hx]
    rfl
  obtain ⟨o2, h2⟩ := hobj 2 (by decide)
  obtain ⟨o4, h4⟩ := hobj 4 (by decide)
  obtain ⟨o6, h6⟩ := hobj 6 (by decide)
  have e4 := hget 4 o4 h4
  have e6 := hget 6 o6 h6
  simp only [List.getElem?_cons_succ, List.getElem?_cons_zero, Option.some.injEq, Prod.mk.injEq] at e4 e6
  refine ⟨by
      intro op hop
      simp only [exampleProgram, List.cons_append, List.nil_append, List.mem_cons, List.not_mem_nil,
        or_false] at hop
      rcases hop with rfl | rfl | rfl | rfl | rfl | rfl | rfl | rfl | rfl | rfl | rfl | rfl | rfl | rfl | rfl <;>
        simp [Covered, forgetful],
    _, run_collect hr (not_reachable hS (x := 2) rfl) h2, hroots, ?_⟩
  have t6 : Touched { h0.modify 2 (fun o => { o with alive := false }) with
      invalidDelete := h0.invalidDelete || (o2.stolen && o2.alive) } 6 := .variable 6 (by
    show 6 ∈ h0.roots
    rw [hroots]; simp)
  have t4 := Touched.pointer 6 4 o6 t6 (by simpa using get_modify (p := 2) (f := fun o => { o with alive := false }) h6)
    (by rw [e6.1]; simp)
  have g4 := get_modify (p := 2) (f := fun o => { o with alive := false }) h4
  refine ⟨.pointer 4 0 o4 t4 (by simpa using g4) (by rw [e4.1]; simp),
    .pointer 4 1 o4 t4 (by simpa using g4) (by rw [e4.1]; simp),
    .data 4 5 o4 t4 (by simpa using g4) e4.2, ?_⟩
  rintro ⟨o', ho', hal⟩
  obtain ⟨o2', -, rfl⟩ := modify_get ho'
  simp at hal

/-- Which bindings keep everything they store: all constructors but five number every argument that the
C++ object points to in a `keep_alive`. -/
theorem C84_kept (c : Ctor) :
    c ∉ forgetful ↔ ∀ (i : Nat) (r : Role), c.roles[i]? = some r → r ≠ .value → i + 2 ∈ c.keepAlive := by
  rw [← keepsAll_iff, Ctor.keepsAll, List.all_eq_true]
  constructor
  · intro h i r hr hv
    have := h i (List.mem_range.2 (List.getElem?_eq_some_iff.1 hr).1)
    rw [hr] at this
    simp only [Bool.or_eq_true, beq_iff_eq, Option.some.injEq, List.contains_iff_mem] at this
    exact this.resolve_left hv
  · intro h i hi
    obtain ⟨r, hr⟩ : ∃ r, c.roles[i]? = some r := ⟨_, List.getElem?_eq_getElem (List.mem_range.1 hi)⟩
    rw [hr]
    simp only [Bool.or_eq_true, beq_iff_eq, Option.some.injEq, List.contains_iff_mem]
    by_cases hv : r = .value
    · exact .inl hv
    · exact .inr (h i r hr hv)

/-- The components of a convolution are arguments 4 and 5 (`self` is 1). -/
example : Ctor.convolutionPdf ∉ forgetful ∧ Ctor.convolutionPdf.roles[2]? = some .ptr ∧
    4 ∈ Ctor.convolutionPdf.keepAlive ∧ 5 ∈ Ctor.convolutionPdf.keepAlive := by decide

/-- A program that never drops a variable is sound whatever it calls, the statements not covered above
included. -/
theorem C84_holding (ops : List Op) (h : Heap) (hc : ∀ op ∈ ops, Holding op)
    (hr : Heap.run ops = some h) : Sound h :=
  (fold_hold ops _ h holdInv_empty hc hr).sound

example : (∀ op ∈ [Op.new .plain [], .new .params [0], .new .fcn [1], .memberMethod 2], Holding op) ∧
    (Heap.run [.new .plain [], .new .params [0], .new .fcn [1], .memberMethod 2]).isSome = true :=
  ⟨by simp [Holding], rfl⟩

/-- Violation: after each of the five constructors that forget to keep an argument, a program that made
its objects properly and dropped the argument is left with a pointer to a destroyed object: a PDF behind
`Params`, the parameters behind `FCN`, the function behind `MnMigrad` and `MnMinos`, the resonances of the
decay behind the constructor of `Amp3Body_TD` that takes a list of resolutions and a mass but no tags. -/
theorem C84_violation_forgotten (c : Ctor) (hc : c ∈ forgetful) :
    ∃ (pre post : List Op) (args : List Id) (h : Heap),
      (∀ op ∈ pre, (∃ c' a, op = .new c' a) ∨ (∃ xs, op = .newList xs) ∨ ∃ d r, op = .addResonance d r) ∧
      (∀ op ∈ post, ∃ x, op = .drop x ∨ op = .collect x) ∧
      Heap.run (pre ++ [.new c args] ++ post) = some h ∧ ∃ y, Touched h y ∧ ¬Alive h y := by
  simp only [forgetful, List.mem_cons, List.not_mem_nil, or_false] at hc
  rcases hc with rfl | rfl | rfl | rfl | rfl
  · obtain ⟨h, hr, hy⟩ := not_sound_of_dangles (S := [1]) (x := 0)
      (pre := [.new .plain []] ++ [.new .params [0]] ++ [.drop 0]) rfl
    exact ⟨[.new .plain []], [.drop 0, .collect 0], [0], h, by simp, by simp, hr, hy⟩
  · obtain ⟨h, hr, hy⟩ := not_sound_of_dangles (S := [2, 0]) (x := 1)
      (pre := [.new .plain [], .new .params [0]] ++ [.new .fcn [1]] ++ [.drop 1]) rfl
    exact ⟨[.new .plain [], .new .params [0]], [.drop 1, .collect 1], [1], h, by simp, by simp, hr, hy⟩
  · obtain ⟨h, hr, hy⟩ := not_sound_of_dangles (S := [4, 3, 1, 0]) (x := 2)
      (pre := [.new .plain [], .new .params [0], .new .fcn [1], .new .plain []] ++
        [.new .mnMigrad [2, 3, 3]] ++ [.drop 2]) rfl
    exact ⟨[.new .plain [], .new .params [0], .new .fcn [1], .new .plain []], [.drop 2, .collect 2],
      [2, 3, 3], h, by simp, by simp, hr, hy⟩
  · obtain ⟨h, hr, hy⟩ := not_sound_of_dangles (S := [4, 3, 1, 0]) (x := 2)
      (pre := [.new .plain [], .new .params [0], .new .fcn [1], .new .plain []] ++
        [.new .mnMinos [2, 3, 3]] ++ [.drop 2]) rfl
    exact ⟨[.new .plain [], .new .params [0], .new .fcn [1], .new .plain []], [.drop 2, .collect 2],
      [2, 3, 3], h, by simp, by simp, hr, hy⟩
  · obtain ⟨h, hr, hy⟩ := not_sound_of_dangles (S := [5, 4, 3, 0]) (x := 2)
      (pre := [.new .plain [], .new .plain [], .new .plain [], .newList [], .new .plain [],
        .addResonance 1 2] ++ [.new .amp3BodyTDMass [0, 0, 0, 0, 0, 0, 1, 3, 4, 0]] ++ [.drop 1, .drop 2]) rfl
    exact ⟨[.new .plain [], .new .plain [], .new .plain [], .newList [], .new .plain [],
        .addResonance 1 2], [.drop 1, .drop 2, .collect 2], [0, 0, 0, 0, 0, 0, 1, 3, 4, 0], h,
        by simp, by simp, hr, hy⟩

example : Ctor.amp3BodyTDMass ∈ forgetful := by decide

/-- Violation: the list given to a constructor is kept alive, its elements are not.  A product of the PDFs
in a list is left with a pointer to a destroyed PDF when that PDF is taken out of the list. -/
theorem C84_violation_list : ∃ h, Heap.run [.new .plain [], .new .plain [], .newList [0],
      .new .prodPdf [1, 2], .remove 2 0, .drop 0, .collect 0] = some h ∧ ∃ y, Touched h y ∧ ¬Alive h y :=
  not_sound_of_dangles (S := [3, 2, 1]) (x := 0)
    (pre := [.new .plain [], .new .plain [], .newList [0], .new .prodPdf [1, 2], .remove 2 0, .drop 0]) rfl

/-- Violation: the description of the decay that `getDecayInfo` returns has pointers to the resonances, and
keeps neither them nor the PDF. -/
theorem C84_violation_decay : ∃ h, Heap.run [.new .plain [], .new .plain [], .new .plain [], .new .plain [],
      .addResonance 1 2, .new .amp3Body [0, 0, 0, 0, 1, 3], .getDecayInfo 4, .drop 1, .drop 2, .drop 4,
      .collect 2] = some h ∧ ∃ y, Touched h y ∧ ¬Alive h y :=
  not_sound_of_dangles (S := [5, 3, 0]) (x := 2)
    (pre := [.new .plain [], .new .plain [], .new .plain [], .new .plain [],
      .addResonance 1 2, .new .amp3Body [0, 0, 0, 0, 1, 3], .getDecayInfo 4, .drop 1, .drop 2, .drop 4]) rfl

/-- Violation: a member obtained from a fit manager by a method (`getParams()`, `getFCN()`) is owned by
Python, which deletes memory inside the manager when the variable goes away; obtained by the property of
the same name it is not (`C84_alive_partial`).  It does not keep the manager either. -/
theorem C84_violation_member :
    (∃ h, Heap.run [.new .plain [], .new .fitManager [0], .memberMethod 1, .drop 2, .collect 2] = some h ∧
      h.invalidDelete = true) ∧
    ∃ h, Heap.run [.new .plain [], .new .fitManager [0], .memberMethod 1, .drop 1, .collect 1] = some h ∧
      ∃ y, Touched h y ∧ ¬Alive h y :=
  ⟨invalid_of_misdeletes (S := [1, 0]) (x := 2)
      (pre := [.new .plain [], .new .fitManager [0], .memberMethod 1, .drop 2]) rfl,
    not_sound_of_dangles (S := [2, 0]) (x := 1)
      (pre := [.new .plain [], .new .fitManager [0], .memberMethod 1, .drop 1]) rfl⟩

end GooFit
