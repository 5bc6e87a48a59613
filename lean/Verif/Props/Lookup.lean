import Verif.Model.Lookup
import Verif.Props.FitManager
import Verif.Props.Tree
/-!
# C95: the parameters of a PDF can be looked up, fixed and removed as a group

`nodes t` are the PDF objects of the tree `t`, top first.
-/
set_option autoImplicit false
set_option linter.unusedSectionVars false
namespace GooFit
open Spec FpOps

section
variable {F : Type} [FpOps F] {L : Lib F}

mutual
private theorem byName_flat (name : Nat → String) (n : String) :
    ∀ t : Pdf L, getParameterByName name n t = (t.flat Node.params).find? fun p => name p == n
  | .mk nd cs => by
    rw [getParameterByName, Pdf.flat, List.find?_append, byName_flatList name n cs]
    cases nd.params.find? fun p => name p == n <;> rfl
private theorem byName_flatList (name : Nat → String) (n : String) :
    ∀ ts : List (Pdf L), getParameterByNameList name n ts = (Pdf.flatList Node.params ts).find? fun p => name p == n
  | [] => rfl
  | t :: ts => by
    rw [getParameterByNameList, Pdf.flatList, List.find?_append, byName_flat name n t, byName_flatList name n ts]
    cases (t.flat Node.params).find? fun p => name p == n <;> rfl
end

/-- **C95, look-up.**  For every tree of PDFs and every name: a variable is found exactly when some PDF of the tree has a parameter
of that name; the variable found is one of the tree's parameters and has the name; of several it is the first, PDFs before their
components and components in their order. -/
theorem C95_lookup (name : Nat → String) (n : String) (t : Pdf L) :
    (getParameterByName name n t = none ↔ ∀ p ∈ t.getParameters, name p ≠ n) ∧
    (∀ p, getParameterByName name n t = some p → p ∈ t.getParameters ∧ name p = n) ∧
    getParameterByName name n t = ((nodes t).flatMap Node.params).find? fun p => name p == n := by
  have hflat : (nodes t).flatMap Node.params = t.flat Node.params := (flat_eq_nodes Node.params t.size t (Nat.le_refl _)).symm
  have hmem : ∀ p, p ∈ t.getParameters ↔ p ∈ t.flat Node.params := fun p => mem_gather Node.params t p
  rw [hflat, byName_flat]
  refine ⟨?_, ?_, rfl⟩
  · rw [List.find?_eq_none]
    simp only [hmem, beq_iff_eq]
  · intro p hp
    exact ⟨(hmem p).mpr (List.mem_of_find?_eq_some hp), by simpa using List.find?_some hp⟩

private theorem foldl_fixed (c : Bool) (is : List Nat) (h : Pars F) (i : Nat) :
    is.foldl (fun h i => h.modify i fun v => { v with fixed := c }) h i
      = { h i with fixed := if i ∈ is then c else (h i).fixed } := by
  induction is generalizing h with
  | nil => simp
  | cons a is ih =>
    rw [List.foldl_cons, ih]
    unfold Pars.modify
    by_cases ha : i = a
    · subst ha
      by_cases hi : i ∈ is <;> simp [hi]
    · simp [ha]

/-- **C95, fixing.**  `setParameterConstantness` fixes (or releases) exactly the variables some PDF of the tree uses, and changes
nothing else about them nor about any other variable. -/
theorem C95_constantness (c : Bool) (t : Pdf L) (h : Pars F) (i : Nat) :
    (∃ n ∈ nodes t, i ∈ n.params) → setParameterConstantness c t h i = { h i with fixed := c } := by
  intro hi
  unfold setParameterConstantness
  rw [foldl_fixed, if_pos]
  rw [Pdf.getParameters, mem_gather, mem_flat_iff]
  exact hi

/-- **C95, fixing: the other variables.** -/
theorem C95_constantness_others (c : Bool) (t : Pdf L) (h : Pars F) (i : Nat) :
    (¬ ∃ n ∈ nodes t, i ∈ n.params) → setParameterConstantness c t h i = h i := by
  intro hi
  unfold setParameterConstantness
  rw [foldl_fixed, if_neg]
  rw [Pdf.getParameters, mem_gather, mem_flat_iff]
  exact hi

mutual
private theorem subtrees_sub : ∀ (t s : Pdf L), s ∈ subtrees t → ∀ x ∈ subtrees s, x ∈ subtrees t
  | .mk n cs, s, hs, x, hx => by
    rw [subtrees, List.mem_cons] at hs
    rcases hs with rfl | hs
    · exact hx
    · rw [subtrees, List.mem_cons]
      exact Or.inr (subtrees_subList cs s hs x hx)
private theorem subtrees_subList : ∀ (ts : List (Pdf L)) (s : Pdf L), s ∈ subtreesList ts → ∀ x ∈ subtrees s, x ∈ subtreesList ts
  | [], s, hs, x, hx => by simp [subtreesList] at hs
  | t :: ts, s, hs, x, hx => by
    rw [subtreesList, List.mem_append] at hs ⊢
    rcases hs with hs | hs
    · exact Or.inl (subtrees_sub t s hs x hx)
    · exact Or.inr (subtrees_subList ts s hs x hx)
end

/-- **C95, fits.**  When the parameters of one PDF of a tree have been fixed before the fit manager of the tree is made, then in
every life of the manager every fit evaluates the function with these parameters at the values they had and leaves them there, by
whatever minimiser honours what it has been told.  Parameters the fixed PDF does not use keep the status they had. -/
theorem C95_fixed_in_fit [DecidableEq F] [LE F] (t s : Pdf L) (hs : s ∈ subtrees t) (h : Pars F) (ops : List (MgrOp F))
    (hmin : ∀ pre r post m1 h1, ops = pre ++ .fit r :: post → Mgr2.run t (setParameterConstantness true s h) pre = some (m1, h1) →
      Respects m1.mn r)
    (pre post : List (MgrOp F)) (r : MinRun F) (hops : ops = pre ++ .fit r :: post) (m : Mgr2 F) (h' : Pars F)
    (hr : Mgr2.run t (setParameterConstantness true s h) (pre ++ [.fit r]) = some (m, h')) (i : Nat)
    (hi : ∃ n ∈ nodes s, i ∈ n.params) :
    (h' i).value = (h i).value ∧
    ∃ k : Nat, t.getParameters[k]? = some i ∧ ∀ v ∈ r.calls ++ r.minosCalls, v[k]? = some (h i).value := by
  have hti : i ∈ t.getParameters := by
    rw [Pdf.getParameters, mem_gather, mem_flat_iff]
    obtain ⟨n, hn, hin⟩ := hi
    have hnt : n ∈ nodes t := by
      obtain ⟨x, hx, rfl⟩ := List.mem_map.mp hn
      exact List.mem_map.mpr ⟨x, subtrees_sub t s hs x hx, rfl⟩
    exact ⟨n, hnt, hin⟩
  obtain ⟨k, hk⟩ := List.getElem?_of_mem hti
  have hfix := C95_constantness true s h i hi
  have := (C75_respected t (setParameterConstantness true s h) ops hmin pre post r hops m h' hr k i hk).1 (by rw [hfix])
  rw [hfix] at this
  exact ⟨this.2, k, hk, this.1⟩

/-! ### Removing a parameter -/

mutual
private theorem unregister_nodes (v : Nat) :
    ∀ t : Pdf L, nodes (unregisterParameter v t) = (nodes t).map fun n => { n with params := n.params.erase v }
  | .mk n cs => by
    unfold nodes
    rw [unregisterParameter, subtrees, subtrees, List.map_cons, List.map_cons, List.map_cons]
    exact congrArg _ (unregister_nodesList v cs)
private theorem unregister_nodesList (v : Nat) : ∀ ts : List (Pdf L),
    (subtreesList (unregisterParameterList v ts)).map Pdf.node
      = ((subtreesList ts).map Pdf.node).map fun n => { n with params := n.params.erase v }
  | [] => rfl
  | t :: ts => by
    rw [unregisterParameterList, subtreesList, subtreesList, List.map_append, List.map_append, List.map_append]
    exact congrArg₂ _ (unregister_nodes v t) (unregister_nodesList v ts)
end

/-- **C95, removal** (what is missing: PDFs that have the variable in two roles, see the violation).  After `unregisterParameter` the
tree does not list the variable any more, and lists all its other parameters. -/
theorem C95_unregister_partial (v : Nat) (t : Pdf L) (honce : ∀ n ∈ nodes t, n.params.Nodup) (i : Nat) :
    i ∈ (unregisterParameter v t).getParameters ↔ i ∈ t.getParameters ∧ i ≠ v := by
  rw [Pdf.getParameters, mem_gather, mem_flat_iff, Pdf.getParameters, mem_gather, mem_flat_iff, unregister_nodes]
  constructor
  · rintro ⟨n, hn, hi⟩
    obtain ⟨n', hn', rfl⟩ := List.mem_map.mp hn
    have hi' := (honce n' hn').mem_erase_iff.mp hi
    exact ⟨⟨n', hn', hi'.2⟩, hi'.1⟩
  · rintro ⟨⟨n, hn, hi⟩, hne⟩
    exact ⟨_, List.mem_map.mpr ⟨n, hn, rfl⟩, (List.mem_erase_of_ne hne).mpr hi⟩

/-- **C95 (violated by the code).**  A variable that a PDF has been given for two of its parameters is removed only once: it is still
listed, and fitted, afterwards. -/
theorem C95_violation_unregister_twice (n : Node L) (v : Nat) (hn : n.params = [v, v]) (cs : List (Pdf L)) :
    v ∈ (unregisterParameter v (.mk n cs)).getParameters := by
  rw [Pdf.getParameters, mem_gather, mem_flat_iff, unregister_nodes]
  refine ⟨_, List.mem_map.mpr ⟨n, List.mem_cons_self, rfl⟩, ?_⟩
  simp [hn]

end

/-! ### Concrete cases -/

/-- The demo tree has the parameters `a`, `b` and `c`. -/
example : getParameterByName (fun i => (Demo.pars i).name) "b" Demo.tree = some 1
    ∧ getParameterByName (fun i => (Demo.pars i).name) "d" Demo.tree = none := by decide +kernel

/-- The last factor of the demo tree, which uses `c`, is fixed, and a fit follows. -/
example : ∃ m h', Mgr2.run Demo.tree (setParameterConstantness true (Demo.lin 4 2 1 (1/7)) Demo.pars)
      [.fit (Demo.fitTo (fun k => if k = 0 then 7 else if k = 1 then 8 else 3) 1)] = some (m, h')
    ∧ (h' 2).value = (Demo.pars 2).value := by
  have hp : setParameterConstantness true (Demo.lin 4 2 1 (1/7)) Demo.pars = Demo.parsFixed := rfl
  have hsome : (Mgr2.run Demo.tree (setParameterConstantness true (Demo.lin 4 2 1 (1/7)) Demo.pars)
      [.fit (Demo.fitTo (fun k => if k = 0 then 7 else if k = 1 then 8 else 3) 1)]).isSome = true := by
    rw [hp]
    decide +kernel
  obtain ⟨⟨m, h'⟩, hr⟩ := Option.isSome_iff_exists.mp hsome
  refine ⟨m, h', hr, ?_⟩
  refine (C95_fixed_in_fit Demo.tree (Demo.lin 4 2 1 (1/7)) ?_ Demo.pars _ ?_ [] [] _ rfl m h' hr 2 ?_).1
  · simp [Demo.tree, subtrees, subtreesList, Demo.lin]
  · intro pre r post m1 h1 he hr
    have hpre : pre = [] := by
      cases pre with
      | nil => rfl
      | cons a pre => simp at he
    subst hpre
    simp only [List.nil_append, List.cons.injEq, MgrOp.fit.injEq] at he
    obtain ⟨rfl, _⟩ := he
    have e1 : (Mgr2.run Demo.tree Demo.parsFixed []).map (fun s => s.1.mn)
        = some [⟨"a", 0, .limited 1 0 10⟩, ⟨"b", 2, .limited 1 0 10⟩, ⟨"c", 3, .constant⟩] := by decide +kernel
    rw [hp] at hr
    rw [hr] at e1
    simp only [Option.map_some, Option.some.injEq] at e1
    rw [e1]
    exact Demo.respects _ _ (by norm_num) (by norm_num) (by norm_num) _ _ _ _
  · exact ⟨_, List.mem_cons_self, List.mem_singleton.mpr rfl⟩

/-- Removing `b` from the demo tree. -/
example : (∀ n ∈ nodes Demo.tree, n.params.Nodup) ∧ (unregisterParameter 1 Demo.tree).getParameters = [0, 2] := by decide +kernel

end GooFit
