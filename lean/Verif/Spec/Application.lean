import Verif.Model.Application
/-!
# Specification for C96: devices and files
-/
set_option autoImplicit false
namespace GooFit.Spec

/-- The number of nodes: one unless the batch system names another number. -/
def nodeCount (e : MpiEnv) : Int :=
  match e.pbsNumNodes with
  | none => 1
  | some 0 => 1
  | some n => n

/-- A process of an MPI program with at least one process per node. -/
structure Launched (e : MpiEnv) : Prop where
  rank : 0 ≤ e.myId ∧ e.myId < e.numProcs
  devices : 0 ≤ e.deviceCount
  nodes : 0 < nodeCount e ∧ nodeCount e ≤ e.numProcs

/-- `dir` is the directory of the path `prog`: `prog` is `dir`, a slash, and a name without slashes. -/
def IsDirOf (prog dir : List Char) : Prop := ∃ name, prog = dir ++ '/' :: name ∧ '/' ∉ name

/-- The places where a file is looked for, best first: as given, in the directory of the program, in the directory `base` of the
sources, next to the sources. -/
inductive Place (argv0 source input base : List Char) : Nat → List Char → Prop
  | given : Place argv0 source input base 0 input
  | program (dir : List Char) : IsDirOf argv0 dir → Place argv0 source input base 1 (dir ++ '/' :: input)
  | base : base ≠ [] → Place argv0 source input base 2 (source ++ '/' :: base ++ '/' :: input)
  | sources : Place argv0 source input base 3 (source ++ ['/', '.', '.', '/'] ++ input)

end GooFit.Spec
