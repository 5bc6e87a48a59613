import Verif.Model.Variable
/-!
# Specification for C01: objects and names for objects

A program constructs *objects*; a handle is just a name for an object.  Copying a handle gives
another name for the same object.  Only the operation type `VarOp` and the member names `Field`
are shared with the model.
-/
namespace GooFit.Spec
open GooFit

/-- Abstract object: a name and the current contents of each member. -/
structure Obj (V : Type) where
  name : String
  val : Field → V

/-- Abstract state: all objects ever constructed and, for each handle, the object it names. -/
structure Objs (V : Type) where
  objs : List (Obj V)
  names : List Nat

def Objs.step {V : Type} (s : Objs V) : VarOp V → Objs V
  | .construct n _ init =>
    { objs := s.objs ++ [{ name := n, val := init }], names := s.names ++ [s.objs.length] }
  | .copy k =>
    match s.names[k]? with
    | some o => { s with names := s.names ++ [o] }
    | none => s
  | .assign d k =>
    match s.names[k]? with
    | some o => { s with names := s.names.set d o }
    | none => s
  | .set k f v =>
    match s.names[k]? with
    | some o =>
      { s with objs := s.objs.modify o fun x => { x with val := fun g => if g = f then v else x.val g } }
    | none => s

def Objs.run {V : Type} (ops : List (VarOp V)) : Objs V :=
  ops.foldl Objs.step { objs := [], names := [] }

/-- What handle `k` reads for member `f`. -/
def Objs.read {V : Type} (s : Objs V) (k : Nat) (f : Field) : Option V := do
  let o ← s.names[k]?
  let x ← s.objs[o]?
  some (x.val f)

/-- Two handles are equal iff they name the same object. -/
def Objs.eq {V : Type} (s : Objs V) (k l : Nat) : Option Bool := do
  let a ← s.names[k]?
  let b ← s.names[l]?
  some (a == b)

def Objs.name {V : Type} (s : Objs V) (k : Nat) : Option String := do
  let o ← s.names[k]?
  let x ← s.objs[o]?
  some x.name

end GooFit.Spec
