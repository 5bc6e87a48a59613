import Verif.Model.Python
/-! Specification for C84: what a program may touch, and which statements are covered. -/
set_option autoImplicit false
namespace GooFit.Spec
open GooFit.Py

/-- Using the objects held in the variables of the program may touch `x`: it is one of them, or the
target of a pointer inside, an element of, or an object referenced by, an object that may be touched. -/
inductive Touched (h : Heap) : Id → Prop where
  | variable (r : Id) : r ∈ h.roots → Touched h r
  | pointer (x y : Id) (o : Obj) : Touched h x → h.objs[x]? = some o → y ∈ o.cxx → Touched h y
  | pointerB (x y : Id) (o : Obj) : Touched h x → h.objs[x]? = some o → y ∈ o.cxxB → Touched h y
  | data (x y : Id) (o : Obj) : Touched h x → h.objs[x]? = some o → o.data = some y → Touched h y
  | decay (x y : Id) (o : Obj) : Touched h x → h.objs[x]? = some o → y ∈ o.decay → Touched h y
  | item (x y : Id) (o : Obj) : Touched h x → h.objs[x]? = some o → y ∈ o.items → Touched h y
  | kept (x y : Id) (o : Obj) : Touched h x → h.objs[x]? = some o → y ∈ o.keep → Touched h y

/-- `x` exists. -/
def Alive (h : Heap) (x : Id) : Prop := ∃ o, h.objs[x]? = some o ∧ o.alive = true

/-- Nothing that was destroyed can be touched, and nothing was deleted that may not be. -/
def Sound (h : Heap) : Prop := (∀ x, Touched h x → Alive h x) ∧ h.invalidDelete = false

/-- The constructors whose binding forgets to keep something alive. -/
def forgetful : List Ctor := [.params, .fcn, .mnMigrad, .mnMinos, .amp3BodyTDMass]

/-- Statements covered by the guarantee: all but removal from a list, the copy of a decay taken out of
a PDF, a member obtained by calling a method, and the five constructors above. -/
def Covered : Op → Prop
  | .new c _ => c ∉ forgetful
  | .remove _ _ => False
  | .getDecayInfo _ => False
  | .memberMethod _ => False
  | _ => True

/-- Statements of a program that never lets go of an object. -/
def Holding : Op → Prop
  | .drop _ => False
  | _ => True

end GooFit.Spec
