import Verif.Model.SmartVector
/-!
# Specification for C32

Only the type of operations is shared with the model.
-/
set_option autoImplicit false
namespace GooFit.Spec
variable {T : Type}

/-- The host array after a history: an ordinary vector that knows nothing of devices.  Writes beyond the
end are not a program. -/
def hostArray : List (SvOp T) → List T → Option (List T)
  | [], l => some l
  | .push x _ :: ops, l => hostArray ops (l ++ [x])
  | .write i x :: ops, l => if i < l.length then hostArray ops (l.set i x) else none
  | .clear :: ops, _ => hostArray ops []
  | .sync :: ops, l => hostArray ops l
  | .smartSync :: ops, l => hostArray ops l
  | .clearDevice :: ops, l => hostArray ops l

/-- The device memory was given up and not fully synchronised since. -/
def deviceCleared (ops : List (SvOp T)) : Bool :=
  ops.foldl (fun b op => match op with | .clearDevice => true | .sync => false | _ => b) false

/-- Two entries the program cannot tell apart: identical, or equal for the type's own comparison (`0.0`
and `-0.0`). -/
def Indistinct (ne : T → T → Bool) (a b : T) : Prop := a = b ∨ ne a b = false

end GooFit.Spec
