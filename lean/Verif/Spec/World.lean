import Verif.Model.World
import Verif.Spec.Tree
/-!
# Specification for C47: programs with several PDFs
-/
set_option autoImplicit false
namespace GooFit.Spec
variable {F : Type} [FpOps F] {L : Lib F}

/-- Operations of the program that PDF `p` needs: its own, and settings of variables. -/
def Mine (p : Nat) (o : WOp L) : Bool := o.about == some p || o.about == none

/-- Setting variables and copying the parameters of `p`. -/
def Refresh (p : Nat) : WOp L → Prop
  | .setVar .. => True
  | .copyParams q => q = p
  | _ => False

/-- The PDFs are what they are said to be: `pdfs q` is object `q`, its components' observables are its own, without
repetition. -/
structure Program (pdfs : Nat → Pdf L) : Prop where
  oid : ∀ q, (pdfs q).node.oid = q
  obs : ∀ q, ∀ n ∈ nodes (pdfs q), ∀ o ∈ n.obs, o ∈ (pdfs q).node.obs
  nodup : ∀ q, (pdfs q).node.obs.Nodup

/-- Flattening operations on `p`: `setData` and `setFitControl`. -/
def Flattens (p : Nat) : WOp L → Prop
  | .setData q _ _ | .setControl q _ => q = p
  | _ => False

end GooFit.Spec
