import Verif.Spec.Likelihood
import Verif.Model.Values
/-!
# What a PDF should answer
-/
set_option autoImplicit false
namespace GooFit.Spec
variable {K : Type} [Field K] [LinearOrder K] [IsStrictOrderedRing K] [FloorRing K]
attribute [local instance] FpOps.ofField
variable {L : Lib K}

/-- The value before the object's own normalisation: a basic PDF's function, the product of the functions for a product
of basic PDFs of one observable, the function of the function for a composite, and the density of everything else, whose own normalisation is one. -/
def rawValue (cfg : NormSetup L) (val : Nat → K) (f : Nat → K → K) (t : Pdf L) (x : Nat → K) : K :=
  match t.node.fn, t.node.obs with
  | .leaf _, [o] => f t.node.oid (x o)
  | .prod, [o] => if 2 ≤ t.comps.length then (t.comps.map fun c => f c.node.oid (x o)).prod else density cfg val f t x
  | .composite, [o] =>
    match t.comps with
    | [core, shell] => f shell.node.oid (f core.node.oid (x o))
    | _ => density cfg val f t x
  | _, _ => density cfg val f t x

/-- What `getValue` is asked for: the density, the value without normalisation, or minus the logarithm of the density, for
which zero is returned where there is none. -/
def reported (log : K → K) (q : EvalFunc) (p raw : K) : K :=
  match q with
  | .prob => p
  | .eval => raw
  | .nll => if 0 < p then -log p else 0

/-- The value is one the observable may have. -/
def Allowed (r : K × K × Nat) (y : K) : Prop := r.1 = r.2.1 ∨ (r.1 ≤ y ∧ y ≤ r.2.1)

/-- The point with observable `var` at the centre of its bin `i`. -/
def atBin (r : K × K × Nat) (var : Nat) (x : Nat → K) (i : Nat) : Nat → K :=
  fun o => if o = var then cellCenter r.1 r.2.1 r.2.2 i else x o

end GooFit.Spec
