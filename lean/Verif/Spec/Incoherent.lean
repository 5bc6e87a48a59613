import Verif.Spec.Tree
import Verif.Spec.Amp3Body
/-!
# Specification for C66: an incoherent sum of resonances
-/
set_option autoImplicit false
namespace GooFit.Spec
section
variable {F : Type} [FpOps F]
open FpOps

/-- `Σ sᵢ |Bᵢ|²`, left to right, for strengths and complex values given as pairs. -/
def incoherent (ss : List F) (bs : List (F × F)) : F :=
  (ss.zip bs).foldl (fun t p => add t (mul p.1 (add (mul p.2.1 p.2.1) (mul p.2.2 p.2.2)))) (lit 0)

/-- The numbers stored for the parameters of some PDFs and everything below them: for each PDF the number of its parameters,
then their values. -/
def stored {L : Lib F} (env : Env F) (cs : List (Pdf L)) : List F :=
  ((subtreesList cs).map Pdf.node).flatMap fun n => ofNat n.params.length :: n.params.map env.val

end
section
variable {K : Type} [Field K]

/-- The documented density (`include/goofit/PDFs/physics/Amp3Body_IS.h:15-18`): `Σ |αᵢ Bᵢ|² ε` in the decay region, for real
`αᵢ`. -/
def incoherentDensity (inside : K → K → Bool) (terms : List (K × (K → K → Cx K))) (eff : K → K → K) (x y : K) : K :=
  if inside x y then (terms.map fun t => t.1 ^ 2 * ((t.2 x y).re ^ 2 + (t.2 x y).im ^ 2)).sum * eff x y else 0

end
end GooFit.Spec
