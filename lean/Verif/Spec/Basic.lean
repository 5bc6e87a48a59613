import Verif.Spec.Tree
import Verif.Model.BasicCtor
/-!
# What a user of the basic PDFs has to provide
-/
set_option autoImplicit false
namespace GooFit.Spec
open FpOps

/-- The arguments make sense: observables passed to one constructor are different, and the counts
the constructor stores as floating-point numbers survive (for doubles: below 2^31). -/
def SoundCall {F : Type} [FpMath F] : BasicCall F → Prop
  | .bernstein _ _ _ coeffs mindeg => Exact F mindeg ∧
      toInt (add (ofNat coeffs.length) (ofNat mindeg) : F) = coeffs.length + mindeg
  | .binTransform axes => (axes.map Axis.obs).Nodup
  | .corrGaussian x y _ _ _ _ _ => x ≠ y
  | .trigThreshold2 x y _ _ _ _ _ => x ≠ y
  | .squareDalitz x y _ _ _ _ _ _ _ _ => x ≠ y
  | .multiPolynomial obses _ _ maxDegree _ => obses.Nodup ∧
      toInt (add (ofNat maxDegree) (lit 1) : F) = maxDegree + 1
  | .smoothHistogram _ axes _ => (axes.map Axis.obs).Nodup ∧ Exact F axes.length
  | .dalitzVeto x y _ _ _ _ vetos => x ≠ y ∧ Exact F vetos.length
  | _ => True

end GooFit.Spec

namespace GooFit.Spec
open FpOps

/-- The PDF built by a constructor call, stored anywhere in the global arrays for the variable values
and observable positions `env`, evaluates to `v` at the event `e`. -/
def Evaluates {F : Type} [FpMath F] (T : HistTables F) (a : BasicCall F) (env : Env F) (e : Evt F)
    (v : F) : Prop :=
  ∀ (base : Lib F) (oid : Nat) (norm : F) (B : Bufs F) (c : Cursor),
    let n := a.node base T oid norm
    OwnData B c (n.params.map env.val) n.consts (n.obs.map env.idx) norm →
    ((basicLib base T).dev a.leaf B c e).map Prod.fst = some v

/-- The value an event holds for an observable. -/
def ObsIs {F : Type} [FpOps F] (env : Env F) (e : Evt F) (o : Nat) (x : F) : Prop :=
  at_ e (env.idx o) = some x

end GooFit.Spec

namespace GooFit.Spec

/-- The exponents of all monomials in `n` variables of total degree at most `N`, in the order
documented for `PolynomialPdf` (`include/goofit/PDFs/basic/PolynomialPdf.h:24-34`): the power of the
leftmost variable runs fastest. -/
def exponents : Nat → Nat → List (List Nat)
  | 0, _ => [[]]
  | n + 1, N => (List.range (N + 1)).flatMap fun p => (exponents n (N - p)).map (· ++ [p])

end GooFit.Spec

namespace GooFit.Spec

/-- As a function of its observable `x`, with the variables as in `env`, the PDF is `f`. -/
def IsFunction {F : Type} [FpMath F] (T : HistTables F) (env : Env F) (a : BasicCall F) (x : Nat)
    (f : F → F) : Prop :=
  ∀ (e : Evt F) (X : F), ObsIs env e x X → Evaluates T a env e (f X)

end GooFit.Spec
