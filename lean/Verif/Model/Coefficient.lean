import Verif.Model.Likelihood
/-!
# `PolynomialPdf::getCoefficient`

On the arrays and normalisations of `Model/Likelihood.lean`.
-/
set_option autoImplicit false
namespace GooFit
section
variable {K : Type} [Field K] [LinearOrder K] [IsStrictOrderedRing K] [FloorRing K]
attribute [local instance] FpOps.ofField
variable {L : Lib K}

/-- `normalize()` of a PDF without components: with a control whose metric takes no PDF the stored
normalisation and the result are one (`src/PDFs/GooPdf.cu:340-346`), otherwise
`Machine.normalizeOwn` (`src/PDFs/GooPdf.cu:348-396`). -/
def Machine.normalizeUnder (cfg : NormSetup L) (metricIsPdf : Bool) (fuel : Nat) (n : Node L) (s : Machine L) :
    Ran (K × Machine L) :=
  if metricIsPdf then s.normalizeOwn cfg fuel n else .done (1, s.setNorm n.oid 1)

/-- Reading `host_parameters[i]`, where a position outside the array is undefined behaviour
(`include/goofit/detail/SmartVectorCPU.h:19-20`, a `std::vector`). -/
def Machine.hostParameter (s : Machine L) (i : Int) : Option K :=
  if 0 ≤ i then s.host.bufs.par[i.toNat]? else none

/-- `PolynomialPdf::getCoefficient` (`src/PDFs/basic/PolynomialPdf.cu:234-260`) of the object with node `n`.
Simplification: the unsigned index arithmetic does not wrap. -/
def Machine.getCoefficient (cfg : NormSetup L) (metricIsPdf : Bool) (fuel : Nat) (n : Node L) (coef : Int)
    (s : Machine L) : Ran (K × Machine L) :=
  if n.obs.length ≠ 1 then .done (0, s)
  else
    let slot := s.host.slots n.oid
    match s.host.bufs.con[slot.con + 1]?, s.host.bufs.par[slot.par]? with
    | some low, some count =>
      if (coef : K) < low then .done (0, s)
      else if (coef : K) > low + (count - 1) then .done (0, s)
      else
        (s.normalizeUnder cfg metricIsPdf fuel n).andThen fun (norm, s) =>
        match s.hostParameter ((slot.par : Int) + 2 + coef - FpOps.toInt low) with
        | none => .ub
        | some param => .done (1 / norm * param, s)
    | _, _ => .ub

end
end GooFit
