import Mathlib.Algebra.Order.Field.Basic
/-!
# Compensated summation and uncertain values

`src/goofit/MathUtils.cpp` and `include/goofit/utilities/Uncertain.h`.
-/
set_option autoImplicit false
namespace GooFit
section
variable {K : Type} [Field K] [LinearOrder K]

/-- One round of the loop of `MathUtils::doNeumaierSummation` (`src/goofit/MathUtils.cpp:19-27`) on
`(sum, c)`.  `fl` is the rounding of each addition and subtraction. -/
def neumaierStep (fl : K → K) (s : K × K) (v : K) : K × K :=
  let t := fl (s.1 + v)
  let c := if |s.1| ≥ |v| then fl (s.2 + fl (fl (s.1 - t) + v)) else fl (s.2 + fl (fl (v - t) + s.1))
  (t, c)

/-- `MathUtils::doNeumaierSummation` (`src/goofit/MathUtils.cpp:11-30`). -/
def neumaier (fl : K → K) (vals : List K) : K :=
  if vals.length = 1 then vals.headD 0
  else
    let s := vals.foldl (neumaierStep fl) (0, 0)
    fl (s.1 + s.2)

/-- `Uncertain` (`include/goofit/utilities/Uncertain.h:38-41`). -/
structure Uncertain (K : Type) where
  value : K
  uncertainty : K
  deriving DecidableEq

/-- The constructor (`include/goofit/utilities/Uncertain.h:45-50`); `none` is the exception. -/
def Uncertain.mk? (value uncertainty : K) : Option (Uncertain K) :=
  if uncertainty < 0 then none else some ⟨value, uncertainty⟩

/-- `get_relative_uncertainty` (`include/goofit/utilities/Uncertain.h:60`). -/
def Uncertain.relative (a : Uncertain K) : K := a.uncertainty / a.value

/-- `operator+` (`include/goofit/utilities/Uncertain.h:70-72`). -/
def Uncertain.add (a b : Uncertain K) : Option (Uncertain K) :=
  Uncertain.mk? (a.value + b.value) (a.uncertainty + b.uncertainty)

/-- `operator-` (`include/goofit/utilities/Uncertain.h:74-76`). -/
def Uncertain.sub (a b : Uncertain K) : Option (Uncertain K) :=
  Uncertain.mk? (a.value - b.value) (a.uncertainty + b.uncertainty)

/-- `operator*` (`include/goofit/utilities/Uncertain.h:78-80`). -/
def Uncertain.mul (a b : Uncertain K) : Option (Uncertain K) :=
  Uncertain.mk? (a.value * b.value) (a.relative + b.relative)

/-- `operator*` with a number, on either side (`include/goofit/utilities/Uncertain.h:83, 93-95`). -/
def Uncertain.scale (a : Uncertain K) (x : K) : Option (Uncertain K) :=
  Uncertain.mk? (a.value * x) (a.uncertainty * x)

/-- `operator/` (`include/goofit/utilities/Uncertain.h:85-87`). -/
def Uncertain.div (a b : Uncertain K) : Option (Uncertain K) :=
  Uncertain.mk? (a.value / b.value) (a.relative + b.relative)

/-- `operator/` by a number (`include/goofit/utilities/Uncertain.h:89`). -/
def Uncertain.divBy (a : Uncertain K) (x : K) : Option (Uncertain K) :=
  Uncertain.mk? (a.value / x) (a.uncertainty / x)

end
end GooFit
