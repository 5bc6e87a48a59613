import Verif.Model.Mixing
import Mathlib.Algebra.BigOperators.Ring.Finset
import Mathlib.Algebra.Order.Floor.Ring

/-!
# Time-dependent three-body amplitudes

Models `src/PDFs/physics/Amp3Body_TD.cu`, `src/PDFs/physics/detail/SpecialDalitzIntegrator.cu` and
`src/PDFs/physics/detail/SpecialWaveCalculator.cu` over ℝ and ℂ.

Simplifications.  Numbers are exact.  A resonance is a function of the squared masses `m12` and
`m13`, the third is determined by them (SpecialDalitzIntegrator.cu:29-30).  The efficiency is a
function of `m12` and `m13` (the header allows nothing else).  The cursor that finds parameters is
in `Verif.Model.Tree`.  The limit of 16 resonances and 20 caches is not modelled.
-/

set_option autoImplicit false

namespace GooFit

open Finset

/-- A decay-time resolution on the device (`device_resfunction_ptr`,
`include/goofit/PDFs/physics/MixingTimeResolution.h`): arguments `term1`, `term2`, `Re AB*`, `Im AB*`, `tau`, `time`, `x`,
`y`, `sigma`. -/
abbrev ResFn := ℝ → ℝ → ℝ → ℝ → ℝ → ℝ → ℝ → ℝ → ℝ → ℝ

/-- `MixingTimeResolution::normalization`: four integrals over the Dalitz plot, `tau`, `x`, `y`
(`include/goofit/PDFs/physics/MixingTimeResolution.h:28-30`). -/
abbrev NormFn := ℝ → ℝ → ℝ → ℝ → ℝ → ℝ → ℝ → ℝ

/-- `TruthResolution` ignores the error on the time (TruthResolution.cu:6-27). -/
noncomputable def truthRes : ResFn := fun a b c d tau time x y _ => truthResolution a b c d tau time x y

/-- The first five parameters, Amp3Body_TD.cu:299-303. -/
structure TdPars where
  tau : ℝ
  x0 : ℝ
  y0 : ℝ
  deltax : ℝ
  deltay : ℝ

/-- A resonance with its coefficient, Amp3Body_TD.cu:321-325. -/
abbrev TdTerm := ℂ × (ℝ → ℝ → ℂ)

/-- Conversion of a floating-point number to `int`, towards zero (C++ conversion). -/
noncomputable def truncInt (r : ℝ) : ℤ := if 0 ≤ r then ⌊r⌋ else ⌈r⌉

/-- `xfix`, `yfix`, `taufix`, Amp3Body_TD.cu:229-231 and again 731-733. -/
noncomputable def xfix : ℝ := 0.0039
/-- `yfix`, Amp3Body_TD.cu:230 and again 732. -/
noncomputable def yfix : ℝ := 0.0065
/-- `taufix`, Amp3Body_TD.cu:231 and again 733. -/
noncomputable def taufix : ℝ := 0.4101

/-- `sumWavesA`, Amp3Body_TD.cu:91-110, from waves that are those of the event (SpecialWaveCalculator.cu:53-63). -/
noncomputable def tdWaveA (rs : List TdTerm) (m12 m13 : ℝ) : ℂ := rs.foldl (fun s p => s + p.2 m12 m13 * p.1) 0

/-- `sumWavesB`: the resonance at the reversed point (Amp3Body_TD.cu:82,109). -/
noncomputable def tdWaveB (rs : List TdTerm) (m12 m13 : ℝ) : ℂ := rs.foldl (fun s p => s + p.2 m13 m12 * p.1) 0

/-- `_xmixing` and `_ymixing`, Amp3Body_TD.cu:117-141. -/
noncomputable def tdMixing (p : TdPars) (tag : ℤ) : ℝ × ℝ :=
  if tag = 1 then (p.x0 + p.deltax, p.y0 + p.deltay)
  else if tag = -1 then (p.x0 - p.deltax, p.y0 - p.deltay)
  else (p.x0, p.y0)

/-- `device_Tddp`, Amp3Body_TD.cu:41-258, from the values of the registered observables in the order of
registration. -/
noncomputable def tdValue (R : ResFn) (inside : ℝ → ℝ → Bool) (p : TdPars) (rs : List TdTerm) (eff : ℝ → ℝ → ℝ)
    (obs : List ℝ) : ℝ :=
  let m12 := obs.getD 2 0
  let m13 := obs.getD 3 0
  if !(inside m12 m13) then 0
  else
    let sumWavesA := tdWaveA rs m12 m13
    let sumWavesB := tdWaveB rs m12 m13
    let charmtag := if obs.length > 6 then truncInt (obs.getD 6 0) else 0
    let xmixing := (tdMixing p charmtag).1
    let ymixing := (tdMixing p charmtag).2
    let time := obs.getD 0 0
    let sigma := obs.getD 1 0
    let term1 := Complex.normSq sumWavesA + Complex.normSq sumWavesB
    let term2 := Complex.normSq sumWavesA - Complex.normSq sumWavesB
    let ab := sumWavesA * starRingEnd ℂ sumWavesB
    let ret := R term1 term2 ab.re ab.im p.tau time xmixing ymixing sigma
    let mistag := if obs.length > 5 then obs.getD 5 0 else 0
    let ret :=
      if mistag > 0 then
        let ret := ret * (1 - 2 * mistag)
        let ret := ret + mistag * R term1 (-term2) ab.re (-ab.im) taufix time xfix yfix sigma
        ret + mistag * R term1 term2 ab.re ab.im taufix time xfix yfix sigma
      else ret
    ret * eff m12 m13

/-- The observables registered by the constructor with one resolution, Amp3Body_TD.cu:263-290, with `mistag` and
`charmtag` the pointers given by the user (`none` is the null pointer, the default of the declaration).  They are
dereferenced in the initialisers (lines 279, 280): the result `none` is undefined behaviour. -/
def tdObservables {O : Type} (dtime sigmat m12 m13 eventNumber : O) (mistag charmtag : Option O) : Option (List O) := do
  let mis ← mistag
  let tag ← charmtag
  return [dtime, sigmat, m12, m13, eventNumber] ++ [mis] ++ [tag]

/-- The same for the constructor with several resolutions, Amp3Body_TD.cu:361-390: the mass `md0` of the mother is
registered by the base class, before the tags. -/
def tdObservablesMd0 {O : Type} (dtime sigmat m12 m13 eventNumber md0 : O) (mistag charmtag : Option O) :
    Option (List O) := do
  let mis ← mistag
  let tag ← charmtag
  return [dtime, sigmat, m12, m13, eventNumber, md0] ++ [mis] ++ [tag]

/-- `dalitzNormRange`, Amp3Body_TD.cu:600-612: limits and numbers of bins of the two squared masses. -/
structure TdRange where
  lo12 : ℝ
  hi12 : ℝ
  nb12 : Nat
  lo13 : ℝ
  hi13 : ℝ
  nb13 : Nat

/-- The point of bin `g`, SpecialDalitzIntegrator.cu:65-82. -/
noncomputable def TdRange.point (r : TdRange) (g : Nat) : ℝ × ℝ :=
  ((r.hi12 - r.lo12) / (r.nb12 : ℝ) * (((g % r.nb12 : Nat) : ℝ) + 0.5) + r.lo12,
   (r.hi13 - r.lo13) / (r.nb13 : ℝ) * (((g / r.nb12 : Nat) : ℝ) + 0.5) + r.lo13)

/-- `ThreeComplex`, `include/goofit/PDFs/physics/DalitzPlotHelpers.h:188`, as three complex numbers. -/
abbrev Three := ℂ × ℂ × ℂ

/-- `device_Tddp_calcIntegrals`, SpecialDalitzIntegrator.cu:10-53. -/
noncomputable def tdCalcIntegrals (inside : ℝ → ℝ → Bool) (ri rj : ℝ → ℝ → ℂ) (m12 m13 : ℝ) : Three :=
  if !(inside m12 m13) then 0
  else
    let ai := ri m12 m13
    let bi := ri m13 m12
    let aj := starRingEnd ℂ (rj m12 m13)
    let bj := starRingEnd ℂ (rj m13 m12)
    (ai * aj, ai * bj, bi * bj)

/-- `SpecialDalitzIntegrator::operator()`, SpecialDalitzIntegrator.cu:60-134. -/
noncomputable def tdIntegrator (inside : ℝ → ℝ → Bool) (ri rj : ℝ → ℝ → ℂ) (eff : ℝ → ℝ → ℝ) (r : TdRange) (g : Nat) :
    Three :=
  let m12 := (r.point g).1
  let m13 := (r.point g).2
  let ret := tdCalcIntegrals inside ri rj m12 m13
  let e : ℂ := eff m12 m13
  (ret.1 * e, ret.2.1 * e, ret.2.2 * e)

/-- `*(integrals[i][j])` when it is computed, Amp3Body_TD.cu:672-680; `SpecialComplexSum` adds the six numbers. -/
noncomputable def tdIntegral (inside : ℝ → ℝ → Bool) (ri rj : ℝ → ℝ → ℂ) (eff : ℝ → ℝ → ℝ) (r : TdRange) : Three :=
  ∑ g ∈ range (r.nb12 * r.nb13), tdIntegrator inside ri rj eff r g

/-- `integralA_2`, `integralABs`, `integralB_2`, Amp3Body_TD.cu:686-704, from `n` coefficients and the integrals. -/
noncomputable def tdCoherent (n : Nat) (c : Nat → ℂ) (X : Nat → Nat → Three) : Three :=
  ∑ i ∈ range n, ∑ j ∈ range n,
    (c i * starRingEnd ℂ (c j) * (X i j).1, c i * starRingEnd ℂ (c j) * (X i j).2.1,
      c i * starRingEnd ℂ (c j) * (X i j).2.2)

/-- What the code reads from the observable `_mistag` when it normalises: stored value and limits
(`include/goofit/Variable.h`). -/
structure TdMistag where
  value : ℝ
  lower : ℝ
  upper : ℝ

/-- `Indexable::operator bool`, `include/goofit/Variable.h:103-105`. -/
def TdMistag.inRange (m : TdMistag) : Prop := m.upper = m.lower ∨ (m.value ≤ m.upper ∧ m.value ≥ m.lower)

open Classical in
/-- The last part of `Amp3Body_TD::normalize`, Amp3Body_TD.cu:706-756: the returned value. -/
noncomputable def tdNormalize (N : NormFn) (p : TdPars) (d0Fraction : ℝ) (m : TdMistag) (r : TdRange) (t : Three) : ℝ :=
  let i1 := t.1.re
  let i2 := t.2.2.re
  let i3 := t.2.1.re
  let i4 := t.2.1.im
  let retD0 := N i1 i2 i3 i4 p.tau (p.x0 + p.deltax) (p.y0 + p.deltay)
  let retD0bar := N i1 i2 i3 i4 p.tau (p.x0 - p.deltax) (p.y0 - p.deltay)
  let ret := d0Fraction * retD0 + (1 - d0Fraction) * retD0bar
  let ret :=
    if m.inRange then
      let ret := ret * (1 - 2 * m.value)
      let ret := ret + m.value * N i1 i2 i3 i4 taufix xfix yfix
      ret + m.value * N i2 i1 i3 (-i4) taufix xfix yfix
    else ret
  ret * (((r.hi12 - r.lo12) / (r.nb12 : ℝ)) * ((r.hi13 - r.lo13) / (r.nb13 : ℝ)))

/-- The PDF, with values of the parameters of the resonances in `P` (`include/goofit/PDFs/physics/Amp3Body_TD.h:72-175`). -/
structure TdModel (P : Type) where
  n : Nat
  resonance : P → Nat → ℝ → ℝ → ℂ
  inside : ℝ → ℝ → Bool
  eff : ℝ → ℝ → ℝ
  range : TdRange

/-- The members that change: `forceRedoIntegrals` and `integrals` (`include/goofit/PDFs/physics/Amp3Body_TD.h:158-161`). -/
structure TdState where
  force : Bool
  integrals : Nat → Nat → Three

namespace TdModel
variable {P : Type}

/-- After the constructor, Amp3Body_TD.cu:337-356. -/
def init : TdState := ⟨true, fun _ _ => 0⟩

/-- The integral of resonances `i` and `j` (Amp3Body_TD.cu:663-681). -/
noncomputable def compute (m : TdModel P) (p : P) (i j : Nat) : Three :=
  tdIntegral m.inside (m.resonance p i) (m.resonance p j) m.eff m.range

/-- `normalize` as far as it touches the integrals, Amp3Body_TD.cu:614-682; `changed` are the results of
`parametersChanged` of the resonances. -/
noncomputable def normStep (m : TdModel P) (changed : Nat → Bool) (p : P) (s : TdState) : TdState :=
  let redo := fun i => s.force || changed i
  ⟨false, fun i j =>
    if i < m.n ∧ j < m.n ∧ !((!redo i) && (!redo j)) then m.compute p i j else s.integrals i j⟩

/-- Complex conjugation of all three entries, Amp3Body_TD.cu:852-857. -/
noncomputable def conj3 (t : Three) : Three := (starRingEnd ℂ t.1, starRingEnd ℂ t.2.1, starRingEnd ℂ t.2.2)

/-- `integrals[i][j] = v` (C++ assignment). -/
def setCell (X : Nat → Nat → Three) (i j : Nat) (v : Three) : Nat → Nat → Three :=
  fun a b => if a = i ∧ b = j then v else X a b

/-- One turn of the inner loop of `getFractions`, Amp3Body_TD.cu:834-858. -/
noncomputable def fracCell (m : TdModel P) (redo : Nat → Bool) (p : P) (X : Nat → Nat → Three) (i j : Nat) :
    Nat → Nat → Three :=
  if (!redo i) && (!redo j) then X
  else
    let X := setCell X i j (m.compute p i j)
    if i ≠ j then setCell X j i (conj3 (X i j)) else X

/-- `getFractions` as far as it touches the integrals, Amp3Body_TD.cu:785-859. -/
noncomputable def fracStep (m : TdModel P) (changed : Nat → Bool) (p : P) (s : TdState) : TdState :=
  let redo := fun i => s.force || changed i
  ⟨false, (List.range m.n).foldl (fun X i => (List.range m.n).foldl (fun X j => m.fracCell redo p X i j) X) s.integrals⟩

/-- The matrix that `getFractions` returns, Amp3Body_TD.cu:863-911. -/
noncomputable def fractions (c : Nat → ℂ) (s : TdState) (i j : Nat) : ℝ :=
  (c i * starRingEnd ℂ (c j) * (s.integrals i j).1).re

/-- What a program does with the PDF: an evaluation begins with `normalize`; `setForceIntegrals` and
`setDataSize` set the flag (no counterpart in the code). -/
inductive Op (P : Type) where
  | normalize (changed : Nat → Bool) (p : P)
  | getFractions (changed : Nat → Bool) (p : P)
  | setForce

/-- One step (no counterpart in the code). -/
noncomputable def step (m : TdModel P) (s : TdState) : Op P → TdState
  | .normalize c p => m.normStep c p s
  | .getFractions c p => m.fracStep c p s
  | .setForce => { s with force := true }

/-- A history (no counterpart in the code). -/
noncomputable def run (m : TdModel P) (ops : List (Op P)) : TdState := ops.foldl m.step init

end TdModel
end GooFit
