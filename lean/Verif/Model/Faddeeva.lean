import Verif.Model.FpReal
import Mathlib.Analysis.SpecialFunctions.Trigonometric.Basic
import Mathlib.Analysis.SpecialFunctions.Complex.Log
/-!
# The complex error function behind VoigtianPdf

`device_Faddeeva_2` (`src/PDFs/basic/VoigtianPdf.cu:51-126`), its host copy `Faddeeva_2` and
`cpuvoigtian` (`src/goofit/Faddeeva.cpp:46-154`) over the real numbers: rounding is not modelled,
decimal constants are the decimals written in the code, and the C library's `M_1_PI` and
`M_2_SQRTPI` are `1/π` and `2/√π`.  A division by zero (an infinity or NaN in the code) is `none`.
The `UNROLL_LOOP` variant (`VoigtianPdf.cu:128-275`) is not compiled and not modelled.
-/
set_option autoImplicit false
namespace GooFit
open scoped Classical in
/-- `a / b`; `none` stands for the infinity or NaN of a division by zero (C++ division). -/
noncomputable def fdiv (a b : ℝ) : Option ℝ := if b = 0 then none else some (a / b)

/-- `C` (`src/PDFs/basic/VoigtianPdf.cu:13-14`). -/
noncomputable def devPadeC : List ℝ :=
  [65536.0, -2885792.0, 69973904.0, -791494704.0, 8962513560.0, -32794651890.0, 175685635125.0]

/-- `D` (`src/PDFs/basic/VoigtianPdf.cu:15-16`). -/
noncomputable def devPadeD : List ℝ :=
  [192192.0, 8648640.0, 183783600.0, 2329725600.0, 18332414100.0, 84329104860.0, 175685635125.0]

/-- `n1` (`src/PDFs/basic/VoigtianPdf.cu:21`). -/
noncomputable def devN1 : List ℝ :=
  [0.25, 1.0, 2.25, 4.0, 6.25, 9.0, 12.25, 16.0, 20.25, 25.0, 30.25, 36.0]

/-- `e1` (`src/PDFs/basic/VoigtianPdf.cu:22-33`). -/
noncomputable def devE1 : List ℝ :=
  [0.7788007830714049, 0.3678794411714423, 1.053992245618643e-1, 1.831563888873418e-2,
   1.930454136227709e-3, 1.234098040866795e-4, 4.785117392129009e-6, 1.125351747192591e-7,
   1.605228055185612e-9, 1.388794386496402e-11, 7.287724095819692e-14, 2.319522830243569e-16]

/-- `n2` (`src/PDFs/basic/VoigtianPdf.cu:36-37`). -/
noncomputable def devN2 : List ℝ :=
  [0.2809, 1.1236, 2.5281, 4.4944, 7.0225, 10.1124, 13.7641, 17.9776, 22.7529, 28.09, 33.9889, 40.4496]

/-- `e2` (`src/PDFs/basic/VoigtianPdf.cu:38-49`). -/
noncomputable def devE2 : List ℝ :=
  [0.7551038420890235, 0.3251072991205958, 7.981051630007964e-2, 1.117138143353082e-2,
   0.891593719995219e-3, 4.057331392320188e-5, 1.052755021528803e-6, 1.557498087816203e-8,
   1.313835773243312e-10, 6.319285885175346e-13, 1.733038792213266e-15, 2.709954036083074e-18]

/-- The loop `c = c * zz + C[i]` from the first entry on (`src/PDFs/basic/VoigtianPdf.cu:63-69`,
`src/goofit/Faddeeva.cpp:57-63`). -/
noncomputable def padeLoop (cs : List ℝ) (zz : ℂ) : ℂ :=
  match cs with
  | [] => 0
  | c0 :: rest => rest.foldl (fun (c : ℂ) (ci : ℝ) => c * zz + (ci : ℂ)) (c0 : ℂ)

/-- The loop over the tables (`src/PDFs/basic/VoigtianPdf.cu:98-105`,
`src/goofit/Faddeeva.cpp:92-99`). -/
noncomputable def tableLoop (s d f : ℝ) : List ℝ → List ℝ → ℝ → ℝ → Option (ℝ × ℝ)
  | n :: ns, e :: es, g, h => do
    let t := d + n
    let u ← fdiv e (t * t + f)
    tableLoop s d f ns es (g + (s + n) * u) (h + (s - n) * u)
  | _, _, g, h => some (g, h)

open scoped Classical in
/-- `device_Faddeeva_2` (`src/PDFs/basic/VoigtianPdf.cu:51-126`). -/
noncomputable def devFaddeeva (z : ℂ) : Option ℂ :=
  let s := Complex.normSq z
  if s < 1e-7 then
    let zz := z * z
    let v := Complex.exp zz
    let c := padeLoop devPadeC zz
    let d2 := padeLoop devPadeD zz
    if v = 0 ∨ d2 = 0 then none
    else some (1 / v + Complex.mk 0.0 (2 / Real.sqrt Real.pi) * c / d2 * z * v)
  else do
    let h := |z.re| * 2
    let h := h - ⌊h⌋
    let close := (|z.im| < 0.01 ∧ |z.re| < 6.01) ∧ (h < 0.02 ∨ h > 0.98)
    let n := if close then devN2 else devN1
    let e := if close then devE2 else devE1
    let r := if close then 1 / Real.pi * 0.53 else 1 / Real.pi * 0.5
    let d := (z.im - z.re) * (z.im + z.re)
    let f := 4 * z.re * z.re * z.im * z.im
    let gh ← tableLoop s d f n e 0.0 0.0
    let u ← fdiv 1 s
    let c := (r : ℂ) * Complex.mk (z.im * (u + 2.0 * gh.1)) (z.re * (u + 2.0 * gh.2))
    if z.im < 6.28318530717958 then do
      let s ← fdiv 2.0 r
      let t := s * z.re
      let u := s * z.im
      let s := Real.sin t
      let h := Real.cos t
      let f := Real.exp (-u) - h
      let g ← fdiv (2.0 * Real.exp (d - u)) (s * s + f * f)
      let u := 2.0 * z.re * z.im
      let h := Real.cos u
      let t := Real.sin u
      some (c + (g : ℂ) * Complex.mk (h * f - t * s) (-(h * s + t * f)))
    else some c

/-- `C` (`src/goofit/Faddeeva.cpp:43`). -/
noncomputable def hostPadeC : List ℝ :=
  [65536.0, -2885792.0, 69973904.0, -791494704.0, 8962513560.0, -32794651890.0, 175685635125.0]

/-- `D` (`src/goofit/Faddeeva.cpp:44`). -/
noncomputable def hostPadeD : List ℝ :=
  [192192.0, 8648640.0, 183783600.0, 2329725600.0, 18332414100.0, 84329104860.0, 175685635125.0]

/-- `n1` (`src/goofit/Faddeeva.cpp:12`). -/
noncomputable def hostN1 : List ℝ :=
  [0.25, 1.0, 2.25, 4.0, 6.25, 9.0, 12.25, 16.0, 20.25, 25.0, 30.25, 36.0]

/-- `e1` (`src/goofit/Faddeeva.cpp:13-24`). -/
noncomputable def hostE1 : List ℝ :=
  [0.7788007830714049, 0.3678794411714423, 1.053992245618643e-1, 1.831563888873418e-2,
   1.930454136227709e-3, 1.234098040866795e-4, 4.785117392129009e-6, 1.125351747192591e-7,
   1.605228055185612e-9, 1.388794386496402e-11, 7.287724095819692e-14, 2.319522830243569e-16]

/-- `n2` (`src/goofit/Faddeeva.cpp:27-28`). -/
noncomputable def hostN2 : List ℝ :=
  [0.2809, 1.1236, 2.5281, 4.4944, 7.0225, 10.1124, 13.7641, 17.9776, 22.7529, 28.09, 33.9889, 40.4496]

/-- `e2` (`src/goofit/Faddeeva.cpp:29-40`). -/
noncomputable def hostE2 : List ℝ :=
  [0.7551038420890235, 0.3251072991205958, 7.981051630007964e-2, 1.117138143353082e-2,
   0.891593719995219e-3, 4.057331392320188e-5, 1.052755021528803e-6, 1.557498087816203e-8,
   1.313835773243312e-10, 6.319285885175346e-13, 1.733038792213266e-15, 2.709954036083074e-18]

open scoped Classical in
/-- `Faddeeva_2` (`src/goofit/Faddeeva.cpp:46-120`). -/
noncomputable def hostFaddeeva (z : ℂ) : Option ℂ :=
  let s := Complex.normSq z
  if s < 1e-7 then
    let zz := z * z
    let v := Complex.exp zz
    let c := padeLoop hostPadeC zz
    let d2 := padeLoop hostPadeD zz
    if v = 0 ∨ d2 = 0 then none
    else some (1 / v + Complex.mk 0.0 (2 / Real.sqrt Real.pi) * c / d2 * z * v)
  else do
    let h := |z.re| * 2
    let h := h - ⌊h⌋
    let close := (|z.im| < 0.01 ∧ |z.re| < 6.01) ∧ (h < 0.02 ∨ h > 0.98)
    let n := if close then hostN2 else hostN1
    let e := if close then hostE2 else hostE1
    let r := if close then 1 / Real.pi * 0.53 else 1 / Real.pi * 0.5
    let d := (z.im - z.re) * (z.im + z.re)
    let f := 4 * z.re * z.re * z.im * z.im
    let gh ← tableLoop s d f n e 0.0 0.0
    let u ← fdiv 1 s
    let c := (r : ℂ) * Complex.mk (z.im * (u + 2.0 * gh.1)) (z.re * (u + 2.0 * gh.2))
    if z.im < 6.28318530717958 then do
      let s ← fdiv 2.0 r
      let t := s * z.re
      let u := s * z.im
      let s := Real.sin t
      let h := Real.cos t
      let f := Real.exp (-u) - h
      let g ← fdiv (2.0 * Real.exp (d - u)) (s * s + f * f)
      let u := 2.0 * z.re * z.im
      let h := Real.cos u
      let t := Real.sin u
      some (c + (g : ℂ) * Complex.mk (h * f - t * s) (-(h * s + t * f)))
    else some c

/-- How a call of `cpuvoigtian` ends (`src/goofit/Faddeeva.cpp:122-154`). -/
inductive CpuVoigt where
  | throws
  | value (v : Option ℝ)

open scoped Classical in
/-- `cpuvoigtian` (`src/goofit/Faddeeva.cpp:122-154`); the exception is
`GooFit::GeneralError`. -/
noncomputable def cpuVoigtian (x m w s : ℝ) : CpuVoigt :=
  if 0 = s ∧ 0 = w then .value (some 1)
  else if s ≤ 0 ∨ w ≤ 0 then .throws
  else
    let coef := -0.5 / (s * s)
    let arg := x - m
    if 0 = s then .value (fdiv 1 (arg * arg + 0.25 * w * w))
    else if 0 = w then .value (some (Real.exp (coef * arg * arg)))
    else
      let c := 1.0 / (Real.sqrt 2 * s)
      let a := 0.5 * c * w
      let u := c * arg
      .value ((hostFaddeeva (Complex.mk u a)).map fun v => c * 0.5641895835477563 * v.re)

/-- The real numbers with `device_Faddeeva_2` as it is coded (where it divides by zero the value is
left open by returning zero: C82 shows that this does not happen above the real line; `src/PDFs/basic/VoigtianPdf.cu`). -/
noncomputable def FpMath.realFad : FpMath ℝ :=
  { FpMath.real with
    faddeeva := fun x y => match devFaddeeva (Complex.mk x y) with
      | some w => (w.re, w.im)
      | none => (0, 0) }

end GooFit
