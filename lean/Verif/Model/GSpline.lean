import Mathlib.Analysis.SpecialFunctions.Pow.Real
import Mathlib.LinearAlgebra.Matrix.NonsingularInverse
/-!
# The line shape with a spline for its width (`src/PDFs/physics/lineshapes/GSpline.cu`)

Exact real arithmetic.  A constant is read by its number from the constants of the line shape; `none` means that the number
is not that of one of its own constants (the program then reads what the next component, or nobody, has put there).
-/
set_option autoImplicit false
namespace GooFit

/-- A number of type `fptype` read into an `unsigned int` (not negative: rounded towards zero; C++ conversion). -/
noncomputable def toU (x : ℝ) : Nat := ⌊x⌋₊

/-- `Q2` (`src/PDFs/physics/lineshapes/GSpline.cu:14-16`). -/
noncomputable def gsQ2 (Msq M1sq M2sq : ℝ) : ℝ :=
  Msq / 4 - (M1sq + M2sq) / 2 + (M1sq - M2sq) * (M1sq - M2sq) / (4 * Msq)

/-- `kFactor` (`src/PDFs/physics/lineshapes/GSpline.cu:63-67`). -/
noncomputable def gsK (mass width : ℝ) : ℝ :=
  let gamma := mass * √(mass ^ 2 + width ^ 2)
  √(2 * √2 * mass * width * gamma / (Real.pi * √(mass ^ 2 + gamma)))

/-- `getSpline` (`src/PDFs/physics/lineshapes/GSpline.cu:31-61`).  `fmod` of two positive numbers is written with the
quotient rounded down, which is `bin`. -/
noncomputable def getSpline (c : List ℝ) (x : ℝ) (continued : Bool) : Option ℝ := do
  let s_min ← c[2]?
  let s_max ← c[3]?
  let nBins := toU (← c[4]?)
  if x ≤ s_min then
    let m_x_0 ← c[5 + 0]?
    return if continued then m_x_0 else 0
  else if s_max ≤ x then
    let m_x_1 ← c[5 + nBins - 1]?
    return if continued then m_x_1 else 0
  else
    let spacing := (s_max - s_min) / ((nBins : ℝ) - 1)
    let bin := toU ((x - s_min) / spacing)
    let dx := (x - s_min) - bin * spacing
    let m_x_0 ← c[5 + bin]?
    let m_x_1 ← c[5 + bin + 1]?
    let m_xf_0 ← c[5 + bin + nBins]?
    let m_xf_1 ← c[5 + bin + nBins + 1]?
    return m_x_0 + dx * ((m_x_1 - m_x_0) / spacing - (m_xf_1 + 2 * m_xf_0) * spacing / 6) + dx * dx * m_xf_0
      + dx * dx * dx * (m_xf_1 - m_xf_0) / (6 * spacing)

/-- `Spline_TDP` (`src/PDFs/physics/lineshapes/GSpline.cu:69-98`), `p` its parameters and `c` its constants. -/
noncomputable def splineTDP (p c : List ℝ) (Mpair m1 m2 : ℝ) : Option ℂ := do
  let mass ← p[0]?
  let width ← p[1]?
  let radius ← c[1]?
  let s := Mpair ^ 2
  let q2 := |gsQ2 s (m1 ^ 2) (m2 ^ 2)|
  let BF := Real.exp (-q2 * radius ^ 2 / 2)
  let width_shape := width * (← getSpline c s true)
  let width_norm := width * (← getSpline c (mass ^ 2) false)
  let norm := gsK mass width * BF
  let running_width := if width_norm = 0 then 0 else width * width_shape / width_norm
  return (norm : ℂ) / (⟨mass ^ 2 - s, -mass * running_width⟩ : ℂ)

/-- Assign one entry of a matrix (Eigen, `src/PDFs/physics/lineshapes/GSpline.cu:104-111`). -/
def put2 (m : Nat → Nat → ℝ) (i j : Nat) (x : ℝ) : Nat → Nat → ℝ := fun a b => if a = i ∧ b = j then x else m a b

/-- The matrix of `make_spline_curvatures` before it is inverted (`src/PDFs/physics/lineshapes/GSpline.cu:104-111`).  `junk` is
what the memory of the matrix holds at first: Eigen does not initialise it. -/
def curvMatrix (junk : Nat → Nat → ℝ) (size : Nat) : Nat → Nat → ℝ :=
  (List.range size).foldl (fun m i =>
    let m := put2 m i i 4
    if i ≠ size - 1 then put2 (put2 m i (i + 1) 1) (i + 1) 1 1 else m) junk

/-- `m.inverse()` (`src/PDFs/physics/lineshapes/GSpline.cu:112`).  (Of a matrix without an inverse: zero here, infinite or not
a number in the program.) -/
noncomputable def curvInverse (m : Nat → Nat → ℝ) (size : Nat) : Matrix (Fin size) (Fin size) ℝ :=
  (Matrix.of fun i j : Fin size => m i j)⁻¹

/-- The end of `make_spline_curvatures` (`src/PDFs/physics/lineshapes/GSpline.cu:112-126`) for `n` knots, with the right side
`L`. -/
noncomputable def curvaturesOf (junk : Nat → Nat → ℝ) (n : Nat) (L : Nat → ℝ) (lo hi : ℝ) : List ℝ :=
  let size := n - 2
  let inv := curvInverse (curvMatrix junk size) size
  let mtv := inv.mulVec fun i : Fin size => L i
  let spacing := (lo - hi) / n
  [0] ++ List.ofFn (fun i => 6 * mtv i / spacing ^ 2) ++ [0]

/-- `make_spline_curvatures` (`src/PDFs/physics/lineshapes/GSpline.cu:102-126`) with the values `y` of the variables; there are
as many as bins (the constructor has checked that).  `none`: with fewer than two bins `size` wraps around. -/
noncomputable def splineCurvatures (junk : Nat → Nat → ℝ) (y : List ℝ) (lo hi : ℝ) : Option (List ℝ) :=
  if y.length < 2 then none
  else some (curvaturesOf junk y.length (fun i => y.getD (i + 2) 0 - 2 * y.getD (i + 1) 0 + y.getD i 0) lo hi)

end GooFit
