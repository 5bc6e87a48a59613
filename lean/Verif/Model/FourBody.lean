import Mathlib.Analysis.SpecialFunctions.Trigonometric.Inverse
import Mathlib.Analysis.SpecialFunctions.Sqrt
/-!
# Four-body kinematics (`src/PDFs/physics/DalitzPlotHelpers.cu`, `include/goofit/PDFs/physics/detail/Dim5.h`)

Real arithmetic.  `mcbooster::Vector4R` is not in the repository (an empty submodule): `*` and `mass2` are taken to be the
Minkowski product and square, `dot`, `cross` and `d3mag` those of the three spatial components.
-/
set_option autoImplicit false
namespace GooFit

/-- A four-vector: `P[0..3]` in `src/PDFs/physics/DalitzPlotHelpers.cu`, `gpuLVec` in
`include/goofit/PDFs/physics/detail/SpinHelper.h`, `mcbooster::Vector4R`. -/
@[ext] structure LV (K : Type) where
  x : K
  y : K
  z : K
  e : K

namespace LV
variable {K : Type}

/-- Component-wise sum (as written out in `src/PDFs/physics/DalitzPlotHelpers.cu:64-72`; `Vector4R` of MCBooster). -/
def add [Add K] (a b : LV K) : LV K := ⟨a.x + b.x, a.y + b.y, a.z + b.z, a.e + b.e⟩
instance [Add K] : Add (LV K) := ⟨add⟩

end LV

noncomputable section

/-- `Mass(P0, P1)` (`src/PDFs/physics/DalitzPlotHelpers.cu:64-67`). -/
def mass2 (a b : LV ℝ) : ℝ :=
  √(-((a.x + b.x) * (a.x + b.x)) - ((a.y + b.y) * (a.y + b.y)) - ((a.z + b.z) * (a.z + b.z)) + ((a.e + b.e) * (a.e + b.e)))

/-- `Mass(P0, P1, P2)` (`src/PDFs/physics/DalitzPlotHelpers.cu:68-72`). -/
def mass3 (a b c : LV ℝ) : ℝ :=
  √(-((a.x + b.x + c.x) * (a.x + b.x + c.x)) - ((a.y + b.y + c.y) * (a.y + b.y + c.y))
    - ((a.z + b.z + c.z) * (a.z + b.z + c.z)) + ((a.e + b.e + c.e) * (a.e + b.e + c.e)))

/-- A boost along x (`src/PDFs/physics/DalitzPlotHelpers.cu:131-149`). -/
def boostX (gamma beta : ℝ) (v : LV ℝ) : LV ℝ := ⟨gamma * (v.x + beta * v.e), v.y, v.z, gamma * (v.e + beta * v.x)⟩

/-- The rotation about x of a vector with `z = 0` (`src/PDFs/physics/DalitzPlotHelpers.cu:152-160`). -/
def rotX (phi : ℝ) (v : LV ℝ) : LV ℝ := ⟨v.x, Real.cos phi * v.y, Real.sin phi * v.y, v.e⟩

/-- `get4Vecs` (`src/PDFs/physics/DalitzPlotHelpers.cu:77-161`). -/
def get4Vecs (m12 m34 cos12 cos34 phi M m1 m2 m3 m4 : ℝ) : LV ℝ × LV ℝ × LV ℝ × LV ℝ :=
  let E1 := (m12 * m12 + m1 * m1 - m2 * m2) / (2 * m12)
  let E2 := (m12 * m12 - m1 * m1 + m2 * m2) / (2 * m12)
  let E3 := (m34 * m34 + m3 * m3 - m4 * m4) / (2 * m34)
  let E4 := (m34 * m34 - m3 * m3 + m4 * m4) / (2 * m34)
  let p1 := √(E1 * E1 - m1 * m1)
  let p3 := √(E3 * E3 - m3 * m3)
  let sin12 := √(1 - cos12 * cos12)
  let sin34 := √(1 - cos34 * cos34)
  let ED1 := (M * M + m12 * m12 - m34 * m34) / (2 * m12)
  let PD1 := √(ED1 * ED1 - M * M)
  let beta1 := PD1 / ED1
  let gamma1 := 1 / √(1 - beta1 * beta1)
  let ED2 := (M * M - m12 * m12 + m34 * m34) / (2 * m34)
  let PD2 := √(ED2 * ED2 - M * M)
  let beta2 := -PD2 / ED2
  let gamma2 := 1 / √(1 - beta2 * beta2)
  (rotX phi (boostX gamma1 beta1 ⟨cos12 * p1, sin12 * p1, 0, E1⟩),
   rotX phi (boostX gamma1 beta1 ⟨-cos12 * p1, -sin12 * p1, 0, E2⟩),
   boostX gamma2 beta2 ⟨-cos34 * p3, -sin34 * p3, 0, E3⟩,
   boostX gamma2 beta2 ⟨cos34 * p3, sin34 * p3, 0, E4⟩)

/-- What `getmass` returns: the pair's mass and the masses of its two daughters
(`src/PDFs/physics/DalitzPlotHelpers.cu:163-170`). -/
structure PairMass where
  m : ℝ
  d1 : ℝ
  d2 : ℝ

/-- `getmass` (`src/PDFs/physics/DalitzPlotHelpers.cu:163-276`), by the number of the pair; the mass is 0 and the daughters are
not set for other numbers. -/
def getmass (pair : Nat) (P1 P2 P3 P4 : LV ℝ) (m1 m2 m3 m4 : ℝ) : Option PairMass :=
  match pair with
  | 2 => some ⟨mass2 P1 P3, m1, m3⟩
  | 3 => some ⟨mass2 P1 P4, m1, m4⟩
  | 4 => some ⟨mass2 P2 P3, m2, m3⟩
  | 5 => some ⟨mass2 P2 P4, m2, m4⟩
  | 6 => some ⟨mass3 P1 P2 P3, mass2 P1 P2, m3⟩
  | 7 => some ⟨mass3 P1 P2 P3, mass2 P1 P3, m2⟩
  | 8 => some ⟨mass3 P1 P2 P3, mass2 P2 P3, m1⟩
  | 9 => some ⟨mass3 P1 P2 P4, mass2 P1 P2, m4⟩
  | 10 => some ⟨mass3 P1 P2 P4, mass2 P1 P4, m2⟩
  | 11 => some ⟨mass3 P1 P2 P4, mass2 P2 P4, m1⟩
  | 12 => some ⟨mass3 P1 P3 P4, mass2 P1 P3, m4⟩
  | 13 => some ⟨mass3 P1 P3 P4, mass2 P1 P4, m3⟩
  | 14 => some ⟨mass3 P1 P3 P4, mass2 P3 P4, m1⟩
  | 15 => some ⟨mass3 P2 P3 P4, mass2 P2 P3, m4⟩
  | 16 => some ⟨mass3 P2 P3 P4, mass2 P2 P4, m3⟩
  | 17 => some ⟨mass3 P2 P3 P4, mass2 P3 P4, m2⟩
  | _ => none

/-- The mass a line shape is evaluated at, and the masses of its daughters (`src/PDFs/physics/detail/LSCalculator.cu:45-57`,
`src/PDFs/physics/detail/NormLSCalculator.cu:38-50`). -/
def lsMass (pair : Nat) (m12 m34 cos12 cos34 phi M m1 m2 m3 m4 : ℝ) : Option PairMass :=
  if pair < 2 then
    some ⟨if pair = 0 then m12 else m34, if pair = 0 then m1 else m3, if pair = 0 then m2 else m4⟩
  else
    let v := get4Vecs m12 m34 cos12 cos34 phi M m1 m2 m3 m4
    getmass pair v.1 v.2.1 v.2.2.1 v.2.2.2 m1 m2 m3 m4

/-! ### `Dim5` -/

namespace LV
/-- `Vector4R::operator*`: the Minkowski product (MCBooster, used in `include/goofit/PDFs/physics/detail/Dim5.h:22-33`). -/
def mink (a b : LV ℝ) : ℝ := a.e * b.e - a.x * b.x - a.y * b.y - a.z * b.z
/-- `Vector4R::dot`: spatial components (MCBooster, used in `include/goofit/PDFs/physics/detail/Dim5.h:35-92`). -/
def dot3 (a b : LV ℝ) : ℝ := a.x * b.x + a.y * b.y + a.z * b.z
/-- `Vector4R::cross` (MCBooster, used in `include/goofit/PDFs/physics/detail/Dim5.h:35-92`). -/
def cross (a b : LV ℝ) : LV ℝ := ⟨a.y * b.z - a.z * b.y, a.z * b.x - a.x * b.z, a.x * b.y - a.y * b.x, 0⟩
/-- `Vector4R::d3mag` (MCBooster, used in `include/goofit/PDFs/physics/detail/Dim5.h:35-92`). -/
def mag3 (a : LV ℝ) : ℝ := √(a.dot3 a)
/-- Multiplication by a number (`include/goofit/PDFs/physics/detail/SpinHelper.h:64-70,74-75`). -/
def smul (c : ℝ) (a : LV ℝ) : LV ℝ := ⟨c * a.x, c * a.y, c * a.z, c * a.e⟩
/-- `v / c` (MCBooster, used in `include/goofit/PDFs/physics/detail/Dim5.h:35-92`). -/
def divs (a : LV ℝ) (c : ℝ) : LV ℝ := ⟨a.x / c, a.y / c, a.z / c, a.e / c⟩
end LV
open LV

/-- `Dim5::cosHELANG` (`include/goofit/PDFs/physics/detail/Dim5.h:22-33`). -/
def cosHELANG (p q d : LV ℝ) : ℝ :=
  (p.mink d * q.mink q - p.mink q * q.mink d)
    / √((p.mink q * p.mink q - q.mink q * p.mink p) * (q.mink d * q.mink d - q.mink q * d.mink d))

/-- `Dim5::phi` (`include/goofit/PDFs/physics/detail/Dim5.h:35-92`), without the first angle, which is not used. -/
def dim5phi (d1 d2 h1 h2 : LV ℝ) : ℝ :=
  let d1n := d1.divs d1.mag3
  let d2n := d2.divs d2.mag3
  let h1n := h1.divs h1.mag3
  let h2n := h2.divs h2.mag3
  let h12n := (h1 + h2).smul (1 / (h1 + h2).mag3)
  let n1 := (d1n.cross d2n).smul (1 / (d1n.cross d2n).mag3)
  let n2 := (h1n.cross h2n).smul (1 / (h1n.cross h2n).mag3)
  let n3 := n1.cross n2
  let cp := n1.dot3 n2
  let sp := n3.dot3 h12n
  if sp < 0 then Real.arccos cp * -1 else Real.arccos cp

/-- `Dim5::operator()` (`include/goofit/PDFs/physics/detail/Dim5.h:94-110`). -/
def dim5 (v1 v2 v3 v4 : LV ℝ) : ℝ × ℝ × ℝ × ℝ × ℝ :=
  let pM := v1 + v2 + v3 + v4
  let p12 := v1 + v2
  let p34 := v3 + v4
  (√(p12.mink p12), √(p34.mink p34), cosHELANG pM p12 v1, cosHELANG pM p34 v3, dim5phi v1 v2 v3 v4)

end
end GooFit
