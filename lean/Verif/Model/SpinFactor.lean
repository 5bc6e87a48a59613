import Verif.Model.FourBody
/-!
# Spin factors of four-body amplitudes (`include/goofit/PDFs/physics/detail/SpinHelper.h`, `src/PDFs/physics/SpinFactors.cu`)

Real arithmetic.  `ZEMACH` is defined (`src/PDFs/physics/SpinFactors.cu:81`), so the `#else` branches are not code.
-/
set_option autoImplicit false
namespace GooFit
noncomputable section
open LV

namespace LV
/-- `operator-` (`include/goofit/PDFs/physics/detail/SpinHelper.h:57-63,73`). -/
def sub (a b : LV ℝ) : LV ℝ := ⟨a.x - b.x, a.y - b.y, a.z - b.z, a.e - b.e⟩
instance : Sub (LV ℝ) := ⟨sub⟩
/-- `Mag2` (`include/goofit/PDFs/physics/detail/SpinHelper.h:43`). -/
def mag2 (a : LV ℝ) : ℝ := a.mink a
/-- `M` (`include/goofit/PDFs/physics/detail/SpinHelper.h:44`). -/
def m (a : LV ℝ) : ℝ := √a.mag2
end LV

/-- `ZTspin1` (`include/goofit/PDFs/physics/detail/SpinHelper.h:77-84`): the vector `q` without its part along `p`. -/
def ztSpin1 (q p : LV ℝ) (mR : ℝ) : LV ℝ := q - ((p.smul (q.mink p)).smul (1 / (mR * mR)))

/-- `SpinSumV::Dot` (`include/goofit/PDFs/physics/detail/SpinHelper.h:86-95`). -/
def spinSumV (p : LV ℝ) (mR : ℝ) (rhs : LV ℝ) : LV ℝ := rhs.smul (-1) + p.smul (p.mink rhs / (mR * mR))

/-- `SpinSumV::Sandwich` (`include/goofit/PDFs/physics/detail/SpinHelper.h:96`). -/
def spinSumVSandwich (p : LV ℝ) (mR : ℝ) (lhs rhs : LV ℝ) : ℝ := lhs.mink (spinSumV p mR rhs)

/-- `SpinSumT::Sandwich` (`include/goofit/PDFs/physics/detail/SpinHelper.h:99-113`). -/
def spinSumT (p : LV ℝ) (mR : ℝ) (lm ln ra rb : LV ℝ) : ℝ :=
  let manb := spinSumVSandwich p mR lm ra * spinSumVSandwich p mR ln rb
  let mbna := spinSumVSandwich p mR lm rb * spinSumVSandwich p mR ln ra
  let mnab := spinSumVSandwich p mR lm ln * spinSumVSandwich p mR ra rb
  1 / 2 * (manb + mbna) - 1 / 3 * mnab

/-- `SymmLorentzMatrix` (`include/goofit/PDFs/physics/detail/SpinHelper.h:115-381`): four rows. -/
@[ext] structure SMat where
  x : LV ℝ
  y : LV ℝ
  z : LV ℝ
  e : LV ℝ

namespace SMat
/-- `SymmLorentzMatrix(p)` (`include/goofit/PDFs/physics/detail/SpinHelper.h:255-275`). -/
def outer (p : LV ℝ) : SMat :=
  ⟨⟨p.x * p.x, p.x * p.y, p.x * p.z, p.x * p.e⟩, ⟨p.y * p.x, p.y * p.y, p.y * p.z, p.y * p.e⟩,
   ⟨p.z * p.x, p.z * p.y, p.z * p.z, p.z * p.e⟩, ⟨p.e * p.x, p.e * p.y, p.e * p.z, p.e * p.e⟩⟩
/-- `makeGmunu` (`include/goofit/PDFs/physics/detail/SpinHelper.h:243-248`). -/
def gmunu : SMat := ⟨⟨-1, 0, 0, 0⟩, ⟨0, -1, 0, 0⟩, ⟨0, 0, -1, 0⟩, ⟨0, 0, 0, 1⟩⟩
/-- `subtract` (`include/goofit/PDFs/physics/detail/SpinHelper.h:284-289`). -/
def sub (a b : SMat) : SMat := ⟨a.x - b.x, a.y - b.y, a.z - b.z, a.e - b.e⟩
/-- `mult` (`include/goofit/PDFs/physics/detail/SpinHelper.h:290-295`). -/
def mul (a : SMat) (s : ℝ) : SMat := ⟨a.x.smul s, a.y.smul s, a.z.smul s, a.e.smul s⟩
/-- `div` (`include/goofit/PDFs/physics/detail/SpinHelper.h:296-301`). -/
def div (a : SMat) (s : ℝ) : SMat := a.mul (1 / s)
/-- `Contract` (`include/goofit/PDFs/physics/detail/SpinHelper.h:302-306`). -/
def contract (a : SMat) (v : LV ℝ) : LV ℝ := a.e.smul v.e - a.x.smul v.x - a.y.smul v.y - a.z.smul v.z
end SMat

/-- `ZTspin2` (`include/goofit/PDFs/physics/detail/SpinHelper.h:383-404`). -/
def ztSpin2 (q p : LV ℝ) (mR : ℝ) : SMat :=
  let t := ztSpin1 q p mR
  let uu := (SMat.outer p).div (mR * mR)
  (SMat.outer t).sub ((SMat.gmunu.sub uu).mul (1 / 3 * t.mag2))

/-- `LeviCivita` of four vectors (`include/goofit/PDFs/physics/detail/SpinHelper.h:406-420`). -/
def leviCivita4 (p1 p2 p3 p4 : LV ℝ) : ℝ :=
  p1.z * p2.y * p3.x * p4.e - p1.y * p2.z * p3.x * p4.e
    - p1.z * p2.x * p3.y * p4.e + p1.x * p2.z * p3.y * p4.e
    + p1.y * p2.x * p3.z * p4.e - p1.x * p2.y * p3.z * p4.e
    - p1.z * p2.y * p3.e * p4.x + p1.y * p2.z * p3.e * p4.x
    + p1.z * p2.e * p3.y * p4.x - p1.e * p2.z * p3.y * p4.x
    - p1.y * p2.e * p3.z * p4.x + p1.e * p2.y * p3.z * p4.x
    + p1.z * p2.x * p3.e * p4.y - p1.x * p2.z * p3.e * p4.y
    - p1.z * p2.e * p3.x * p4.y + p1.e * p2.z * p3.x * p4.y
    + p1.x * p2.e * p3.z * p4.y - p1.e * p2.x * p3.z * p4.y
    - p1.y * p2.x * p3.e * p4.z + p1.x * p2.y * p3.e * p4.z
    + p1.y * p2.e * p3.x * p4.z - p1.e * p2.y * p3.x * p4.z
    - p1.x * p2.e * p3.y * p4.z + p1.e * p2.x * p3.y * p4.z

/-- `LeviCivita` of three vectors (`include/goofit/PDFs/physics/detail/SpinHelper.h:422-442`). -/
def leviCivita3 (a b c : LV ℝ) : LV ℝ where
  e := -1 * a.x * (b.y * c.z - b.z * c.y) - a.y * (b.z * c.x - b.x * c.z) - a.z * (b.x * c.y - b.y * c.x)
  z := a.x * (b.e * c.y - b.y * c.e) + a.y * (b.x * c.e - b.e * c.x) + a.e * (b.y * c.x - b.x * c.y)
  y := a.x * (b.z * c.e - b.e * c.z) + a.z * (b.e * c.x - b.x * c.e) + a.e * (b.x * c.z - b.z * c.x)
  x := a.y * (b.e * c.z - b.z * c.e) + a.z * (b.y * c.e - b.e * c.y) + a.e * (b.z * c.y - b.y * c.z)

/-! ### The factors -/

/-- The squared break-up momentum, as the form factors compute it (`src/PDFs/physics/SpinFactors.cu:108`). -/
def ffQ2 (s m1 m2 : ℝ) : ℝ := s / 4 - (m1 + m2) / 2 + (m1 - m2) * (m1 - m2) / (4 * s)

/-- `FF_12_34_L1` (`src/PDFs/physics/SpinFactors.cu:93-116`). -/
def ff1234L1 (r : ℝ) (P1 P2 P3 P4 : LV ℝ) : ℝ :=
  let z2 := ffQ2 (P1 + P2 + P3 + P4).mag2 (P1 + P2).mag2 (P3 + P4).mag2 * r * r
  √(1 / (1 + z2))

/-- `FF_12_34_L2` (`src/PDFs/physics/SpinFactors.cu:118-140`). -/
def ff1234L2 (r : ℝ) (P1 P2 P3 P4 : LV ℝ) : ℝ :=
  let z2 := ffQ2 (P1 + P2 + P3 + P4).mag2 (P1 + P2).mag2 (P3 + P4).mag2 * r * r
  √(1 / (z2 * z2 + 3 * z2 + 9))

/-- `FF_123_4_L1` (`src/PDFs/physics/SpinFactors.cu:142-164`). -/
def ff1234'L1 (r : ℝ) (P1 P2 P3 P4 : LV ℝ) : ℝ :=
  let z2 := ffQ2 (P1 + P2 + P3 + P4).mag2 (P1 + P2 + P3).mag2 P4.mag2 * r * r
  √(1 / (1 + z2))

/-- `FF_123_4_L2` (`src/PDFs/physics/SpinFactors.cu:166-188`). -/
def ff1234'L2 (r : ℝ) (P1 P2 P3 P4 : LV ℝ) : ℝ :=
  let z2 := ffQ2 (P1 + P2 + P3 + P4).mag2 (P1 + P2 + P3).mag2 P4.mag2 * r * r
  √(1 / (z2 * z2 + 3 * z2 + 9))

/-- `DtoPP1_PtoVP2_VtoP3P4` (`src/PDFs/physics/SpinFactors.cu:190-218`). -/
def dtoPP_PtoVP (_P1 P2 P3 P4 : LV ℝ) : ℝ :=
  let pV := P3 + P4
  let qV := P3 - P4
  let pP := pV + P2
  let qP := pV - P2
  (ztSpin1 qP pP pP.m).mink (ztSpin1 qV pV pV.m)

/-- `DtoV1V2_V1toP1P2_V2toP3P4_S` (`src/PDFs/physics/SpinFactors.cu:220-250`). -/
def dtoVV_S (P1 P2 P3 P4 : LV ℝ) : ℝ :=
  let pV1 := P1 + P2
  let qV1 := P1 - P2
  let pV2 := P3 + P4
  let qV2 := P3 - P4
  let MV1 := √(pV1.mink pV1)
  let MV2 := √(pV2.mink pV2)
  qV1.mink qV2 - qV1.mink pV1 * pV1.mink qV2 / (MV1 * MV1) - qV1.mink pV2 * pV2.mink qV2 / (MV2 * MV2)
    + qV1.mink pV1 * pV1.mink pV2 * pV2.mink qV2 / (MV1 * MV1 * MV2 * MV2)

/-- `DtoV1V2_V1toP1P2_V2toP3P4_P` (`src/PDFs/physics/SpinFactors.cu:252-286`). -/
def dtoVV_P (P1 P2 P3 P4 : LV ℝ) : ℝ :=
  let pV1 := P1 + P2
  let qV1 := P2 - P1
  let pV2 := P3 + P4
  let qV2 := P4 - P3
  let pD := pV1 + pV2
  let qD := pV1 - pV2
  let MV1 := √(pV1.mink pV1)
  let MV2 := √(pV2.mink pV2)
  let LD := ztSpin1 qD pD pD.m
  let LV1 := ztSpin1 qV1 pV1 MV1
  let LV2 := ztSpin1 qV2 pV2 MV2;
  -(leviCivita3 pD LD LV1).mink LV2

/-- `DtoV1V2_V1toP1P2_V2toP3P4_D` (`src/PDFs/physics/SpinFactors.cu:288-330`). -/
def dtoVV_D (P1 P2 P3 P4 : LV ℝ) : ℝ :=
  let pV1 := P1 + P2
  let qV1 := P1 - P2
  let pV2 := P3 + P4
  let qV2 := P3 - P4
  let pD := pV1 + pV2
  let qD := pV1 - pV2
  let mD := pD.m
  let tV1 := ztSpin1 qV1 pV1 pV1.m
  let tV2 := ztSpin1 qV2 pV2 pV2.m
  let tD := ztSpin2 qD pD mD
  tV1.mink (tD.contract tV2)

/-- `DtoV1P1_V1toV2P2_V2toP3P4` (`src/PDFs/physics/SpinFactors.cu:332-375`). -/
def dtoVP_VtoVP (P1 P2 P3 P4 : LV ℝ) : ℝ :=
  let pV1 := P2 + P3 + P4
  let pV2 := P3 + P4
  let qV1 := (P3 + P4) - P2
  let qV2 := P3 - P4
  let MV1 := pV1.m
  let MV2 := pV2.m
  let pD := pV1 + P1
  let qD := pV1 - P1
  let LD := ztSpin1 qD pD pD.m
  let LV1 := ztSpin1 qV1 pV1 MV1
  let LV2 := ztSpin1 qV2 pV2 MV2
  let tmp := spinSumV pV1 MV1 LD
  (leviCivita3 pV1 LV1 LV2).mink tmp

/-- `DtoVS_VtoP1P2_StoP3P4` (`src/PDFs/physics/SpinFactors.cu:377-412`). -/
def dtoVS (P1 P2 P3 P4 : LV ℝ) : ℝ :=
  let pS := P3 + P4
  let pV := P1 + P2
  let qV := P1 - P2
  let pD := pV + pS
  let qD := pV - pS
  (ztSpin1 qD pD pD.m).mink (ztSpin1 qV pV pV.m)

/-- `DtoAP1_AtoSP2_StoP3P4` (`src/PDFs/physics/SpinFactors.cu:414-448`). -/
def dtoAP_AtoSP (P1 P2 P3 P4 : LV ℝ) : ℝ :=
  let pS := P3 + P4
  let pA := P2 + pS
  let qA := pS - P2
  let pD := pA + P1
  let qD := pA - P1
  (ztSpin1 qD pD pD.m).mink (ztSpin1 qA pA pA.m)

/-- `DtoAP1_AtoVP2_VtoP3P4` (`src/PDFs/physics/SpinFactors.cu:450-486`). -/
def dtoAP_AtoVP (P1 P2 P3 P4 : LV ℝ) : ℝ :=
  let pV := P3 + P4
  let qV := P3 - P4
  let pA := P2 + pV
  let pD := P1 + pA
  let qD := pA - P1
  let LB := ztSpin1 qD pD pD.m
  let LV := ztSpin1 qV pV pV.m
  let tmp := spinSumV pA pA.m LV;
  -(LB.mink tmp)

/-- `DtoAP1_AtoVP2Dwave_VtoP3P4` (`src/PDFs/physics/SpinFactors.cu:488-526`). -/
def dtoAP_AtoVP_D (P1 P2 P3 P4 : LV ℝ) : ℝ :=
  let pV := P3 + P4
  let qV := P3 - P4
  let pA := P2 + pV
  let qA := P2 - pV
  let pD := P1 + pA
  let qD := pA - P1
  let LD := ztSpin1 qD pD pD.m
  let LV := ztSpin1 qV pV pV.m
  let LA := ztSpin2 qA pA pA.m
  LD.mink (LA.contract LV)

/-- `DtoTP1_TtoVP2_VtoP3P4` (`src/PDFs/physics/SpinFactors.cu:528-568`). -/
def dtoTP_TtoVP (P1 P2 P3 P4 : LV ℝ) : ℝ :=
  let pV := P3 + P4
  let qV := P3 - P4
  let pT := P2 + pV
  let qT := pV - P2
  let pD := P1 + pT
  let qD := pT - P1
  let tV := ztSpin1 qV pV pV.m
  let tD := ztSpin1 qD pD pD.m
  let t1T := ztSpin1 qT pT pT.m
  let tmp := leviCivita3 t1T pT (spinSumV pT pT.m tV)
  spinSumT pT pT.m tD tD tmp t1T + 1 / 3 * tD.mink tD / pT.mink pT * spinSumT pT pT.m pD pD tmp t1T

/-- `SF_4Body` (`include/goofit/PDFs/physics/SpinFactors.h:18-35`). -/
inductive SF4
  | dtoPP1_PtoSP2 | dtoPP1_PtoVP2 | dtoV1V2_S | dtoV1V2_P | dtoV1V2_D | dtoAP1_AtoVP2 | dtoAP1_AtoVP2Dwave | dtoVS
  | dtoV1P1_V1toV2P2 | dtoAP1_AtoSP2 | dtoTP1_TtoVP2 | ff12_34_L1 | ff12_34_L2 | ff123_4_L1 | ff123_4_L2 | one
  deriving DecidableEq

/-- A spin factor of given kind, radius and particle numbers at given momenta (`src/PDFs/physics/SpinFactors.cu:83-568,588-669`).
`V` is `Vecs`: four numbers per particle. -/
def spinFactorVal (k : SF4) (r : ℝ) (n1 n2 n3 n4 : Fin 4) (V : Fin 4 → LV ℝ) : ℝ :=
  match k with
  | .dtoPP1_PtoSP2 => 1
  | .one => 1
  | .ff12_34_L1 => ff1234L1 r (V n1) (V n2) (V n3) (V n4)
  | .ff12_34_L2 => ff1234L2 r (V n1) (V n2) (V n3) (V n4)
  | .ff123_4_L1 => ff1234'L1 r (V n1) (V n2) (V n3) (V n4)
  | .ff123_4_L2 => ff1234'L2 r (V n1) (V n2) (V n3) (V n4)
  | .dtoPP1_PtoVP2 => dtoPP_PtoVP (V n1) (V n2) (V n3) (V n4)
  | .dtoV1V2_S => dtoVV_S (V n1) (V n2) (V n3) (V n4)
  | .dtoV1V2_P => dtoVV_P (V n1) (V n2) (V n3) (V n4)
  | .dtoV1V2_D => dtoVV_D (V n1) (V n2) (V n3) (V n4)
  | .dtoV1P1_V1toV2P2 => dtoVP_VtoVP (V n1) (V n2) (V n3) (V n4)
  | .dtoVS => dtoVS (V n1) (V n2) (V n3) (V n4)
  | .dtoAP1_AtoSP2 => dtoAP_AtoSP (V n1) (V n2) (V n3) (V n4)
  | .dtoAP1_AtoVP2 => dtoAP_AtoVP (V n1) (V n2) (V n3) (V n4)
  | .dtoAP1_AtoVP2Dwave => dtoAP_AtoVP_D (V n1) (V n2) (V n3) (V n4)
  | .dtoTP1_TtoVP2 => dtoTP_TtoVP (V n1) (V n2) (V n3) (V n4)

end
end GooFit
