import Verif.Spec.FourBody
import Verif.Spec.SpinFactor
import Verif.Spec.Component4
import Mathlib.LinearAlgebra.Matrix.Determinant.Basic
/-!
# Specification for C88: the intensity of four momenta, and momenta seen from another direction
-/
set_option autoImplicit false
namespace GooFit.Spec

/-- The momentum turned (or reflected) by a matrix; the energy stays. -/
def turn (R : Matrix (Fin 3) (Fin 3) ℝ) (v : LV ℝ) : LV ℝ :=
  ⟨R 0 0 * v.x + R 0 1 * v.y + R 0 2 * v.z, R 1 0 * v.x + R 1 1 * v.y + R 1 2 * v.z,
    R 2 0 * v.x + R 2 1 * v.y + R 2 2 * v.z, v.e⟩

/-- All four. -/
def turn4 (R : Matrix (Fin 3) (Fin 3) ℝ) (v : LV ℝ × LV ℝ × LV ℝ × LV ℝ) : LV ℝ × LV ℝ × LV ℝ × LV ℝ :=
  (turn R v.1, turn R v.2.1, turn R v.2.2.1, turn R v.2.2.2)

/-- A rotation of space. -/
def IsRotation (R : Matrix (Fin 3) (Fin 3) ℝ) : Prop := R.transpose * R = 1 ∧ R.det = 1

/-- A reflection of space, possibly with a rotation. -/
def IsReflection (R : Matrix (Fin 3) (Fin 3) ℝ) : Prop := R.transpose * R = 1 ∧ R.det = -1

/-- Two momenta along one line (or one of them zero). -/
def OneLine (a b : LV ℝ) : Prop := a.y * b.z = a.z * b.y ∧ a.z * b.x = a.x * b.z ∧ a.x * b.y = a.y * b.x

/-- The first two momenta span a plane, and the last two do. -/
def TwoPlanes (v : LV ℝ × LV ℝ × LV ℝ × LV ℝ) : Prop := ¬ OneLine v.1 v.2.1 ∧ ¬ OneLine v.2.2.1 v.2.2.2

/-- A line shape of four momenta: at the invariant mass of the particles the constructor call names, with the invariant masses
of the two parts. -/
noncomputable def lineShapeOf (c : LsNew) (h : Nat → ℝ) (V : Fin 4 → LV ℝ) : Option ℂ :=
  (pairParts (args c).pair).bind fun ab =>
    lineShapeAt c h √(massSq V (ab.1 ++ ab.2)) √(massSq V ab.1) √(massSq V ab.2)

/-- A spin factor of four momenta, in the order the constructor call names. -/
noncomputable def spinFactorOf (s : SfNew) (V : Fin 4 → LV ℝ) : Option ℝ :=
  if h : s.p0 < 4 ∧ s.p1 < 4 ∧ s.p2 < 4 ∧ s.p3 < 4 then
    some (spinFactorVal s.kind s.mD0 ⟨s.p0, h.1⟩ ⟨s.p1, h.2.1⟩ ⟨s.p2, h.2.2.1⟩ ⟨s.p3, h.2.2.2⟩ V)
  else none

/-- The intensity of four momenta. -/
noncomputable def intensityOf (amps : List AmpNew) (h : Nat → ℝ) (V : Fin 4 → LV ℝ) : ℝ :=
  intensity4 (amps.map fun a : AmpNew =>
    (amplitude4 Real.sqrt a.nPerm (a.ls.map fun c => toCx ((lineShapeOf c h V).getD 0))
      (a.sf.map fun s => (spinFactorOf s V).getD 0), (⟨h a.ar, h a.ai⟩ : Cx ℝ)))

end GooFit.Spec
