import Verif.Spec.NormEvents4
import Verif.Spec.Fit4
import Verif.Model.Measured4
/-!
# Specification for C102: measured momenta of a four-body decay
-/
set_option autoImplicit false
namespace GooFit.Spec

/-- The momenta in a column: four times px, py, pz, E. -/
def columnMomenta {n : Nat} (mat : Matrix (Fin 16) (Fin n) ℝ) (i : Fin n) : Fin 4 → LV ℝ := fun k =>
  ⟨mat ⟨4 * k, by omega⟩ i, mat ⟨4 * k + 1, by omega⟩ i, mat ⟨4 * k + 2, by omega⟩ i, mat ⟨4 * k + 3, by omega⟩ i⟩

/-- The column is a decay, measured in the rest frame of the decaying particle, and no two momenta of a pair are along one line. -/
def GoodColumn {n : Nat} (d : Decay4) (mat : Matrix (Fin 16) (Fin n) ℝ) (i : Fin n) : Prop :=
  let V := columnMomenta mat i
  IsDecay d.M d.m1 d.m2 d.m3 d.m4 (V 0, V 1, V 2, V 3) ∧ TwoPlanes (V 0, V 1, V 2, V 3)

/-- Five numbers of a column. -/
def fiveOf {n : Nat} (out : Matrix (Fin 5) (Fin n) ℝ) (i : Fin n) : Ev4 := ⟨out 0 i, out 1 i, out 2 i, out 3 i, out 4 i⟩

/-- All momenta measured in another frame. -/
def inFrame {n : Nat} (L : Matrix (Fin 4) (Fin 4) ℝ) (mat mat' : Matrix (Fin 16) (Fin n) ℝ) : Prop :=
  ∀ i k, columnMomenta mat' i k = act L (columnMomenta mat i k)

/-- A boost along the second axis, with 3/5 of the speed of light. -/
noncomputable def boostY : Matrix (Fin 4) (Fin 4) ℝ := !![1, 0, 0, 0; 0, 5/4, 0, 3/4; 0, 0, 1, 0; 0, 3/4, 0, 5/4]

end GooFit.Spec
