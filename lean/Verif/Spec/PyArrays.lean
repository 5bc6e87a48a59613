import Verif.Model.PyArrays
import Verif.Spec.Generate3
import Verif.Spec.Plotter
/-!
# Specification for C108: the arrays Python gets
-/
set_option autoImplicit false
namespace GooFit.Spec

/-- The entry `[i, j]` of a two-dimensional array of the shape `n × m` is `f i j`. -/
def IsTable {α : Type} (a : NdArray α) (n m : Nat) (f : Nat → Nat → α) : Prop :=
  a.shape = [n, m] ∧ ∀ i j, i < n → j < m → a.cells [i, j] = some (f i j)

/-- The array is the list. -/
def IsRow {α : Type} (a : NdArray α) (l : List α) : Prop :=
  a.shape = [l.length] ∧ ∀ i, i < l.length → a.cells [i] = l[i]?

/-- Row `i` of a two-dimensional array is the list. -/
def IsRowOf {α : Type} (a : NdArray α) (i : Nat) (l : List α) : Prop := ∀ j, j < l.length → a.cells [i, j] = l[j]?

/-- Row `i` of the array of particles are the momenta of the list, as energy, px, py, pz. -/
def IsMomenta (a : NdArray ℝ) (i : Nat) (l : List (LV ℝ)) : Prop :=
  ∀ (j : Nat) (v : LV ℝ), l[j]? = some v →
    a.cells [i, j, 0] = some v.e ∧ a.cells [i, j, 1] = some v.x ∧ a.cells [i, j, 2] = some v.y ∧ a.cells [i, j, 3] = some v.z

/-- The same without pz. -/
def IsMomentaXY (a : NdArray ℝ) (i : Nat) (l : List (LV ℝ)) : Prop :=
  ∀ (j : Nat) (v : LV ℝ), l[j]? = some v →
    a.cells [i, j, 0] = some v.e ∧ a.cells [i, j, 1] = some v.x ∧ a.cells [i, j, 2] = some v.y

end GooFit.Spec
