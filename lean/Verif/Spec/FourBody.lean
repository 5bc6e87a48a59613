import Verif.Model.FourBody
import Mathlib.Data.Fin.VecNotation
/-!
# Specification for C51 and C52: four-body kinematics
-/
set_option autoImplicit false
namespace GooFit.Spec

/-- A decay of a particle of mass `M` at rest into four particles. -/
structure IsDecay (M m1 m2 m3 m4 : ℝ) (v : LV ℝ × LV ℝ × LV ℝ × LV ℝ) : Prop where
  /-- every particle has its mass, and positive energy -/
  shell1 : v.1.e ^ 2 - v.1.x ^ 2 - v.1.y ^ 2 - v.1.z ^ 2 = m1 ^ 2 ∧ 0 < v.1.e
  shell2 : v.2.1.e ^ 2 - v.2.1.x ^ 2 - v.2.1.y ^ 2 - v.2.1.z ^ 2 = m2 ^ 2 ∧ 0 < v.2.1.e
  shell3 : v.2.2.1.e ^ 2 - v.2.2.1.x ^ 2 - v.2.2.1.y ^ 2 - v.2.2.1.z ^ 2 = m3 ^ 2 ∧ 0 < v.2.2.1.e
  shell4 : v.2.2.2.e ^ 2 - v.2.2.2.x ^ 2 - v.2.2.2.y ^ 2 - v.2.2.2.z ^ 2 = m4 ^ 2 ∧ 0 < v.2.2.2.e
  /-- the momenta add up to zero, the energies to the mass of the mother -/
  momX : v.1.x + v.2.1.x + v.2.2.1.x + v.2.2.2.x = 0
  momY : v.1.y + v.2.1.y + v.2.2.1.y + v.2.2.2.y = 0
  momZ : v.1.z + v.2.1.z + v.2.2.1.z + v.2.2.2.z = 0
  energy : v.1.e + v.2.1.e + v.2.2.1.e + v.2.2.2.e = M

/-- The vectors of a decay, by number. -/
def vecOf (v : LV ℝ × LV ℝ × LV ℝ × LV ℝ) : Fin 4 → LV ℝ := ![v.1, v.2.1, v.2.2.1, v.2.2.2]

/-- The square of the invariant mass of some of four particles: those with numbers in `s`. -/
def massSq (v : Fin 4 → LV ℝ) (s : List (Fin 4)) : ℝ :=
  (s.map fun i => (v i).e).sum ^ 2 - (s.map fun i => (v i).x).sum ^ 2 - (s.map fun i => (v i).y).sum ^ 2
    - (s.map fun i => (v i).z).sum ^ 2

/-- The names `M_12`, ..., `M_34_2` (`include/goofit/PDFs/physics/DalitzPlotHelpers.h:58-77`): the two parts of the system, e.g. `M_13_2`
is particles 1 and 3 together, with particle 2. -/
def pairParts : Nat → Option (List (Fin 4) × List (Fin 4))
  | 0 => some ([0], [1])
  | 1 => some ([2], [3])
  | 2 => some ([0], [2])
  | 3 => some ([0], [3])
  | 4 => some ([1], [2])
  | 5 => some ([1], [3])
  | 6 => some ([0, 1], [2])
  | 7 => some ([0, 2], [1])
  | 8 => some ([1, 2], [0])
  | 9 => some ([0, 1], [3])
  | 10 => some ([0, 3], [1])
  | 11 => some ([1, 3], [0])
  | 12 => some ([0, 2], [3])
  | 13 => some ([0, 3], [2])
  | 14 => some ([2, 3], [0])
  | 15 => some ([1, 2], [3])
  | 16 => some ([1, 3], [2])
  | 17 => some ([2, 3], [1])
  | _ => none

/-- Inside the phase space. -/
structure Inside (M m1 m2 m3 m4 m12 m34 : ℝ) : Prop where
  h1 : 0 ≤ m1
  h2 : 0 ≤ m2
  h3 : 0 ≤ m3
  h4 : 0 ≤ m4
  pair12 : m1 + m2 < m12
  pair34 : m3 + m4 < m34
  mother : m12 + m34 < M

end GooFit.Spec
