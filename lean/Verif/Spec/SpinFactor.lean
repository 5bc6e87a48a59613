import Verif.Model.SpinFactor
import Mathlib.LinearAlgebra.Matrix.Determinant.Basic
/-!
# Specification for C53 and C54: spin factors

Four-vectors are families of four numbers (x, y, z, E), the metric is (-, -, -, +), and the amplitudes are written with indices:
the orbital tensors and projectors of the covariant (Zemach) formalism.
-/
set_option autoImplicit false
namespace GooFit.Spec
noncomputable section

/-- The components of a momentum. -/
def comp (v : LV ℝ) : Fin 4 → ℝ := ![v.x, v.y, v.z, v.e]

/-- The signs of the metric. -/
def eta : Fin 4 → ℝ := ![-1, -1, -1, 1]

/-- A change of inertial frame, possibly with a reflection: the metric is preserved. -/
def IsLorentz (L : Matrix (Fin 4) (Fin 4) ℝ) : Prop := L.transpose * Matrix.diagonal eta * L = Matrix.diagonal eta

/-- A momentum in the new frame. -/
def act (L : Matrix (Fin 4) (Fin 4) ℝ) (v : LV ℝ) : LV ℝ :=
  ⟨∑ i, L 0 i * comp v i, ∑ i, L 1 i * comp v i, ∑ i, L 2 i * comp v i, ∑ i, L 3 i * comp v i⟩

/-- The factors with an odd number of units of orbital angular momentum and spin: they change sign under a reflection. -/
def reflects : SF4 → Bool
  | .dtoV1V2_P | .dtoV1P1_V1toV2P2 | .dtoTP1_TtoVP2 => true
  | _ => false

/-! ### Tensors -/

abbrev Vec := Fin 4 → ℝ

/-- `a^μ b_μ`. -/
def dotp (a b : Vec) : ℝ := ∑ μ, eta μ * a μ * b μ

/-- `g^{μν}`. -/
def gUp (μ ν : Fin 4) : ℝ := if μ = ν then eta μ else 0

/-- Orbital tensor of rank 1: `q^μ - p^μ (q·p)/p²`. -/
def orbital1 (q p : Vec) : Vec := fun μ => q μ - p μ * dotp q p / dotp p p

/-- Orbital tensor of rank 2: `L^μ L^ν - ⅓ L² (g^{μν} - p^μ p^ν / p²)`. -/
def orbital2 (q p : Vec) (μ ν : Fin 4) : ℝ :=
  orbital1 q p μ * orbital1 q p ν - 1 / 3 * dotp (orbital1 q p) (orbital1 q p) * (gUp μ ν - p μ * p ν / dotp p p)

/-- Spin-1 projector: `-g^{μν} + p^μ p^ν / p²`. -/
def proj1 (p : Vec) (μ ν : Fin 4) : ℝ := -gUp μ ν + p μ * p ν / dotp p p

/-- Spin-2 projector. -/
def proj2 (p : Vec) (μ ν α β : Fin 4) : ℝ :=
  1 / 2 * (proj1 p μ α * proj1 p ν β + proj1 p μ β * proj1 p ν α) - 1 / 3 * proj1 p μ ν * proj1 p α β

/-- A tensor of rank 2 contracted with two vectors. -/
def contr2 (T : Fin 4 → Fin 4 → ℝ) (a b : Vec) : ℝ := ∑ μ, ∑ ν, eta μ * eta ν * T μ ν * a μ * b ν

/-- A tensor of rank 2 contracted with a vector. -/
def contr1 (T : Fin 4 → Fin 4 → ℝ) (b : Vec) : Vec := fun μ => ∑ ν, eta ν * T μ ν * b ν

/-- Two tensors of rank 2 contracted with one of rank 4. -/
def contr4 (P : Fin 4 → Fin 4 → Fin 4 → Fin 4 → ℝ) (A B : Fin 4 → Fin 4 → ℝ) : ℝ :=
  ∑ μ, ∑ ν, ∑ α, ∑ β, eta μ * eta ν * eta α * eta β * A μ ν * P μ ν α β * B α β

/-- `ε_{μναβ} a^μ b^ν c^α d^β`, with `ε` 1 for (x, y, z, E). -/
def eps (a b c d : Vec) : ℝ := (Matrix.of ![a, b, c, d]).det

/-- The vector whose product with `d` is `eps a b c d`. -/
def eps3 (a b c : Vec) : Vec := fun μ => eta μ * eps a b c (fun ν => if ν = μ then 1 else 0)

/-- The amplitude of each decay chain, without the form factors. -/
def tensorAmp (k : SF4) (a b c d : Vec) : ℝ :=
  match k with
  -- pseudoscalar to scalar and pseudoscalar: no angular dependence
  | .dtoPP1_PtoSP2 => 1
  | .one => 1
  -- P → V P2, V → P3 P4
  | .dtoPP1_PtoVP2 => dotp (orbital1 (c + d - b) (b + c + d)) (orbital1 (c - d) (c + d))
  -- D → V1 V2 with orbital angular momentum 0, 1, 2
  | .dtoV1V2_S => dotp (orbital1 (a - b) (a + b)) (orbital1 (c - d) (c + d))
  | .dtoV1V2_P => eps (a + b + c + d) (orbital1 (a + b - c - d) (a + b + c + d)) (orbital1 (a - b) (a + b)) (orbital1 (c - d) (c + d))
  | .dtoV1V2_D => contr2 (orbital2 (a + b - c - d) (a + b + c + d)) (orbital1 (a - b) (a + b)) (orbital1 (c - d) (c + d))
  -- D → V S
  | .dtoVS => dotp (orbital1 (a + b - c - d) (a + b + c + d)) (orbital1 (a - b) (a + b))
  -- D → V1 P1, V1 → V2 P2
  | .dtoV1P1_V1toV2P2 =>
      -(eps (b + c + d) (orbital1 (c + d - b) (b + c + d)) (orbital1 (c - d) (c + d))
        (contr1 (proj1 (b + c + d)) (orbital1 (b + c + d - a) (a + b + c + d))))
  -- D → A P1, A → S P2
  | .dtoAP1_AtoSP2 => dotp (orbital1 (b + c + d - a) (a + b + c + d)) (orbital1 (c + d - b) (b + c + d))
  -- D → A P1, A → V P2 with orbital angular momentum 0, 2
  | .dtoAP1_AtoVP2 => -(contr2 (proj1 (b + c + d)) (orbital1 (b + c + d - a) (a + b + c + d)) (orbital1 (c - d) (c + d)))
  | .dtoAP1_AtoVP2Dwave =>
      contr2 (orbital2 (b - c - d) (b + c + d)) (orbital1 (b + c + d - a) (a + b + c + d)) (orbital1 (c - d) (c + d))
  -- D → T P1, T → V P2
  | .dtoTP1_TtoVP2 =>
      -(contr4 (proj2 (b + c + d)) (orbital2 (b + c + d - a) (a + b + c + d)) fun α β =>
        eps3 (orbital1 (c + d - b) (b + c + d)) (b + c + d) (contr1 (proj1 (b + c + d)) (orbital1 (c - d) (c + d))) α
          * orbital1 (c + d - b) (b + c + d) β)
  | .ff12_34_L1 | .ff12_34_L2 | .ff123_4_L1 | .ff123_4_L2 => 0

/-- Is it a form factor rather than an amplitude? -/
def isFormFactor : SF4 → Bool
  | .ff12_34_L1 | .ff12_34_L2 | .ff123_4_L1 | .ff123_4_L2 => true
  | _ => false

/-- The sign a factor gets when particles 3 and 4, the last pair, change places: -1 when they come from a vector. -/
def sign34 : SF4 → ℝ
  | .dtoPP1_PtoVP2 | .dtoV1V2_S | .dtoV1V2_P | .dtoV1V2_D | .dtoV1P1_V1toV2P2 | .dtoAP1_AtoVP2 | .dtoAP1_AtoVP2Dwave
  | .dtoTP1_TtoVP2 => -1
  | _ => 1

/-- The squared momentum. -/
def psq (v : LV ℝ) : ℝ := v.x ^ 2 + v.y ^ 2 + v.z ^ 2

/-- The form factors: functions of the radius and of the momentum of the two parts the mother decays to, in its rest frame: the two
pairs, or three particles and the last. -/
def formFactor (k : SF4) (r : ℝ) (P1 P2 _P3 P4 : LV ℝ) : ℝ :=
  match k with
  | .ff12_34_L1 => 1 / √(1 + r ^ 2 * psq (P1 + P2))
  | .ff12_34_L2 => 1 / √(9 + 3 * (r ^ 2 * psq (P1 + P2)) + (r ^ 2 * psq (P1 + P2)) ^ 2)
  | .ff123_4_L1 => 1 / √(1 + r ^ 2 * psq P4)
  | .ff123_4_L2 => 1 / √(9 + 3 * (r ^ 2 * psq P4) + (r ^ 2 * psq P4) ^ 2)
  | _ => 1

/-- A particle with a mass, going forward in time. -/
def Massive (v : LV ℝ) : Prop := 0 < v.e ∧ v.x ^ 2 + v.y ^ 2 + v.z ^ 2 < v.e ^ 2

end
end GooFit.Spec
