import Mathlib.Analysis.SpecialFunctions.Pow.Real
import Mathlib.LinearAlgebra.Matrix.NonsingularInverse
import Mathlib.Data.Complex.Basic
import Mathlib.Analysis.SpecialFunctions.Pow.Complex

/-!
# What a K-matrix amplitude is

The formulas of the paper the code cites (arXiv:0804.2089, section on the ππ
S-wave), written with Mathlib's matrices, determinants and inverses and without
any definition of the model.
-/

set_option autoImplicit false

namespace GooFit.Spec

/-- The upper left `m × m` block of an array. -/
def block {C : Type} (A : Nat → Nat → C) (m : Nat) : Matrix (Fin m) (Fin m) C :=
  Matrix.of fun i j => A i j

/-- Every leading principal minor, up to the full determinant, is different from zero. -/
def LeadingMinors {C : Type} [CommRing C] (A : Nat → Nat → C) (n : Nat) : Prop :=
  ∀ m, 1 ≤ m → m ≤ n → (block A m).det ≠ 0

/-- The five channels: ππ, K K̄, 4π, ηη, ηη'. -/
abbrev Chan := Fin 5

/-- The physical content of a K-matrix amplitude: poles (five, with a mass and a
coupling to every channel), the slowly varying scattering term of the first
channel, the Adler zero, and the production vector. -/
structure KModel where
  mass : Fin 5 → ℝ
  g : Fin 5 → Chan → ℝ
  fscat : Chan → ℝ
  s0scat : ℝ
  sA : ℝ
  sA0 : ℝ
  beta : Fin 5 → ℂ
  fprod : Chan → ℂ
  s0prod : ℝ

/-- `K_uv(s)`: the pole sum plus the scattering term, times the Adler zero.  The
scattering matrix `f_uv` is symmetric and vanishes unless `u` or `v` is the
first channel. -/
noncomputable def KModel.K (d : KModel) (mpi s : ℝ) : Matrix Chan Chan ℝ := fun u v =>
  (∑ a, d.g a u * d.g a v / (d.mass a ^ 2 - s)
    + (if u = 0 then d.fscat v else if v = 0 then d.fscat u else 0)
        * ((1 - d.s0scat) / (s - d.s0scat)))
  * ((1 - d.sA0) / (s - d.sA0) * (s - d.sA * mpi ^ 2 / 2))

/-- The production vector `P_v(s)`. -/
noncomputable def KModel.P (d : KModel) (s : ℝ) : Chan → ℂ := fun v =>
  ∑ a, d.beta a * (d.g a v : ℂ) / ((d.mass a ^ 2 - s : ℝ) : ℂ)
    + d.fprod v * (((1 - d.s0prod) / (s - d.s0prod) : ℝ) : ℂ)

/-- The amplitude of the first channel: `F_1 = Σ_v [(1 - i K ρ)⁻¹]_{1v} P_v`. -/
noncomputable def KModel.amplitude (d : KModel) (mpi : ℝ) (rho : Chan → ℂ) (s : ℝ) : ℂ :=
  ∑ v, (1 - Complex.I • ((d.K mpi s).map (fun x : ℝ => (x : ℂ)) * Matrix.diagonal rho))⁻¹ 0 v * d.P s v

/-- Two-body phase space of a channel with masses `a` and `b`:
the principal square root of `1 - (a + b)²/s`, imaginary below threshold. -/
noncomputable def rhoTwo (a b s : ℝ) : ℂ := ((1 - (a + b) ^ 2 / s : ℝ) : ℂ) ^ (1 / 2 : ℂ)

/-- The 4π phase space: two σ-like pairs above 1 GeV², a fitted polynomial below
(taken imaginary where it is negative, which is the convention of the code). -/
noncomputable def rhoFourPi (mpi s : ℝ) : ℂ :=
  if 1 < s then rhoTwo (2 * mpi) (2 * mpi) s
  else
    let q : ℝ := 0.00051 - 0.01933 * s + 0.13851 * s ^ 2 - 0.20840 * s ^ 3 - 0.29744 * s ^ 4
      + 0.13655 * s ^ 5 + 1.07885 * s ^ 6
    if 0 ≤ q then (q : ℂ) else Complex.I * (q : ℂ)

/-- The five phase-space factors for given π, K, η and η' masses. -/
noncomputable def kRho (mpi mK mη mηp s : ℝ) : Chan → ℂ :=
  ![rhoTwo mpi mpi s, rhoTwo mK mK s, rhoFourPi mpi s, rhoTwo mη mη s, rhoTwo mη mηp s]

/-- The arguments a user passes for the poles: per pole the five couplings, then the mass. -/
def KModel.poleList (d : KModel) : List ℝ :=
  (List.ofFn fun a : Fin 5 => List.ofFn (d.g a) ++ [d.mass a]).flatten

/-- The matrix `1 - i K ρ` the amplitude inverts, as an array of indices. -/
noncomputable def KModel.T (d : KModel) (mpi : ℝ) (rho : Chan → ℂ) (s : ℝ) : Nat → Nat → ℂ :=
  fun i j => if h : i < 5 ∧ j < 5 then
    (1 - Complex.I • ((d.K mpi s).map (fun x : ℝ => (x : ℂ)) * Matrix.diagonal rho))
      ⟨i, h.1⟩ ⟨j, h.2⟩ else 0

end GooFit.Spec
