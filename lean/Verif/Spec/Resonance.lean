import Mathlib.Analysis.Calculus.Deriv.Basic
import Verif.Spec.Decay
import Mathlib.Data.Complex.Basic
import Mathlib.Analysis.SpecialFunctions.Pow.Complex
import Mathlib.Analysis.SpecialFunctions.Log.Basic

/-!
# Resonances in three-body decays: what the textbooks say
-/

set_option autoImplicit false

namespace GooFit.Spec

/-- Scalar product of momenta. -/
def Mom.dot (p q : Mom) : ℝ := ∑ i, p i * q i

/-- Three daughters: masses and momenta (in any frame). -/
structure ThreeBody where
  m : Fin 3 → ℝ
  p : Fin 3 → Mom

namespace ThreeBody

/-- Energy of daughter `i`. -/
noncomputable def E (d : ThreeBody) (i : Fin 3) : ℝ := energy (d.m i) (d.p i)

/-- Squared invariant mass of daughters `i` and `j`. -/
noncomputable def s (d : ThreeBody) (i j : Fin 3) : ℝ :=
  (d.E i + d.E j) ^ 2 - Mom.sq (d.p i + d.p j)

/-- Squared mass of the mother. -/
noncomputable def M2 (d : ThreeBody) : ℝ :=
  (d.E 0 + d.E 1 + d.E 2) ^ 2 - Mom.sq (d.p 0 + d.p 1 + d.p 2)

end ThreeBody

/-- The pair named by the cyclic index (0: 12, 1: 31, 2: 23) and the third
daughter; daughters are numbered from 0. -/
def pairIdx : Nat → Fin 3 × Fin 3 × Fin 3
  | 0 => (0, 1, 2)
  | 1 => (2, 0, 1)
  | _ => (1, 2, 0)

/-- Zemach's angular distribution for spin `L`, from the momentum `q` of one
daughter of the resonance and the momentum `p` of the bachelor in the rest frame
of the resonance. -/
noncomputable def zemach (L : Nat) (q p : Mom) : ℝ :=
  match L with
  | 0 => 1
  | 1 => -4 * Mom.dot q p
  | _ => 16 * (Mom.dot q p ^ 2 - Mom.sq q * Mom.sq p / 3)

/-- The squared Blatt-Weisskopf barrier factors of spin 0, 1, 2 (von Hippel and
Quigg; PDG review of Dalitz plots), `z` the squared product of momentum and
radius. -/
noncomputable def barrierSq (L : Nat) (z : ℝ) : ℝ :=
  match L with
  | 0 => 1
  | 1 => 2 * z / (1 + z)
  | _ => 13 * z ^ 2 / ((z - 3) ^ 2 + 9 * z)

/-- The same, normalised to one at `z0` and without the threshold factor: the
square of `B'_L(q, q0)` of the PDG review. -/
noncomputable def barrierNormSq (L : Nat) (z0 z : ℝ) : ℝ :=
  match L with
  | 0 => 1
  | 1 => (1 + z0) / (1 + z)
  | _ => ((z0 - 3) ^ 2 + 9 * z0) / ((z - 3) ^ 2 + 9 * z)

/-- Running width of a resonance of spin `L`: `q`, `q0` are the break-up momenta
at the mass `√s` and at the nominal mass `m0`, `F2` the squared barrier ratio. -/
noncomputable def runningWidth (L : Nat) (m0 Γ0 s q q0 F2 : ℝ) : ℝ :=
  Γ0 * (q / q0) ^ (2 * L + 1) * (m0 / √s) * F2

/-- `1 / (m0² - s - i m0 Γ)`. -/
noncomputable def breitWigner (m0 s Γ : ℝ) : ℂ :=
  1 / (((m0 ^ 2 - s : ℝ) : ℂ) - Complex.I * ((m0 * Γ : ℝ) : ℂ))

/-- Phase space of two particles of equal mass, squared threshold `t`, continued
below threshold with the principal square root. -/
noncomputable def rhoEqual (t s : ℝ) : ℂ := ((1 - t / s : ℝ) : ℂ) ^ (1 / 2 : ℂ)

/-- The constant `d` of Gounaris and Sakurai for two daughters of mass `m`, with
break-up momentum `k0` at the nominal mass `m0`; `π` is passed in, since the
program rounds it. -/
noncomputable def gsD (π m m0 k0 : ℝ) : ℝ :=
  3 / π * (m ^ 2 / k0 ^ 2) * Real.log ((m0 + 2 * k0) / (2 * m)) + m0 / (2 * π * k0) - m ^ 2 * m0 / (π * k0 ^ 3)

/-- The function `h` of Gounaris and Sakurai for two daughters of mass `m`. -/
noncomputable def gsH (π m s : ℝ) : ℝ :=
  2 / π * (√(s - 4 * m ^ 2) / 2 / √s) * Real.log ((√s + 2 * (√(s - 4 * m ^ 2) / 2)) / (2 * m))

/-- The mass shift of Gounaris and Sakurai: it vanishes at the nominal mass `m0`. -/
noncomputable def gsF (π m m0 Γ0 s : ℝ) : ℝ :=
  let k := √(s - 4 * m ^ 2) / 2
  let k0 := √(m0 ^ 2 - 4 * m ^ 2) / 2
  Γ0 * m0 ^ 2 / k0 ^ 3 * (k ^ 2 * (gsH π m s - gsH π m (m0 ^ 2)) + (m0 ^ 2 - s) * k0 ^ 2 * deriv (gsH π m) (m0 ^ 2))

/-- The amplitude of Gounaris and Sakurai with running width `Γ`. -/
noncomputable def gounarisSakurai (π m m0 Γ0 s Γ : ℝ) : ℂ :=
  ((1 + gsD π m m0 (√(m0 ^ 2 - 4 * m ^ 2) / 2) * Γ0 / m0 : ℝ) : ℂ)
    / (((m0 ^ 2 - s + gsF π m m0 Γ0 s : ℝ) : ℂ) - Complex.I * ((m0 * Γ : ℝ) : ℂ))

/-- Elastic unitarity of an S wave: with break-up momentum `q` and mass `√s`,
the partial wave `T` (normalised as in the LASS parametrisation) makes
`1 + 2 i (q/√s) T` a pure phase. -/
noncomputable def smatrix (s q : ℝ) (T : ℂ) : ℂ := 1 + 2 * Complex.I * ((q / √s : ℝ) : ℂ) * T

end GooFit.Spec
