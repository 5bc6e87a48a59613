import Verif.Spec.Resonance
import Verif.Model.Lineshape4

/-!
# Line shapes: what to expect
-/

set_option autoImplicit false

namespace GooFit.Spec

/-- Momentum of the products, of masses `m1` and `m2`, in the rest frame of something of mass `m`. -/
noncomputable def breakup (m m1 m2 : ℝ) : ℝ := √((m ^ 2 - (m1 + m2) ^ 2) * (m ^ 2 - (m1 - m2) ^ 2)) / (2 * m)

/-- The squared barrier factor without its threshold behaviour and not normalised. -/
noncomputable def barrierPlainSq (L : Nat) (z : ℝ) : ℝ :=
  match L with
  | 0 => 1
  | 1 => 1 / (1 + z)
  | _ => 1 / ((z - 3) ^ 2 + 9 * z)

/-- The form factors a user can choose; `z`, `z0` the squared products of momentum and radius at the mass and at the nominal
mass. -/
noncomputable def formFactorSq : FormFactor → Nat → ℝ → ℝ → ℝ
  | .One, _, _, _ => 1
  | .BL, L, z, _ => barrierSq L z
  | .BL_Prime, L, z, z0 => barrierNormSq L z0 z
  | .BL2, L, z, _ => barrierPlainSq L z

/-- The LASS amplitude of an S wave: effective-range background with scattering length `a` and effective range `r` and a
Breit-Wigner resonance, in the normalisation in which `1 + 2 i (q/m) T` is the S matrix (see `smatrix`). -/
noncomputable def lassAmplitude (a r m0 Γ0 m q q0 : ℝ) : ℂ :=
  let cot := 1 / (a * q) + r * q / 2
  (m : ℂ) / ((q * cot : ℝ) - Complex.I * (q : ℂ))
    + ((cot : ℂ) + Complex.I) / ((cot : ℂ) - Complex.I) * ((m0 * Γ0 * (m0 / q0) : ℝ) : ℂ)
      * breitWigner m0 (m ^ 2) (runningWidth 0 m0 Γ0 (m ^ 2) q q0 1)

/-- Phase space of two particles, continued below threshold with the principal square root. -/
noncomputable def rhoMasses (s ma mb : ℝ) : ℂ := (((1 - (ma + mb) ^ 2 / s) * (1 - (ma - mb) ^ 2 / s) : ℝ) : ℂ) ^ (1 / 2 : ℂ)

end GooFit.Spec

namespace GooFit.Spec

/-- Loop function of two pions in Bugg's parametrisation of the sigma. -/
noncomputable def buggLoop (s mπ : ℝ) : ℝ :=
  let ρ := √(1 - (2 * mπ) ^ 2 / s)
  1 / Real.pi * (2 + ρ * Real.log ((1 - ρ) / (1 + ρ)))

/-- Four-pion phase space in Bugg's parametrisation. -/
noncomputable def bugg4π (s : ℝ) : ℝ := 1 / (1 + Real.exp (7.082 - 2.845 * s))

/-- Denominator of Bugg's parametrisation of the sigma (J. Phys. G 34 (2007) 151), with the charged masses `mπ`, `mK` and the
eta mass `mη`, the factor `g4` in front of the four-pion phase space, which opens at `4 mπ`. -/
noncomputable def buggDenominator (mπ mK mη g4 s : ℝ) : ℂ :=
  let M : ℝ := 0.953
  let g1 := M * (1.302 + 0.340 * s) * Real.exp (-(s - M ^ 2) / 2.426)
  let adler := (s - 0.41 * mπ ^ 2) / (M ^ 2 - 0.41 * mπ ^ 2)
  let width := ((g1 * adler : ℝ) : ℂ) * rhoEqual ((2 * mπ) ^ 2) s
    + ((0.6 * g1 * (s / M ^ 2) * Real.exp (-1.3 * |s - (2 * mK) ^ 2|) : ℝ) : ℂ) * rhoEqual ((2 * mK) ^ 2) s
    + ((0.2 * g1 * (s / M ^ 2) * Real.exp (-1.3 * |s - (2 * mη) ^ 2|) : ℝ) : ℂ) * rhoEqual ((2 * mη) ^ 2) s
    + (((if s < (4 * mπ) ^ 2 then 0 else g4 * bugg4π s / bugg4π (M ^ 2)) : ℝ) : ℂ)
  ((M ^ 2 - s - adler * g1 * (buggLoop s mπ - buggLoop (M ^ 2) mπ) : ℝ) : ℂ) - Complex.I * width

end GooFit.Spec
