import Verif.Spec.Mixing

/-!
# Efficiencies that depend on the decay time
-/

set_option autoImplicit false

namespace GooFit.Spec

/-- An exponential of the decay time that changes its slope at `t0`; its value
there is `C`. -/
noncomputable def twoSlopes (C t0 sLow sHigh t : ℝ) : ℝ :=
  if t < t0 then C * Real.exp (-sLow * (t - t0)) else C * Real.exp (-sHigh * (t - t0))

/-- A cubic polynomial. -/
noncomputable def cubic (a0 a1 a2 a3 t : ℝ) : ℝ := a0 + a1 * t + a2 * t ^ 2 + a3 * t ^ 3

/-- Its slope. -/
noncomputable def cubicSlope (a1 a2 a3 t : ℝ) : ℝ := a1 + 2 * a2 * t + 3 * a3 * t ^ 2

/-- A function given byPieces: piece `i` from the knot `i` to the next, for the pieces
`0` to `n - 1`. -/
noncomputable def byPieces (knot : ℕ → ℝ) (piece : ℕ → ℝ → ℝ) : ℕ → ℝ → ℝ
  | 0, _ => 0
  | n + 1, t => if knot n < t then piece n t else byPieces knot piece n t

/-- A function given piecewise up to the knot `n`, and after it the exponential that has the
value `L` and the slope `-s L` there. -/
noncomputable def piecesThenExp (knot : ℕ → ℝ) (piece : ℕ → ℝ → ℝ) (n : ℕ) (L s t : ℝ) : ℝ :=
  if knot n < t then L * Real.exp (-s * (t - knot n)) else byPieces knot piece n t

/-- The efficiency described by a spline: between neighbouring knots the cubic
polynomials with the given coefficients, nothing before the first knot, and after the
last one the exponential that continues the last polynomial with the same value and
the same slope. -/
noncomputable def splineEfficiency (knots a0 a1 a2 a3 : List ℝ) (t : ℝ) : ℝ :=
  let n := knots.length - 1
  let last := knots.getD n 0
  let value := cubic (a0.getD (n - 1) 0) (a1.getD (n - 1) 0) (a2.getD (n - 1) 0) (a3.getD (n - 1) 0) last
  let slope := cubicSlope (a1.getD (n - 1) 0) (a2.getD (n - 1) 0) (a3.getD (n - 1) 0) last
  piecesThenExp (fun i => knots.getD i 0) (fun i => cubic (a0.getD i 0) (a1.getD i 0) (a2.getD i 0) (a3.getD i 0)) n
    value (-slope / value) t

/-- The decay rate with the cosine and the sine replaced by the first three terms of
their power series. -/
noncomputable def threeTermRate (c1 c2 c3 c4 τ x y t : ℝ) : ℝ :=
  let u := t / τ
  Real.exp (-u) * (c1 * Real.cosh (y * u) + c2 * (1 - (x * u) ^ 2 / 2 + (x * u) ^ 4 / 24)
    - 2 * c3 * Real.sinh (y * u) - 2 * c4 * (x * u - (x * u) ^ 3 / 6 + (x * u) ^ 5 / 120))

end GooFit.Spec
