import Mathlib.Analysis.SpecialFunctions.Pow.Real

/-!
# The cubic-spline resonance

Models `src/PDFs/physics/resonances/Spline.cu` (device function, constructor,
`recalculateCache`, and the global table `cDeriatives`) and `complex_derivative`
and `flatten` of `include/goofit/PDFs/detail/ComplexUtils.h`.

Simplifications.  Numbers are real numbers, without rounding.  The real and
imaginary parts of `complex_derivative` are computed by the same statements on
separate variables; they are modelled by one scalar function used twice.  The
vectors of knots and of coefficients have the same length (the constructor reads
`HH_bin_limits[i]` for every coefficient).  A spline has at least two knots
(`complex_derivative` reads `y[1]`).
-/

set_option autoImplicit false

namespace GooFit

/-- `yp1` (ComplexUtils.h:30), one component. -/
noncomputable def splYp1 (x y : Nat → ℝ) : ℝ := 2 * (y 1 - y 0) / (x 1 - x 0)

/-- `ypn` (ComplexUtils.h:31), one component. -/
noncomputable def splYpn (x y : Nat → ℝ) (n : Nat) : ℝ :=
  2 * (y (n - 1) - y (n - 2)) / (x (n - 1) - x (n - 2))

/-- `(y2[i], u[i])` after the lower boundary condition (ComplexUtils.h:34-47) and
the decomposition loop (ComplexUtils.h:52-64). -/
noncomputable def splDec (x y : Nat → ℝ) : Nat → ℝ × ℝ
  | 0 =>
    if splYp1 x y > 0.99e30 then (0, 0)
    else (-0.5, 3.0 / (x 1 - x 0) * ((y 1 - y 0) / (x 1 - x 0) - splYp1 x y))
  | i + 1 =>
    let sig := (x (i + 1) - x i) / (x (i + 2) - x i)
    let p := sig * (splDec x y i).1 + 2.0
    let u := (y (i + 2) - y (i + 1)) / (x (i + 2) - x (i + 1)) - (y (i + 1) - y i) / (x (i + 1) - x i)
    ((sig - 1.0) / p, (6.0 * u / (x (i + 2) - x i) - sig * (splDec x y i).2) / p)

/-- `y2[n - 1]` from the upper boundary condition (ComplexUtils.h:68-83). -/
noncomputable def splLast (x y : Nat → ℝ) (n : Nat) : ℝ :=
  let qn : ℝ := if splYpn x y n > 0.99e30 then 0 else 0.5
  let un : ℝ := if splYpn x y n > 0.99e30 then 0 else
    (3.0 / (x (n - 1) - x (n - 2)))
      * (splYpn x y n - (y (n - 1) - y (n - 2)) / (x (n - 1) - x (n - 2)))
  (un - qn * (splDec x y (n - 2)).2) / (qn * (splDec x y (n - 2)).1 + 1.0)

/-- `y2[n - 1 - j]` after the backsubstitution loop (ComplexUtils.h:87-90). -/
noncomputable def splBack (x y : Nat → ℝ) (n : Nat) : Nat → ℝ
  | 0 => splLast x y n
  | j + 1 => (splDec x y (n - 1 - (j + 1))).1 * splBack x y n j + (splDec x y (n - 1 - (j + 1))).2

/-- `complex_derivative`, one component: the second derivative at knot `k < n`
(ComplexUtils.h:20-93). -/
noncomputable def splDeriv (x y : Nat → ℝ) (n k : Nat) : ℝ := splBack x y n (n - 1 - k)

/-- The knot search, Spline.cu:40-44; `fuel` is the number of knots left. -/
noncomputable def khiGo (x : Nat → ℝ) (m : ℝ) : Nat → Nat → Nat
  | 0, k => k
  | fuel + 1, k => if m < x k then k else khiGo x m fuel (k + 1)

/-- One component of one interval, Spline.cu:61-71: `klo` is the left knot, `y`
the coefficients and `d` the derivative table. -/
noncomputable def splSeg (x y d : Nat → ℝ) (klo : Nat) (m : ℝ) : ℝ :=
  let khi := klo + 1
  let dm := x khi - x klo
  let aa := (x khi - m) / dm
  let bb := 1 - aa
  let aa3 := aa * aa * aa
  let bb3 := bb * bb * bb
  aa * y klo + bb * y khi + ((aa3 - aa) * d klo + (bb3 - bb) * d khi) * (dm * dm) / 6.0

/-- What one pass of the loop adds to one component of the result,
Spline.cu:39-72. -/
noncomputable def splVal (x y d : Nat → ℝ) (n : Nat) (m : ℝ) : ℝ :=
  let khi := khiGo x m n 0
  if 0 < khi ∧ khi < n then splSeg x y d (khi - 1) m else 0

/-- A `Resonances::Spline` object: knots, current values of the coefficient
parameters, and the two integer constants (Spline.cu:89-113). -/
structure SplineObj where
  n : Nat
  x : Nat → ℝ
  re : Nat → ℝ
  im : Nat → ℝ
  cyc : Nat
  swap : Bool

/-- The program state: the spline objects built so far and the device table
`cDeriatives[2 * 100]` they share (Spline.cu:10). -/
structure SplWorld where
  objs : List SplineObj
  table : Nat → ℝ

/-- `recalculateCache`, Spline.cu:115-134: the flattened derivatives are copied to
the first `2 n` entries of the table.  `none` when they do not fit. -/
noncomputable def splRecalc (w : SplWorld) (o : SplineObj) : Option SplWorld :=
  if 2 * o.n ≤ 200 then
    some { w with table := fun i =>
      if i < 2 * o.n then
        if i % 2 = 0 then splDeriv o.x o.re o.n (i / 2) else splDeriv o.x o.im o.n (i / 2)
      else w.table i }
  else none

/-- What a program does with splines (no counterpart in the code). -/
inductive SplOp
  /-- the constructor, which calls `recalculateCache` (Spline.cu:112) -/
  | construct (o : SplineObj)
  /-- the fit, or the user, gives the coefficient parameters of object `i` new
  values; nothing in the code calls `recalculateCache` then -/
  | setCoefs (i : Nat) (re im : Nat → ℝ)

/-- One step (no counterpart in the code). -/
noncomputable def splStep (w : SplWorld) : SplOp → Option SplWorld
  | .construct o => (splRecalc w o).map fun w => { w with objs := w.objs ++ [o] }
  | .setCoefs i re im =>
    some { w with objs := w.objs.modify i fun o => { o with re := re, im := im } }

/-- A program (no counterpart in the code). -/
noncomputable def splRun : SplWorld → List SplOp → Option SplWorld
  | w, [] => some w
  | w, op :: ops => (splStep w op).bind fun w => splRun w ops

/-- `cubicspline`, Spline.cu:12-83: the value of object `o` with the table of the
world `w` at a Dalitz point.  `PAIR_12 = 0`, `PAIR_13 = 1`, `PAIR_23 = 2`. -/
noncomputable def splEval (w : SplWorld) (o : SplineObj) (m12 m13 m23 : ℝ) : ℝ × ℝ :=
  let mAB := if o.cyc = 1 then m13 else if o.cyc = 2 then m23 else m12
  let mAC := if o.cyc = 1 then m12 else if o.cyc = 2 then m12 else m13
  let dr : Nat → ℝ := fun k => w.table (k + k)
  let di : Nat → ℝ := fun k => w.table (k + k + 1)
  let r := (splVal o.x o.re dr o.n mAB, splVal o.x o.im di o.n mAB)
  if o.swap then
    (r.1 + splVal o.x o.re dr o.n mAC, r.2 + splVal o.x o.im di o.n mAC)
  else r

end GooFit
