import Verif.Spec.Angles
import Verif.Lemmas.BasicReal
import Mathlib.Tactic.FieldSimp
/-!
# Properties of the basic PDFs over the real numbers: C43

Each theorem gives the formula a PDF evaluates to in terms of the arguments of its constructor call.
`env.val v` is the value of variable `v`; `ObsIs env e o x` says that the event holds the value `x`
for observable `o`.
-/
set_option autoImplicit false
namespace GooFit
open Spec FpOps

variable (T : HistTables ℝ) (env : Env ℝ) (e : Evt ℝ)

private theorem allSome_one {o : Nat} {x : ℝ} (h : ObsIs env e o x) :
    allSome (((registerAll [o]).map env.idx).map (at_ e)) = some [x] := by
  have : at_ e (env.idx o) = some x := h
  simp [registerAll, allSome, this]

private theorem allSome_two {o o' : Nat} {x x' : ℝ} (hne : o ≠ o') (h : ObsIs env e o x)
    (h' : ObsIs env e o' x') :
    allSome (((registerAll [o, o']).map env.idx).map (at_ e)) = some [x, x'] := by
  have h : at_ e (env.idx o) = some x := h
  have h' : at_ e (env.idx o') = some x' := h'
  rw [registerAll_nodup _ (by simpa using hne)]
  simp [allSome, h, h']

/-! ### C43 -/

/-- **C43, GaussianPdf(x, m, σ)**: `exp(-(x-m)²/(2σ²))`. -/
theorem C43_gaussian (x m s : Nat) (X : ℝ) (h : ObsIs env e x X) :
    Evaluates T (.gaussian x m s) env e
      (Real.exp (-(X - env.val m) ^ 2 / (2 * env.val s ^ 2))) := by
  refine evaluates_of T _ env e _ [X] trivial (by simp [BasicCall.leaf]) (by simp [BasicCall.leaf])
    storable_real (allSome_one env e h) ?_
  show some (gaussianValue X (env.val m) (env.val s)) = _
  unfold gaussianValue
  real_ops
  congr 2
  push_cast
  ring

/-- **C43, BWPdf(x, m, Γ)**: `(1/2π) Γ / ((x-m)² + Γ²/4)`. -/
theorem C43_bw (x m w : Nat) (X : ℝ) (h : ObsIs env e x X) :
    Evaluates T (.bw x m w) env e
      (1 / (2 * Real.pi) * (env.val w / ((X - env.val m) ^ 2 + env.val w ^ 2 / 4))) := by
  refine evaluates_of T _ env e _ [X] trivial (by simp [BasicCall.leaf]) (by simp [BasicCall.leaf])
    storable_real (allSome_one env e h) ?_
  show some (bwValue X (env.val m) (env.val w)) = _
  unfold bwValue
  real_ops
  push_cast
  rw [real_pi]
  congr 1
  rw [show (-2 : ℝ) * -(Real.pi / 2) = Real.pi by ring,
    show (X - env.val m) * (X - env.val m) + env.val w * env.val w / 4 =
      (X - env.val m) ^ 2 + env.val w ^ 2 / 4 by ring]
  ring

/-- **C43, BifurGaussPdf(x, m, σL, σR)**: left of the mean `σL`, right of it `σR`. -/
theorem C43_bifurGauss (x m sL sR : Nat) (X : ℝ) (h : ObsIs env e x X) :
    Evaluates T (.bifurGauss x m sL sR) env e
      (if X ≤ env.val m then Real.exp (-(X - env.val m) ^ 2 / (2 * env.val sL ^ 2))
        else Real.exp (-(X - env.val m) ^ 2 / (2 * env.val sR ^ 2))) := by
  refine evaluates_of T _ env e _ [X] trivial (by simp [BasicCall.leaf]) (by simp [BasicCall.leaf])
    storable_real (allSome_one env e h) ?_
  show some (bifurValue X (env.val m) (env.val sL) (env.val sR)) = _
  unfold bifurValue
  real_ops
  by_cases hx : X ≤ env.val m
  · rw [if_pos hx, if_neg (by simpa using hx)]
    congr 2
    push_cast
    ring
  · rw [if_neg hx, if_pos (by simpa using hx)]
    congr 2
    push_cast
    ring

/-- **C43, ArgusPdf(x, m₀, a, upper = true, p)**, for a positive threshold: zero from `m₀` on, below
it `x·((m₀²-x²)/m₀²)^p·exp(a (m₀²-x²)/m₀²)`. -/
theorem C43_argus_upper (x m0 a p : Nat) (X : ℝ) (h : ObsIs env e x X) (hm : 0 < env.val m0) :
    Evaluates T (.argus x m0 a true p) env e
      (if env.val m0 ≤ X then 0
        else X * ((env.val m0 ^ 2 - X ^ 2) / env.val m0 ^ 2) ^ env.val p *
          Real.exp (env.val a * ((env.val m0 ^ 2 - X ^ 2) / env.val m0 ^ 2))) := by
  refine evaluates_of T _ env e _ [X] trivial (by simp [BasicCall.leaf]) (by simp [BasicCall.leaf])
    storable_real (allSome_one env e h) ?_
  show some (argusUpperValue X (env.val m0) (env.val a) (env.val p)) = _
  unfold argusUpperValue
  real_ops
  push_cast
  by_cases hx : env.val m0 ≤ X
  · rw [if_pos hx, if_pos ((one_le_div hm).mpr hx)]
  · rw [if_neg hx, if_neg (by rw [one_le_div hm]; exact hx)]
    have : 1 - X / env.val m0 * (X / env.val m0) = (env.val m0 ^ 2 - X ^ 2) / env.val m0 ^ 2 := by
      field_simp
    rw [this]

/-- **C43, ArgusPdf(x, m₀, a, upper = false, p)**, for a positive threshold: zero up to `m₀`, above
it `x·((x²-m₀²)/m₀²)^p·exp(a (x²-m₀²)/m₀²)`. -/
theorem C43_argus_lower (x m0 a p : Nat) (X : ℝ) (h : ObsIs env e x X) (hm : 0 < env.val m0) :
    Evaluates T (.argus x m0 a false p) env e
      (if X ≤ env.val m0 then 0
        else X * ((X ^ 2 - env.val m0 ^ 2) / env.val m0 ^ 2) ^ env.val p *
          Real.exp (env.val a * ((X ^ 2 - env.val m0 ^ 2) / env.val m0 ^ 2))) := by
  refine evaluates_of T _ env e _ [X] trivial (by simp [BasicCall.leaf]) (by simp [BasicCall.leaf])
    storable_real (allSome_one env e h) ?_
  show some (argusLowerValue X (env.val m0) (env.val a) (env.val p)) = _
  unfold argusLowerValue
  real_ops
  push_cast
  by_cases hx : X ≤ env.val m0
  · rw [if_pos hx, if_pos ((div_le_one hm).mpr hx)]
  · rw [if_neg hx, if_neg (by rw [div_le_one hm]; exact hx)]
    have : X / env.val m0 * (X / env.val m0) - 1 = (X ^ 2 - env.val m0 ^ 2) / env.val m0 ^ 2 := by
      field_simp
    rw [this]

/-- **C43, CorrGaussianPdf(x, y, x̄, σx, ȳ, σy, k)**: the width in `y` is `σy (1 + k ((x-x̄)/σx)²)`. -/
theorem C43_corrGaussian (x y m1 s1 m2 s2 k : Nat) (X Y : ℝ) (hne : x ≠ y) (hx : ObsIs env e x X)
    (hy : ObsIs env e y Y)
    (hw : env.val s2 * (1 + env.val k * ((X - env.val m1) / env.val s1) ^ 2) ≠ 0) :
    Evaluates T (.corrGaussian x y m1 s1 m2 s2 k) env e
      (Real.exp (-(X - env.val m1) ^ 2 / (2 * env.val s1 ^ 2)) *
        Real.exp (-(Y - env.val m2) ^ 2 /
          (2 * (env.val s2 * (1 + env.val k * ((X - env.val m1) / env.val s1) ^ 2)) ^ 2))) := by
  refine evaluates_of T _ env e _ [X, Y] hne (by simp [BasicCall.leaf]) (by simp [BasicCall.leaf])
    storable_real (allSome_two env e hne hx hy) ?_
  show some (corrValue X Y (env.val m1) (env.val s1) (env.val m2) (env.val s2) (env.val k)) = _
  unfold corrValue
  real_ops
  push_cast
  have hw' : env.val s2 * (1 + env.val k * ((X - env.val m1) / env.val s1) *
      ((X - env.val m1) / env.val s1)) =
      env.val s2 * (1 + env.val k * ((X - env.val m1) / env.val s1) ^ 2) := by ring
  rw [hw', if_neg hw, ← Real.exp_add]
  congr 2
  generalize env.val s2 * (1 + env.val k * ((X - env.val m1) / env.val s1) ^ 2) = w
  ring

/-- **C43, CrystalBallPdf(x, m, σ, α, p)** for `σ, α ≠ 0`: the Gaussian core where
`sg(α)(x-m)/σ ≤ sg(α)α`, beyond it `exp(-α²/2) ((p/α)/(p/α - α + (x-m)/σ))^p`. -/
theorem C43_crystalBall (x m s al p : Nat) (X : ℝ) (h : ObsIs env e x X) (hs : env.val s ≠ 0)
    (ha : env.val al ≠ 0)
    (hd : env.val p / env.val al - env.val al + (X - env.val m) / env.val s ≠ 0) :
    Evaluates T (.crystalBall x m s al p) env e
      (if (0 < env.val al ∧ (X - env.val m) / env.val s ≤ env.val al) ∨
          (env.val al < 0 ∧ -((X - env.val m) / env.val s) ≤ -env.val al) then
        Real.exp (-(X - env.val m) ^ 2 / (2 * env.val s ^ 2))
      else Real.exp (-env.val al ^ 2 / 2) *
        ((env.val p / env.val al) / (env.val p / env.val al - env.val al + (X - env.val m) / env.val s))
          ^ env.val p) := by
  refine evaluates_of T _ env e _ [X] trivial (by simp [BasicCall.leaf]) (by simp [BasicCall.leaf])
    storable_real (allSome_one env e h) ?_
  show some (crystalValue X (env.val m) (env.val s) (env.val al) (env.val p)) = _
  unfold crystalValue
  simp only [Bool.or_eq_true, Bool.and_eq_true]
  real_ops
  push_cast
  rw [if_neg hs, if_neg hd]
  congr 1
  by_cases hc : (0 < env.val al ∧ (X - env.val m) / env.val s ≤ env.val al) ∨
      (env.val al < 0 ∧ -((X - env.val m) / env.val s) ≤ -env.val al)
  · rw [if_pos hc, if_pos (by simpa [ha] using hc)]
    congr 1
    ring
  · rw [if_neg hc, if_neg (by simpa [ha] using hc)]
    congr 2
    ring

/-- **C43, ExpPdf(x, α)**: `exp(α x)`. -/
theorem C43_exp (x al : Nat) (X : ℝ) (h : ObsIs env e x X) :
    Evaluates T (.exp x al) env e (Real.exp (env.val al * X)) := by
  refine evaluates_of T _ env e _ [X] trivial (by simp [BasicCall.leaf]) (by simp [BasicCall.leaf])
    storable_real (allSome_one env e h) ?_
  rfl

/-- **C43, ExpPdf(x, α, x₀)**: `exp(α (x-x₀))`. -/
theorem C43_expOffset (x al x0 : Nat) (X : ℝ) (h : ObsIs env e x X) :
    Evaluates T (.expOffset x al x0) env e (Real.exp (env.val al * (X - env.val x0))) := by
  refine evaluates_of T _ env e _ [X] trivial (by simp [BasicCall.leaf]) (by simp [BasicCall.leaf])
    storable_real (allSome_one env e h) ?_
  rfl

/-- **C43, JohnsonSUPdf(x, m, σ, γ, δ)**, with `2.506628` for `√(2π)`. -/
theorem C43_johnsonSU (x m s g d : Nat) (X : ℝ) (h : ObsIs env e x X) :
    Evaluates T (.johnsonSU x m s g d) env e
      (env.val d / (env.val s * 2.506628 * Real.sqrt (1 + ((X - env.val m) / env.val s) ^ 2)) *
        Real.exp (-(env.val g + env.val d * Real.log ((X - env.val m) / env.val s +
          Real.sqrt (1 + ((X - env.val m) / env.val s) ^ 2))) ^ 2 / 2)) := by
  refine evaluates_of T _ env e _ [X] trivial (by simp [BasicCall.leaf]) (by simp [BasicCall.leaf])
    storable_real (allSome_one env e h) ?_
  show some (johnsonValue X (env.val m) (env.val s) (env.val g) (env.val d)) = _
  unfold johnsonValue
  real_ops
  push_cast
  rw [show (X - env.val m) / env.val s * ((X - env.val m) / env.val s) =
    ((X - env.val m) / env.val s) ^ 2 by ring]
  congr 2
  · congr 2
    norm_num
  · congr 1
    ring

/-- **C43, NovosibirskPdf(x, m, σ, t)** with `|t| ≥ 10⁻⁷` where the logarithm's argument exceeds
`10⁻⁷`: `exp(-½ (log²(1 + Λ t (x-m)/σ)/t² + t²))` with `Λ = sinh(t √ln 4)/(t √ln 4)`. -/
theorem C43_novosibirsk (x m s t : Nat) (X : ℝ) (h : ObsIs env e x X)
    (ht : (1 : ℝ) / 10000000 ≤ |env.val t|)
    (hq : (1 : ℝ) / 10000000 < 1 + env.val t * ((X - env.val m) / env.val s *
      (Real.sinh (env.val t * Real.sqrt (Real.log 4)) / (env.val t * Real.sqrt (Real.log 4))))) :
    Evaluates T (.novosibirsk x m s t) env e
      (Real.exp (-(1 / 2) * (Real.log (1 + env.val t * ((X - env.val m) / env.val s *
        (Real.sinh (env.val t * Real.sqrt (Real.log 4)) / (env.val t * Real.sqrt (Real.log 4))))) ^ 2
          / env.val t ^ 2 + env.val t ^ 2))) := by
  refine evaluates_of T _ env e _ [X] trivial (by simp [BasicCall.leaf]) (by simp [BasicCall.leaf])
    storable_real (allSome_one env e h) ?_
  show some (novosibirskValue X (env.val m) (env.val s) (env.val t)) = _
  unfold novosibirskValue
  real_ops
  push_cast
  rw [if_neg (by simpa using ht), if_pos hq]
  congr 2
  ring

/-- **C43, NovosibirskPdf** with `|t| < 10⁻⁷`: a Gaussian. -/
theorem C43_novosibirsk_small (x m s t : Nat) (X : ℝ) (h : ObsIs env e x X)
    (ht : |env.val t| < (1 : ℝ) / 10000000) :
    Evaluates T (.novosibirsk x m s t) env e
      (Real.exp (-(X - env.val m) ^ 2 / (2 * env.val s ^ 2))) := by
  refine evaluates_of T _ env e _ [X] trivial (by simp [BasicCall.leaf]) (by simp [BasicCall.leaf])
    storable_real (allSome_one env e h) ?_
  show some (novosibirskValue X (env.val m) (env.val s) (env.val t)) = _
  unfold novosibirskValue
  real_ops
  push_cast
  rw [if_pos ht]
  congr 2
  ring

/-- **C43, ScaledGaussianPdf(x, m, σ, b, ε)**: the mean is moved by `b`, the width scaled by `1+ε`. -/
theorem C43_scaledGaussian (x m s b ep : Nat) (X : ℝ) (h : ObsIs env e x X) :
    Evaluates T (.scaledGaussian x m s b ep) env e
      (Real.exp (-(X - (env.val m + env.val b)) ^ 2 / (2 * (env.val s * (1 + env.val ep)) ^ 2))) := by
  refine evaluates_of T _ env e _ [X] trivial (by simp [BasicCall.leaf]) (by simp [BasicCall.leaf])
    storable_real (allSome_one env e h) ?_
  show some (gaussianValue X (add (env.val m) (env.val b)) (mul (env.val s) (add (lit 1) (env.val ep))))
    = _
  unfold gaussianValue
  real_ops
  congr 2
  push_cast
  generalize env.val s * (1 + env.val ep) = w
  ring

/-- **C43 (the documented formula is violated).** The header gives `exp(-(x+b-m)²/(2(σ(1+ε))²))`; with
`m = 0`, `σ = 1`, `b = 1`, `ε = 0` the documented value at `x = 1` is `exp(-2)`, the code returns 1. -/
theorem C43_violation_scaledGaussian_sign (T : HistTables ℝ) :
    let env : Env ℝ := ⟨fun v => if v = 1 ∨ v = 2 then 1 else 0, fun _ => 0⟩
    let e : Evt ℝ := fun _ => some 1
    Evaluates T (.scaledGaussian 0 0 1 2 3) env e 1 ∧
      Real.exp (-((1 : ℝ) + env.val 2 - env.val 0) ^ 2 / (2 * (env.val 1 * (1 + env.val 3)) ^ 2)) ≠ 1 := by
  intro env e
  constructor
  · have h := C43_scaledGaussian T env e 0 0 1 2 3 1 rfl
    simpa [env] using h
  · simp [env]

/-- **C43, StepPdf(x, x₀, Up)**: with `Up = 1` one above the threshold, otherwise one below. -/
theorem C43_step (x x0 : Nat) (up : Int) (X : ℝ) (h : ObsIs env e x X) :
    Evaluates T (.step x x0 up) env e
      (if up = 1 then (if env.val x0 < X then 1 else 0) else (if env.val x0 < X then 0 else 1)) := by
  refine evaluates_of T _ env e _ [X] trivial (by simp [BasicCall.leaf]) (by simp [BasicCall.leaf])
    storable_real (allSome_one env e h) ?_
  show some (if toInt (ofInt up : ℝ) = 1 then
      (if FpMath.lt (env.val x0) X then (lit 1 : ℝ) else lit 0)
      else (if FpMath.lt (env.val x0) X then lit 0 else lit 1)) = _
  rw [exact_real]
  real_ops
  push_cast
  rfl

/-- **C43, TrigThresholdPdf(x, t, b, a, upper)**: with `d` the scaled distance from the threshold
(towards smaller `x` for an upper threshold), 1 for `d > 1/2` and otherwise
`a + (1-a) sin(π d)`, with `3.14159265` for `π`. -/
theorem C43_trigThreshold (x t b a : Nat) (upper : Bool) (X : ℝ) (h : ObsIs env e x X) :
    Evaluates T (.trigThreshold x t b a upper) env e
      (let d := env.val b * (if upper then env.val t - X else X - env.val t)
       if 1 / 2 < d then 1 else env.val a + (1 - env.val a) * Real.sin (d * 3.14159265)) := by
  cases upper
  · refine evaluates_of T _ env e _ [X] trivial (by simp [BasicCall.leaf]) (by simp [BasicCall.leaf])
      storable_real (allSome_one env e h) ?_
    show some (threshCalc (mul (env.val b) (sub X (env.val t))) (env.val a)) = _
    unfold threshCalc
    real_ops
    push_cast
    norm_num
  · refine evaluates_of T _ env e _ [X] trivial (by simp [BasicCall.leaf]) (by simp [BasicCall.leaf])
      storable_real (allSome_one env e h) ?_
    show some (threshCalc (mul (env.val b) (sub (env.val t) X)) (env.val a)) = _
    unfold threshCalc
    real_ops
    push_cast
    norm_num

/-- **C43, TrigThresholdPdf(x, y, t, b, a, m, upper)**: the same in `m - x - y`. -/
theorem C43_trigThreshold2 (x y t b a m : Nat) (upper : Bool) (X Y : ℝ) (hne : x ≠ y)
    (hx : ObsIs env e x X) (hy : ObsIs env e y Y) :
    Evaluates T (.trigThreshold2 x y t b a m upper) env e
      (let z := env.val m - X - Y
       let d := env.val b * (if upper then env.val t - z else z - env.val t)
       if 1 / 2 < d then 1 else env.val a + (1 - env.val a) * Real.sin (d * 3.14159265)) := by
  cases upper
  · refine evaluates_of T _ env e _ [X, Y] hne (by simp [BasicCall.leaf]) (by simp [BasicCall.leaf])
      storable_real (allSome_two env e hne hx hy) ?_
    show some (threshCalc (mul (env.val b) (sub (sub (sub (env.val m) X) Y) (env.val t)))
      (env.val a)) = _
    unfold threshCalc
    real_ops
    push_cast
    norm_num
  · refine evaluates_of T _ env e _ [X, Y] hne (by simp [BasicCall.leaf]) (by simp [BasicCall.leaf])
      storable_real (allSome_two env e hne hx hy) ?_
    show some (threshCalc (mul (env.val b) (sub (env.val t) (sub (sub (env.val m) X) Y)))
      (env.val a)) = _
    unfold threshCalc
    real_ops
    push_cast
    norm_num

/-- **C43, LandauPdf(x, μ, σ)**: for a positive width, one fixed shape moved by `μ` and scaled by
`σ`; zero otherwise.  (That the shape approximates the Landau integral is not modelled.) -/
theorem C43_landau_partial : ∃ L : ℝ → ℝ, ∀ (T : HistTables ℝ) (env : Env ℝ) (e : Evt ℝ)
    (x mu s : Nat) (X : ℝ), ObsIs env e x X →
    Evaluates T (.landau x mu s) env e
      (if 0 < env.val s then L ((X - env.val mu) / env.val s) / env.val s else 0) := by
  refine ⟨fun v => landauValue v 0 1, ?_⟩
  intro T env e x mu s X h
  refine evaluates_of T _ env e _ [X] trivial (by simp [BasicCall.leaf]) (by simp [BasicCall.leaf])
    storable_real (allSome_one env e h) ?_
  show some (if FpMath.le (env.val s) (lit 0) then lit 0
    else landauValue X (env.val mu) (env.val s)) = _
  simp only [real_le]
  rw [real_lit]
  push_cast
  by_cases hs : 0 < env.val s
  · rw [if_pos hs, if_neg (by linarith)]
    unfold landauValue
    simp only [real_sub, real_div, sub_zero, div_one]
    congr 1
    generalize (X - env.val mu) / env.val s = v
    split_ifs <;> simp [real_lit]
  · rw [if_neg hs, if_pos (by linarith)]

/-- **C43, KinLimitBWPdf(x, x₀, Γ)** with masses `M`, `m`: zero where the decay momentum at `x₀+M`
vanishes; otherwise the relativistic Breit-Wigner with the phase-space factor
`S = (p(x')/p(x₀'))³ (b(x')/b(x₀'))²`, where primes add `M`. -/
theorem C43_kinLimitBW (x x0 w : Nat) (M m X : ℝ) (h : ObsIs env e x X) :
    Evaluates T (.kinLimitBW x x0 w M m) env e
      (let lam : ℝ → ℝ := fun y => (y ^ 2 - (M - m) ^ 2) * (y ^ 2 - (M + m) ^ 2)
       let p : ℝ → ℝ := fun y => if 0 < y ∧ 0 < lam y then Real.sqrt (lam y / (2 * y)) else 0
       let b : ℝ → ℝ := fun y => 1 / Real.sqrt (1 + 1.6 ^ 2 * p y ^ 2)
       let S : ℝ := (p (X + M) / p (env.val x0 + M)) ^ 3 * (b (X + M) / b (env.val x0 + M)) ^ 2
       if p (env.val x0 + M) = 0 then 0
       else S * (env.val x0 + M) ^ 2 * env.val w ^ 2 /
         (((env.val x0 + M) ^ 2 - (X + M) ^ 2) ^ 2 + (env.val x0 + M) ^ 2 * (env.val w * S) ^ 2)) := by
  refine evaluates_of T _ env e _ [X] trivial (by simp [BasicCall.leaf]) (by simp [BasicCall.leaf])
    storable_real (allSome_one env e h) ?_
  show some (kinLimitValue X (env.val x0) (env.val w) M m) = _
  have hp : ∀ y : ℝ, getMomentum y m M =
      if 0 < y ∧ 0 < (y ^ 2 - (M - m) ^ 2) * (y ^ 2 - (M + m) ^ 2)
      then Real.sqrt ((y ^ 2 - (M - m) ^ 2) * (y ^ 2 - (M + m) ^ 2) / (2 * y)) else 0 := by
    intro y
    unfold getMomentum
    real_ops
    push_cast
    have hl : (y * y - m * m - M * M) * (y * y - m * m - M * M) - 4 * m * m * M * M =
      (y ^ 2 - (M - m) ^ 2) * (y ^ 2 - (M + m) ^ 2) := by ring
    rw [hl]
    by_cases hy : 0 < y
    · by_cases hl : 0 < (y ^ 2 - (M - m) ^ 2) * (y ^ 2 - (M + m) ^ 2)
      · rw [if_neg (by linarith), if_neg (by linarith), if_pos ⟨hy, hl⟩]
        congr 1
        ring
      · rw [if_neg (by linarith), if_pos (by linarith), if_neg (fun h => hl h.2)]
    · rw [if_pos (by linarith), if_neg (fun h => hy h.1)]
  have hpos : ∀ y : ℝ, 0 ≤ getMomentum y m M := by
    intro y
    rw [hp]
    split
    · exact Real.sqrt_nonneg _
    · exact le_rfl
  have hb : ∀ q : ℝ, bwFactor q = 1 / Real.sqrt (1 + 1.6 ^ 2 * q ^ 2) := by
    intro q
    unfold bwFactor
    real_ops
    push_cast
    congr 3
    norm_num
    ring
  unfold kinLimitValue
  real_ops
  push_cast
  simp only [hb, ← hp]
  congr 1
  by_cases h0 : getMomentum (env.val x0 + M) m M = 0
  · rw [if_pos h0, if_pos (by rw [h0])]
  · rw [if_neg h0, if_neg (by intro hle; exact h0 (le_antisymm hle (hpos _)))]
    generalize getMomentum (X + M) m M = a
    generalize getMomentum (env.val x0 + M) m M = d
    generalize (1 : ℝ) / Real.sqrt (1 + 1.6 ^ 2 * a ^ 2) / (1 / Real.sqrt (1 + 1.6 ^ 2 * d ^ 2)) = q
    generalize a / d = r
    congr 1
    · ring
    · ring

/-- `thetaprime` for equal masses is the helicity cosine, or a number that makes the PDF zero. -/
theorem thetaprime_real (X Y mD mK mh : ℝ) :
    let z := mD ^ 2 + mK ^ 2 + mh ^ 2 + mh ^ 2 - X - Y
    thetaprime X Y mD mK mh mh = if z < 0 then 0
      else if 0 < kallen z (mh ^ 2) (mh ^ 2) ∧ 0 < kallen (mD ^ 2) (mK ^ 2) z then helicityCos mD mK mh X Y z else -99 := by
  intro z
  unfold thetaprime
  simp only [Bool.or_eq_true]
  real_ops
  push_cast
  rw [show mD * mD + mK * mK + mh * mh + mh * mh - X - Y = z by simp only [z]; ring]
  generalize z = z
  rw [show (z - mh * mh + mh * mh) * (z - mh * mh + mh * mh) - 4 * z * mh * mh = kallen z (mh ^ 2) (mh ^ 2) by unfold kallen; ring,
    show (mD * mD - mK * mK - z) * (mD * mD - mK * mK - z) - 4 * z * mK * mK = kallen (mD ^ 2) (mK ^ 2) z by unfold kallen; ring]
  unfold helicityCos
  generalize kallen z (mh ^ 2) (mh ^ 2) = l1
  generalize kallen (mD ^ 2) (mK ^ 2) z = l2
  by_cases hz : z < 0
  · simp [hz]
  · rw [if_neg hz, if_neg hz]
    by_cases hp : 0 < l1 ∧ 0 < l2
    · have a1 : ¬(l1 < 0 ∨ l2 < 0) := by
        rintro (h | h)
        · exact absurd hp.1 (by linarith)
        · exact absurd hp.2 (by linarith)
      have a2 : ¬√l1 * √l2 = 0 := (mul_pos (Real.sqrt_pos.2 hp.1) (Real.sqrt_pos.2 hp.2)).ne'
      rw [if_neg a1, if_neg a2, if_pos hp]
    · rw [if_neg hp]
      have a3 : √l1 * √l2 = 0 := by
        rw [not_and_or, not_lt, not_lt] at hp
        rcases hp with h | h
        · rw [Real.sqrt_eq_zero_of_nonpos h, zero_mul]
        · rw [Real.sqrt_eq_zero_of_nonpos h, mul_zero]
      rw [if_pos a3]
      split <;> rfl

/-- **C43, SquareDalitzEffPdf(m12, m13, c0 ... c7)**: zero outside the Dalitz plot or where the helicity
cosine `th` or the third squared mass `z` leave their ranges, otherwise a polynomial in `z` and `th` with each
coefficient in its place. -/
theorem C43_squareDalitz (x y c0 c1 c2 c3 c4 c5 c6 c7 : Nat) (X Y : ℝ) (hne : x ≠ y)
    (hx : ObsIs env e x X) (hy : ObsIs env e y Y) :
    Evaluates T (.squareDalitz x y c0 c1 c2 c3 c4 c5 c6 c7) env e
      (let mD : ℝ := 1.86483
       let mK : ℝ := 0.497611
       let mh : ℝ := 0.13957
       let z := mD ^ 2 + mK ^ 2 + mh ^ 2 + mh ^ 2 - X - Y
       let th := helicityCos mD mK mh X Y z
       if inDalitz X Y mD mK mh mh = true ∧ 0 < kallen z (mh ^ 2) (mh ^ 2) ∧ 0 < kallen (mD ^ 2) (mK ^ 2) z
           ∧ -1 ≤ th ∧ th ≤ 1 ∧ 0 ≤ z ∧ z ≤ 2 then
         env.val c0 * z ^ 2 + env.val c1 * z + env.val c2 * z * th ^ 2 + env.val c3 * th ^ 2 +
           env.val c4 * th + env.val c5 + env.val c6 * z ^ 4 + env.val c7 * z ^ 3
       else 0) := by
  refine evaluates_of T _ env e _ [X, Y] hne (by simp [BasicCall.leaf]) (by simp [BasicCall.leaf])
    storable_real (allSome_two env e hne hx hy) ?_
  show some (squareDalitzValue X Y (env.val c0) (env.val c1) (env.val c2) (env.val c3) (env.val c4)
    (env.val c5) (env.val c6) (env.val c7)) = _
  unfold squareDalitzValue
  have e1 : (lit (186483/100000) : ℝ) = 1.86483 := by rw [real_lit]; norm_num
  have e2 : (lit (497611/1000000) : ℝ) = 0.497611 := by rw [real_lit]; norm_num
  have e3 : (lit (13957/100000) : ℝ) = 0.13957 := by rw [real_lit]; norm_num
  simp only [e1, e2, e3]
  have ht := thetaprime_real X Y 1.86483 0.497611 0.13957
  dsimp only at ht
  rw [ht]
  simp only [Bool.or_eq_true]
  real_ops
  push_cast
  rw [show (1.86483 : ℝ) * 1.86483 + 0.497611 * 0.497611 + 0.13957 * 0.13957 + 0.13957 * 0.13957 - X - Y
    = 1.86483 ^ 2 + 0.497611 ^ 2 + 0.13957 ^ 2 + 0.13957 ^ 2 - X - Y by ring]
  generalize (1.86483 : ℝ) ^ 2 + 0.497611 ^ 2 + 0.13957 ^ 2 + 0.13957 ^ 2 - X - Y = z
  generalize helicityCos _ _ _ _ _ _ = th
  generalize kallen z _ _ = l1
  generalize kallen _ _ z = l2
  cases hd : inDalitz X Y (1.86483 : ℝ) 0.497611 0.13957 0.13957
  · simp
  · simp only [Bool.not_true, Bool.false_eq_true, if_false, true_and]
    congr 1
    by_cases h2 : z < 0 ∨ 2 < z
    · have a1 : ¬(0 < l1 ∧ 0 < l2 ∧ -1 ≤ th ∧ th ≤ 1 ∧ 0 ≤ z ∧ z ≤ 2) := by
        rintro ⟨-, -, -, -, a, b⟩; rcases h2 with h | h <;> linarith
      rw [if_neg a1, if_pos h2]
      exact ite_self _
    · rw [if_neg h2]
      push Not at h2
      rw [if_neg h2.1.not_gt]
      by_cases hl : 0 < l1 ∧ 0 < l2
      · rw [if_pos hl]
        by_cases h1 : 1 < th ∨ th < -1
        · have a1 : ¬(0 < l1 ∧ 0 < l2 ∧ -1 ≤ th ∧ th ≤ 1 ∧ 0 ≤ z ∧ z ≤ 2) := by
            rintro ⟨-, -, a, b, -⟩; rcases h1 with h | h <;> linarith
          rw [if_pos h1, if_neg a1]
        · rw [if_neg h1]
          push Not at h1
          rw [if_pos (⟨hl.1, hl.2, h1.2, h1.1, h2.1, h2.2⟩ : 0 < l1 ∧ 0 < l2 ∧ -1 ≤ th ∧ th ≤ 1 ∧ 0 ≤ z ∧ z ≤ 2)]
          ring
      · have a1 : ¬(0 < l1 ∧ 0 < l2 ∧ -1 ≤ th ∧ th ≤ 1 ∧ 0 ≤ z ∧ z ≤ 2) := by
          rintro ⟨a, b, -⟩; exact hl ⟨a, b⟩
        rw [if_neg hl, if_neg a1, if_pos (by norm_num)]

/-- **C43, ExpGausPdf(x, m, σ, τ), partial**: the documented closed form, with `1.4142135623` for
`√2`.  Missing: the header also calls `τ` a lifetime, but in this form it is a decay rate. -/
theorem C43_expGaus_partial (x m s t : Nat) (X : ℝ) (h : ObsIs env e x X) :
    Evaluates T (.expGaus x m s t) env e
      (env.val t / 2 * Real.exp (env.val t / 2 * (2 * env.val m + env.val t * env.val s ^ 2 - 2 * X)) *
        FpMath.erfc ((env.val m + env.val t * env.val s ^ 2 - X) / (env.val s * 1.4142135623))) := by
  refine evaluates_of T _ env e _ [X] trivial (by simp [BasicCall.leaf]) (by simp [BasicCall.leaf])
    storable_real (allSome_one env e h) ?_
  show some (expGausValue X (env.val m) (env.val s) (env.val t)) = _
  unfold expGausValue
  real_ops
  push_cast
  congr 2
  · congr 1
    · ring
    · congr 1; ring
  · congr 2
    · ring
    · norm_num

/-- **C43 (violated by the code).** VoigtianPdf(x, m, σ, Γ) documents its third argument as the
Gaussian resolution and its fourth as the Breit-Wigner width.  With no resolution (`σ = 0`) the
result should be a Breit-Wigner of width `Γ`; the code returns a Gaussian of width `Γ`, which is not
proportional to one.  With no Breit-Wigner width (`Γ = 0`) it returns a Breit-Wigner of width `σ`. -/
theorem C43_violation_voigtian_swapped :
    (∀ (T : HistTables ℝ) (env : Env ℝ) (e : Evt ℝ) (x m s w : Nat) (X : ℝ), ObsIs env e x X →
      env.val s = 0 → env.val w ≠ 0 →
      Evaluates T (.voigtian x m s w) env e
        (Real.exp (-(X - env.val m) ^ 2 / (2 * env.val w ^ 2)))) ∧
    (∀ (T : HistTables ℝ) (env : Env ℝ) (e : Evt ℝ) (x m s w : Nat) (X : ℝ), ObsIs env e x X →
      env.val s ≠ 0 → env.val w = 0 →
      Evaluates T (.voigtian x m s w) env e (1 / ((X - env.val m) ^ 2 + env.val s ^ 2 / 4))) ∧
    ¬ ∃ C : ℝ, ∀ X : ℝ, Real.exp (-(X - 0) ^ 2 / (2 * 1 ^ 2)) = C * (1 / ((X - 0) ^ 2 + 1 ^ 2 / 4)) := by
  refine ⟨?_, ?_, ?_⟩
  · intro T env e x m s w X h hs hw
    refine evaluates_of T _ env e _ [X] trivial (by simp [BasicCall.leaf]) (by simp [BasicCall.leaf])
      storable_real (allSome_one env e h) ?_
    show some (voigtianValue X (env.val m) (env.val s) (env.val w)) = _
    unfold voigtianValue
    simp only [Bool.and_eq_true]
    real_ops
    push_cast
    rw [hs, if_neg (fun h => hw h.1.symm), if_neg (fun h => hw h.symm), if_pos rfl]
    congr 2
    ring
  · intro T env e x m s w X h hs hw
    refine evaluates_of T _ env e _ [X] trivial (by simp [BasicCall.leaf]) (by simp [BasicCall.leaf])
      storable_real (allSome_one env e h) ?_
    show some (voigtianValue X (env.val m) (env.val s) (env.val w)) = _
    unfold voigtianValue
    simp only [Bool.and_eq_true]
    real_ops
    push_cast
    rw [hw, if_neg (fun h => hs h.2.symm), if_pos rfl]
    congr 2
    ring
  · rintro ⟨C, hC⟩
    have h0 := hC 0
    have h1 := hC 4
    norm_num at h0 h1
    have hC4 : C = 1 / 4 := by linarith
    rw [hC4] at h1
    have hlt : Real.exp (-8) < 1 / 4 * (4 / 65) := by
      have h2 : (2 : ℝ) ^ 8 < Real.exp 1 ^ 8 := by
        have := Real.add_one_lt_exp (one_ne_zero (α := ℝ))
        gcongr
        linarith
      rw [← Real.exp_nat_mul] at h2
      norm_num at h2
      rw [Real.exp_neg, inv_lt_comm₀ (Real.exp_pos _) (by norm_num)]
      norm_num
      linarith
    linarith

/-- **C43, VoigtianPdf, partial**: with the roles swapped, i.e. called as VoigtianPdf(x, m, Γ, σ) with
both nonzero, the value is `c/√π · Re w(c (x-m) + i c Γ/2)` with `c = 1/(√2 σ)`, up to the digits of
the constants.  Missing: the documented order. -/
theorem C43_voigtian_partial (x m g s : Nat) (X : ℝ) (h : ObsIs env e x X) (hg : env.val g ≠ 0)
    (hs : env.val s ≠ 0) :
    Evaluates T (.voigtian x m g s) env e
      (let c := 0.707106781187 / env.val s
       c * 0.5641895835477563 *
         (FpMath.faddeeva (c * (X - env.val m)) (1 / 2 * c * env.val g)).1) := by
  refine evaluates_of T _ env e _ [X] trivial (by simp [BasicCall.leaf]) (by simp [BasicCall.leaf])
    storable_real (allSome_one env e h) ?_
  show some (voigtianValue X (env.val m) (env.val g) (env.val s)) = _
  unfold voigtianValue
  simp only [Bool.and_eq_true]
  real_ops
  push_cast
  rw [if_neg (fun h => hs h.1.symm), if_neg (fun h => hs h.symm), if_neg (fun h => hg h.symm)]
  norm_num

/-- The hypotheses of the C43 theorems are met: a Gaussian of mean 1 and width 2 stored in the arrays
evaluates to `exp(-1/2)` at `x = 3`. -/
example : ∃ (B : Bufs ℝ) (c : Cursor) (env : Env ℝ) (e : Evt ℝ), ObsIs env e 0 3 ∧
    OwnData B c (((BasicCall.gaussian 0 0 1).node (F := ℝ) ⟨Unit, fun _ _ _ _ => none, fun _ _ => none,
      fun _ _ => false, fun _ _ _ => none, Unit, fun _ _ _ _ => none⟩ T 0 1).params.map env.val) []
      [0] 1 ∧ Evaluates T (.gaussian 0 0 1) env e (Real.exp (-(1 / 2))) := by
  refine ⟨⟨[ofNat 2, 1, 2], [ofNat 0], [ofNat 1, ofInt 0], [lit 1, 1]⟩, Cursor.zero,
    ⟨fun v => (v : ℝ) + 1, fun _ => 0⟩, fun _ => some 3, rfl, ?_, ?_⟩
  · rw [node_eq]
    refine ⟨?_, ?_, ?_, ?_⟩
    · intro k hk
      have : k = 0 ∨ k = 1 ∨ k = 2 := by simp [BasicCall.params] at hk; omega
      rcases this with rfl | rfl | rfl <;> simp [Cursor.zero, BasicCall.params] <;> norm_num
    · intro k hk
      have : k = 0 := by simp at hk; omega
      subst this; rfl
    · intro k hk
      have : k = 0 ∨ k = 1 := by simp at hk; omega
      rcases this with rfl | rfl <;> rfl
    · intro k hk
      have : k = 0 ∨ k = 1 := by simp at hk; omega
      rcases this with rfl | rfl <;> rfl
  · have := C43_gaussian T ⟨fun v => (v : ℝ) + 1, fun _ => 0⟩ (fun _ => some 3) 0 0 1 3 rfl
    norm_num at this
    norm_num
    exact this

end GooFit
