import Verif.Props.SmearedDalitz
/-!
# C111: how far the three-Gaussian resolution can be from the exact folded rate

The device function replaces the sine and the cosine of `x t / τ` by their first two terms.  These theorems bound the
effect for every `x`; `k = 1 / τ + s` is the rate at which the signal falls with the selection bias `s`.
-/
set_option autoImplicit false
namespace GooFit
open Spec MeasureTheory Set

/-- The rate with the whole sine and cosine. -/
noncomputable def fullRate (c1 c2 c3 c4 τ x y s t : ℝ) : ℝ :=
  c1 * (Real.exp (-(1 / τ + s) * t) * Real.cosh (y * (t / τ)))
    + c2 * (Real.exp (-(1 / τ + s) * t) * Real.cos (x * (t / τ)))
    + (-2 * c3) * (Real.exp (-(1 / τ + s) * t) * Real.sinh (y * (t / τ)))
    + (-2 * c4) * (Real.exp (-(1 / τ + s) * t) * Real.sin (x * (t / τ)))

theorem fullRate_eq (A B : ℂ) (τ x y s : ℝ) :
    (fun t => Real.exp (-s * t) * decayRate A B τ x y t)
      = fullRate (Complex.normSq A + Complex.normSq B) (Complex.normSq A - Complex.normSq B)
        (A * starRingEnd ℂ B).re (A * starRingEnd ℂ B).im τ x y s := by
  funext t
  rw [← C62_rate]
  unfold truthResolution fullRate
  dsimp only
  have e : Real.exp (-(1 / τ + s) * t) = Real.exp (-s * t) * Real.exp (-(t / τ)) := by
    rw [← Real.exp_add]; congr 1; ring
  rw [e]
  ring

theorem fullRate_int {σ : ℝ} (hσ : 0 < σ) (c1 c2 c3 c4 T τ x y s : ℝ) :
    IntegrableOn (fun t => fullRate c1 c2 c3 c4 τ x y s t * normalDensity σ (T - t)) (Ioi 0) := by
  obtain ⟨h1, _, h3, _⟩ := trunc_fold_int hσ T τ x y s
  have h2 := fold_int_bdd hσ T (1 / τ + s) (fun t => Real.cos (x * (t / τ))) (by fun_prop)
    (fun t => Real.abs_cos_le_one _)
  have h4 := fold_int_bdd hσ T (1 / τ + s) (fun t => Real.sin (x * (t / τ))) (by fun_prop)
    (fun t => Real.abs_sin_le_one _)
  refine ((((h1.const_mul c1).add (h2.const_mul c2)).add (h3.const_mul (-2 * c3))).add
    (h4.const_mul (-2 * c4))).congr (Filter.Eventually.of_forall fun t => ?_)
  simp only [Pi.add_apply, fullRate]
  ring

/-- A power of the time against the damping. -/
theorem pow_damped {k t : ℝ} (hk : 0 < k) (ht : 0 ≤ t) (X : ℝ) (n : ℕ) :
    Real.exp (-k * t) * ((X * t) ^ n / n.factorial) ≤ (|X| / k) ^ n := by
  have h := Real.pow_div_factorial_le_exp (k * t) (by positivity) n
  have hx : (X * t) ^ n ≤ (|X| / k) ^ n * (k * t) ^ n := by
    rw [← mul_pow]
    have : |X| / k * (k * t) = |X * t| := by rw [abs_mul, abs_of_nonneg ht]; field_simp
    rw [this, ← abs_pow]
    exact le_abs_self _
  have hf : (0 : ℝ) < n.factorial := by positivity
  calc Real.exp (-k * t) * ((X * t) ^ n / n.factorial)
      ≤ Real.exp (-k * t) * ((|X| / k) ^ n * (k * t) ^ n / n.factorial) := by gcongr
    _ = (|X| / k) ^ n * (Real.exp (-k * t) * ((k * t) ^ n / n.factorial)) := by ring
    _ ≤ (|X| / k) ^ n * (Real.exp (-k * t) * Real.exp (k * t)) := by gcongr
    _ = (|X| / k) ^ n := by rw [← Real.exp_add]; simp

theorem rate_close {k t : ℝ} (c1 c2 c3 c4 τ x y s : ℝ) (hkd : k = 1 / τ + s) (hk : 0 < k) (ht : 0 ≤ t) :
    |truncRate c1 c2 c3 c4 τ x y s t - fullRate c1 c2 c3 c4 τ x y s t|
      ≤ |c2| * (|x / τ| / k) ^ 4 + 2 * |c4| * (|x / τ| / k) ^ 5 := by
  have e : truncRate c1 c2 c3 c4 τ x y s t - fullRate c1 c2 c3 c4 τ x y s t
      = c2 * (Real.exp (-k * t) * (1 - (x * (t / τ)) ^ 2 / 2 - Real.cos (x * (t / τ))))
        + (-2 * c4) * (Real.exp (-k * t) * (x * (t / τ) - (x * (t / τ)) ^ 3 / 6 - Real.sin (x * (t / τ)))) := by
    unfold truncRate fullRate
    rw [hkd]
    ring
  have hz : x * (t / τ) = x / τ * t := by ring
  have p4 := pow_damped hk ht (x / τ) 4
  have p5 := pow_damped hk ht (|x / τ|) 5
  rw [abs_abs] at p5
  have b1 := cos_remainder (x / τ * t)
  have b2 := sin_remainder (x / τ * t)
  rw [abs_mul (x / τ), abs_of_nonneg ht] at b2
  have hE := (Real.exp_pos (-k * t)).le
  have q1 : |Real.exp (-k * t) * (1 - (x / τ * t) ^ 2 / 2 - Real.cos (x / τ * t))| ≤ (|x / τ| / k) ^ 4 := by
    rw [abs_mul, abs_of_nonneg hE]
    refine (mul_le_mul_of_nonneg_left b1 hE).trans ?_
    norm_num [Nat.factorial] at p4 ⊢
    exact p4
  have q2 : |Real.exp (-k * t) * (x / τ * t - (x / τ * t) ^ 3 / 6 - Real.sin (x / τ * t))| ≤ (|x / τ| / k) ^ 5 := by
    rw [abs_mul, abs_of_nonneg hE]
    refine (mul_le_mul_of_nonneg_left b2 hE).trans ?_
    norm_num [Nat.factorial] at p5 ⊢
    exact p5
  rw [e, hz]
  refine (abs_add_le _ _).trans ?_
  rw [abs_mul c2, abs_mul (-2 * c4), abs_mul (-2) c4, abs_neg, abs_two]
  gcongr

theorem smear_close {σ k : ℝ} (hσ : 0 < σ) (c1 c2 c3 c4 T τ x y s : ℝ) (hkd : k = 1 / τ + s) (hk : 0 < k) :
    |smear (truncRate c1 c2 c3 c4 τ x y s) (normalDensity σ) T - smear (fullRate c1 c2 c3 c4 τ x y s) (normalDensity σ) T|
      ≤ |c2| * (|x / τ| / k) ^ 4 + 2 * |c4| * (|x / τ| / k) ^ 5 := by
  set E := |c2| * (|x / τ| / k) ^ 4 + 2 * |c4| * (|x / τ| / k) ^ 5 with hE
  have hE0 : 0 ≤ E := by positivity
  have hn : ∀ u, 0 ≤ normalDensity σ u := fun u => by unfold normalDensity; positivity
  have i0 : Integrable (fun t => normalDensity σ (T - t)) := (normal_integrable hσ).comp_sub_left T
  unfold smear
  rw [← integral_sub (trunc_fold hσ c1 c2 c3 c4 T τ x y s).1 (fullRate_int hσ c1 c2 c3 c4 T τ x y s), ← Real.norm_eq_abs]
  calc ‖∫ t in Ioi 0, (truncRate c1 c2 c3 c4 τ x y s t * normalDensity σ (T - t)
          - fullRate c1 c2 c3 c4 τ x y s t * normalDensity σ (T - t))‖
      ≤ ∫ t in Ioi 0, E * normalDensity σ (T - t) := by
        refine norm_integral_le_of_norm_le (i0.integrableOn.const_mul E) ?_
        refine (ae_restrict_iff' measurableSet_Ioi).2 (Filter.Eventually.of_forall fun t ht => ?_)
        rw [← sub_mul, norm_mul, Real.norm_of_nonneg (hn _), Real.norm_eq_abs]
        exact mul_le_mul_of_nonneg_right (rate_close c1 c2 c3 c4 τ x y s hkd hk (le_of_lt ht)) (hn _)
    _ ≤ ∫ t, E * normalDensity σ (T - t) :=
        setIntegral_le_integral (i0.const_mul E) (Filter.Eventually.of_forall fun t => mul_nonneg hE0 (hn _))
    _ = E := by
        rw [integral_const_mul, integral_sub_left_eq_self (fun u => normalDensity σ u) volume T, normal_total hσ, mul_one]

/-- **C111 (value).**  For every mass difference `x`, every measured time and every set of positive widths the value
differs from the exactly folded rate by at most the fourth and fifth power of `x / (τ k)` times the difference of the two
squared amplitudes and twice the imaginary part of their product, times the sum of the sizes of the fractions. -/
theorem C111_value (p : ThreeGaussPars) (A B : ℂ) (τ T x y σ k : ℝ) (hkd : k = 1 / τ + p.selbias) (hk : 0 < k)
    (h1 : 0 < p.coreScale * p.commonWidth * σ) (h2 : 0 < p.tailScale * p.commonWidth2 * σ)
    (h3 : 0 < p.outlScale * p.commonWidth2 * σ) :
    |threeGaussResolution p (Complex.normSq A + Complex.normSq B) (Complex.normSq A - Complex.normSq B)
        (A * starRingEnd ℂ B).re (A * starRingEnd ℂ B).im τ T x y σ
      - smear (fun t => Real.exp (-p.selbias * t) * decayRate A B τ x y t)
          (threeNormals p.coreFraction p.tailFraction (1 - p.coreFraction - p.tailFraction)
            ((p.coreBias + p.commonBias) * σ) ((p.tailBias + p.commonBias2) * σ)
            ((p.outlBias + p.commonBias2) * σ) (p.coreScale * p.commonWidth * σ)
            (p.tailScale * p.commonWidth2 * σ) (p.outlScale * p.commonWidth2 * σ)) T|
      ≤ (|p.coreFraction| + |p.tailFraction| + |1 - p.coreFraction - p.tailFraction|)
        * (|Complex.normSq A - Complex.normSq B| * (|x / τ| / k) ^ 4
          + 2 * |(A * starRingEnd ℂ B).im| * (|x / τ| / k) ^ 5) := by
  rw [threeGauss_eq p _ _ _ _ _ _ _ _ _ h1 h2 h3, fullRate_eq]
  generalize Complex.normSq A + Complex.normSq B = c1
  generalize Complex.normSq A - Complex.normSq B = c2
  generalize (A * starRingEnd ℂ B).re = c3
  generalize (A * starRingEnd ℂ B).im = c4
  have b1 := smear_close h1 c1 c2 c3 c4 (T - (p.coreBias + p.commonBias) * σ) τ x y p.selbias hkd hk
  have b2 := smear_close h2 c1 c2 c3 c4 (T - (p.tailBias + p.commonBias2) * σ) τ x y p.selbias hkd hk
  have b3 := smear_close h3 c1 c2 c3 c4 (T - (p.outlBias + p.commonBias2) * σ) τ x y p.selbias hkd hk
  have i1 := (fullRate_int h1 c1 c2 c3 c4 (T - (p.coreBias + p.commonBias) * σ) τ x y p.selbias).const_mul p.coreFraction
  have i2 := (fullRate_int h2 c1 c2 c3 c4 (T - (p.tailBias + p.commonBias2) * σ) τ x y p.selbias).const_mul p.tailFraction
  have i3 := (fullRate_int h3 c1 c2 c3 c4 (T - (p.outlBias + p.commonBias2) * σ) τ x y p.selbias).const_mul
    (1 - p.coreFraction - p.tailFraction)
  have e12 := integral_add i1 i2
  have e123 := integral_add (i1.add i2) i3
  simp only [Pi.add_apply, integral_const_mul] at e12 e123
  have hs : smear (fullRate c1 c2 c3 c4 τ x y p.selbias)
      (threeNormals p.coreFraction p.tailFraction (1 - p.coreFraction - p.tailFraction)
        ((p.coreBias + p.commonBias) * σ) ((p.tailBias + p.commonBias2) * σ)
        ((p.outlBias + p.commonBias2) * σ) (p.coreScale * p.commonWidth * σ)
        (p.tailScale * p.commonWidth2 * σ) (p.outlScale * p.commonWidth2 * σ)) T
      = p.coreFraction * smear (fullRate c1 c2 c3 c4 τ x y p.selbias)
          (normalDensity (p.coreScale * p.commonWidth * σ)) (T - (p.coreBias + p.commonBias) * σ)
        + p.tailFraction * smear (fullRate c1 c2 c3 c4 τ x y p.selbias)
          (normalDensity (p.tailScale * p.commonWidth2 * σ)) (T - (p.tailBias + p.commonBias2) * σ)
        + (1 - p.coreFraction - p.tailFraction) * smear (fullRate c1 c2 c3 c4 τ x y p.selbias)
          (normalDensity (p.outlScale * p.commonWidth2 * σ)) (T - (p.outlBias + p.commonBias2) * σ) := by
    unfold smear
    rw [← e12, ← e123]
    congr 1
    funext t
    unfold threeNormals
    rw [show T - (p.coreBias + p.commonBias) * σ - t = T - t - (p.coreBias + p.commonBias) * σ by ring,
      show T - (p.tailBias + p.commonBias2) * σ - t = T - t - (p.tailBias + p.commonBias2) * σ by ring,
      show T - (p.outlBias + p.commonBias2) * σ - t = T - t - (p.outlBias + p.commonBias2) * σ by ring]
    ring
  rw [hs]
  generalize |c2| * (|x / τ| / k) ^ 4 + 2 * |c4| * (|x / τ| / k) ^ 5 = E at *
  generalize smear (truncRate c1 c2 c3 c4 τ x y p.selbias)
    (normalDensity (p.coreScale * p.commonWidth * σ)) (T - (p.coreBias + p.commonBias) * σ) = a1 at *
  generalize smear (fullRate c1 c2 c3 c4 τ x y p.selbias)
    (normalDensity (p.coreScale * p.commonWidth * σ)) (T - (p.coreBias + p.commonBias) * σ) = d1 at *
  generalize smear (truncRate c1 c2 c3 c4 τ x y p.selbias)
    (normalDensity (p.tailScale * p.commonWidth2 * σ)) (T - (p.tailBias + p.commonBias2) * σ) = a2 at *
  generalize smear (fullRate c1 c2 c3 c4 τ x y p.selbias)
    (normalDensity (p.tailScale * p.commonWidth2 * σ)) (T - (p.tailBias + p.commonBias2) * σ) = d2 at *
  generalize smear (truncRate c1 c2 c3 c4 τ x y p.selbias)
    (normalDensity (p.outlScale * p.commonWidth2 * σ)) (T - (p.outlBias + p.commonBias2) * σ) = a3 at *
  generalize smear (fullRate c1 c2 c3 c4 τ x y p.selbias)
    (normalDensity (p.outlScale * p.commonWidth2 * σ)) (T - (p.outlBias + p.commonBias2) * σ) = d3 at *
  rw [show p.coreFraction * a1 + p.tailFraction * a2 + (1 - p.coreFraction - p.tailFraction) * a3
      - (p.coreFraction * d1 + p.tailFraction * d2 + (1 - p.coreFraction - p.tailFraction) * d3)
    = p.coreFraction * (a1 - d1) + p.tailFraction * (a2 - d2)
      + (1 - p.coreFraction - p.tailFraction) * (a3 - d3) by ring]
  refine (abs_add_three _ _ _).trans ?_
  rw [abs_mul, abs_mul, abs_mul, add_mul, add_mul]
  gcongr

/-- Charm mixing: `x = 0.004`. -/
example (A B : ℂ) (T : ℝ) := C111_value ⟨4 / 5, 1 / 10, 0, 1, 0, 2, 1 / 100, 3, 1 / 10, 0, 1, 0, 1⟩ A B (41 / 100) T
  (4 / 1000) (6 / 1000) (1 / 20) _ rfl (by norm_num) (by norm_num) (by norm_num) (by norm_num)

/-- **C111 (normalisation).**  For every mass difference the reported normalisation exceeds the integral of the value over
all measured times by exactly this amount, of fourth order in `x`. -/
theorem C111_norm (p : ThreeGaussPars) (I1 I2 I3 I4 τ x y σ k : ℝ) (hkd : k = 1 / τ + p.selbias)
    (h1 : 0 < p.coreScale * p.commonWidth * σ) (h2 : 0 < p.tailScale * p.commonWidth2 * σ)
    (h3 : 0 < p.outlScale * p.commonWidth2 * σ) (hy : |y / τ| < k) :
    threeGaussNormalization p.selbias I1 I2 I3 I4 τ x y
        - ∫ T, threeGaussResolution p (I1 + I2) (I1 - I2) I3 I4 τ T x y σ
      = (x / τ) ^ 4 / (k ^ 4 * (k ^ 2 + (x / τ) ^ 2)) * ((I1 - I2) * k - 2 * I4 * (x / τ)) := by
  have hk : 0 < k := (abs_nonneg _).trans_lt hy
  obtain ⟨ha, hb⟩ := abs_lt.1 hy
  have hm : 0 < 1 / τ - y * (1 / τ) + p.selbias := by
    have : y * (1 / τ) = y / τ := by ring
    linarith
  have hp : 0 < 1 / τ + y * (1 / τ) + p.selbias := by
    have : y * (1 / τ) = y / τ := by ring
    linarith
  rw [threeGauss_total p _ _ _ _ _ _ _ _ h1 h2 h3 hm hp]
  unfold threeGaussNormalization
  dsimp only
  rw [(threeGauss_denoms τ x y p.selbias).1, (threeGauss_denoms τ x y p.selbias).2]
  have eA : p.selbias + 1 / τ = k := by rw [hkd]; ring
  have eK : 1 / τ + p.selbias = k := hkd.symm
  have eY : y * (1 / τ) = y / τ := by ring
  have em : 1 / τ - y * (1 / τ) + p.selbias = k - y / τ := by rw [hkd]; ring
  have ep : 1 / τ + y * (1 / τ) + p.selbias = k + y / τ := by rw [hkd]; ring
  rw [em] at hm
  rw [ep] at hp
  rw [em, ep, eA, eK]
  generalize y / τ = Y at *
  generalize x / τ = X at *
  have hd : 0 < k ^ 2 + X ^ 2 := by positivity
  have q1 : k / ((k - Y) * (k + Y)) = 1 / 2 * (1 / (k - Y)) + 1 / 2 * (1 / (k + Y)) := by field_simp; ring
  have q2 : Y / ((k - Y) * (k + Y)) = 1 / 2 * (1 / (k - Y)) - 1 / 2 * (1 / (k + Y)) := by field_simp; ring
  have q3 : k / (k ^ 2 + X ^ 2) - (1 / k - X ^ 2 / k ^ 3) = X ^ 4 / (k ^ 4 * (k ^ 2 + X ^ 2)) * k := by field_simp; ring
  have q4 : X / (k ^ 2 + X ^ 2) - (X / k ^ 2 - X ^ 3 / k ^ 4) = X ^ 4 / (k ^ 4 * (k ^ 2 + X ^ 2)) * X := by
    field_simp; ring
  rw [q1, q2]
  linear_combination (I1 - I2) * q3 - 2 * I4 * q4

example (I1 I2 I3 I4 : ℝ) := C111_norm ⟨4 / 5, 1 / 10, 0, 1, 0, 2, 1 / 100, 3, 1 / 10, 0, 1, 0, 1⟩ I1 I2 I3 I4 (41 / 100)
  (4 / 1000) (6 / 1000) (1 / 20) _ rfl (by norm_num) (by norm_num) (by norm_num) (by norm_num [abs_lt])

/-- **C111 (value of the amplitude).**  The same for a rightly tagged event of the time-dependent amplitude. -/
theorem C111_amplitude (r : ThreeGaussPars) (inside : ℝ → ℝ → Bool) (p : TdPars) (rs : List TdTerm)
    (eff : ℝ → ℝ → ℝ) (T σ a b k n : ℝ) (q : ℤ) (hq : q = 1 ∨ q = -1 ∨ q = 0) (hin : inside a b = true)
    (hkd : k = 1 / p.tau + r.selbias) (hk : 0 < k)
    (h1 : 0 < r.coreScale * r.commonWidth * σ) (h2 : 0 < r.tailScale * r.commonWidth2 * σ)
    (h3 : 0 < r.outlScale * r.commonWidth2 * σ) :
    |tdValue (threeGaussResolution r) inside p rs eff [T, σ, a, b, n, 0, q]
      - eff a b * smear (fun t => Real.exp (-r.selbias * t)
            * decayRate (decayAmplitude rs a b) (decayAmplitude rs b a) p.tau (p.x0 + q * p.deltax)
              (p.y0 + q * p.deltay) t)
          (threeNormals r.coreFraction r.tailFraction (1 - r.coreFraction - r.tailFraction)
            ((r.coreBias + r.commonBias) * σ) ((r.tailBias + r.commonBias2) * σ)
            ((r.outlBias + r.commonBias2) * σ) (r.coreScale * r.commonWidth * σ)
            (r.tailScale * r.commonWidth2 * σ) (r.outlScale * r.commonWidth2 * σ)) T|
      ≤ |eff a b| * ((|r.coreFraction| + |r.tailFraction| + |1 - r.coreFraction - r.tailFraction|)
        * (|Complex.normSq (decayAmplitude rs a b) - Complex.normSq (decayAmplitude rs b a)|
            * (|(p.x0 + q * p.deltax) / p.tau| / k) ^ 4
          + 2 * |(decayAmplitude rs a b * starRingEnd ℂ (decayAmplitude rs b a)).im|
            * (|(p.x0 + q * p.deltax) / p.tau| / k) ^ 5)) := by
  rw [tdValue_any _ _ _ _ _ _ _ _ _ _ _ hq hin, mul_comm _ (eff a b), ← mul_sub, abs_mul]
  exact mul_le_mul_of_nonneg_left (C111_value r _ _ _ _ _ _ _ k hkd hk h1 h2 h3) (abs_nonneg _)

example (rs : List TdTerm) := C111_amplitude ⟨4 / 5, 1 / 10, 0, 1, 0, 2, 1 / 100, 3, 1 / 10, 0, 1, 0, 1⟩
  (fun a b => decide (a + b ≤ 2)) ⟨41 / 100, 4 / 1000, 6 / 1000, 1 / 1000, 1 / 1000⟩ rs (fun a b => a * b) 1 (1 / 20) 1
  (1 / 2) _ 0 (-1) (by norm_num) (by norm_num) rfl (by norm_num) (by norm_num) (by norm_num) (by norm_num)

/-- The excess of `C111_norm` as a combination of the four integrals. -/
noncomputable def normExcess (s : ℝ) : NormFn := fun I1 I2 _ I4 τ x _ =>
  (x / τ) ^ 4 / ((1 / τ + s) ^ 4 * ((1 / τ + s) ^ 2 + (x / τ) ^ 2)) * ((I1 - I2) * (1 / τ + s) - 2 * I4 * (x / τ))

theorem normExcess_combines (s τ x y : ℝ) : Combines (normExcess s) τ x y := by
  have h : ∀ d k X I1 I2 I3 I4 : ℝ, d * ((I1 - I2) * k - 2 * I4 * X)
      = d * k * I1 + -(d * k) * I2 + 0 * I3 + -(2 * d * X) * I4 := fun _ _ _ _ _ _ _ => by ring
  exact ⟨_, _, _, _, fun I1 I2 I3 I4 => h ((x / τ) ^ 4 / ((1 / τ + s) ^ 4 * ((1 / τ + s) ^ 2 + (x / τ) ^ 2)))
    (1 / τ + s) (x / τ) I1 I2 I3 I4⟩

theorem normExcess_le (s τ x y k X : ℝ) (A B : ℂ) (hkd : k = 1 / τ + s) (hk : 0 < k) (hX : |x / τ| ≤ X) :
    |normExcess s (Complex.normSq A) (Complex.normSq B) (A * starRingEnd ℂ B).re (A * starRingEnd ℂ B).im τ x y|
      ≤ (X / k) ^ 4 * ((k + X) / k ^ 2) * (Complex.normSq A + Complex.normSq B) := by
  have hX0 : 0 ≤ X := (abs_nonneg _).trans hX
  have hI : 2 * |(A * starRingEnd ℂ B).im| ≤ Complex.normSq A + Complex.normSq B := by
    have h := Complex.abs_im_le_norm (A * starRingEnd ℂ B)
    rw [norm_mul, RCLike.norm_conj] at h
    rw [Complex.normSq_eq_norm_sq, Complex.normSq_eq_norm_sq]
    nlinarith [sq_nonneg (‖A‖ - ‖B‖)]
  have hA := Complex.normSq_nonneg A
  have hB := Complex.normSq_nonneg B
  unfold normExcess
  rw [← hkd]
  generalize Complex.normSq A = a at *
  generalize Complex.normSq B = b at *
  generalize (A * starRingEnd ℂ B).im = i at *
  generalize x / τ = z at *
  have hd : 0 < k ^ 4 * (k ^ 2 + z ^ 2) := by positivity
  have h1 : |(a - b) * k - 2 * i * z| ≤ (k + X) * (a + b) := by
    have e1 : |(a - b) * k| ≤ (a + b) * k := by
      rw [abs_mul, abs_of_pos hk]
      refine mul_le_mul_of_nonneg_right ?_ hk.le
      rw [abs_le]; constructor <;> linarith
    have e2 : |2 * i * z| ≤ (a + b) * X := by
      rw [abs_mul, abs_mul, abs_two]
      exact mul_le_mul hI hX (abs_nonneg _) (by positivity)
    have := abs_sub ((a - b) * k) (2 * i * z)
    linarith
  have h2 : |z ^ 4 / (k ^ 4 * (k ^ 2 + z ^ 2))| ≤ X ^ 4 / (k ^ 4 * k ^ 2) := by
    rw [abs_div, abs_of_pos hd, abs_pow]
    have : k ^ 2 ≤ k ^ 2 + z ^ 2 := by nlinarith [sq_nonneg z]
    gcongr
  rw [abs_mul]
  calc _ ≤ X ^ 4 / (k ^ 4 * k ^ 2) * ((k + X) * (a + b)) := by gcongr
    _ = _ := by field_simp

section
variable {P : Type}

/-- **C111 (normalisation of the amplitude).**  Without wrong tags, what `normalize` returns differs from the size of a bin
times the sum over the grid of the time integrals of the values, averaged over the tags, by at most
`(X / k)⁴ (k + X) / k²` times the integral of the two squared amplitudes, with `X` a bound of `|x / τ|` for both tags. -/
theorem C111_amplitude_norm (r : ThreeGaussPars) (m : TdModel P) (c : Nat → ℂ) (p : P) (v : TdPars) (f σ n k X : ℝ)
    (w : TdMistag) (hw : w.value = 0) (hf0 : 0 ≤ f) (hf1 : f ≤ 1) (heff : ∀ a b, 0 ≤ m.eff a b)
    (h12 : m.range.lo12 ≤ m.range.hi12) (h13 : m.range.lo13 ≤ m.range.hi13)
    (hkd : k = 1 / v.tau + r.selbias)
    (h1 : 0 < r.coreScale * r.commonWidth * σ) (h2 : 0 < r.tailScale * r.commonWidth2 * σ)
    (h3 : 0 < r.outlScale * r.commonWidth2 * σ)
    (hy1 : |(v.y0 + v.deltay) / v.tau| < k) (hy2 : |(v.y0 - v.deltay) / v.tau| < k)
    (hx1 : |(v.x0 + v.deltax) / v.tau| ≤ X) (hx2 : |(v.x0 - v.deltax) / v.tau| ≤ X) :
    |tdNormalize (threeGaussNormalization r.selbias) v f w m.range (tdCoherent m.n c (m.compute p))
      - (∑ g ∈ Finset.range (m.range.nb12 * m.range.nb13),
          (f * (∫ T, tdValue (threeGaussResolution r) m.inside v ((List.range m.n).map fun i => (c i, m.resonance p i))
              m.eff [T, σ, (m.range.point g).1, (m.range.point g).2, n, 0, 1])
            + (1 - f) * ∫ T, tdValue (threeGaussResolution r) m.inside v
              ((List.range m.n).map fun i => (c i, m.resonance p i))
              m.eff [T, σ, (m.range.point g).1, (m.range.point g).2, n, 0, -1]))
        * ((m.range.hi12 - m.range.lo12) / m.range.nb12 * ((m.range.hi13 - m.range.lo13) / m.range.nb13))|
      ≤ (X / k) ^ 4 * ((k + X) / k ^ 2)
        * (∑ g ∈ Finset.range (m.range.nb12 * m.range.nb13),
          if m.inside (m.range.point g).1 (m.range.point g).2 then
            m.eff (m.range.point g).1 (m.range.point g).2
              * (Complex.normSq (tdAmplitude m c p (m.range.point g).1 (m.range.point g).2)
                + Complex.normSq (tdAmplitude m c p (m.range.point g).2 (m.range.point g).1)) else 0)
        * ((m.range.hi12 - m.range.lo12) / m.range.nb12 * ((m.range.hi13 - m.range.lo13) / m.range.nb13)) := by
  have hk : 0 < k := (abs_nonneg _).trans_lt hy1
  have hN : ∀ τ x y, Combines (threeGaussNormalization r.selbias) τ x y :=
    fun τ x y => combines_of _ _ _ _ fun _ _ _ _ => rfl
  have hD := normExcess_combines r.selbias
  have hc : ∀ τ x y, Combines (fun I1 I2 I3 I4 τ x y => threeGaussNormalization r.selbias I1 I2 I3 I4 τ x y
      - normExcess r.selbias I1 I2 I3 I4 τ x y) τ x y := by
    intro τ x y
    obtain ⟨a1, a2, a3, a4, ha⟩ := hN τ x y
    obtain ⟨b1, b2, b3, b4, hb⟩ := hD τ x y
    exact ⟨a1 - b1, a2 - b2, a3 - b3, a4 - b4, fun I1 I2 I3 I4 => by dsimp only; rw [ha, hb]; ring⟩
  rw [← norm_any (threeGaussResolution r) (fun I1 I2 I3 I4 τ x y => threeGaussNormalization r.selbias I1 I2 I3 I4 τ x y
      - normExcess r.selbias I1 I2 I3 I4 τ x y) m c p v f σ n w hw (hc _ _ _) (hc _ _ _)
    (fun I1 I2 I3 I4 => by
      have := C111_norm r I1 I2 I3 I4 v.tau (v.x0 + v.deltax) (v.y0 + v.deltay) σ k hkd h1 h2 h3 hy1
      unfold normExcess; rw [← hkd]; linarith)
    (fun I1 I2 I3 I4 => by
      have := C111_norm r I1 I2 I3 I4 v.tau (v.x0 - v.deltax) (v.y0 - v.deltay) σ k hkd h1 h2 h3 hy2
      unfold normExcess; rw [← hkd]; linarith)]
  rw [tdNormalize_right _ _ _ _ _ hw, tdNormalize_right _ _ _ _ _ hw, ← sub_mul, abs_mul]
  have hcell : 0 ≤ (m.range.hi12 - m.range.lo12) / m.range.nb12 * ((m.range.hi13 - m.range.lo13) / m.range.nb13) := by
    have := sub_nonneg.2 h12
    have := sub_nonneg.2 h13
    positivity
  rw [abs_of_nonneg hcell]
  refine mul_le_mul_of_nonneg_right ?_ hcell
  obtain ⟨g1, g2, g3, g4⟩ := coherent_grid m c p
  rw [g1, g2, g3, g4]
  beta_reduce
  rw [show ∀ a b d e : ℝ, f * a + (1 - f) * b - (f * (a - d) + (1 - f) * (b - e)) = f * d + (1 - f) * e from
    fun _ _ _ _ => by ring]
  rw [combines_sum (hD _ _ _), combines_sum (hD _ _ _), Finset.mul_sum, Finset.mul_sum, ← Finset.sum_add_distrib,
    Finset.mul_sum]
  refine (Finset.abs_sum_le_sum_abs _ _).trans (Finset.sum_le_sum fun g _ => ?_)
  have he : 0 ≤ cellEff m g := by
    unfold cellEff
    split
    · exact heff _ _
    · exact le_rfl
  have b1 := normExcess_le r.selbias v.tau (v.x0 + v.deltax) (v.y0 + v.deltay) k X
    (tdAmplitude m c p (m.range.point g).1 (m.range.point g).2) (tdAmplitude m c p (m.range.point g).2 (m.range.point g).1)
    hkd hk hx1
  have b2 := normExcess_le r.selbias v.tau (v.x0 - v.deltax) (v.y0 - v.deltay) k X
    (tdAmplitude m c p (m.range.point g).1 (m.range.point g).2) (tdAmplitude m c p (m.range.point g).2 (m.range.point g).1)
    hkd hk hx2
  have hr : (if m.inside (m.range.point g).1 (m.range.point g).2 then
            m.eff (m.range.point g).1 (m.range.point g).2
              * (Complex.normSq (tdAmplitude m c p (m.range.point g).1 (m.range.point g).2)
                + Complex.normSq (tdAmplitude m c p (m.range.point g).2 (m.range.point g).1)) else 0)
      = cellEff m g * (Complex.normSq (tdAmplitude m c p (m.range.point g).1 (m.range.point g).2)
                + Complex.normSq (tdAmplitude m c p (m.range.point g).2 (m.range.point g).1)) := by
    unfold cellEff
    split <;> simp
  rw [hr]
  have h1f : 0 ≤ 1 - f := by linarith
  refine (abs_add_le _ _).trans ?_
  rw [abs_mul f, abs_mul (1 - f), abs_mul (cellEff m g), abs_mul (cellEff m g), abs_of_nonneg hf0, abs_of_nonneg h1f,
    abs_of_nonneg he]
  have c1 := mul_le_mul_of_nonneg_left (mul_le_mul_of_nonneg_left b1 he) hf0
  have c2 := mul_le_mul_of_nonneg_left (mul_le_mul_of_nonneg_left b2 he) h1f
  refine (add_le_add c1 c2).trans_eq ?_
  ring

end

example := C111_amplitude_norm (P := Unit) ⟨4 / 5, 1 / 10, 0, 1, 0, 2, 1 / 100, 3, 1 / 10, 0, 1, 0, 1⟩
  ⟨2, fun _ i a b => ⟨i + a, b⟩, fun a b => decide (a + b ≤ 2), fun a _ => a ^ 2, ⟨0, 2, 7, 0, 2, 5⟩⟩
  (fun i => ⟨1, i⟩) () ⟨41 / 100, 4 / 1000, 6 / 1000, 1 / 1000, 1 / 1000⟩ (1 / 3) (1 / 20) 0 _ (1 / 50) ⟨0, 0, 1⟩ rfl
  (by norm_num) (by norm_num) (fun a _ => sq_nonneg a) (by norm_num) (by norm_num) rfl (by norm_num) (by norm_num)
  (by norm_num) (by norm_num [abs_lt]) (by norm_num [abs_lt]) (by norm_num [abs_le]) (by norm_num [abs_le])

end GooFit
