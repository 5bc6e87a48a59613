import Verif.Props.TimeDalitz
import Verif.Props.GaussRes
import Verif.Props.ExtRes
/-!
# C110: the time-dependent three-body amplitude measured with a finite time resolution

`tdValue R` is the value of `Amp3Body_TD` with the resolution `R` for an event with the seven observables time, its
error, the two squared masses, number, probability of a wrong tag and tag; `tdNormalize N` is what its `normalize`
returns with the normalisation `N` of that resolution.
-/
set_option autoImplicit false
namespace GooFit
open Spec MeasureTheory Set

/-- The value of a rightly tagged event inside the Dalitz plot, for any resolution. -/
theorem tdValue_any (R : ResFn) (inside : ℝ → ℝ → Bool) (p : TdPars) (rs : List TdTerm) (eff : ℝ → ℝ → ℝ)
    (T σ a b k : ℝ) (q : ℤ) (hq : q = 1 ∨ q = -1 ∨ q = 0) (hin : inside a b = true) :
    tdValue R inside p rs eff [T, σ, a, b, k, 0, q]
      = R (Complex.normSq (decayAmplitude rs a b) + Complex.normSq (decayAmplitude rs b a))
          (Complex.normSq (decayAmplitude rs a b) - Complex.normSq (decayAmplitude rs b a))
          (decayAmplitude rs a b * starRingEnd ℂ (decayAmplitude rs b a)).re
          (decayAmplitude rs a b * starRingEnd ℂ (decayAmplitude rs b a)).im p.tau T (p.x0 + q * p.deltax)
          (p.y0 + q * p.deltay) σ * eff a b := by
  unfold tdValue
  simp only [List.getD_cons_zero, List.getD_cons_succ, List.length_cons, List.length_nil, hin, Bool.not_true]
  norm_num only
  simp only [Bool.false_eq_true, if_true, if_false, truncInt_cast, tdMixing_eq p q hq, tdWaveA_eq, tdWaveB_eq, gt_iff_lt, lt_irrefl]

/-- **C110 (value, three Gaussians), partial.**  For a rightly tagged event inside the Dalitz plot, measured at time
`T` with error `σ`, the value is the efficiency times the rate of a meson whose amplitudes are those at the point and
at the reversed point, times the exponential selection bias, folded with the sum of the three Gaussians.  Missing: a
mass difference `x ≠ 0` (`C63_violation_norm`) and wrong tags (`C64_violation_mistag`). -/
theorem C110_three_value_partial (r : ThreeGaussPars) (inside : ℝ → ℝ → Bool) (p : TdPars) (rs : List TdTerm)
    (eff : ℝ → ℝ → ℝ) (T σ a b k : ℝ) (q : ℤ) (hq : q = 1 ∨ q = -1 ∨ q = 0) (hin : inside a b = true)
    (hx : p.x0 + q * p.deltax = 0)
    (h1 : 0 < r.coreScale * r.commonWidth * σ) (h2 : 0 < r.tailScale * r.commonWidth2 * σ)
    (h3 : 0 < r.outlScale * r.commonWidth2 * σ) :
    tdValue (threeGaussResolution r) inside p rs eff [T, σ, a, b, k, 0, q]
      = eff a b * smear (fun t => Real.exp (-r.selbias * t)
            * decayRate (decayAmplitude rs a b) (decayAmplitude rs b a) p.tau 0 (p.y0 + q * p.deltay) t)
          (threeNormals r.coreFraction r.tailFraction (1 - r.coreFraction - r.tailFraction)
            ((r.coreBias + r.commonBias) * σ) ((r.tailBias + r.commonBias2) * σ)
            ((r.outlBias + r.commonBias2) * σ) (r.coreScale * r.commonWidth * σ)
            (r.tailScale * r.commonWidth2 * σ) (r.outlScale * r.commonWidth2 * σ)) T := by
  rw [tdValue_any _ _ _ _ _ _ _ _ _ _ _ hq hin, hx, C63_resolution_partial r _ _ _ _ _ _ h1 h2 h3, mul_comm]

example (rs : List TdTerm) := C110_three_value_partial ⟨4 / 5, 1 / 10, 0, 1, 0, 2, 1 / 100, 3, 1 / 10, 0, 1, 0, 1⟩
  (fun a b => decide (a + b ≤ 2)) ⟨41 / 100, 0, 6 / 1000, 0, 1 / 1000⟩ rs (fun a b => a * b) 1 (1 / 20) 1 (1 / 2) 0 (-1)
  (by norm_num) (by norm_num) (by norm_num) (by norm_num) (by norm_num) (by norm_num)

/-- **C110 (value, `ThreeGaussResolutionExt`), partial.**  The same with the efficiency in time that changes its slope
at the threshold. -/
theorem C110_ext_value_partial (r : ExtPars) (inside : ℝ → ℝ → Bool) (p : TdPars) (rs : List TdTerm)
    (eff : ℝ → ℝ → ℝ) (T σ a b k : ℝ) (q : ℤ) (hq : q = 1 ∨ q = -1 ∨ q = 0) (hin : inside a b = true)
    (hx : p.x0 + q * p.deltax = 0) (ht : 0 ≤ r.Tthreshold)
    (h1 : 0 < r.coreScale * σ) (h2 : 0 < r.tailScale * σ) (h3 : 0 < r.outlScale * σ) :
    tdValue (extResolution r) inside p rs eff [T, σ, a, b, k, 0, q]
      = eff a b * smear (fun t => twoSlopes r.constantC r.Tthreshold r.selbiasLow r.selbiasHigh t
            * decayRate (decayAmplitude rs a b) (decayAmplitude rs b a) p.tau 0 (p.y0 + q * p.deltay) t)
          (threeNormals r.coreFraction r.tailFraction (1 - r.coreFraction - r.tailFraction)
            (r.coreBias * σ) (r.tailBias * σ) (r.outlBias * σ)
            (r.coreScale * σ) (r.tailScale * σ) (r.outlScale * σ)) T := by
  rw [tdValue_any _ _ _ _ _ _ _ _ _ _ _ hq hin, hx, C76_resolution_partial r _ _ _ _ _ _ ht h1 h2 h3, mul_comm]

example (rs : List TdTerm) := C110_ext_value_partial ⟨4 / 5, 1 / 10, 0, 1, 0, 2, 1 / 100, 3, -2, 1 / 10, 1 / 5, 1⟩
  (fun a b => decide (a + b ≤ 2)) ⟨41 / 100, 1 / 100, 6 / 1000, 1 / 100, 1 / 1000⟩ rs (fun a b => a * b) 1 (1 / 20) 1
  (1 / 2) 0 (-1) (by norm_num) (by norm_num) (by norm_num) (by norm_num) (by norm_num) (by norm_num) (by norm_num)

section
variable {P : Type}

/-- A normalisation that is a fixed combination of the four integrals. -/
def Combines (N : NormFn) (τ x y : ℝ) : Prop := ∃ c1 c2 c3 c4 : ℝ, ∀ I1 I2 I3 I4 : ℝ,
  N I1 I2 I3 I4 τ x y = c1 * I1 + c2 * I2 + c3 * I3 + c4 * I4

theorem combines_of {N : NormFn} {τ x y : ℝ} (a b c d : ℝ)
    (h : ∀ I1 I2 I3 I4 : ℝ, N I1 I2 I3 I4 τ x y = a * (I1 + I2) + b * (I1 - I2) - 2 * c * I3 - 2 * d * I4) :
    Combines N τ x y :=
  ⟨a + b, a - b, -(2 * c), -(2 * d), fun I1 I2 I3 I4 => by rw [h]; ring⟩

theorem combines_sum {N : NormFn} {τ x y : ℝ} (h : Combines N τ x y) (n : Nat) (e I1 I2 I3 I4 : Nat → ℝ) :
    N (∑ g ∈ Finset.range n, e g * I1 g) (∑ g ∈ Finset.range n, e g * I2 g) (∑ g ∈ Finset.range n, e g * I3 g)
        (∑ g ∈ Finset.range n, e g * I4 g) τ x y
      = ∑ g ∈ Finset.range n, e g * N (I1 g) (I2 g) (I3 g) (I4 g) τ x y := by
  obtain ⟨c1, c2, c3, c4, hc⟩ := h
  simp only [hc, Finset.mul_sum, ← Finset.sum_add_distrib]
  refine Finset.sum_congr rfl fun g _ => ?_
  ring

/-- The efficiency at a point of the grid, zero outside the Dalitz plot. -/
noncomputable def cellEff (m : TdModel P) (g : Nat) : ℝ :=
  if m.inside (m.range.point g).1 (m.range.point g).2 then m.eff (m.range.point g).1 (m.range.point g).2 else 0

/-- What `normalize` returns when no tag is wrong. -/
theorem tdNormalize_right (N : NormFn) (v : TdPars) (f : ℝ) (w : TdMistag) (r : TdRange) (hw : w.value = 0) (t : Three) :
    tdNormalize N v f w r t = (f * N t.1.re t.2.2.re t.2.1.re t.2.1.im v.tau
      (v.x0 + v.deltax) (v.y0 + v.deltay) + (1 - f) * N t.1.re t.2.2.re t.2.1.re t.2.1.im v.tau (v.x0 - v.deltax)
      (v.y0 - v.deltay)) * ((r.hi12 - r.lo12) / r.nb12 * ((r.hi13 - r.lo13) / r.nb13)) := by
  unfold tdNormalize
  simp only [hw, mul_zero, sub_zero, mul_one, zero_mul, add_zero, ite_self]

/-- The four integrals as sums over the grid. -/
theorem coherent_grid (m : TdModel P) (c : Nat → ℂ) (p : P) :
    let A : Nat → ℂ := fun g => tdAmplitude m c p (m.range.point g).1 (m.range.point g).2
    let B : Nat → ℂ := fun g => tdAmplitude m c p (m.range.point g).2 (m.range.point g).1
    let t := tdCoherent m.n c (m.compute p)
    let n := m.range.nb12 * m.range.nb13
    t.1.re = ∑ g ∈ Finset.range n, cellEff m g * Complex.normSq (A g)
    ∧ t.2.2.re = ∑ g ∈ Finset.range n, cellEff m g * Complex.normSq (B g)
    ∧ t.2.1.re = ∑ g ∈ Finset.range n, cellEff m g * (A g * starRingEnd ℂ (B g)).re
    ∧ t.2.1.im = ∑ g ∈ Finset.range n, cellEff m g * (A g * starRingEnd ℂ (B g)).im := by
  intro A B t n
  have hg : ∀ F : ℝ → ℝ → ℂ, Spec.gridSum m F
      = ∑ g ∈ Finset.range (m.range.nb12 * m.range.nb13), (cellEff m g : ℂ)
        * F (m.range.point g).1 (m.range.point g).2 := by
    intro F
    unfold Spec.gridSum
    refine Finset.sum_congr rfl fun g _ => ?_
    unfold cellEff
    split <;> simp
  show (tdCoherent m.n c (m.compute p)).1.re = _ ∧ (tdCoherent m.n c (m.compute p)).2.2.re = _
    ∧ (tdCoherent m.n c (m.compute p)).2.1.re = _ ∧ (tdCoherent m.n c (m.compute p)).2.1.im = _
  rw [C64_coherent]
  dsimp only
  simp only [hg, Complex.re_sum, Complex.im_sum]
  refine ⟨?_, ?_, ?_, ?_⟩ <;> refine Finset.sum_congr rfl fun g _ => ?_
  · rw [Complex.re_ofReal_mul, Complex.mul_conj, Complex.ofReal_re]
  · rw [Complex.re_ofReal_mul, Complex.mul_conj, Complex.ofReal_re]
  · exact Complex.re_ofReal_mul _ _
  · exact Complex.im_ofReal_mul _ _

/-- The normalisation of `Amp3Body_TD` for any resolution whose own normalisation is the integral of its value over
all measured times. -/
theorem norm_any (R : ResFn) (N : NormFn) (m : TdModel P) (c : Nat → ℂ) (p : P) (v : TdPars) (f σ k : ℝ) (w : TdMistag)
    (hw : w.value = 0)
    (hc1 : Combines N v.tau (v.x0 + v.deltax) (v.y0 + v.deltay))
    (hc2 : Combines N v.tau (v.x0 - v.deltax) (v.y0 - v.deltay))
    (h1 : ∀ I1 I2 I3 I4 : ℝ, ∫ T, R (I1 + I2) (I1 - I2) I3 I4 v.tau T (v.x0 + v.deltax) (v.y0 + v.deltay) σ
      = N I1 I2 I3 I4 v.tau (v.x0 + v.deltax) (v.y0 + v.deltay))
    (h2 : ∀ I1 I2 I3 I4 : ℝ, ∫ T, R (I1 + I2) (I1 - I2) I3 I4 v.tau T (v.x0 - v.deltax) (v.y0 - v.deltay) σ
      = N I1 I2 I3 I4 v.tau (v.x0 - v.deltax) (v.y0 - v.deltay)) :
    tdNormalize N v f w m.range (tdCoherent m.n c (m.compute p))
      = (∑ g ∈ Finset.range (m.range.nb12 * m.range.nb13),
          (f * (∫ T, tdValue R m.inside v ((List.range m.n).map fun i => (c i, m.resonance p i)) m.eff
              [T, σ, (m.range.point g).1, (m.range.point g).2, k, 0, 1])
            + (1 - f) * ∫ T, tdValue R m.inside v ((List.range m.n).map fun i => (c i, m.resonance p i))
              m.eff [T, σ, (m.range.point g).1, (m.range.point g).2, k, 0, -1]))
        * ((m.range.hi12 - m.range.lo12) / m.range.nb12 * ((m.range.hi13 - m.range.lo13) / m.range.nb13)) := by
  rw [tdNormalize_right N v f w m.range hw]
  congr 1
  obtain ⟨g1, g2, g3, g4⟩ := coherent_grid m c p
  rw [g1, g2, g3, g4, combines_sum hc1, combines_sum hc2, Finset.mul_sum, Finset.mul_sum, ← Finset.sum_add_distrib]
  refine Finset.sum_congr rfl fun g _ => ?_
  cases hin : m.inside (m.range.point g).1 (m.range.point g).2 with
  | false =>
    have he : cellEff m g = 0 := by unfold cellEff; simp [hin]
    simp only [C64_outside _ _ _ _ _ _ _ _ _ _ _ _ hin, he]
    simp
  | true =>
    have he : cellEff m g = m.eff (m.range.point g).1 (m.range.point g).2 := by unfold cellEff; simp [hin]
    have t1 := fun T => tdValue_any R m.inside v ((List.range m.n).map fun i => (c i, m.resonance p i)) m.eff T σ
      (m.range.point g).1 (m.range.point g).2 k 1 (by norm_num) hin
    have t2 := fun T => tdValue_any R m.inside v ((List.range m.n).map fun i => (c i, m.resonance p i)) m.eff T σ
      (m.range.point g).1 (m.range.point g).2 k (-1) (by norm_num) hin
    push_cast at t1 t2
    simp only [neg_one_mul, one_mul, ← sub_eq_add_neg, decayAmplitude_range] at t1 t2
    simp only [t1, t2, integral_mul_const, h1, h2, he]
    ring

/-- **C110 (normalisation, three Gaussians), partial.**  What `normalize` returns is the size of a bin times the sum
over the grid of the integral of the value over all measured times, averaged over the two tags with the given
fraction; it does not depend on the error `σ` of the time.  Missing: `x ≠ 0`, wrong tags. -/
theorem C110_three_norm_partial (r : ThreeGaussPars) (m : TdModel P) (c : Nat → ℂ) (p : P) (v : TdPars) (f σ k : ℝ)
    (w : TdMistag) (hw : w.value = 0) (hx : v.x0 = 0) (hdx : v.deltax = 0)
    (h1 : 0 < r.coreScale * r.commonWidth * σ) (h2 : 0 < r.tailScale * r.commonWidth2 * σ)
    (h3 : 0 < r.outlScale * r.commonWidth2 * σ)
    (hy1 : |(v.y0 + v.deltay) / v.tau| < 1 / v.tau + r.selbias)
    (hy2 : |(v.y0 - v.deltay) / v.tau| < 1 / v.tau + r.selbias) :
    tdNormalize (threeGaussNormalization r.selbias) v f w m.range (tdCoherent m.n c (m.compute p))
      = (∑ g ∈ Finset.range (m.range.nb12 * m.range.nb13),
          (f * (∫ T, tdValue (threeGaussResolution r) m.inside v ((List.range m.n).map fun i => (c i, m.resonance p i))
              m.eff [T, σ, (m.range.point g).1, (m.range.point g).2, k, 0, 1])
            + (1 - f) * ∫ T, tdValue (threeGaussResolution r) m.inside v
              ((List.range m.n).map fun i => (c i, m.resonance p i))
              m.eff [T, σ, (m.range.point g).1, (m.range.point g).2, k, 0, -1]))
        * ((m.range.hi12 - m.range.lo12) / m.range.nb12 * ((m.range.hi13 - m.range.lo13) / m.range.nb13)) := by
  have hc : ∀ τ x y, Combines (threeGaussNormalization r.selbias) τ x y := by
    exact fun τ x y => combines_of _ _ _ _ fun _ _ _ _ => rfl
  refine norm_any (threeGaussResolution r) _ m c p v f σ k w hw (hc _ _ _) (hc _ _ _) ?_ ?_
  · intro I1 I2 I3 I4
    rw [hx, hdx, add_zero]
    exact C63_norm_partial r I1 I2 I3 I4 v.tau _ σ h1 h2 h3 hy1
  · intro I1 I2 I3 I4
    rw [hx, hdx, sub_zero]
    exact C63_norm_partial r I1 I2 I3 I4 v.tau _ σ h1 h2 h3 hy2

example := C110_three_norm_partial (P := Unit) ⟨4 / 5, 1 / 10, 0, 1, 0, 2, 1 / 100, 3, 1 / 10, 0, 1, 0, 1⟩
  ⟨2, fun _ i a b => ⟨i + a, b⟩, fun a b => decide (a + b ≤ 2), fun a b => a * b, ⟨0, 2, 7, 0, 2, 5⟩⟩
  (fun i => ⟨1, i⟩) () ⟨41 / 100, 0, 6 / 1000, 0, 1 / 1000⟩ (1 / 3) (1 / 20) 0 ⟨0, 0, 1⟩ rfl rfl rfl (by norm_num)
  (by norm_num) (by norm_num) (by norm_num [abs_lt]) (by norm_num [abs_lt])

/-- **C110 (normalisation, `ThreeGaussResolutionExt`), partial.**  The same for the resolution with the efficiency that
changes its slope at a threshold; the rate has to fall faster than the efficiency rises on both sides of it.  Missing:
`x ≠ 0`, wrong tags. -/
theorem C110_ext_norm_partial (r : ExtPars) (m : TdModel P) (c : Nat → ℂ) (p : P) (v : TdPars) (f σ k : ℝ)
    (w : TdMistag) (hw : w.value = 0) (hx : v.x0 = 0) (hdx : v.deltax = 0) (ht : 0 ≤ r.Tthreshold)
    (h1 : 0 < r.coreScale * σ) (h2 : 0 < r.tailScale * σ) (h3 : 0 < r.outlScale * σ)
    (hy1 : |(v.y0 + v.deltay) / v.tau| < 1 / v.tau + r.selbiasHigh)
    (hy2 : |(v.y0 - v.deltay) / v.tau| < 1 / v.tau + r.selbiasHigh)
    (hl1 : |(v.y0 + v.deltay) / v.tau| < 1 / v.tau + r.selbiasLow)
    (hl2 : |(v.y0 - v.deltay) / v.tau| < 1 / v.tau + r.selbiasLow) :
    tdNormalize (extNormalization r) v f w m.range (tdCoherent m.n c (m.compute p))
      = (∑ g ∈ Finset.range (m.range.nb12 * m.range.nb13),
          (f * (∫ T, tdValue (extResolution r) m.inside v ((List.range m.n).map fun i => (c i, m.resonance p i))
              m.eff [T, σ, (m.range.point g).1, (m.range.point g).2, k, 0, 1])
            + (1 - f) * ∫ T, tdValue (extResolution r) m.inside v
              ((List.range m.n).map fun i => (c i, m.resonance p i))
              m.eff [T, σ, (m.range.point g).1, (m.range.point g).2, k, 0, -1]))
        * ((m.range.hi12 - m.range.lo12) / m.range.nb12 * ((m.range.hi13 - m.range.lo13) / m.range.nb13)) := by
  have hc : ∀ τ x y, Combines (extNormalization r) τ x y := by
    exact fun τ x y => combines_of _ _ _ _ fun _ _ _ _ => rfl
  refine norm_any (extResolution r) _ m c p v f σ k w hw (hc _ _ _) (hc _ _ _) ?_ ?_
  · intro I1 I2 I3 I4
    rw [hx, hdx, add_zero]
    obtain ⟨a, b⟩ := abs_lt.1 hl1
    exact C76_norm_partial r I1 I2 I3 I4 v.tau _ σ ht h1 h2 h3 hy1 (by linarith) (by linarith) (by linarith)
  · intro I1 I2 I3 I4
    rw [hx, hdx, sub_zero]
    obtain ⟨a, b⟩ := abs_lt.1 hl2
    exact C76_norm_partial r I1 I2 I3 I4 v.tau _ σ ht h1 h2 h3 hy2 (by linarith) (by linarith) (by linarith)

example := C110_ext_norm_partial (P := Unit) ⟨4 / 5, 1 / 10, 0, 1, 0, 2, 1 / 100, 3, -2, 1 / 10, 1 / 5, 1⟩
  ⟨2, fun _ i a b => ⟨i + a, b⟩, fun a b => decide (a + b ≤ 2), fun a b => a * b, ⟨0, 2, 7, 0, 2, 5⟩⟩
  (fun i => ⟨1, i⟩) () ⟨41 / 100, 0, 6 / 1000, 0, 1 / 1000⟩ (1 / 3) (1 / 20) 0 ⟨0, 0, 1⟩ rfl rfl rfl (by norm_num)
  (by norm_num) (by norm_num) (by norm_num) (by norm_num [abs_lt]) (by norm_num [abs_lt]) (by norm_num [abs_lt])
  (by norm_num [abs_lt])

end

/-- **C110, violation (normalisation with `x ≠ 0`).**  On a plot of one bin with one resonance that is `1` where
`m12 < m13` and `0` elsewhere, rightly tagged, the normalisation is larger than the integral of the value over all
measured times for every `x ≠ 0`, every fraction of D0 and every three-Gaussian resolution: the value uses the cut series
of the cosine and sine of `x t`. -/
theorem C110_violation_mixing (r : ThreeGaussPars) (τ x y f σ k : ℝ) (hτ : τ ≠ 0) (hx : x ≠ 0)
    (h1 : 0 < r.coreScale * r.commonWidth * σ) (h2 : 0 < r.tailScale * r.commonWidth2 * σ)
    (h3 : 0 < r.outlScale * r.commonWidth2 * σ) (hy : |y / τ| < 1 / τ + r.selbias) :
    ∫ T, tdValue (threeGaussResolution r) (fun _ _ => true) ⟨τ, x, y, 0, 0⟩ [(1, fun a b => if a < b then 1 else 0)]
        (fun _ _ => 1) [T, σ, 1 / 2, 3 / 2, k, 0, 1]
      < tdNormalize (threeGaussNormalization r.selbias) ⟨τ, x, y, 0, 0⟩ f ⟨0, 0, 1⟩ ⟨0, 1, 1, 1, 2, 1⟩
        (tdCoherent 1 (fun _ => 1) (TdModel.compute (P := Unit)
          ⟨1, fun _ _ a b => if a < b then 1 else 0, fun _ _ => true, fun _ _ => 1, ⟨0, 1, 1, 1, 2, 1⟩⟩ ())) := by
  have h := C64_coherent (P := Unit)
    ⟨1, fun _ _ a b => if a < b then 1 else 0, fun _ _ => true, fun _ _ => 1, ⟨0, 1, 1, 1, 2, 1⟩⟩ (fun _ => 1) ()
  have hg : ∀ F : ℝ → ℝ → ℂ, Spec.gridSum (P := Unit)
      ⟨1, fun _ _ a b => if a < b then 1 else 0, fun _ _ => true, fun _ _ => 1, ⟨0, 1, 1, 1, 2, 1⟩⟩ F
      = F (1 / 2) (3 / 2) := by
    intro F
    simp [Spec.gridSum, TdRange.point]
    norm_num
  have ha : ∀ a b : ℝ, tdAmplitude (P := Unit)
      ⟨1, fun _ _ a b => if a < b then 1 else 0, fun _ _ => true, fun _ _ => 1, ⟨0, 1, 1, 1, 2, 1⟩⟩ (fun _ => 1) () a b
      = if a < b then 1 else 0 := by
    intro a b
    simp [tdAmplitude]
  have c1 : (1 / 2 : ℝ) < 3 / 2 := by norm_num
  have c2 : ¬ (3 / 2 : ℝ) < 1 / 2 := by norm_num
  simp only [hg, ha, if_pos c1, if_neg c2] at h
  rw [h]
  have hv := fun T => tdValue_any (threeGaussResolution r) (fun _ _ => true) ⟨τ, x, y, 0, 0⟩
    [(1, fun a b => if a < b then 1 else 0)] (fun _ _ => 1) T σ (1 / 2) (3 / 2) k 1 (by norm_num) rfl
  simp only [decayAmplitude_one, if_pos c1, if_neg c2, map_one, map_zero, mul_zero, Complex.zero_re, Complex.zero_im,
    Int.cast_one, add_zero, mul_one] at hv
  simp only [hv]
  have key := C63_violation_norm r τ x y σ hτ hx h1 h2 h3 hy
  rw [add_zero] at key
  refine key.trans_eq ?_
  unfold tdNormalize
  simp
  ring

example := C110_violation_mixing ⟨4 / 5, 1 / 10, 0, 1, 0, 2, 1 / 100, 3, 1 / 10, 0, 1, 0, 1⟩ (41 / 100) (4 / 1000)
  (6 / 1000) (1 / 2) (1 / 20) 0 (by norm_num) (by norm_num) (by norm_num) (by norm_num) (by norm_num)
  (by norm_num [abs_lt])

end GooFit
