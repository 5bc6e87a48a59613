import Verif.Props.Mixing
import Verif.Spec.TimeDalitz

/-!
# C64 and C65: time-dependent three-body amplitudes
-/

set_option autoImplicit false

namespace GooFit

open Spec MeasureTheory Set

theorem tdWaveA_eq (rs : List TdTerm) (a b : ℝ) : tdWaveA rs a b = decayAmplitude rs a b := by
  have h : ∀ (l : List TdTerm) (s : ℂ), l.foldl (fun s p => s + p.2 a b * p.1) s
      = s + (l.map fun r : TdTerm => r.1 * r.2 a b).sum := by
    intro l
    induction l with
    | nil => intro s; simp
    | cons r l ih => intro s; rw [List.foldl_cons, ih, List.map_cons, List.sum_cons]; ring
  unfold tdWaveA decayAmplitude
  rw [h, zero_add]

theorem tdWaveB_eq (rs : List TdTerm) (a b : ℝ) : tdWaveB rs a b = decayAmplitude rs b a := tdWaveA_eq rs b a

theorem rate_swap (A B : ℂ) (τ x y t : ℝ) :
    truthResolution (Complex.normSq A + Complex.normSq B) (-(Complex.normSq A - Complex.normSq B))
      (A * starRingEnd ℂ B).re (-(A * starRingEnd ℂ B).im) τ t x y = decayRate B A τ x y t := by
  rw [← C62_rate]
  congr 1
  · ring
  · ring
  · simp; ring
  · simp; ring

theorem truncInt_cast (q : ℤ) : truncInt (q : ℝ) = q := by unfold truncInt; split <;> simp

theorem tdMixing_eq (p : TdPars) (q : ℤ) (hq : q = 1 ∨ q = -1 ∨ q = 0) :
    tdMixing p q = (p.x0 + q * p.deltax, p.y0 + q * p.deltay) := by
  unfold tdMixing
  rcases hq with h | h | h <;> subst h <;> norm_num
  constructor <;> ring

/-- The value for the perfect resolution, in terms of rates. -/
theorem tdValue_eq (inside : ℝ → ℝ → Bool) (p : TdPars) (rs : List TdTerm) (eff : ℝ → ℝ → ℝ) (t σ a b k w : ℝ) (q : ℤ)
    (hq : q = 1 ∨ q = -1 ∨ q = 0) (hin : inside a b = true) :
    tdValue truthRes inside p rs eff [t, σ, a, b, k, w, q]
      = eff a b * (if w > 0 then
          (1 - 2 * w) * decayRate (decayAmplitude rs a b) (decayAmplitude rs b a) p.tau (p.x0 + q * p.deltax)
              (p.y0 + q * p.deltay) t
            + w * decayRate (decayAmplitude rs b a) (decayAmplitude rs a b) taufix xfix yfix t
            + w * decayRate (decayAmplitude rs a b) (decayAmplitude rs b a) taufix xfix yfix t
        else decayRate (decayAmplitude rs a b) (decayAmplitude rs b a) p.tau (p.x0 + q * p.deltax)
              (p.y0 + q * p.deltay) t) := by
  unfold tdValue truthRes
  simp only [List.getD_cons_zero, List.getD_cons_succ, List.length_cons, List.length_nil, hin, Bool.not_true]
  norm_num only
  simp only [Bool.false_eq_true, if_true, if_false, truncInt_cast, tdMixing_eq p q hq, tdWaveA_eq, tdWaveB_eq, C62_rate,
    rate_swap]
  split <;> ring

/-- **C64 (value, partial).**  For an event inside the Dalitz plot with flavour tag +1, -1 or 0 and a probability `w` of
a wrong tag the value with perfect time resolution is the efficiency times the rate of a meson with decay amplitudes at
the point and the reversed point, and mixing parameters shifted by the tag.  Missing: for `w > 0` this needs the
lifetime and the mixing parameters to be the numbers written in the code; see `C64_violation_mistag`. -/
theorem C64_value_partial (inside : ℝ → ℝ → Bool) (p : TdPars) (rs : List TdTerm) (eff : ℝ → ℝ → ℝ)
    (t σ a b k w : ℝ) (q : ℤ) (hq : q = 1 ∨ q = -1 ∨ q = 0) (hin : inside a b = true)
    (hw : w = 0 ∨ (0 < w ∧ p.tau = 0.4101 ∧ p.x0 + q * p.deltax = 0.0039 ∧ p.y0 + q * p.deltay = 0.0065)) :
    tdValue truthRes inside p rs eff [t, σ, a, b, k, w, q]
      = eff a b * taggedRate (decayAmplitude rs a b) (decayAmplitude rs b a) p.tau (p.x0 + q * p.deltax)
          (p.y0 + q * p.deltay) w t := by
  rw [tdValue_eq inside p rs eff t σ a b k w q hq hin]
  unfold taggedRate
  rcases hw with h | ⟨h, h1, h2, h3⟩
  · subst h; simp
  · rw [if_pos h, h1, h2, h3]
    unfold taufix xfix yfix
    ring

example (rs : List TdTerm) := C64_value_partial (fun a b => decide (a + b ≤ 2)) ⟨0.4101, 0.0039, 0.0065, 0, 0⟩ rs
  (fun _ _ => 1) 1 0.1 1 (1 / 2) 0 (1 / 10) (-1) (by norm_num) (by norm_num) (by norm_num)

/-- **C64 (observables).**  The observables given to the constructor with one resolution are the columns of an event in
the order in which the value reads them: the value of the event in which each observable has its value is the one of
`C64_value_partial`. -/
theorem C64_observables (inside : ℝ → ℝ → Bool) (p : TdPars) (rs : List TdTerm) (eff : ℝ → ℝ → ℝ)
    {O : Type} (val : O → ℝ) (time sigma m12 m13 number mis tag : O) (q : ℤ) (hq : q = 1 ∨ q = -1 ∨ q = 0)
    (htag : val tag = q) (hin : inside (val m12) (val m13) = true)
    (hw : val mis = 0 ∨ (0 < val mis ∧ p.tau = 0.4101 ∧ p.x0 + q * p.deltax = 0.0039 ∧ p.y0 + q * p.deltay = 0.0065)) :
    ∃ os, tdObservables time sigma m12 m13 number (some mis) (some tag) = some os ∧
      tdValue truthRes inside p rs eff (os.map val)
        = eff (val m12) (val m13) * taggedRate (decayAmplitude rs (val m12) (val m13))
            (decayAmplitude rs (val m13) (val m12)) p.tau (p.x0 + q * p.deltax) (p.y0 + q * p.deltay) (val mis)
            (val time) := by
  refine ⟨[time, sigma, m12, m13, number, mis, tag], rfl, ?_⟩
  rw [← C64_value_partial inside p rs eff (val time) (val sigma) (val m12) (val m13) (val number) (val mis) q hq hin hw,
    ← htag]
  rfl

example (rs : List TdTerm) := C64_observables (fun a b => decide (a + b ≤ 2)) ⟨0.4101, 0.0039, 0.0065, 0, 0⟩ rs
  (fun _ _ => 1) (fun k : Fin 7 => ![1, 0.1, 1, 1 / 2, 0, 1 / 10, -1] k) 0 1 2 3 4 5 6 (-1) (by norm_num)
  (by simp) (by simp; norm_num) (by right; simp)

/-- **C64 (outside).**  Events outside the Dalitz plot have the value zero, for every resolution. -/
theorem C64_outside (R : ResFn) (inside : ℝ → ℝ → Bool) (p : TdPars) (rs : List TdTerm) (eff : ℝ → ℝ → ℝ)
    (t σ a b k w q : ℝ) (hin : inside a b = false) : tdValue R inside p rs eff [t, σ, a, b, k, w, q] = 0 := by
  unfold tdValue
  simp [hin]

/-- **C64 (positivity).**  The value is not negative when the probability of a wrong tag is at most one half, for all
parameters. -/
theorem C64_nonneg (inside : ℝ → ℝ → Bool) (p : TdPars) (rs : List TdTerm) (eff : ℝ → ℝ → ℝ) (heff : ∀ a b, 0 ≤ eff a b)
    (t σ a b k w : ℝ) (q : ℤ) (hq : q = 1 ∨ q = -1 ∨ q = 0) (hw : w ≤ 1 / 2) :
    0 ≤ tdValue truthRes inside p rs eff [t, σ, a, b, k, w, q] := by
  have hr : ∀ (A B : ℂ) (τ x y : ℝ), 0 ≤ decayRate A B τ x y t := fun A B τ x y => by unfold decayRate; positivity
  cases hin : inside a b with
  | false => rw [C64_outside _ _ _ _ _ _ _ _ _ _ _ _ hin]
  | true =>
    rw [tdValue_eq inside p rs eff t σ a b k w q hq hin]
    refine mul_nonneg (heff a b) ?_
    split
    · have h1 : 0 ≤ 1 - 2 * w := by linarith
      have h2 : 0 ≤ w := by linarith
      have := mul_nonneg h1 (hr (decayAmplitude rs a b) (decayAmplitude rs b a) p.tau (p.x0 + q * p.deltax) (p.y0 + q * p.deltay))
      have := mul_nonneg h2 (hr (decayAmplitude rs b a) (decayAmplitude rs a b) taufix xfix yfix)
      have := mul_nonneg h2 (hr (decayAmplitude rs a b) (decayAmplitude rs b a) taufix xfix yfix)
      linarith
    · exact hr _ _ _ _ _

/-! ### Integrals over the time -/

theorem truth_int (c1 c2 c3 c4 τ x y : ℝ) (hτ : 0 < τ) (hy : |y| < 1) :
    IntegrableOn (fun t => truthResolution c1 c2 c3 c4 τ t x y) (Ioi 0) := by
  obtain ⟨hy1, hy2⟩ := abs_lt.1 hy
  have ha : 0 < (((1 - y) / τ : ℝ) : ℂ).re := by
    rw [Complex.ofReal_re]; exact div_pos (by linarith) hτ
  have hb : 0 < (((1 + y) / τ : ℝ) : ℂ).re := by
    rw [Complex.ofReal_re]; exact div_pos (by linarith) hτ
  have hc : 0 < (⟨1 / τ, -(x / τ)⟩ : ℂ).re := by simpa using hτ
  simp only [truthResolution_eq_expSum]
  exact (expSum_int _ _ _ ha hb hc).re

theorem rate_int (A B : ℂ) (τ x y : ℝ) (hτ : 0 < τ) (hy : |y| < 1) : IntegrableOn (decayRate A B τ x y) (Ioi 0) := by
  have h := truth_int (Complex.normSq A + Complex.normSq B) (Complex.normSq A - Complex.normSq B)
    (A * starRingEnd ℂ B).re (A * starRingEnd ℂ B).im τ x y hτ hy
  simp only [C62_rate] at h
  exact h

theorem rate_total (A B : ℂ) (τ x y : ℝ) (hτ : 0 < τ) (hy : |y| < 1) :
    ∫ t in Ioi 0, decayRate A B τ x y t
      = truthNormalization (Complex.normSq A) (Complex.normSq B) (A * starRingEnd ℂ B).re (A * starRingEnd ℂ B).im τ x y := by
  rw [← C62_norm _ _ _ _ _ _ _ hτ hy]
  simp only [C62_rate]

/-- The integral over the time of the value, at a point. -/
theorem tdValue_total (inside : ℝ → ℝ → Bool) (p : TdPars) (rs : List TdTerm) (eff : ℝ → ℝ → ℝ) (σ a b k w : ℝ) (q : ℤ)
    (hq : q = 1 ∨ q = -1 ∨ q = 0) (hin : inside a b = true) (hτ : 0 < p.tau) (hy : |p.y0 + q * p.deltay| < 1) (hw : 0 ≤ w) :
    ∫ t in Ioi 0, tdValue truthRes inside p rs eff [t, σ, a, b, k, w, q]
      = eff a b * ((1 - 2 * w) * ∫ t in Ioi 0, decayRate (decayAmplitude rs a b) (decayAmplitude rs b a) p.tau
            (p.x0 + q * p.deltax) (p.y0 + q * p.deltay) t)
        + eff a b * (w * ∫ t in Ioi 0, decayRate (decayAmplitude rs b a) (decayAmplitude rs a b) taufix xfix yfix t)
        + eff a b * (w * ∫ t in Ioi 0, decayRate (decayAmplitude rs a b) (decayAmplitude rs b a) taufix xfix yfix t) := by
  simp only [tdValue_eq inside p rs eff _ σ a b k w q hq hin]
  have hτf : (0 : ℝ) < taufix := by norm_num [taufix]
  have hyf : |yfix| < 1 := by norm_num [yfix, abs_lt]
  generalize decayAmplitude rs a b = A
  generalize decayAmplitude rs b a = B
  have i1 := (rate_int A B p.tau (p.x0 + q * p.deltax) (p.y0 + q * p.deltay) hτ hy).const_mul (1 - 2 * w)
  have i2 := (rate_int B A taufix xfix yfix hτf hyf).const_mul w
  have i3 := (rate_int A B taufix xfix yfix hτf hyf).const_mul w
  rw [integral_const_mul]
  by_cases h : w > 0
  · simp only [if_pos h]
    have e := integral_add (i1.add i2) i3
    have e' := integral_add i1 i2
    simp only [Pi.add_apply, integral_const_mul] at e e'
    rw [e, e']
    ring
  · have h0 : w = 0 := le_antisymm (not_lt.1 h) hw
    subst h0
    simp

/-! ### The normalisation -/

section
variable {P : Type}

theorem decayAmplitude_range (m : TdModel P) (c : Nat → ℂ) (p : P) (a b : ℝ) :
    decayAmplitude ((List.range m.n).map fun i => (c i, m.resonance p i)) a b = tdAmplitude m c p a b := by
  unfold decayAmplitude tdAmplitude
  rw [List.map_map]
  generalize m.n = n
  induction n with
  | zero => rfl
  | succ n ih => rw [List.range_succ, List.map_append, List.sum_append, ih, Finset.sum_range_succ]; simp

theorem compute_fst (m : TdModel P) (p : P) (i j : Nat) :
    (m.compute p i j).1 = gridSum m fun a b => m.resonance p i a b * starRingEnd ℂ (m.resonance p j a b) := by
  unfold TdModel.compute tdIntegral gridSum
  rw [Prod.fst_sum]
  refine Finset.sum_congr rfl fun g _ => ?_
  unfold tdIntegrator tdCalcIntegrals
  cases h : m.inside (m.range.point g).1 (m.range.point g).2 <;> simp [h, mul_comm]

theorem compute_mid (m : TdModel P) (p : P) (i j : Nat) :
    (m.compute p i j).2.1 = gridSum m fun a b => m.resonance p i a b * starRingEnd ℂ (m.resonance p j b a) := by
  unfold TdModel.compute tdIntegral gridSum
  rw [Prod.snd_sum, Prod.fst_sum]
  refine Finset.sum_congr rfl fun g _ => ?_
  unfold tdIntegrator tdCalcIntegrals
  cases h : m.inside (m.range.point g).1 (m.range.point g).2 <;> simp [h, mul_comm]

theorem compute_snd (m : TdModel P) (p : P) (i j : Nat) :
    (m.compute p i j).2.2 = gridSum m fun a b => m.resonance p i b a * starRingEnd ℂ (m.resonance p j b a) := by
  unfold TdModel.compute tdIntegral gridSum
  rw [Prod.snd_sum, Prod.snd_sum]
  refine Finset.sum_congr rfl fun g _ => ?_
  unfold tdIntegrator tdCalcIntegrals
  cases h : m.inside (m.range.point g).1 (m.range.point g).2 <;> simp [h, mul_comm]

/-- A double sum over resonances of grid sums is the grid sum of the product of amplitudes. -/
theorem gridSum_double (m : TdModel P) (c : Nat → ℂ) (n : Nat) (f g : Nat → ℝ → ℝ → ℂ) :
    ∑ i ∈ Finset.range n, ∑ j ∈ Finset.range n,
        c i * starRingEnd ℂ (c j) * gridSum m (fun a b => f i a b * starRingEnd ℂ (g j a b))
      = gridSum m fun a b => (∑ i ∈ Finset.range n, c i * f i a b) * starRingEnd ℂ (∑ j ∈ Finset.range n, c j * g j a b) := by
  unfold gridSum
  simp only [Finset.mul_sum]
  rw [Finset.sum_congr rfl fun i _ => Finset.sum_comm, Finset.sum_comm]
  refine Finset.sum_congr rfl fun k _ => ?_
  split
  · rw [map_sum, Finset.sum_mul_sum, Finset.mul_sum]
    refine Finset.sum_congr rfl fun i _ => ?_
    rw [Finset.mul_sum]
    refine Finset.sum_congr rfl fun j _ => ?_
    rw [map_mul]
    ring
  · simp

/-- **C64 (coherence).**  The three numbers that go into the normalisation are the sums over the grid of the
efficiency times `|A|²`, `A B*` and `|B|²`, with all interferences, for any number of resonances and any grid. -/
theorem C64_coherent (m : TdModel P) (c : Nat → ℂ) (p : P) :
    tdCoherent m.n c (m.compute p)
      = (gridSum m fun a b => tdAmplitude m c p a b * starRingEnd ℂ (tdAmplitude m c p a b),
         gridSum m fun a b => tdAmplitude m c p a b * starRingEnd ℂ (tdAmplitude m c p b a),
         gridSum m fun a b => tdAmplitude m c p b a * starRingEnd ℂ (tdAmplitude m c p b a)) := by
  unfold tdCoherent tdAmplitude
  rw [← gridSum_double m c m.n (m.resonance p) (m.resonance p),
    ← gridSum_double m c m.n (m.resonance p) (fun j a b => m.resonance p j b a),
    ← gridSum_double m c m.n (fun i a b => m.resonance p i b a) (fun j a b => m.resonance p j b a)]
  refine Prod.ext ?_ (Prod.ext ?_ ?_)
  · simp only [Prod.fst_sum, compute_fst]
  · simp only [Prod.snd_sum, Prod.fst_sum, compute_mid]
  · simp only [Prod.snd_sum, compute_snd]

/-- **C64 (grid).**  A sum over the grid runs over the centres of all bins in both masses, each once. -/
theorem C64_grid (m : TdModel P) (f : ℝ → ℝ → ℂ) :
    gridSum m f = ∑ j ∈ Finset.range m.range.nb13, ∑ i ∈ Finset.range m.range.nb12,
      if m.inside (equalBinCentre m.range.lo12 m.range.hi12 m.range.nb12 i) (equalBinCentre m.range.lo13 m.range.hi13 m.range.nb13 j) then
        (m.eff (equalBinCentre m.range.lo12 m.range.hi12 m.range.nb12 i) (equalBinCentre m.range.lo13 m.range.hi13 m.range.nb13 j) : ℂ)
          * f (equalBinCentre m.range.lo12 m.range.hi12 m.range.nb12 i) (equalBinCentre m.range.lo13 m.range.hi13 m.range.nb13 j)
      else 0 := by
  unfold gridSum
  rcases Nat.eq_zero_or_pos m.range.nb12 with h0 | h0
  · simp [h0]
  rw [← Finset.sum_product']
  refine Finset.sum_nbij' (fun g => (g / m.range.nb12, g % m.range.nb12)) (fun x => x.2 + m.range.nb12 * x.1) ?_ ?_ ?_ ?_ ?_
  · intro g hg
    rw [Finset.mem_product, Finset.mem_range, Finset.mem_range]
    exact ⟨Nat.div_lt_of_lt_mul (Finset.mem_range.1 hg), Nat.mod_lt _ h0⟩
  · rintro ⟨j, i⟩ h
    rw [Finset.mem_product, Finset.mem_range, Finset.mem_range] at h
    rw [Finset.mem_range]
    calc i + m.range.nb12 * j < m.range.nb12 + m.range.nb12 * j := by have := h.2; dsimp only at this; omega
      _ = m.range.nb12 * (j + 1) := by ring
      _ ≤ m.range.nb12 * m.range.nb13 := Nat.mul_le_mul_left _ h.1
  · intro g hg
    exact Nat.mod_add_div g m.range.nb12
  · rintro ⟨j, i⟩ h
    rw [Finset.mem_product, Finset.mem_range, Finset.mem_range] at h
    have h2 : i < m.range.nb12 := h.2
    dsimp only
    rw [Nat.add_mul_div_left _ _ h0, Nat.add_mul_mod_self_left, Nat.div_eq_of_lt h2, Nat.mod_eq_of_lt h2, zero_add]
  · intro g hg
    have hp : m.range.point g = (equalBinCentre m.range.lo12 m.range.hi12 m.range.nb12 (g % m.range.nb12),
        equalBinCentre m.range.lo13 m.range.hi13 m.range.nb13 (g / m.range.nb12)) := by
      unfold TdRange.point equalBinCentre
      norm_num [add_comm]
    simp only [hp]

theorem truthNorm_sum (n : Nat) (I1 I2 I3 I4 : Nat → ℝ) (τ x y : ℝ) :
    truthNormalization (∑ g ∈ Finset.range n, I1 g) (∑ g ∈ Finset.range n, I2 g) (∑ g ∈ Finset.range n, I3 g)
        (∑ g ∈ Finset.range n, I4 g) τ x y
      = ∑ g ∈ Finset.range n, truthNormalization (I1 g) (I2 g) (I3 g) (I4 g) τ x y := by
  induction n with
  | zero => simp [truthNormalization]
  | succ n ih =>
    simp only [Finset.sum_range_succ]
    rw [← ih]
    unfold truthNormalization
    ring

theorem truthNorm_scale (e I1 I2 I3 I4 τ x y : ℝ) :
    truthNormalization (e * I1) (e * I2) (e * I3) (e * I4) τ x y = e * truthNormalization I1 I2 I3 I4 τ x y := by
  unfold truthNormalization
  ring

/-- **C64 (normalisation, partial).**  With perfect time resolution the returned normalisation is the size of a bin
times the sum over the grid of the integral over all times of the value of an event at the grid point, averaged over the
two tags with the given fraction of D0.  Missing: the probability of a wrong tag has to be the value stored in the
observable, which has to lie within its limits; see `C64_violation_event_mistag`. -/
theorem C64_norm_partial (m : TdModel P) (c : Nat → ℂ) (p : P) (v : TdPars) (f σ k : ℝ) (w : TdMistag)
    (hτ : 0 < v.tau) (hy1 : |v.y0 + v.deltay| < 1) (hy2 : |v.y0 - v.deltay| < 1) (hw : 0 ≤ w.value) (hr : w.inRange) :
    tdNormalize truthNormalization v f w m.range (tdCoherent m.n c (m.compute p))
      = (∑ g ∈ Finset.range (m.range.nb12 * m.range.nb13),
          (f * (∫ t in Ioi 0, tdValue truthRes m.inside v ((List.range m.n).map fun i => (c i, m.resonance p i)) m.eff
              [t, σ, (m.range.point g).1, (m.range.point g).2, k, w.value, 1])
            + (1 - f) * ∫ t in Ioi 0, tdValue truthRes m.inside v ((List.range m.n).map fun i => (c i, m.resonance p i))
              m.eff [t, σ, (m.range.point g).1, (m.range.point g).2, k, w.value, -1]))
        * ((m.range.hi12 - m.range.lo12) / m.range.nb12 * ((m.range.hi13 - m.range.lo13) / m.range.nb13)) := by
  rw [C64_coherent]
  unfold tdNormalize
  simp only [if_pos hr]
  congr 1
  -- the four integrals as sums over the grid of real numbers
  let e : Nat → ℝ := fun g => if m.inside (m.range.point g).1 (m.range.point g).2 then
    m.eff (m.range.point g).1 (m.range.point g).2 else 0
  let A : Nat → ℂ := fun g => tdAmplitude m c p (m.range.point g).1 (m.range.point g).2
  let B : Nat → ℂ := fun g => tdAmplitude m c p (m.range.point g).2 (m.range.point g).1
  have hg : ∀ F : ℝ → ℝ → ℂ, gridSum m F
      = ∑ g ∈ Finset.range (m.range.nb12 * m.range.nb13), (e g : ℂ) * F (m.range.point g).1 (m.range.point g).2 := by
    intro F
    unfold gridSum
    refine Finset.sum_congr rfl fun g _ => ?_
    show _ = ((if _ then _ else _ : ℝ) : ℂ) * _
    split <;> simp
  have h1 : (gridSum m fun a b => tdAmplitude m c p a b * starRingEnd ℂ (tdAmplitude m c p a b)).re
      = ∑ g ∈ Finset.range (m.range.nb12 * m.range.nb13), e g * Complex.normSq (A g) := by
    rw [hg, Complex.re_sum]
    refine Finset.sum_congr rfl fun g _ => ?_
    rw [Complex.re_ofReal_mul, Complex.mul_conj, Complex.ofReal_re]
  have h2 : (gridSum m fun a b => tdAmplitude m c p b a * starRingEnd ℂ (tdAmplitude m c p b a)).re
      = ∑ g ∈ Finset.range (m.range.nb12 * m.range.nb13), e g * Complex.normSq (B g) := by
    rw [hg, Complex.re_sum]
    refine Finset.sum_congr rfl fun g _ => ?_
    rw [Complex.re_ofReal_mul, Complex.mul_conj, Complex.ofReal_re]
  have h3 : (gridSum m fun a b => tdAmplitude m c p a b * starRingEnd ℂ (tdAmplitude m c p b a)).re
      = ∑ g ∈ Finset.range (m.range.nb12 * m.range.nb13), e g * (A g * starRingEnd ℂ (B g)).re := by
    rw [hg, Complex.re_sum]
    exact Finset.sum_congr rfl fun g _ => Complex.re_ofReal_mul _ _
  have h4 : (gridSum m fun a b => tdAmplitude m c p a b * starRingEnd ℂ (tdAmplitude m c p b a)).im
      = ∑ g ∈ Finset.range (m.range.nb12 * m.range.nb13), e g * (A g * starRingEnd ℂ (B g)).im := by
    rw [hg, Complex.im_sum]
    exact Finset.sum_congr rfl fun g _ => Complex.im_ofReal_mul _ _
  rw [h1, h2, h3, h4, ← Finset.sum_neg_distrib]
  simp only [truthNorm_sum]
  rw [Finset.mul_sum, Finset.mul_sum, ← Finset.sum_add_distrib, Finset.sum_mul, Finset.mul_sum, ← Finset.sum_add_distrib,
    Finset.mul_sum, ← Finset.sum_add_distrib]
  refine Finset.sum_congr rfl fun g _ => ?_
  have hτf : (0 : ℝ) < taufix := by norm_num [taufix]
  have hyf : |yfix| < 1 := by norm_num [yfix, abs_lt]
  cases hin : m.inside (m.range.point g).1 (m.range.point g).2 with
  | false =>
    have he : e g = 0 := by show (if _ then _ else _ : ℝ) = 0; simp [hin]
    simp only [C64_outside _ _ _ _ _ _ _ _ _ _ _ _ hin, he]
    simp [truthNormalization]
  | true =>
    have he : e g = m.eff (m.range.point g).1 (m.range.point g).2 := by show (if _ then _ else _ : ℝ) = _; simp [hin]
    have t1 := tdValue_total m.inside v ((List.range m.n).map fun i => (c i, m.resonance p i)) m.eff σ
      (m.range.point g).1 (m.range.point g).2 k w.value 1 (by norm_num) hin hτ (by push_cast; rw [one_mul]; exact hy1) hw
    have t2 := tdValue_total m.inside v ((List.range m.n).map fun i => (c i, m.resonance p i)) m.eff σ
      (m.range.point g).1 (m.range.point g).2 k w.value (-1) (by norm_num) hin hτ
      (by push_cast; rw [neg_one_mul, ← sub_eq_add_neg]; exact hy2) hw
    push_cast at t1 t2
    simp only [neg_one_mul, one_mul, ← sub_eq_add_neg, decayAmplitude_range] at t1 t2
    rw [t1, t2, rate_total _ _ _ _ _ hτ hy1, rate_total _ _ _ _ _ hτ hy2, rate_total _ _ _ _ _ hτf hyf,
      rate_total _ _ _ _ _ hτf hyf]
    have hba : ((B g) * starRingEnd ℂ (A g)).re = ((A g) * starRingEnd ℂ (B g)).re
        ∧ ((B g) * starRingEnd ℂ (A g)).im = -((A g) * starRingEnd ℂ (B g)).im := by
      constructor <;> simp <;> ring
    show _ = f * (_ * (_ * truthNormalization (Complex.normSq (A g)) (Complex.normSq (B g)) ((A g) * starRingEnd ℂ (B g)).re
        ((A g) * starRingEnd ℂ (B g)).im _ _ _)
      + _ * (_ * truthNormalization (Complex.normSq (B g)) (Complex.normSq (A g)) ((B g) * starRingEnd ℂ (A g)).re
        ((B g) * starRingEnd ℂ (A g)).im _ _ _) + _ * (_ * truthNormalization (Complex.normSq (A g)) (Complex.normSq (B g)) ((A g) * starRingEnd ℂ (B g)).re
        ((A g) * starRingEnd ℂ (B g)).im _ _ _)) + (1 - f) * (_ * (_ * truthNormalization (Complex.normSq (A g)) (Complex.normSq (B g)) ((A g) * starRingEnd ℂ (B g)).re
        ((A g) * starRingEnd ℂ (B g)).im _ _ _)
      + _ * (_ * truthNormalization (Complex.normSq (B g)) (Complex.normSq (A g)) ((B g) * starRingEnd ℂ (A g)).re
        ((B g) * starRingEnd ℂ (A g)).im _ _ _) + _ * (_ * truthNormalization (Complex.normSq (A g)) (Complex.normSq (B g)) ((A g) * starRingEnd ℂ (B g)).re
        ((A g) * starRingEnd ℂ (B g)).im _ _ _))
    rw [hba.1, hba.2, ← he, ← mul_neg]
    simp only [truthNorm_scale]
    ring

end

/-- A plot of one bin with one constant resonance, everything inside, and its decay parameters. -/
example (v : TdPars) (hv : v = ⟨0.4101, 0.0039, 0.0065, 0, 0⟩) :=
  C64_norm_partial (P := Unit) ⟨2, fun _ i a b => ⟨i + a, b⟩, fun a b => decide (a + b ≤ 2), fun a b => a * b, ⟨0, 2, 7, 0, 2, 5⟩⟩
    (fun i => ⟨1, i⟩) () v (1 / 2) 0.1 0 ⟨0.02, 0, 1⟩ (by rw [hv]; norm_num) (by rw [hv]; norm_num [abs_lt])
    (by rw [hv]; norm_num [abs_lt]) (by norm_num) (by norm_num [TdMistag.inRange])

/-- A single resonance without structure in `m12`, none at the reversed point. -/
theorem decayAmplitude_one (f : ℝ → ℝ → ℂ) (a b : ℝ) : decayAmplitude [(1, f)] a b = f a b := by simp [decayAmplitude]

/-- **C64, violation (wrong tags).**  For every probability `w > 0` of a wrong tag and every lifetime and mixing
parameter that are not, in the combination `τ / (1 - y²)`, the numbers written in the code, there is a decay time at
which the value is not the rate of a wrongly tagged event: the contribution of wrong tags is computed with
`τ = 0.4101`, `x = 0.0039` and `y = 0.0065` (Amp3Body_TD.cu:229-245), whatever the parameters of the PDF. -/
theorem C64_violation_mistag (τ x y w σ k : ℝ) (hτ : 0 < τ) (hy : |y| < 1) (hw : 0 < w)
    (hne : τ / (1 - y * y) ≠ 0.4101 / (1 - 0.0065 * 0.0065)) :
    ∃ t, 0 < t ∧ tdValue truthRes (fun _ _ => true) ⟨τ, x, y, 0, 0⟩ [(1, fun a b => if a < b then 1 else 0)]
        (fun _ _ => 1) [t, σ, 1, 2, k, w, 1]
      ≠ taggedRate 1 0 τ x y w t := by
  by_contra hcon
  push Not at hcon
  have e1 := tdValue_total (fun _ _ => true) ⟨τ, x, y, 0, 0⟩ [(1, fun a b => if a < b then 1 else 0)] (fun _ _ => 1)
    σ 1 2 k w 1 (by norm_num) rfl hτ (by simpa using hy) hw.le
  have hτf : (0 : ℝ) < taufix := by norm_num [taufix]
  have hyf : |yfix| < 1 := by norm_num [yfix, abs_lt]
  have e2 : ∫ t in Ioi 0, tdValue truthRes (fun _ _ => true) ⟨τ, x, y, 0, 0⟩ [(1, fun a b => if a < b then 1 else 0)]
        (fun _ _ => 1) [t, σ, 1, 2, k, w, (1 : ℤ)] = ∫ t in Ioi 0, taggedRate 1 0 τ x y w t := by
    refine setIntegral_congr_fun measurableSet_Ioi fun t ht => ?_
    have := hcon t ht
    simpa using this
  rw [e1] at e2
  simp only [decayAmplitude_one] at e2
  rw [if_pos (by norm_num), if_neg (by norm_num)] at e2
  unfold taggedRate at e2
  have i1 := (rate_int 1 0 τ x y hτ hy).const_mul (1 - w)
  have i2 := (rate_int 0 1 τ x y hτ hy).const_mul w
  have e := integral_add i1 i2
  simp only [integral_const_mul] at e
  rw [e] at e2
  simp only [mul_zero, add_zero, one_mul] at e2
  rw [rate_total _ _ _ _ _ hτ hy, rate_total _ _ _ _ _ hτ hy, rate_total _ _ _ _ _ hτf hyf,
    rate_total _ _ _ _ _ hτf hyf] at e2
  simp only [truthNormalization, map_one, map_zero, mul_zero, zero_mul, Complex.zero_re, Complex.zero_im, sub_zero,
    zero_add, add_zero, mul_one, zero_sub] at e2
  have key : w * (taufix / (1 - yfix * yfix)) = w * (τ / (1 - y * y)) := by linarith
  have := mul_left_cancel₀ hw.ne' key
  apply hne
  rw [← this]
  unfold taufix yfix
  rfl

example := C64_violation_mistag 1 0 0 (1 / 100) 0.1 0 one_pos (by norm_num) (by norm_num) (by norm_num)

/-- **C64, violation (probability of a wrong tag given event by event).**  The normalisation uses the
value that happens to be stored in the observable, not those of the events.  If it holds zero then for every `w > 0`
events with that probability are not normalised, for all lifetimes and mixing parameters that are not the numbers in the code. -/
theorem C64_violation_event_mistag (τ x y w σ k : ℝ) (hτ : 0 < τ) (hy : |y| < 1) (hw : 0 < w)
    (hne : τ / (1 + y) ≠ 0.4101 / (1 + 0.0065)) :
    tdNormalize truthNormalization ⟨τ, x, y, 0, 0⟩ (1 / 2) ⟨0, 0, 1⟩ ⟨0, 1, 1, 0, 1, 1⟩
        (tdCoherent 1 (fun _ => 1) (TdModel.compute (P := Unit)
          ⟨1, fun _ _ _ _ => 1, fun _ _ => true, fun _ _ => 1, ⟨0, 1, 1, 0, 1, 1⟩⟩ ()))
      ≠ ∫ t in Ioi 0, tdValue truthRes (fun _ _ => true) ⟨τ, x, y, 0, 0⟩ [(1, fun _ _ => 1)] (fun _ _ => 1)
          [t, σ, 1 / 2, 1 / 2, k, w, 1] := by
  have h := C64_coherent (P := Unit) ⟨1, fun _ _ _ _ => 1, fun _ _ => true, fun _ _ => 1, ⟨0, 1, 1, 0, 1, 1⟩⟩
    (fun _ => 1) ()
  have hg : ∀ F : ℝ → ℝ → ℂ, gridSum (P := Unit) ⟨1, fun _ _ _ _ => 1, fun _ _ => true, fun _ _ => 1, ⟨0, 1, 1, 0, 1, 1⟩⟩ F
      = F (1 / 2) (1 / 2) := by
    intro F
    simp [gridSum, TdRange.point]
    norm_num
  have ha : ∀ a b : ℝ, tdAmplitude (P := Unit)
      ⟨1, fun _ _ _ _ => 1, fun _ _ => true, fun _ _ => 1, ⟨0, 1, 1, 0, 1, 1⟩⟩ (fun _ => 1) () a b = 1 := by
    intro a b
    simp [tdAmplitude]
  simp only [hg, ha] at h
  have e1 := tdValue_total (fun _ _ => true) ⟨τ, x, y, 0, 0⟩ [(1, fun _ _ => 1)] (fun _ _ => 1)
    σ (1 / 2) (1 / 2) k w 1 (by norm_num) rfl hτ (by simpa using hy) hw.le
  have hτf : (0 : ℝ) < taufix := by norm_num [taufix]
  have hyf : |yfix| < 1 := by norm_num [yfix, abs_lt]
  simp only [Int.cast_one] at e1
  rw [h, e1]
  simp only [decayAmplitude_one, mul_zero, add_zero, one_mul]
  rw [rate_total _ _ _ _ _ hτ hy, rate_total _ _ _ _ _ hτf hyf]
  have hr : (⟨0, 0, 1⟩ : TdMistag).inRange := by norm_num [TdMistag.inRange]
  obtain ⟨hy1, hy2⟩ := abs_lt.1 hy
  have hp : ∀ τ x y : ℝ, |y| < 1 → truthNormalization 1 1 1 0 τ x y = 2 * (τ / (1 + y)) := by
    intro τ x y hy
    obtain ⟨hy1, hy2⟩ := abs_lt.1 hy
    have h1 : 1 - y ≠ 0 := by linarith
    have h2 : 1 + y ≠ 0 := by linarith
    have h3 : 1 - y * y ≠ 0 := by
      have : 1 - y * y = (1 - y) * (1 + y) := by ring
      rw [this]; exact mul_ne_zero h1 h2
    unfold truthNormalization
    have h4 : 1 - y * y = (1 - y) * (1 + y) := by ring
    dsimp only
    rw [h4]
    field_simp
    ring
  intro hcon
  simp only [tdNormalize, if_pos hr] at hcon
  simp only [map_one, mul_one, Complex.one_re, Complex.one_im, add_zero, sub_zero, hp _ _ _ hy, hp _ _ _ hyf] at hcon
  have key : w * (taufix / (1 + yfix)) = w * (τ / (1 + y)) := by
    norm_num at hcon
    linarith
  have := mul_left_cancel₀ hw.ne' key
  apply hne
  rw [← this]
  unfold taufix yfix
  rfl

example := C64_violation_event_mistag 1 0 0 (1 / 100) 0.1 0 one_pos (by norm_num) (by norm_num) (by norm_num)

/-- **C64 (limits of the wrong-tag observable).**  The wrong-tag probability stored in the observable enters the
normalisation only when it lies within the observable's limits, or the limits coincide; otherwise the normalisation is
that of a perfect tag. -/
theorem C64_mistag_limits (N : NormFn) (v : TdPars) (f w lo up : ℝ) (r : TdRange) (t : Three) :
    (lo = up ∨ (lo ≤ w ∧ w ≤ up) → ∀ lo' up', lo' ≤ w → w ≤ up' →
      tdNormalize N v f ⟨w, lo, up⟩ r t = tdNormalize N v f ⟨w, lo', up'⟩ r t) ∧
    (lo ≠ up → w < lo ∨ up < w → tdNormalize N v f ⟨w, lo, up⟩ r t = tdNormalize N v f ⟨0, 0, 1⟩ r t) := by
  have h0 : (⟨0, 0, 1⟩ : TdMistag).inRange := Or.inr ⟨zero_le_one, le_refl _⟩
  constructor
  · intro h lo' up' h1 h2
    have ha : (⟨w, lo, up⟩ : TdMistag).inRange := h.imp Eq.symm And.symm
    have hb : (⟨w, lo', up'⟩ : TdMistag).inRange := Or.inr ⟨h2, h1⟩
    unfold tdNormalize
    simp only [if_pos ha, if_pos hb]
  · intro hne h
    have ha : ¬ (⟨w, lo, up⟩ : TdMistag).inRange := by
      rintro (h1 | ⟨h1, h2⟩)
      · exact hne h1.symm
      · rcases h with h | h
        · exact absurd h (not_lt.2 h2)
        · exact absurd h (not_lt.2 h1)
    unfold tdNormalize
    simp only [if_pos h0, if_neg ha]
    ring

example (t : Three) := (C64_mistag_limits truthNormalization ⟨0.4101, 0.0039, 0.0065, 0, 0⟩ (1 / 2) 2 0 1
  ⟨0, 1, 1, 0, 1, 1⟩ t).2 (by norm_num) (Or.inr (by norm_num))

/-- **C64, violation (default arguments).**  A PDF constructed without the optional observables for wrong tags and
flavour, as the declaration allows, reads through a null pointer. -/
theorem C64_violation_default_arguments {O : Type} (dtime sigmat m12 m13 eventNumber md0 : O) (tag : Option O) :
    tdObservables dtime sigmat m12 m13 eventNumber none tag = none
      ∧ tdObservablesMd0 dtime sigmat m12 m13 eventNumber md0 none tag = none
      ∧ ∀ mis : O, tdObservables dtime sigmat m12 m13 eventNumber (some mis) none = none :=
  ⟨rfl, rfl, fun _ => rfl⟩

/-- **C64, violation (mass of the mother).**  In a PDF constructed with an observable for the mass of the mother the
mass is read as the probability of a wrong tag, and the latter as the flavour: for an event at time zero with any tags
the value is `2 ((1 - m) |A|² + m |B|²)` times the efficiency, negative for a D meson of 1.86 GeV where `B` vanishes. -/
theorem C64_violation_md0 (inside : ℝ → ℝ → Bool) (p : TdPars) (rs : List TdTerm) (eff : ℝ → ℝ → ℝ)
    (σ a b k md0 mis tag : ℝ) (obs : List ℝ) (hobs : tdObservablesMd0 0 σ a b k md0 (some mis) (some tag) = some obs)
    (hin : inside a b = true) (hm : 0 < md0) :
    tdValue truthRes inside p rs eff obs
      = 2 * ((1 - md0) * Complex.normSq (decayAmplitude rs a b) + md0 * Complex.normSq (decayAmplitude rs b a)) * eff a b := by
  have : obs = [0, σ, a, b, k, md0, mis, tag] := (Option.some.inj hobs).symm
  subst this
  unfold tdValue truthRes truthResolution
  simp only [List.getD_cons_zero, List.getD_cons_succ, List.length_cons, List.length_nil, hin, Bool.not_true]
  norm_num only
  simp only [Bool.false_eq_true, if_true, if_false, tdWaveA_eq, tdWaveB_eq, if_pos hm, gt_iff_lt, zero_div, mul_zero,
    Real.cosh_zero, Real.cos_zero, Real.sinh_zero, Real.sin_zero, neg_zero, Real.exp_zero]
  ring

example (mis tag : ℝ) : tdObservablesMd0 (0 : ℝ) 0.1 1 2 0 1.86 (some mis) (some tag) = some [0, 0.1, 1, 2, 0, 1.86, mis, tag] :=
  rfl

end GooFit
