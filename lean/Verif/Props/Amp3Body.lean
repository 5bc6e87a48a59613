import Verif.Model.Amp3Body
import Verif.Spec.Amp3Body
import Verif.Spec.Tree
import Verif.Lemmas.TreeEval
import Verif.Props.Tree
import Mathlib.Algebra.Order.BigOperators.Group.List
import Mathlib.Algebra.Order.BigOperators.Group.Finset
import Mathlib.Algebra.BigOperators.Ring.List
import Mathlib.Algebra.BigOperators.Ring.Finset
import Mathlib.Tactic.FieldSimp
import Mathlib.Tactic.Linarith
/-!
# C41: the normalisation of a coherent amplitude
-/
set_option autoImplicit false
namespace GooFit
open Spec

section
variable {K : Type} [Field K]

theorem Cx.sum_re (l : List (Cx K)) : l.sum.re = (l.map Cx.re).sum := by
  induction l with
  | nil => rfl
  | cons a l ih => simp [ih]

theorem Cx.sum_im (l : List (Cx K)) : l.sum.im = (l.map Cx.im).sum := by
  induction l with
  | nil => rfl
  | cons a l ih => simp [ih]

theorem Cx.conj_sum (l : List (Cx K)) : l.sum.conj = (l.map Cx.conj).sum := by
  induction l with
  | nil => ext <;> simp
  | cons a l ih => rw [List.sum_cons, List.map_cons, List.sum_cons, ← ih]; ext <;> simp; ring

theorem Cx.conj_mul (a b : Cx K) : (a * b).conj = a.conj * b.conj := by ext <;> simp; ring

theorem Cx.mul_conj (a : Cx K) : a * a.conj = Cx.ofReal a.norm := by ext <;> simp [Cx.norm] <;> ring

theorem Cx.norm_eq (terms : List (Cx K × Cx K)) : (terms.map fun t : Cx K × Cx K => t.1 * t.2).sum.norm = intensity terms := by
  simp only [Cx.norm, Cx.sum_re, Cx.sum_im, List.map_map, intensity]
  have h1 : (Cx.re ∘ fun t : Cx K × Cx K => t.1 * t.2) = fun t => t.1.re * t.2.re - t.1.im * t.2.im := rfl
  have h2 : (Cx.im ∘ fun t : Cx K × Cx K => t.1 * t.2) = fun t => t.1.re * t.2.im + t.1.im * t.2.re := rfl
  rw [h1, h2]
  ring

/-- A product of two sums, as a double sum. -/
theorem double_sum {α R : Type} [CommRing R] (l : List α) (f g : α → R) :
    (l.map fun p => (l.map fun q => f p * g q).sum).sum = (l.map f).sum * (l.map g).sum := by
  have h1 : ∀ p, (l.map fun q => f p * g q).sum = f p * (l.map g).sum := fun p => List.sum_map_mul_left l g (f p)
  simp only [h1]
  exact List.sum_map_mul_right l f (l.map g).sum

theorem sum_map_add' {α R : Type} [AddCommMonoid R] (l : List α) (f g : α → R) :
    (l.map fun a => f a + g a).sum = (l.map f).sum + (l.map g).sum := by
  induction l with
  | nil => simp
  | cons a l ih => simp only [List.map_cons, List.sum_cons, ih]; exact add_add_add_comm _ _ _ _

/-- Exchange of two sums. -/
theorem sum_comm' {α β R : Type} [AddCommMonoid R] (l : List α) (m : List β) (f : α → β → R) :
    (l.map fun a => (m.map fun b => f a b).sum).sum = (m.map fun b => (l.map fun a => f a b).sum).sum := by
  induction l with
  | nil =>
    simp only [List.map_nil, List.sum_nil]
    induction m with
    | nil => rfl
    | cons b m ih => simp only [List.map_cons, List.sum_cons, ← ih, add_zero]
  | cons a l ih => simp only [List.map_cons, List.sum_cons, ih]; exact (sum_map_add' m _ _).symm

/-- The sum over pairs of resonances is the grid sum of the square. -/
theorem sumIntegral_eq (inside : K → K → Bool) (rs : List (AmpTerm K)) (eff : K → K → K) (r : NormRange K) :
    sumIntegral inside rs eff r
      = Cx.ofReal (((List.range (r.nb12 * r.nb13)).map fun g => ampValue inside rs eff (r.point g).1 (r.point g).2).sum) := by
  have hof : ∀ l : List K, Cx.ofReal l.sum = (l.map Cx.ofReal).sum := by
    intro l
    induction l with
    | nil => rfl
    | cons a l ih => rw [List.sum_cons, List.map_cons, List.sum_cons, ← ih]; ext <;> simp
  rw [hof, List.map_map]
  have step : sumIntegral inside rs eff r
      = ((List.range (r.nb12 * r.nb13)).map fun g => (rs.map fun p => (rs.map fun q =>
          p.1 * q.1.conj * integratorAt inside p.2 q.2 eff r g).sum).sum).sum := by
    unfold sumIntegral integralOf
    have e : ∀ p q : AmpTerm K, p.1 * q.1.conj * ((List.range (r.nb12 * r.nb13)).map (integratorAt inside p.2 q.2 eff r)).sum
        = ((List.range (r.nb12 * r.nb13)).map fun g => p.1 * q.1.conj * integratorAt inside p.2 q.2 eff r g).sum :=
      fun p q => (List.sum_map_mul_left _ (integratorAt inside p.2 q.2 eff r) _).symm
    simp only [e]
    have e2 : ∀ p : AmpTerm K, (rs.map fun q => ((List.range (r.nb12 * r.nb13)).map fun g =>
          p.1 * q.1.conj * integratorAt inside p.2 q.2 eff r g).sum).sum
        = ((List.range (r.nb12 * r.nb13)).map fun g => (rs.map fun q => p.1 * q.1.conj * integratorAt inside p.2 q.2 eff r g).sum).sum :=
      fun p => sum_comm' _ _ _
    simp only [e2]
    exact sum_comm' _ _ _
  rw [step]
  congr 1
  apply List.map_congr_left
  intro g _
  simp only [Function.comp]
  unfold integratorAt calcIntegrals ampValue
  generalize r.point g = pt
  cases inside pt.1 pt.2 with
  | false =>
    simp only [Bool.false_eq_true, if_false, zero_mul, mul_zero]
    have hz : ∀ (α : Type) (l : List α), (l.map fun _ => (0 : Cx K)).sum = 0 := by
      intro α l; induction l with
      | nil => rfl
      | cons a l ih => rw [List.map_cons, List.sum_cons, ih, add_zero]
    simp only [hz]
    rfl
  | true =>
    simp only [if_true]
    have e : ∀ p q : AmpTerm K, p.1 * q.1.conj * (p.2 pt.1 pt.2 * (q.2 pt.1 pt.2).conj * Cx.ofReal (eff pt.1 pt.2))
        = (p.1 * p.2 pt.1 pt.2) * ((q.1 * q.2 pt.1 pt.2).conj * Cx.ofReal (eff pt.1 pt.2)) := by
      intro p q
      rw [Cx.conj_mul]
      ring
    simp only [e]
    rw [double_sum rs (fun p : AmpTerm K => p.1 * p.2 pt.1 pt.2) (fun q => (q.1 * q.2 pt.1 pt.2).conj * Cx.ofReal (eff pt.1 pt.2)),
      List.sum_map_mul_right rs (fun q : AmpTerm K => (q.1 * q.2 pt.1 pt.2).conj) (Cx.ofReal (eff pt.1 pt.2)), ← mul_assoc]
    have e2 : (rs.map fun q : AmpTerm K => (q.1 * q.2 pt.1 pt.2).conj).sum = (rs.map fun q : AmpTerm K => q.1 * q.2 pt.1 pt.2).sum.conj := by
      rw [Cx.conj_sum, List.map_map]; rfl
    rw [e2, Cx.mul_conj]
    ext <;> simp

/-- A sum over all bins of a grid, as a double sum. -/
theorem sum_grid (n m : Nat) (f : Nat → Nat → K) (hn : 0 < n) :
    ((List.range (n * m)).map fun g => f (g % n) (g / n)).sum = ∑ j ∈ Finset.range m, ∑ i ∈ Finset.range n, f i j := by
  have hl : ∀ (k : Nat) (h : Nat → K), ((List.range k).map h).sum = ∑ i ∈ Finset.range k, h i := by
    intro k h
    induction k with
    | zero => simp
    | succ k ih => rw [List.range_succ, List.map_append, List.sum_append, ih, Finset.sum_range_succ]; simp
  rw [hl]
  induction m with
  | zero => simp
  | succ m ih =>
    rw [Nat.mul_succ, Finset.sum_range_add, ih, Finset.sum_range_succ]
    congr 1
    apply Finset.sum_congr rfl
    intro i hi
    rw [Finset.mem_range] at hi
    rw [Nat.mul_add_mod, Nat.mod_eq_of_lt hi, Nat.mul_add_div hn, Nat.div_eq_of_lt hi, Nat.add_zero]

/-- The terms of the coherent sum at a point. -/
def termsAt (rs : List (AmpTerm K)) (x y : K) : List (Cx K × Cx K) := rs.map fun p => (p.1, p.2 x y)

/-- The intensity times the efficiency inside the region, zero outside. -/
def coherent (inside : K → K → Bool) (rs : List (AmpTerm K)) (eff : K → K → K) (x y : K) : K :=
  if inside x y then intensity (termsAt rs x y) * eff x y else 0

theorem ampValue_eq (inside : K → K → Bool) (rs : List (AmpTerm K)) (eff : K → K → K) (x y : K) :
    ampValue inside rs eff x y = coherent inside rs eff x y := by
  unfold ampValue coherent termsAt
  rw [← Cx.norm_eq, List.map_map]
  rfl

/-- **C41, normalisation.**  The normalisation is the midpoint rule for `|Σ aᵢ Aᵢ|²` times efficiency over the decay region, for
any resonances, coefficients and efficiency, if both observables have the same number of bins.  Missing: different
numbers of bins (`C41_violation_bins`). -/
theorem C41_normalize_partial (inside : K → K → Bool) (rs : List (AmpTerm K)) (eff : K → K → K) (r : NormRange K)
    (hbins : r.nb12 = r.nb13) (hpos : 0 < r.nb12) :
    ampNormalize inside rs eff r
      = gridIntegral2 (coherent inside rs eff) r.lo12 r.hi12 r.nb12 r.lo13 r.hi13 r.nb13 := by
  unfold ampNormalize
  rw [sumIntegral_eq, Cx.ofReal_re]
  have h := sum_grid (K := K) r.nb12 r.nb13 (fun i j => ampValue inside rs eff
    ((r.hi12 - r.lo12) / (r.nb12 : K) * ((i : K) + 1 / 2) + r.lo12) ((r.hi13 - r.lo13) / (r.nb12 : K) * ((j : K) + 1 / 2) + r.lo13)) hpos
  unfold NormRange.point
  simp only
  rw [h]
  unfold gridIntegral2
  rw [Finset.sum_mul]
  apply Finset.sum_congr rfl
  intro j _
  rw [Finset.sum_mul]
  apply Finset.sum_congr rfl
  intro i _
  rw [ampValue_eq, mul_assoc]
  unfold NormRange.binSize12 NormRange.binSize13 midpoint
  rw [hbins]
  congr 2
  · ring
  · ring

/-- **C41, reality.**  The complex sum over pairs of resonances, whose real part is taken, has no imaginary part. -/
theorem C41_real (inside : K → K → Bool) (rs : List (AmpTerm K)) (eff : K → K → K) (r : NormRange K) :
    (sumIntegral inside rs eff r).im = 0 := by rw [sumIntegral_eq]; rfl

end

section
variable {K : Type} [Field K] [LinearOrder K] [IsStrictOrderedRing K]

theorem intensity_nonneg (l : List (Cx K × Cx K)) : 0 ≤ intensity l := add_nonneg (sq_nonneg _) (sq_nonneg _)

theorem coherent_nonneg (inside : K → K → Bool) (rs : List (AmpTerm K)) (eff : K → K → K) (heff : ∀ x y, 0 ≤ eff x y) (x y : K) :
    0 ≤ coherent inside rs eff x y := by
  unfold coherent
  split
  · exact mul_nonneg (intensity_nonneg _) (heff x y)
  · exact le_rfl

/-- **C41, sign.**  The normalisation is never negative, for a non-negative efficiency, whatever the numbers of bins. -/
theorem C41_nonneg (inside : K → K → Bool) (rs : List (AmpTerm K)) (eff : K → K → K) (r : NormRange K)
    (heff : ∀ x y, 0 ≤ eff x y) (h12 : r.lo12 ≤ r.hi12) (h13 : r.lo13 ≤ r.hi13) : 0 ≤ ampNormalize inside rs eff r := by
  unfold ampNormalize
  rw [sumIntegral_eq, Cx.ofReal_re]
  refine mul_nonneg (List.sum_nonneg ?_) (mul_nonneg ?_ ?_)
  · intro x hx
    rw [List.mem_map] at hx
    obtain ⟨g, _, rfl⟩ := hx
    rw [ampValue_eq]
    exact coherent_nonneg inside rs eff heff _ _
  · exact div_nonneg (sub_nonneg.mpr h12) (Nat.cast_nonneg _)
  · exact div_nonneg (sub_nonneg.mpr h13) (Nat.cast_nonneg _)

/-- **C41, unit integral.**  The PDF's value times its normalisation factor has midpoint integral one. -/
theorem C41_unit_partial (inside : K → K → Bool) (rs : List (AmpTerm K)) (eff : K → K → K) (r : NormRange K)
    (hbins : r.nb12 = r.nb13) (hpos : 0 < r.nb12) (hne : ampNormalize inside rs eff r ≠ 0) :
    gridIntegral2 (fun x y => ampValue inside rs eff x y * (1 / ampNormalize inside rs eff r))
      r.lo12 r.hi12 r.nb12 r.lo13 r.hi13 r.nb13 = 1 := by
  have h := C41_normalize_partial inside rs eff r hbins hpos
  have h2 : gridIntegral2 (fun x y => ampValue inside rs eff x y * (1 / ampNormalize inside rs eff r))
      r.lo12 r.hi12 r.nb12 r.lo13 r.hi13 r.nb13
      = gridIntegral2 (coherent inside rs eff) r.lo12 r.hi12 r.nb12 r.lo13 r.hi13 r.nb13 * (1 / ampNormalize inside rs eff r) := by
    unfold gridIntegral2
    rw [Finset.sum_mul]
    apply Finset.sum_congr rfl
    intro j _
    rw [Finset.sum_mul]
    apply Finset.sum_congr rfl
    intro i _
    simp only [ampValue_eq]
    ring
  rw [h2, ← h]
  exact mul_one_div_cancel hne

/-! ### Fit fractions -/

omit [LinearOrder K] [IsStrictOrderedRing K] in
/-- `Re(aᵢ aⱼ* Σ wᵢ wⱼ*)`, written out. -/
theorem ffBuffer_symm (p q : Cx K × List (Cx K)) : ffBuffer p q = ffBuffer q p := by
  unfold ffBuffer
  have h : ∀ (a b : List (Cx K)), ((a.zip b).map fun w => (p.1 * q.1.conj * w.1 * w.2.conj).re).sum
      = ((b.zip a).map fun w => (q.1 * p.1.conj * w.1 * w.2.conj).re).sum := by
    intro a
    induction a with
    | nil => intro b; cases b <;> simp
    | cons x a ih =>
      intro b
      cases b with
      | nil => simp
      | cons y b =>
        rw [List.zip_cons_cons, List.zip_cons_cons, List.map_cons, List.map_cons, List.sum_cons, List.sum_cons, ih b]
        congr 1
        simp
        ring
  exact h p.2 q.2

/-- The waves of all resonances at event `e`, with the coefficients. -/
def termsOf (rs : List (Cx K × List (Cx K))) (e : Nat) : List (Cx K × Cx K) := rs.map fun p => (p.1, p.2.getD e 0)

omit [LinearOrder K] [IsStrictOrderedRing K] in
theorem ffBuffer_eq (p q : Cx K × List (Cx K)) (n : Nat) (hp : p.2.length = n) (hq : q.2.length = n) :
    ffBuffer p q = ∑ e ∈ Finset.range n, ((p.1 * p.2.getD e 0) * (q.1 * q.2.getD e 0).conj).re := by
  unfold ffBuffer
  have h : ∀ (n : Nat) (a b : List (Cx K)), a.length = n → b.length = n →
      ((a.zip b).map fun w => (p.1 * q.1.conj * w.1 * w.2.conj).re).sum
      = ∑ e ∈ Finset.range n, ((p.1 * a.getD e 0) * (q.1 * b.getD e 0).conj).re := by
    intro n
    induction n with
    | zero => intro a b ha hb; rw [List.length_eq_zero_iff] at ha hb; subst ha hb; simp
    | succ n ih =>
      intro a b ha hb
      cases a with
      | nil => simp at ha
      | cons x a =>
        cases b with
        | nil => simp at hb
        | cons y b =>
          rw [List.zip_cons_cons, List.map_cons, List.sum_cons, ih a b (by simpa using ha) (by simpa using hb),
            Finset.sum_range_succ', add_comm]
          congr 1
          simp
          ring
  exact h n p.2 q.2 hp hq

omit [LinearOrder K] [IsStrictOrderedRing K] in
/-- The sum of all entries before division: the summed intensity. -/
theorem ff_total (rs : List (Cx K × List (Cx K))) (n : Nat) (hlen : ∀ p ∈ rs, p.2.length = n) :
    (rs.map fun p => (rs.map fun q => ffBuffer p q).sum).sum = ∑ e ∈ Finset.range n, intensity (termsOf rs e) := by
  have hs : ∀ (l : List (Cx K × List (Cx K))) (f : (Cx K × List (Cx K)) → Nat → K),
      (l.map fun p => ∑ e ∈ Finset.range n, f p e).sum = ∑ e ∈ Finset.range n, (l.map fun p => f p e).sum := by
    intro l f
    induction l with
    | nil => simp
    | cons a l ih => simp only [List.map_cons, List.sum_cons, ih, Finset.sum_add_distrib]
  have h1 : (rs.map fun p => (rs.map fun q => ffBuffer p q).sum).sum
      = (rs.map fun p => (rs.map fun q => ∑ e ∈ Finset.range n, ((p.1 * p.2.getD e 0) * (q.1 * q.2.getD e 0).conj).re).sum).sum := by
    congr 1
    apply List.map_congr_left
    intro p hp
    congr 1
    apply List.map_congr_left
    intro q hq
    exact ffBuffer_eq p q n (hlen p hp) (hlen q hq)
  rw [h1]
  simp only [hs]
  apply Finset.sum_congr rfl
  intro e _
  rw [← Cx.norm_eq]
  unfold termsOf
  rw [List.map_map]
  have hre : ∀ p : Cx K × List (Cx K), (rs.map fun q => ((p.1 * p.2.getD e 0) * (q.1 * q.2.getD e 0).conj).re).sum
      = ((rs.map fun q => (p.1 * p.2.getD e 0) * (q.1 * q.2.getD e 0).conj).sum).re := by
    intro p; rw [Cx.sum_re, List.map_map]; rfl
  simp only [hre]
  have hre2 : (rs.map fun p : Cx K × List (Cx K) => ((rs.map fun q : Cx K × List (Cx K) => (p.1 * p.2.getD e 0) * (q.1 * q.2.getD e 0).conj).sum).re).sum
      = ((rs.map fun p : Cx K × List (Cx K) => (rs.map fun q : Cx K × List (Cx K) => (p.1 * p.2.getD e 0) * (q.1 * q.2.getD e 0).conj).sum).sum).re := by
    rw [Cx.sum_re, List.map_map]; rfl
  rw [hre2, double_sum rs (fun p : Cx K × List (Cx K) => p.1 * p.2.getD e 0) (fun q => (q.1 * q.2.getD e 0).conj)]
  have e2 : (rs.map fun q : Cx K × List (Cx K) => (q.1 * q.2.getD e 0).conj).sum
      = (rs.map fun q : Cx K × List (Cx K) => q.1 * q.2.getD e 0).sum.conj := by
    rw [Cx.conj_sum, List.map_map]; rfl
  rw [e2, Cx.mul_conj]
  rfl

/-- **C41, fit fractions.**  For any number of resonances, coefficients and cached waves of `n > 0` events with a coherent sum
that does not vanish at all of them: entry `(i, j)` is the real part of `Σ_e (aᵢ wᵢ)(aⱼ wⱼ)*` divided by
`Σ_e |Σ a w|²`. -/
theorem C41_fit_fractions (rs : List (Cx K × List (Cx K))) (n : Nat) (hn : 0 < n) (hlen : ∀ p ∈ rs, p.2.length = n)
    (i j : Nat) (hi : i < rs.length) (hj : j < rs.length) :
    (fitFractions rs n)[i]?.bind (·[j]?)
      = some ((∑ e ∈ Finset.range n, ((rs[i].1 * rs[i].2.getD e 0) * (rs[j].1 * rs[j].2.getD e 0).conj).re)
          / ∑ e ∈ Finset.range n, intensity (termsOf rs e)) := by
  unfold fitFractions
  have hn' : (n : K) ≠ 0 := Nat.cast_ne_zero.mpr hn.ne'
  simp only [List.getElem?_map, List.getElem?_eq_getElem hi, Option.map_some, Option.bind_some, List.getElem?_eq_getElem hj,
    Option.some.injEq]
  rw [ff_total rs n hlen, ffBuffer_eq _ _ n (hlen _ (List.getElem_mem hi)) (hlen _ (List.getElem_mem hj)), div_div_div_cancel_right₀ hn']

/-- **C41, sum rule and symmetry.**  The fit fractions, interference included, sum to one; the matrix is symmetric; its diagonal
is not negative. -/
theorem C41_fit_fractions_sum (rs : List (Cx K × List (Cx K))) (n : Nat) (hn : 0 < n) (hlen : ∀ p ∈ rs, p.2.length = n)
    (hne : ∑ e ∈ Finset.range n, intensity (termsOf rs e) ≠ 0) :
    ((fitFractions rs n).map List.sum).sum = 1
      ∧ (∀ i j : Nat, (fitFractions rs n)[i]?.bind (·[j]?) = (fitFractions rs n)[j]?.bind (·[i]?))
      ∧ ∀ (i : Nat) (x : K), (fitFractions rs n)[i]?.bind (·[i]?) = some x → 0 ≤ x := by
  have hn' : (n : K) ≠ 0 := Nat.cast_ne_zero.mpr hn.ne'
  refine ⟨?_, ?_, ?_⟩
  · unfold fitFractions
    rw [List.map_map]
    simp only [Function.comp_def]
    have hd : ∀ (c d : K) (l : List (Cx K × List (Cx K))) (f : (Cx K × List (Cx K)) → K),
        (l.map fun q => f q / c / d).sum = (l.map f).sum / c / d := by
      intro c d l f
      induction l with
      | nil => simp
      | cons a l ih => simp only [List.map_cons, List.sum_cons, ih]; ring
    simp only [hd]
    rw [div_div_div_cancel_right₀ hn', div_self]
    rw [ff_total rs n hlen]
    exact hne
  · intro i j
    by_cases hi : i < rs.length
    · by_cases hj : j < rs.length
      · unfold fitFractions
        simp only [List.getElem?_map, List.getElem?_eq_getElem hi, Option.map_some, Option.bind_some, List.getElem?_eq_getElem hj]
        rw [ffBuffer_symm]
      · simp [fitFractions, List.getElem?_map, List.getElem?_eq_getElem hi, List.getElem?_eq_none (not_lt.mp hj)]
    · by_cases hj : j < rs.length
      · simp [fitFractions, List.getElem?_map, List.getElem?_eq_getElem hj, List.getElem?_eq_none (not_lt.mp hi)]
      · simp [fitFractions, List.getElem?_map, List.getElem?_eq_none (not_lt.mp hi), List.getElem?_eq_none (not_lt.mp hj)]
  · intro i x hx
    by_cases hi : i < rs.length
    · rw [C41_fit_fractions rs n hn hlen i i hi hi, Option.some.injEq] at hx
      rw [← hx]
      refine div_nonneg (Finset.sum_nonneg fun e _ => ?_) (Finset.sum_nonneg fun e _ => intensity_nonneg _)
      rw [Cx.mul_conj, Cx.ofReal_re]
      exact add_nonneg (mul_self_nonneg _) (mul_self_nonneg _)
    · simp [fitFractions, List.getElem?_map, List.getElem?_eq_none (not_lt.mp hi)] at hx

end

/-! ### Concrete cases -/

namespace AmpDemo
/-- Two resonances that interfere. -/
def terms : List (AmpTerm ℚ) := [(⟨1, 0⟩, fun x y => ⟨x, y⟩), (⟨0, 2⟩, fun x _ => ⟨1, x⟩)]
def inside (x y : ℚ) : Bool := decide (x + y < 3 / 2)
end AmpDemo

open AmpDemo in
/-- A case of `C41_normalize_partial` and `C41_unit_partial`: the normalisation is not zero. -/
example : ampNormalize inside terms (fun _ _ => 1) ⟨0, 1, 2, 0, 1, 2⟩ = 147 / 32
    ∧ ampNormalize inside terms (fun _ _ => 1) ⟨0, 1, 2, 0, 1, 2⟩ ≠ 0 := by decide +kernel

/-- Fit fractions of two resonances over two events. -/
example : fitFractions [((⟨1, 0⟩ : Cx ℚ), [⟨1, 0⟩, ⟨0, 1⟩]), (⟨2, 0⟩, [⟨1, 0⟩, ⟨1, 0⟩])] 2
    = [[1 / 7, 1 / 7], [1 / 7, 4 / 7]] := by decide +kernel

/-- **Violation of C41.**  With one bin in `m12` and two in `m13`, a constant amplitude that is one all over the square, the
normalisation should be 1 and is 1/2: the second bin is evaluated outside the range. -/
theorem C41_violation_bins :
    let inside : ℚ → ℚ → Bool := fun x y => decide (0 ≤ x ∧ x ≤ 1 ∧ 0 ≤ y ∧ y ≤ 1)
    let rs : List (AmpTerm ℚ) := [(⟨1, 0⟩, fun _ _ => ⟨1, 0⟩)]
    let r : NormRange ℚ := ⟨0, 1, 1, 0, 1, 2⟩
    ampNormalize inside rs (fun _ _ => 1) r = 1 / 2
      ∧ gridIntegral2 (coherent inside rs fun _ _ => 1) r.lo12 r.hi12 r.nb12 r.lo13 r.hi13 r.nb13 = 1 := by
  decide +kernel

/-! ### The efficiency -/

section
variable {F : Type} [FpOps F] {L : Lib F}

/-- **C41, efficiency.**  If the efficiency has no components, the function used as efficiency is the efficiency's.  Missing:
efficiencies with components (`C41_violation_efficiency`). -/
theorem C41_efficiency_partial (env : Env F) (node eff : Node L) (resonances : List (Pdf L)) (h : Host L) :
    (Host.populate env (.mk node (resonances ++ [.mk eff []])) h).table[efficiencyFunction env (.mk node (resonances ++ [.mk eff []])) h]?
      = some eff.fn := by
  have hl : ∀ (ts : List (Pdf L)) (h : Host L), (Host.populateList env (ts ++ [.mk eff []]) h).table
      = (Host.populateList env ts h).table ++ [eff.fn] := by
    intro ts
    induction ts with
    | nil => intro h; rfl
    | cons t ts ih => intro h; rw [List.cons_append, Host.populateList, ih, Host.populateList]
  unfold efficiencyFunction
  rw [Host.populate, hl, List.length_append, List.length_singleton, Nat.add_sub_cancel, List.getElem?_append_right (Nat.le_refl _),
    Nat.sub_self]
  rfl

end

/-- **Violation of C41.**  An efficiency that is a product of two PDFs: the function used as efficiency is its last factor. -/
theorem C41_violation_efficiency {F : Type} [FpOps F] {L : Lib F} (env : Env F) (node eff : Node L) (factor last : L.Leaf)
    (nf nl : Node L) (heff : eff.fn = .prod) (hf : nf.fn = .leaf factor) (hl : nl.fn = .leaf last) (resonances : List (Pdf L))
    (h : Host L) :
    let amp : Pdf L := .mk node (resonances ++ [.mk eff [.mk nf [], .mk nl []]])
    (Host.populate env amp h).table[efficiencyFunction env amp h]? = some (.leaf last)
      ∧ (.leaf last : Fn L) ≠ eff.fn := by
  intro amp
  have hl' : ∀ (ts : List (Pdf L)) (h : Host L), (Host.populateList env (ts ++ [.mk eff [.mk nf [], .mk nl []]]) h).table
      = (Host.populateList env ts h).table ++ [eff.fn] ++ [nf.fn] ++ [nl.fn] := by
    intro ts
    induction ts with
    | nil => intro h; rfl
    | cons t ts ih => intro h; rw [List.cons_append, Host.populateList, ih, Host.populateList]
  constructor
  · unfold efficiencyFunction
    rw [Host.populate, hl', List.length_append, List.length_singleton, Nat.add_sub_cancel,
      List.getElem?_append_right (Nat.le_refl _), Nat.sub_self, hl]
    rfl
  · rw [heff]; exact fun h => by cases h

end GooFit
