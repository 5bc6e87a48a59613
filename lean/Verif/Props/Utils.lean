import Verif.Model.MathUtils
import Verif.Lemmas.Float
import Verif.Spec.Uncertain
import Mathlib.Algebra.BigOperators.Group.List.Basic
import Mathlib.Algebra.Order.BigOperators.Group.List
import Mathlib.Tactic.NormNum
/-!
# C35 compensated summation, C36 uncertain values
-/
set_option autoImplicit false
namespace GooFit
open Spec

/-! ## C35 -/

theorem neumaier_exact_fold {K : Type} [Field K] [LinearOrder K] [IsStrictOrderedRing K] (vals : List K) (s : K × K) :
    (vals.foldl (neumaierStep (fun x => x)) s).1 + (vals.foldl (neumaierStep (fun x => x)) s).2
      = s.1 + s.2 + vals.sum := by
  induction vals generalizing s with
  | nil => simp
  | cons v vs ih =>
    rw [List.foldl_cons, ih, List.sum_cons]
    simp only [neumaierStep]
    split <;> ring

/-- **C35.** In exact arithmetic the compensated sum of a vector, of whatever length and order, is its
sum. -/
theorem C35_exact {K : Type} [Field K] [LinearOrder K] [IsStrictOrderedRing K] (vals : List K) :
    neumaier (fun x => x) vals = vals.sum := by
  unfold neumaier
  split
  · rename_i h
    obtain ⟨x, rfl⟩ := List.length_eq_one_iff.mp h
    simp
  · have := neumaier_exact_fold vals (0, 0)
    simpa using this

example : neumaier (K := ℚ) (fun x => x) [1, 10 ^ 30, 1, -10 ^ 30] = 2 := by rw [C35_exact]; norm_num

section
variable {p : Nat} {fl : ℝ → ℝ}

/-- One step in floating point: the new sum, and the error of the addition added to the compensation. -/
theorem neumaierStep_float (h : RoundsToNearest p fl) (hp : 1 ≤ p) {s c v : ℝ} (hs : IsFloat p s) (hv : IsFloat p v) :
    neumaierStep fl (s, c) v = (fl (s + v), fl (c + (s + v - fl (s + v)))) := by
  unfold neumaierStep
  simp only
  by_cases hc : |s| ≥ |v|
  · rw [if_pos hc]
    obtain ⟨h1, h2⟩ := fast_two_sum h hp hs hv hc
    rw [fl_of_float h h1, show s - fl (s + v) + v = s + v - fl (s + v) by ring, fl_of_float h h2]
  · rw [if_neg hc]
    push Not at hc
    obtain ⟨h1, h2⟩ := fast_two_sum h hp hv hs hc.le
    rw [add_comm v s] at h1 h2
    rw [fl_of_float h h1, show v - fl (s + v) + s = s + v - fl (s + v) by ring, fl_of_float h h2]

/-- The loop: `sum` plus the exact errors is the true sum, and the compensation is close to the exact
errors.  `A` bounds the running sum, `E` the sum of the errors' magnitudes so far. -/
theorem neumaier_fold (h : RoundsToNearest p fl) (hp : 1 ≤ p) (vals : List ℝ) (hv : ∀ v ∈ vals, IsFloat p v)
    (s c e E : ℝ) (hs : IsFloat p s) (u : ℝ) (hu : u = 1 / 2 ^ p) (hE : |e| ≤ E) (k : Nat)
    (hc : |c - e| ≤ ((1 + u) ^ k - 1) * E) :
    ∃ e' E', |e'| ≤ E' ∧ (vals.foldl (neumaierStep fl) (s, c)).1 + e' = s + e + vals.sum
      ∧ |(vals.foldl (neumaierStep fl) (s, c)).2 - e'| ≤ ((1 + u) ^ (k + vals.length) - 1) * E'
      ∧ E' ≤ E + ((1 + u) ^ vals.length - 1) * (|s| + (vals.map fun v => |v|).sum) := by
  have hu0 : 0 < u := by rw [hu]; positivity
  induction vals generalizing s c e E k with
  | nil => exact ⟨e, E, hE, by simp, by simpa using hc, by simp⟩
  | cons v vs ih =>
    have hfv := hv v (by simp)
    rw [List.foldl_cons, neumaierStep_float h hp hs hfv]
    set t := fl (s + v) with ht
    have hδ : |s + v - t| ≤ u * (|s| + |v|) := by
      have h1 := fl_error h (s + v)
      rw [abs_sub_comm] at h1
      refine le_trans h1 ?_
      rw [div_eq_mul_one_div, ← hu, mul_comm]
      exact mul_le_mul_of_nonneg_left (abs_add_le s v) hu0.le
    set δ := s + v - t with hδd
    have hpow1 : ∀ n : Nat, (1 : ℝ) ≤ (1 + u) ^ n := fun n => one_le_pow₀ (by linarith)
    have hE0 : 0 ≤ E := le_trans (abs_nonneg _) hE
    have hc' : |fl (c + δ) - (e + δ)| ≤ ((1 + u) ^ (k + 1) - 1) * (E + |δ|) := by
      have h1 := fl_error h (c + δ)
      rw [div_eq_mul_one_div, ← hu, mul_comm] at h1
      have h2 : |c + δ| ≤ |c - e| + |e| + |δ| := by
        calc |c + δ| = |(c - e) + e + δ| := by ring_nf
          _ ≤ |(c - e) + e| + |δ| := abs_add_le _ _
          _ ≤ _ := by have := abs_add_le (c - e) e; linarith
      have h3 : |fl (c + δ) - (e + δ)| ≤ |fl (c + δ) - (c + δ)| + |c - e| := by
        rw [show fl (c + δ) - (e + δ) = (fl (c + δ) - (c + δ)) + (c - e) by ring]
        exact abs_add_le _ _
      have h4 : u * |c + δ| ≤ u * (((1 + u) ^ k - 1) * E + E + |δ|) :=
        mul_le_mul_of_nonneg_left (by linarith) hu0.le
      have h5 : 0 ≤ ((1 + u) ^ k * (1 + u) - 1 - u) * |δ| := by
        apply mul_nonneg _ (abs_nonneg _)
        have h6 := hpow1 k
        have h7 : (1 : ℝ) * (1 + u) ≤ (1 + u) ^ k * (1 + u) := mul_le_mul_of_nonneg_right h6 (by linarith)
        linarith
      rw [pow_succ]
      have : ((1 + u) ^ k * (1 + u) - 1) * (E + |δ|)
          = u * (((1 + u) ^ k - 1) * E + E + |δ|) + ((1 + u) ^ k - 1) * E + ((1 + u) ^ k * (1 + u) - 1 - u) * |δ| := by
        ring
      rw [this]
      linarith
    obtain ⟨e', E', q1, q2, q3, q4⟩ := ih (fun w hw => hv w (by simp [hw])) t (fl (c + δ)) (e + δ) (E + |δ|)
      (h (s + v)).1 (le_trans (abs_add_le _ _) (by linarith)) (k + 1) hc'
    refine ⟨e', E', q1, ?_, ?_, ?_⟩
    · rw [q2, List.sum_cons, hδd]; ring
    · rw [List.length_cons]
      rwa [show k + (vs.length + 1) = k + 1 + vs.length by ring]
    · rw [List.length_cons, List.map_cons, List.sum_cons, pow_succ]
      set B := (vs.map fun v => |v|).sum with hB
      have hB0 : 0 ≤ B := List.sum_nonneg (by intro x hx; obtain ⟨y, _, rfl⟩ := List.mem_map.mp hx; exact abs_nonneg y)
      have ht' : |t| ≤ (1 + u) * (|s| + |v|) := by
        have : t = (s + v) - δ := by rw [hδd]; ring
        rw [this]
        have h1 := abs_sub (s + v) δ
        have h2 := abs_add_le s v
        linarith
      have hP := hpow1 vs.length
      have h6 : ((1 + u) ^ vs.length - 1) * (|t| + B) ≤ ((1 + u) ^ vs.length - 1) * ((1 + u) * (|s| + |v|) + B) :=
        mul_le_mul_of_nonneg_left (by linarith) (by linarith)
      have h7 : 0 ≤ u * (1 + u) ^ vs.length * B := by positivity
      have h8 : ((1 + u) ^ vs.length * (1 + u) - 1) * (|s| + (|v| + B))
          = ((1 + u) ^ vs.length - 1) * ((1 + u) * (|s| + |v|) + B) + u * (|s| + |v|) + u * (1 + u) ^ vs.length * B := by
        ring
      rw [h8]
      linarith

/-- **C35, in floating point.** With every addition and subtraction rounded to nearest in `p` bits
(`p = 53` for doubles, barring overflow), the compensated sum of a vector of floating-point numbers
differs from the exact sum by the one final rounding and a term of second order in `2^-p`. -/
theorem C35_rounded (h : RoundsToNearest p fl) (hp : 1 ≤ p) (vals : List ℝ) (hv : ∀ v ∈ vals, IsFloat p v) :
    let u : ℝ := 1 / 2 ^ p
    |neumaier fl vals - vals.sum|
      ≤ u * |vals.sum| + (1 + u) * ((1 + u) ^ vals.length - 1) ^ 2 * (vals.map fun v => |v|).sum := by
  intro u
  have hu0 : 0 < u := by show (0 : ℝ) < 1 / 2 ^ p; positivity
  set A := (vals.map fun v => |v|).sum with hA
  have hA0 : 0 ≤ A := List.sum_nonneg (by intro x hx; obtain ⟨y, _, rfl⟩ := List.mem_map.mp hx; exact abs_nonneg y)
  unfold neumaier
  split
  · rename_i hl
    obtain ⟨x, rfl⟩ := List.length_eq_one_iff.mp hl
    simp only [List.headD_cons, List.sum_cons, List.sum_nil, add_zero, sub_self, abs_zero]
    have := abs_nonneg x
    positivity
  · obtain ⟨e, E, q1, q2, q3, q4⟩ := neumaier_fold h hp vals hv 0 0 0 0 (isFloat_zero p) u rfl (by simp) 0 (by simp)
    simp only
    set S := (vals.foldl (neumaierStep fl) (0, 0)).1
    set C := (vals.foldl (neumaierStep fl) (0, 0)).2
    rw [abs_zero, zero_add, zero_add] at q4
    rw [Nat.zero_add] at q3
    rw [add_zero, zero_add] at q2
    have hP : (1 : ℝ) ≤ (1 + u) ^ vals.length := one_le_pow₀ (by linarith)
    have h1 : |S + C - vals.sum| ≤ ((1 + u) ^ vals.length - 1) ^ 2 * A := by
      rw [← q2, show S + C - (S + e) = C - e by ring]
      refine le_trans q3 ?_
      have := mul_le_mul_of_nonneg_left q4 (show 0 ≤ (1 + u) ^ vals.length - 1 by linarith)
      rw [pow_two, mul_assoc]
      exact this
    have h2 := fl_error h (S + C)
    have h3 : |S + C| ≤ |vals.sum| + ((1 + u) ^ vals.length - 1) ^ 2 * A := by
      have := abs_add_le (vals.sum) (S + C - vals.sum)
      rw [show vals.sum + (S + C - vals.sum) = S + C by ring] at this
      linarith
    have h4 : |fl (S + C) - (S + C)| ≤ u * (|vals.sum| + ((1 + u) ^ vals.length - 1) ^ 2 * A) := by
      refine le_trans h2 ?_
      rw [div_eq_mul_one_div, mul_comm]
      exact mul_le_mul_of_nonneg_left h3 hu0.le
    rw [show fl (S + C) - vals.sum = (fl (S + C) - (S + C)) + (S + C - vals.sum) by ring]
    refine le_trans (abs_add_le _ _) ?_
    have : u * |vals.sum| + (1 + u) * ((1 + u) ^ vals.length - 1) ^ 2 * A
        = u * (|vals.sum| + ((1 + u) ^ vals.length - 1) ^ 2 * A) + ((1 + u) ^ vals.length - 1) ^ 2 * A := by ring
    rw [this]
    linarith

end

/-- A rounding to 53 bits exists, and `1, 2^60, 1, -2^60`, which a plain loop sums to `0`, are
floating-point numbers. -/
example : RoundsToNearest 53 (roundTo 53) ∧ ∀ v ∈ [(1 : ℝ), 2 ^ 60, 1, -2 ^ 60], IsFloat 53 v := by
  refine ⟨roundTo_nearest 53 (by norm_num), ?_⟩
  intro v hv
  simp only [List.mem_cons, List.not_mem_nil, or_false] at hv
  rcases hv with rfl | rfl | rfl | rfl
  · exact ⟨1, 0, by norm_num, by norm_num⟩
  · exact ⟨1, 60, by norm_num, by norm_num⟩
  · exact ⟨1, 0, by norm_num, by norm_num⟩
  · exact ⟨-1, 60, by norm_num, by norm_num⟩

/-! ## C36 -/

section
variable {K : Type} [Field K] [LinearOrder K] [IsStrictOrderedRing K]

/-- No operation yields a negative uncertainty: one that would throws. -/
theorem C36_never_negative (a b c : Uncertain K) (x : K)
    (h : a.add b = some c ∨ a.sub b = some c ∨ a.mul b = some c ∨ a.div b = some c ∨ a.scale x = some c ∨ a.divBy x = some c
      ∨ Uncertain.mk? x a.uncertainty = some c) : 0 ≤ c.uncertainty := by
  have key : ∀ v u : K, Uncertain.mk? v u = some c → 0 ≤ c.uncertainty := by
    intro v u h
    unfold Uncertain.mk? at h
    split at h
    · exact absurd h (by simp)
    · rename_i hu
      obtain rfl := Option.some.inj h
      exact not_lt.mp hu
  rcases h with h | h | h | h | h | h | h <;> exact key _ _ h

/-- Values are propagated exactly whenever no exception is thrown. -/
theorem C36_values (a b c : Uncertain K) (x : K) :
    (a.add b = some c → c.value = a.value + b.value) ∧ (a.sub b = some c → c.value = a.value - b.value)
      ∧ (a.mul b = some c → c.value = a.value * b.value) ∧ (a.div b = some c → c.value = a.value / b.value)
      ∧ (a.scale x = some c → c.value = a.value * x) ∧ (a.divBy x = some c → c.value = a.value / x) := by
  have key : ∀ v u : K, Uncertain.mk? v u = some c → c.value = v := by
    intro v u h
    unfold Uncertain.mk? at h
    split at h
    · exact absurd h (by simp)
    · obtain rfl := Option.some.inj h
      rfl
  exact ⟨key _ _, key _ _, key _ _, key _ _, key _ _, key _ _⟩

/-- Sums and differences never throw, and the result is the smallest one compatible with everything the
inputs are compatible with. -/
theorem C36_sum (a b : Uncertain K) (ha : 0 ≤ a.uncertainty) (hb : 0 ≤ b.uncertainty) :
    a.add b = some ⟨a.value + b.value, a.uncertainty + b.uncertainty⟩
      ∧ a.sub b = some ⟨a.value - b.value, a.uncertainty + b.uncertainty⟩
      ∧ ∀ u, ((∀ x y, Within a.value a.uncertainty x → Within b.value b.uncertainty y →
            Within (a.value + b.value) u (x + y)) ↔ a.uncertainty + b.uncertainty ≤ u)
          ∧ ((∀ x y, Within a.value a.uncertainty x → Within b.value b.uncertainty y →
            Within (a.value - b.value) u (x - y)) ↔ a.uncertainty + b.uncertainty ≤ u) := by
  have hn : ¬ a.uncertainty + b.uncertainty < 0 := not_lt.mpr (add_nonneg ha hb)
  refine ⟨by rw [Uncertain.add, Uncertain.mk?, if_neg hn], by rw [Uncertain.sub, Uncertain.mk?, if_neg hn], ?_⟩
  intro u
  constructor
  · constructor
    · intro h
      have := (h (a.value + a.uncertainty) (b.value + b.uncertainty) ⟨by linarith, le_refl _⟩ ⟨by linarith, le_refl _⟩).2
      linarith
    · rintro h x y ⟨h1, h2⟩ ⟨h3, h4⟩
      exact ⟨by linarith, by linarith⟩
  · constructor
    · intro h
      have := (h (a.value + a.uncertainty) (b.value - b.uncertainty) ⟨by linarith, le_refl _⟩ ⟨le_refl _, by linarith⟩).2
      linarith
    · rintro h x y ⟨h1, h2⟩ ⟨h3, h4⟩
      exact ⟨by linarith, by linarith⟩

/-- Multiplying and dividing by a number: right for positive numbers. -/
theorem C36_scale_partial (a : Uncertain K) (ha : 0 ≤ a.uncertainty) (x : K) (hx : 0 < x) :
    a.scale x = some ⟨a.value * x, a.uncertainty * |x|⟩ ∧ a.divBy x = some ⟨a.value / x, a.uncertainty / |x|⟩ := by
  rw [abs_of_pos hx]
  constructor
  · rw [Uncertain.scale, Uncertain.mk?, if_neg (not_lt.mpr (mul_nonneg ha hx.le))]
  · rw [Uncertain.divBy, Uncertain.mk?, if_neg (not_lt.mpr (div_nonneg ha hx.le))]

/-- Multiplying or dividing by a negative number throws, unless the uncertainty is zero. -/
theorem C36_violation_negative_scale (a : Uncertain K) (ha : 0 < a.uncertainty) (x : K) (hx : x < 0) :
    a.scale x = none ∧ a.divBy x = none := by
  constructor
  · rw [Uncertain.scale, Uncertain.mk?, if_pos (mul_neg_of_pos_of_neg ha hx)]
  · rw [Uncertain.divBy, Uncertain.mk?, if_pos (div_neg_of_pos_of_neg ha hx)]

/-- Products and quotients: what is stored as the uncertainty is the sum of the relative uncertainties;
for positive values it is right exactly when that sum is zero or the result is one. -/
theorem C36_product_partial (a b : Uncertain K) (ha : 0 ≤ a.uncertainty) (hb : 0 ≤ b.uncertainty) (hva : 0 < a.value)
    (hvb : 0 < b.value) :
    (∃ c, a.mul b = some c
      ∧ (c.uncertainty = addRelative (a.value * b.value) a.value a.uncertainty b.value b.uncertainty
          ↔ (a.uncertainty = 0 ∧ b.uncertainty = 0) ∨ a.value * b.value = 1))
    ∧ ∃ c, a.div b = some c
      ∧ (c.uncertainty = addRelative (a.value / b.value) a.value a.uncertainty b.value b.uncertainty
          ↔ (a.uncertainty = 0 ∧ b.uncertainty = 0) ∨ a.value / b.value = 1) := by
  have h0 : 0 ≤ a.relative + b.relative := add_nonneg (div_nonneg ha hva.le) (div_nonneg hb hvb.le)
  have hrel : a.relative + b.relative = 0 ↔ a.uncertainty = 0 ∧ b.uncertainty = 0 := by
    unfold Uncertain.relative
    rw [add_eq_zero_iff_of_nonneg (div_nonneg ha hva.le) (div_nonneg hb hvb.le)]
    rw [div_eq_zero_iff, div_eq_zero_iff]
    simp [hva.ne', hvb.ne']
  have key : ∀ r : K, 0 < r → (a.relative + b.relative = addRelative r a.value a.uncertainty b.value b.uncertainty
      ↔ (a.uncertainty = 0 ∧ b.uncertainty = 0) ∨ r = 1) := by
    intro r hr
    rw [addRelative, abs_of_pos hr, abs_of_pos hva, abs_of_pos hvb, ← hrel]
    show a.relative + b.relative = r * (a.relative + b.relative) ↔ _
    constructor
    · intro h
      by_cases hz : a.relative + b.relative = 0
      · exact Or.inl hz
      · right
        have : r * (a.relative + b.relative) = 1 * (a.relative + b.relative) := by rw [one_mul]; exact h.symm
        exact mul_right_cancel₀ hz this
    · rintro (h | h)
      · rw [h, mul_zero]
      · rw [h, one_mul]
  refine ⟨⟨_, by rw [Uncertain.mul, Uncertain.mk?, if_neg (not_lt.mpr h0)], key _ (mul_pos hva hvb)⟩,
    ⟨_, by rw [Uncertain.div, Uncertain.mk?, if_neg (not_lt.mpr h0)], key _ (div_pos hva hvb)⟩⟩

/-- A product or quotient of two negative values throws unless both uncertainties are zero. -/
theorem C36_violation_negative_values (a b : Uncertain K) (ha : 0 < a.uncertainty) (hb : 0 ≤ b.uncertainty)
    (hva : a.value < 0) (hvb : b.value < 0) : a.mul b = none ∧ a.div b = none := by
  have : a.relative + b.relative < 0 :=
    add_neg_of_neg_of_nonpos (div_neg_of_pos_of_neg ha hva) (div_nonpos_of_nonneg_of_nonpos hb hvb.le)
  exact ⟨by rw [Uncertain.mul, Uncertain.mk?, if_pos this], by rw [Uncertain.div, Uncertain.mk?, if_pos this]⟩

end

/-- `(10 ± 1) * (20 ± 2)` comes out as `200 ± 0.2`; adding relative uncertainties gives `200 ± 40`. -/
theorem C36_violation_product :
    Uncertain.mul (K := ℚ) ⟨10, 1⟩ ⟨20, 2⟩ = some ⟨200, 1 / 5⟩ ∧ addRelative (K := ℚ) 200 10 1 20 2 = 40 := by
  constructor <;> decide +kernel

/-- `(-10 ± 1) * (5 ± 1)`: no exception, and an uncertainty of `1/10` where `15` is right. -/
theorem C36_violation_mixed_signs :
    Uncertain.mul (K := ℚ) ⟨-10, 1⟩ ⟨5, 1⟩ = some ⟨-50, 1 / 10⟩ ∧ addRelative (K := ℚ) (-50) (-10) 1 5 1 = 15 := by
  constructor <;> decide +kernel

example : Uncertain.add (K := ℚ) ⟨10, 1⟩ ⟨-20, 2⟩ = some ⟨-10, 3⟩ := by
  rw [(C36_sum (⟨10, 1⟩ : Uncertain ℚ) ⟨-20, 2⟩ (by norm_num) (by norm_num)).1]
  norm_num

example : Uncertain.scale (K := ℚ) ⟨10, 1⟩ 3 = some ⟨30, 3⟩ := by
  rw [(C36_scale_partial (⟨10, 1⟩ : Uncertain ℚ) (by norm_num) 3 (by norm_num)).1]
  norm_num

example : Uncertain.scale (K := ℚ) ⟨10, 1⟩ (-3) = none :=
  (C36_violation_negative_scale (⟨10, 1⟩ : Uncertain ℚ) (by norm_num) (-3) (by norm_num)).1

example : Uncertain.div (K := ℚ) ⟨-10, 1⟩ ⟨-5, 0⟩ = none :=
  (C36_violation_negative_values (⟨-10, 1⟩ : Uncertain ℚ) ⟨-5, 0⟩ (by norm_num) (by norm_num) (by norm_num) (by norm_num)).2

end GooFit
