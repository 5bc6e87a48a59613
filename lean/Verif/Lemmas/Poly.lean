import Verif.Lemmas.BasicReal
import Mathlib.Algebra.BigOperators.Group.List.Basic
import Mathlib.Data.Nat.Choose.Cast
/-!
# Lemmas about polynomial PDFs
-/
set_option autoImplicit false
namespace GooFit
open Spec FpOps

theorem exponents_mem (n : Nat) : ∀ (N : Nat) (l : List Nat),
    l ∈ exponents n N ↔ l.length = n ∧ l.sum ≤ N := by
  induction n with
  | zero => intro N l; simp [exponents]; intro h; subst h; simp
  | succ n ih =>
    intro N l
    simp only [exponents, List.mem_flatMap, List.mem_range, List.mem_map]
    constructor
    · rintro ⟨p, hp, l', hl', rfl⟩
      rw [ih] at hl'
      simp
      omega
    · rintro ⟨h1, h2⟩
      have hne : l ≠ [] := by rintro rfl; simp at h1
      have hl := List.dropLast_append_getLast hne
      have hs : l.sum = l.dropLast.sum + l.getLast hne := by
        conv_lhs => rw [← hl]
        simp
      refine ⟨l.getLast hne, by omega, l.dropLast, ?_, hl⟩
      rw [ih]
      refine ⟨by simp [h1], by omega⟩

theorem exponents_nodup (n : Nat) : ∀ N, (exponents n N).Nodup := by
  induction n with
  | zero => intro N; simp [exponents]
  | succ n ih =>
    intro N
    simp only [exponents]
    rw [List.nodup_flatMap]
    constructor
    · intro p _
      exact (ih _).map fun a b h => List.append_left_injective [p] h
    · refine (List.nodup_range (n := N + 1)).imp ?_
      intro p q hpq
      rw [Function.onFun, List.disjoint_left]
      intro l h1 h2
      simp only [List.mem_map] at h1 h2
      obtain ⟨a, _, ha⟩ := h1
      obtain ⟨b, _, hb⟩ := h2
      rw [← hb] at ha
      have := congrArg List.getLast? ha
      simp at this
      exact hpq this

/-- First `n` boxDigits of `i` in base `M`, lowest first. -/
def boxDigits (M : Nat) : Nat → Nat → List Nat
  | 0, _ => []
  | n + 1, i => i % M :: boxDigits M n (i / M)

theorem boxDigits_top (M : Nat) (hM : 0 < M) (d : Nat) (hd : d < M) :
    ∀ (n i : Nat), i < M ^ n → boxDigits M (n + 1) (i + M ^ n * d) = boxDigits M n i ++ [d]
  | 0, i, hi => by
    have : i = 0 := by simpa using hi
    subst this
    simp [boxDigits, Nat.mod_eq_of_lt hd]
  | n + 1, i, hi => by
    have h1 : i + M ^ (n + 1) * d = i + M * (M ^ n * d) := by rw [pow_succ]; ring
    rw [boxDigits, h1, Nat.add_mul_mod_self_left, Nat.add_mul_div_left _ _ hM,
      boxDigits_top M hM d hd n (i / M) (by
        rw [Nat.div_lt_iff_lt_mul hM]; rwa [pow_succ] at hi)]
    rw [boxDigits]
    rfl

theorem boxDigits_zero (M n : Nat) : boxDigits M n 0 = List.replicate n 0 := by
  induction n with
  | zero => rfl
  | succ n ih => simp [boxDigits, ih, List.replicate_succ]

/-- The boxes that are kept, in order, are the documented monomials. -/
theorem kept_blocks (n M m : Nat) (hM : 0 < M) (hm : m ≤ M)
    (ih : ∀ m', 1 ≤ m' → m' ≤ M → ((List.range (M ^ n)).filter (fun i => digitSum M n i < m')).map
      (boxDigits M n) = exponents n (m' - 1)) : ∀ D, D ≤ M →
      ((List.range (M ^ n * D)).filter (fun i => digitSum M (n + 1) i < m)).map (boxDigits M (n + 1)) =
        (List.range D).flatMap fun d =>
          if d < m then (exponents n (m - 1 - d)).map (· ++ [d]) else []
  | 0, _ => by simp
  | D + 1, hD => by
    rw [Nat.mul_succ, List.range_add, List.filter_append, List.map_append,
      kept_blocks n M m hM hm ih D (by omega), List.range_succ, List.flatMap_append]
    congr 1
    rw [List.flatMap_cons, List.flatMap_nil, List.append_nil, List.filter_map, List.map_map]
    have hf : (List.range (M ^ n)).filter ((fun i => decide (digitSum M (n + 1) i < m)) ∘
        fun x => M ^ n * D + x) =
        (List.range (M ^ n)).filter (fun i => digitSum M n i < m - D) := by
      apply List.filter_congr
      intro i hi
      rw [List.mem_range] at hi
      have := digitSum_top M hM D (by omega) n i hi
      have hc : M ^ n * D + i = i + M ^ n * D := Nat.add_comm _ _
      show decide (digitSum M (n + 1) (M ^ n * D + i) < m) = decide (digitSum M n i < m - D)
      rw [decide_eq_decide, hc, this]
      omega
    rw [hf]
    by_cases hD' : D < m
    · rw [if_pos hD', show m - 1 - D = m - D - 1 by omega, ← ih (m - D) (by omega) (by omega),
        List.map_map]
      apply List.map_congr_left
      intro i hi
      rw [List.mem_filter, List.mem_range] at hi
      simp only [Function.comp]
      rw [Nat.add_comm (M ^ n * D) i, boxDigits_top M hM D (by omega) n i hi.1]
    · rw [if_neg hD', show m - D = 0 by omega]
      simp

theorem kept_boxes (M : Nat) (hM : 0 < M) : ∀ (n m : Nat), 1 ≤ m → m ≤ M →
    ((List.range (M ^ n)).filter (fun i => digitSum M n i < m)).map (boxDigits M n) =
      exponents n (m - 1)
  | 0, m, h1, _ => by
    have : decide (0 < m) = true := decide_eq_true h1
    have hr : List.range (M ^ 0) = [0] := rfl
    rw [hr, List.filter_cons, show decide (digitSum M 0 0 < m) = true from this]
    rfl
  | n + 1, m, h1, hm => by
    rw [pow_succ, kept_blocks n M m hM hm (fun m' h h' => kept_boxes M hM n m' h h') M le_rfl,
      exponents]
    have hsplit : List.range M = List.range m ++ (List.range (M - m)).map (m + ·) := by
      rw [← List.range_add]; congr 1; omega
    rw [hsplit, List.flatMap_append, show m - 1 + 1 = m by omega]
    have h2 : ((List.range (M - m)).map (m + ·)).flatMap (fun d =>
        if d < m then (exponents n (m - 1 - d)).map (· ++ [d]) else []) = [] := by
      rw [List.flatMap_eq_nil_iff]
      intro d hd
      rw [List.mem_map] at hd
      obtain ⟨a, _, rfl⟩ := hd
      rw [if_neg (by omega)]
    rw [h2, List.append_nil]
    rw [List.flatMap_def, List.flatMap_def]
    congr 1
    apply List.map_congr_left
    intro d hd
    rw [List.mem_range] at hd
    rw [if_pos hd]

theorem exponents_length (n N : Nat) : (exponents n N).length = (N + n).choose n := by
  have h := kept_boxes (N + 1) (by omega) n (N + 1) (by omega) le_rfl
  rw [Nat.add_sub_cancel] at h
  rw [← h, List.length_map, ← List.countP_eq_length_filter]
  have hc := count_simplex (N + 1) (by omega) n (N + 1) le_rfl
  rw [simplexCount, if_neg (by omega), Nat.add_sub_cancel, Nat.count] at hc
  exact hc

/-! ### Sums -/

theorem nth_eq_getD (l : List ℝ) (i : Nat) : nth l i = l.getD i 0 := by
  unfold nth
  rw [real_lit]
  simp

theorem map_range_eq_zipIdx {β : Type} (l : List ℝ) (g : ℝ → Nat → β) :
    (List.range' 0 l.length).map (fun i => g (nth l i) i) = l.zipIdx.map (fun t => g t.1 t.2) := by
  apply List.ext_getElem
  · simp
  · intro i h1 h2
    have hi : i < l.length := by simpa using h1
    have := nth_get l i hi
    rw [List.getElem?_eq_getElem hi] at this
    simp [← Option.some.inj this]

theorem multiTerm_value (ps xs : List ℝ) (M : Nat) : ∀ (n k : Nat) (t : ℝ) (idx s : Nat),
    ((List.range' k n).foldl (fun (s : ℝ × Nat × Nat) j =>
      (mul s.1 (FpMath.pow (sub (nth xs j) (nth ps j)) (ofNat (s.2.1 % M))), s.2.1 / M,
        s.2.2 + s.2.1 % M)) (t, idx, s)).1 =
      t * ((((List.range' k n).map (fun j => nth xs j - nth ps j)).zip (boxDigits M n idx)).map
        (fun q => q.1 ^ q.2)).prod
  | 0, k, t, idx, s => by simp
  | n + 1, k, t, idx, s => by
    rw [List.range'_succ, List.foldl_cons, multiTerm_value ps xs M n (k + 1), List.map_cons, boxDigits,
      List.zip_cons_cons, List.map_cons, List.prod_cons]
    simp only [real_mul, real_sub, real_pow_nat]
    ring

theorem multiStep_fold (ps xs : List ℝ) (M : Nat) : ∀ (l : List Nat) (s : Nat × ℝ),
    (l.foldl (multiStep ps xs M) s).2 = s.2 +
      (((l.filter (fun i => digitSum M xs.length i < M)).zipIdx s.1).map
        (fun t => (multiTermValue ps xs M t.1).1 * nth ps t.2)).sum
  | [], s => by simp
  | i :: l, s => by
    rw [List.foldl_cons, multiStep_fold ps xs M l]
    unfold multiStep
    simp only [multiTermValue_sum]
    by_cases h : digitSum M xs.length i ≥ M
    · rw [if_pos h, List.filter_cons_of_neg (by simpa using h)]
    · rw [if_neg h, List.filter_cons_of_pos (by simpa using h), List.zipIdx_cons, List.map_cons,
        List.sum_cons]
      simp only [real_add, real_mul]
      ring

theorem factorial_real (n : Nat) : (factorial n : ℝ) = (n.factorial : ℝ) := by
  induction n with
  | zero => simp [factorial, real_lit]
  | succ n ih =>
    rw [factorial, real_mul, real_ofNat, ih, Nat.factorial_succ]
    push_cast
    ring

theorem binomial_real (k n : Nat) : (binomial k n : ℝ) = (n.choose k : ℝ) := by
  unfold binomial
  by_cases h : k > n
  · rw [if_pos h, Nat.choose_eq_zero_of_lt h, real_lit]
    simp
  · rw [if_neg h]
    simp only [real_div, real_mul, factorial_real]
    rw [Nat.cast_choose ℝ (by omega)]

end GooFit
