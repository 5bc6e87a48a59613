import Verif.Spec.Float
import Mathlib.Algebra.Order.Round
import Mathlib.Data.Int.Log
import Mathlib.Tactic.Linarith
import Mathlib.Tactic.Positivity
import Mathlib.Tactic.FieldSimp
import Mathlib.Tactic.Push
import Mathlib.Algebra.Order.Archimedean.Real.Basic
/-!
# Lemmas on floating-point rounding
-/
set_option autoImplicit false
namespace GooFit
open Spec

theorem isFloat_neg {p : Nat} {x : ℝ} (h : IsFloat p x) : IsFloat p (-x) := by
  obtain ⟨m, e, hm, rfl⟩ := h
  exact ⟨-m, e, by rwa [abs_neg], by push_cast; ring⟩

theorem isFloat_zero (p : Nat) : IsFloat p 0 := ⟨0, 0, by simp, by simp⟩

theorem fl_of_float {p : Nat} {fl : ℝ → ℝ} (h : RoundsToNearest p fl) {x : ℝ} (hx : IsFloat p x) : fl x = x := by
  have := (h x).2 x hx
  rw [sub_self, abs_zero] at this
  exact sub_eq_zero.mp (abs_eq_zero.mp (le_antisymm this (abs_nonneg _)))

/-- The grid on which numbers of the size of `x` are rounded. -/
noncomputable def grid (p : Nat) (x : ℝ) : ℝ := (2 : ℝ) ^ (Int.log 2 |x| - p + 1)

/-- A rounding function. -/
noncomputable def roundTo (p : Nat) (x : ℝ) : ℝ := round (x / grid p x) * grid p x

theorem two_zpow_pos (e : ℤ) : (0 : ℝ) < (2 : ℝ) ^ e := zpow_pos (by norm_num) e

theorem grid_le (p : Nat) (x : ℝ) (hx : x ≠ 0) : grid p x * 2 ^ p ≤ 2 * |x| ∧ |x| < grid p x * 2 ^ p := by
  have h1 := Int.zpow_log_le_self (R := ℝ) (b := 2) (by norm_num) (abs_pos.mpr hx)
  have h2 := Int.lt_zpow_succ_log_self (R := ℝ) (b := 2) (by norm_num) |x|
  have e : grid p x * 2 ^ p = (2 : ℝ) ^ (Int.log 2 |x| + 1) := by
    rw [grid, ← zpow_natCast, ← zpow_add₀ (by norm_num)]
    congr 1
    ring
  rw [e]
  push_cast at h1 h2
  constructor
  · rw [zpow_add_one₀ (by norm_num)]
    linarith
  · exact h2

theorem roundTo_float (p : Nat) (x : ℝ) : IsFloat p (roundTo p x) := by
  by_cases hx : x = 0
  · rw [roundTo, hx, zero_div, round_zero, Int.cast_zero, zero_mul]
    exact isFloat_zero p
  · refine ⟨round (x / grid p x), Int.log 2 |x| - p + 1, ?_, rfl⟩
    have hg : 0 < grid p x := two_zpow_pos _
    have h2 := (grid_le p x hx).2
    have h3 : |x / grid p x| < 2 ^ p := by
      rw [abs_div, abs_of_pos hg, div_lt_iff₀ hg]; linarith
    have h4 := abs_sub_round (x / grid p x)
    have h5 : |(round (x / grid p x) : ℝ)| < 2 ^ p + 1 := by
      have := abs_sub_abs_le_abs_sub (round (x / grid p x) : ℝ) (x / grid p x)
      rw [abs_sub_comm] at this
      linarith
    have h6 : |round (x / grid p x)| < 2 ^ p + 1 := by
      rw [← Int.cast_abs] at h5
      exact_mod_cast h5
    omega

theorem roundTo_error (p : Nat) (x : ℝ) : |roundTo p x - x| ≤ |x| / 2 ^ p := by
  by_cases hx : x = 0
  · rw [roundTo, hx, zero_div, round_zero]; simp
  · have hg : 0 < grid p x := two_zpow_pos _
    have h1 := (grid_le p x hx).1
    have h4 := abs_sub_round (x / grid p x)
    have e : roundTo p x - x = -((x / grid p x - round (x / grid p x)) * grid p x) := by
      rw [roundTo]; field_simp; ring
    rw [e, abs_neg, abs_mul, abs_of_pos hg, le_div_iff₀ (by positivity)]
    have := mul_le_mul_of_nonneg_right h4 hg.le
    have := mul_le_mul_of_nonneg_right this (show (0 : ℝ) ≤ 2 ^ p by positivity)
    linarith

/-- Rounding functions exist for every precision. -/
theorem roundTo_nearest (p : Nat) (hp : 1 ≤ p) : RoundsToNearest p (roundTo p) := by
  intro x
  refine ⟨roundTo_float p x, ?_⟩
  intro y ⟨m, j, hm, hy⟩
  by_cases hx : x = 0
  · rw [roundTo, hx, zero_div, round_zero]; simp
  have hg : 0 < grid p x := two_zpow_pos _
  have hmin : ∀ n : ℤ, |roundTo p x - x| ≤ |n * grid p x - x| := by
    intro n
    have h := round_le (x / grid p x) n
    have e1 : roundTo p x - x = -((x / grid p x - round (x / grid p x)) * grid p x) := by
      rw [roundTo]; field_simp; ring
    have e2 : n * grid p x - x = -((x / grid p x - n) * grid p x) := by
      field_simp; ring
    rw [e1, e2, abs_neg, abs_neg, abs_mul, abs_mul]
    exact mul_le_mul_of_nonneg_right h (abs_nonneg _)
  by_cases hj : Int.log 2 |x| - p + 1 ≤ j
  · -- a multiple of the grid
    obtain ⟨d, hd⟩ := Int.le.dest hj
    have : y = ((m * 2 ^ d : ℤ) : ℝ) * grid p x := by
      rw [hy, ← hd, grid, zpow_add₀ (by norm_num), zpow_natCast]
      push_cast
      ring
    rw [this]
    exact hmin _
  · -- smaller than the power of two below |x|
    push Not at hj
    have hle := Int.zpow_log_le_self (R := ℝ) (b := 2) (by norm_num) (abs_pos.mpr hx)
    push_cast at hle
    have hyle : |y| ≤ (2 : ℝ) ^ Int.log 2 |x| := by
      rw [hy, abs_mul, abs_of_pos (two_zpow_pos j)]
      have h1 : |(m : ℝ)| ≤ 2 ^ p := by rw [← Int.cast_abs]; exact_mod_cast hm
      calc |(m : ℝ)| * 2 ^ j ≤ 2 ^ p * 2 ^ j := mul_le_mul_of_nonneg_right h1 (two_zpow_pos j).le
        _ = (2 : ℝ) ^ ((p : ℤ) + j) := by rw [zpow_add₀ (by norm_num), zpow_natCast]
        _ ≤ (2 : ℝ) ^ Int.log 2 |x| := zpow_le_zpow_right₀ (by norm_num) (by omega)
    have hpow : (2 : ℝ) ^ Int.log 2 |x| = ((2 ^ (p - 1) : ℤ) : ℝ) * grid p x := by
      push_cast
      rw [grid, ← zpow_natCast, ← zpow_add₀ (by norm_num)]
      congr 1
      omega
    rcases lt_or_gt_of_ne hx with h | h
    · have h1 := hmin (-(2 ^ (p - 1)))
      rw [abs_of_neg h] at hle
      rw [Int.cast_neg, neg_mul, ← hpow, abs_of_neg h] at h1
      refine le_trans h1 ?_
      have := neg_abs_le y
      rw [abs_of_neg h] at hyle
      rw [abs_of_nonneg (by linarith), abs_of_nonneg (by linarith)]
      linarith
    · have h1 := hmin (2 ^ (p - 1))
      rw [abs_of_pos h] at hle
      rw [← hpow, abs_of_pos h] at h1
      refine le_trans h1 ?_
      have := le_abs_self y
      rw [abs_of_pos h] at hyle
      rw [abs_of_nonpos (by linarith), abs_of_nonpos (by linarith)]
      linarith

/-- Relative error of rounding. -/
theorem fl_error {p : Nat} {fl : ℝ → ℝ} (h : RoundsToNearest p fl) (x : ℝ) : |fl x - x| ≤ |x| / 2 ^ p :=
  le_trans ((h x).2 _ (roundTo_float p x)) (roundTo_error p x)

/-- The error of an addition is a floating-point number and is found by two exact operations. -/
theorem fast_two_sum {p : Nat} {fl : ℝ → ℝ} (h : RoundsToNearest p fl) (hp : 1 ≤ p) {a b : ℝ} (ha : IsFloat p a)
    (hb : IsFloat p b) (hab : |b| ≤ |a|) :
    IsFloat p (a - fl (a + b)) ∧ IsFloat p (a + b - fl (a + b)) := by
  obtain ⟨ma, ea, hma, rfl⟩ := ha
  -- a representation of b with an exponent not above that of a
  obtain ⟨mb, eb, hmb, hee, hb'⟩ : ∃ (mb eb : ℤ), |mb| ≤ 2 ^ p ∧ eb ≤ ea ∧ b = mb * (2 : ℝ) ^ eb := by
    obtain ⟨mb, eb, hmb, rfl⟩ := hb
    by_cases he : eb ≤ ea
    · exact ⟨mb, eb, hmb, he, rfl⟩
    · push Not at he
      obtain ⟨d, hd⟩ := Int.le.dest he.le
      refine ⟨mb * 2 ^ d, ea, ?_, le_refl _, ?_⟩
      · rw [← hd, zpow_add₀ (by norm_num), zpow_natCast, abs_mul, abs_mul, abs_mul, abs_of_pos (two_zpow_pos ea)] at hab
        have h2 : |(mb : ℝ)| * |(2 : ℝ) ^ d| ≤ |(ma : ℝ)| := by
          have : (|(mb : ℝ)| * |(2 : ℝ) ^ d|) * 2 ^ ea ≤ |(ma : ℝ)| * 2 ^ ea := by linarith
          exact le_of_mul_le_mul_right this (two_zpow_pos ea)
        have h3 : |mb * 2 ^ d| ≤ |ma| := by
          have : ((|mb * 2 ^ d| : ℤ) : ℝ) ≤ ((|ma| : ℤ) : ℝ) := by
            push_cast
            rw [abs_mul]
            exact h2
          exact_mod_cast this
        exact le_trans h3 hma
      · rw [← hd, zpow_add₀ (by norm_num), zpow_natCast]
        push_cast
        ring
  clear hb
  obtain ⟨d, hd⟩ := Int.le.dest hee
  set g : ℝ := (2 : ℝ) ^ eb with hg
  have hg0 : 0 < g := two_zpow_pos eb
  have hae : (ma : ℝ) * (2 : ℝ) ^ ea = ((ma * 2 ^ d : ℤ) : ℝ) * g := by
    rw [← hd, zpow_add₀ (by norm_num), zpow_natCast]
    push_cast
    ring
  set a : ℝ := (ma : ℝ) * (2 : ℝ) ^ ea with ha
  set s := fl (a + b) with hs
  have hfa : IsFloat p a := ⟨ma, ea, hma, rfl⟩
  have hsb : |a + b - s| ≤ |b| := by
    have := (h (a + b)).2 a hfa
    rw [abs_sub_comm]
    refine le_trans this ?_
    rw [show a - (a + b) = -b by ring, abs_neg]
  have hbb : |b| ≤ 2 ^ p * g := by
    rw [hb', abs_mul, abs_of_pos hg0]
    have : |(mb : ℝ)| ≤ 2 ^ p := by rw [← Int.cast_abs]; exact_mod_cast hmb
    exact mul_le_mul_of_nonneg_right this hg0.le
  by_cases hexact : IsFloat p (a + b)
  · have : s = a + b := fl_of_float h hexact
    rw [this]
    refine ⟨?_, by rw [sub_self]; exact isFloat_zero p⟩
    rw [show a - (a + b) = -b by ring]
    exact isFloat_neg ⟨mb, eb, hmb, hb'⟩
  -- the sum is large compared with the grid of b
  set M : ℤ := ma * 2 ^ d + mb with hM
  have hsum : a + b = M * g := by rw [hae, hb', hM]; push_cast; ring
  have hbig : (2 : ℤ) ^ p < |M| := by
    by_contra hc
    push Not at hc
    exact hexact ⟨M, eb, hc, hsum⟩
  have hbigR : (2 : ℝ) ^ p * g < |a + b| := by
    rw [hsum, abs_mul, abs_of_pos hg0]
    have : (2 : ℝ) ^ p < |(M : ℝ)| := by rw [← Int.cast_abs]; exact_mod_cast hbig
    exact mul_lt_mul_of_pos_right this hg0
  have hslarge : (2 : ℝ) ^ p * g ≤ |s| := by
    by_contra hc
    push Not at hc
    -- ±2^p g is nearer
    have hf1 : IsFloat p ((2 : ℝ) ^ p * g) := ⟨2 ^ p, eb, by rw [abs_of_nonneg (by positivity)], by push_cast; rfl⟩
    rcases le_or_gt 0 (a + b) with h0 | h0
    · have := (h (a + b)).2 _ hf1
      rw [abs_of_nonneg h0] at hbigR
      rw [abs_of_neg (show (2 : ℝ) ^ p * g - (a + b) < 0 by linarith)] at this
      have h1 := (abs_lt.mp hc).2
      rw [abs_of_neg (show fl (a + b) - (a + b) < 0 by linarith)] at this
      linarith
    · have := (h (a + b)).2 _ (isFloat_neg hf1)
      rw [abs_of_neg h0] at hbigR
      rw [abs_of_pos (show 0 < -((2 : ℝ) ^ p * g) - (a + b) by linarith)] at this
      have h1 := (abs_lt.mp hc).1
      rw [abs_of_pos (show 0 < fl (a + b) - (a + b) by linarith)] at this
      linarith
  -- so it lies on twice that grid
  obtain ⟨S, hS⟩ : ∃ S : ℤ, s = (2 * S : ℤ) * g := by
    obtain ⟨m, k, hm, hk⟩ := (h (a + b)).1
    have hmk : (2 : ℝ) ^ p * g ≤ |(m : ℝ)| * 2 ^ k := by
      have := hslarge
      rw [hs, hk, abs_mul, abs_of_pos (two_zpow_pos k)] at this
      exact this
    have hmR : |(m : ℝ)| ≤ 2 ^ p := by rw [← Int.cast_abs]; exact_mod_cast hm
    have hkb : eb ≤ k := by
      by_contra hc
      push Not at hc
      have h1 : (2 : ℝ) ^ k < g := zpow_lt_zpow_right₀ (by norm_num) hc
      have h2 : |(m : ℝ)| * 2 ^ k ≤ 2 ^ p * 2 ^ k := mul_le_mul_of_nonneg_right hmR (two_zpow_pos k).le
      have h3 : (2 : ℝ) ^ p * 2 ^ k < 2 ^ p * g := mul_lt_mul_of_pos_left h1 (by positivity)
      linarith
    obtain ⟨q, hq⟩ := Int.le.dest hkb
    rcases q with _ | q
    · have hke : k = eb := by omega
      have h1 : (2 : ℝ) ^ p ≤ |(m : ℝ)| := by
        rw [hke] at hmk
        exact le_of_mul_le_mul_right hmk hg0
      have h2 : |m| = 2 ^ p := by
        have : (2 : ℤ) ^ p ≤ |m| := by
          rw [← Int.cast_abs] at h1; exact_mod_cast h1
        omega
      obtain ⟨q', hq'⟩ := Nat.exists_eq_add_of_le hp
      rcases abs_choice m with hc | hc
      · refine ⟨2 ^ q', ?_⟩
        rw [hs, hk, hke, ← hc, h2, hq', Nat.add_comm, pow_succ, mul_comm]
        push_cast
        ring
      · refine ⟨-(2 ^ q'), ?_⟩
        have : m = -(2 ^ p) := by omega
        rw [hs, hk, hke, this, hq', Nat.add_comm, pow_succ]
        push_cast
        ring
    · refine ⟨m * 2 ^ q, ?_⟩
      rw [hs, hk, ← hq]
      push_cast
      rw [zpow_add₀ (by norm_num), hg, zpow_add_one₀ (by norm_num), zpow_natCast]
      ring
  constructor
  · rcases d with _ | d
    · -- equal exponents
      have hodd : ¬ (2 ∣ M) := by
        rintro ⟨N, hN⟩
        apply hexact
        refine ⟨N, eb + 1, ?_, ?_⟩
        · have h1 : |M| ≤ 2 ^ p + 2 ^ p := by
            rw [hM]
            refine le_trans (abs_add_le _ _) ?_
            simp only [pow_zero, mul_one]
            omega
          rw [hN, abs_mul] at h1
          have : |(2 : ℤ)| = 2 := rfl
          rw [this] at h1
          omega
        · rw [hsum, hN, zpow_add_one₀ (by norm_num)]
          push_cast
          ring
      -- one of the neighbours M ± 1 is representable
      have hnear : |s - (a + b)| ≤ g := by
        obtain ⟨N, hN⟩ : ∃ N : ℤ, M = 2 * N + 1 := by
          have := Int.emod_two_eq M
          refine ⟨M / 2, ?_⟩
          omega
        have hle : |M| ≤ 2 ^ p + 2 ^ p := by
          rw [hM]
          refine le_trans (abs_add_le _ _) ?_
          simp only [pow_zero, mul_one]
          omega
        have hcases : |N| ≤ 2 ^ p := by
          rw [abs_le] at hle ⊢
          omega
        have hfl : IsFloat p (N * (2 : ℝ) ^ (eb + 1)) := ⟨N, eb + 1, hcases, rfl⟩
        have := (h (a + b)).2 _ hfl
        refine le_trans this ?_
        rw [hsum, hN, zpow_add_one₀ (by norm_num)]
        push_cast
        rw [show (N : ℝ) * ((2 : ℝ) ^ eb * 2) - (2 * N + 1) * g = -g by rw [hg]; ring, abs_neg, abs_of_pos hg0]
      have hmb' : |mb| + 1 ≤ 2 ^ p := by
        by_contra hc
        have e1 : |mb| = 2 ^ p := by omega
        have hle : |mb| ≤ |ma| := by
          have hd0 : eb = ea := by simpa using hd
          have : |(mb : ℝ)| ≤ |(ma : ℝ)| := by
            rw [hb', ha, abs_mul, abs_mul, hg, hd0] at hab
            exact le_of_mul_le_mul_right hab (abs_pos.mpr (two_zpow_pos ea).ne')
          rw [← Int.cast_abs, ← Int.cast_abs] at this
          exact_mod_cast this
        have e2 : |ma| = 2 ^ p := by omega
        apply hodd
        obtain ⟨q', hq'⟩ := Nat.exists_eq_add_of_le hp
        have hev : (2 : ℤ) ∣ 2 ^ p := dvd_pow_self 2 (by omega)
        have d1 : (2 : ℤ) ∣ mb := by rw [← dvd_abs, e1]; exact hev
        have d2 : (2 : ℤ) ∣ ma := by rw [← dvd_abs, e2]; exact hev
        rw [hM]
        simpa using dvd_add d2 d1
      have hrep : a - s = ((ma * 2 ^ 0 - 2 * S : ℤ) : ℝ) * g := by rw [hae, hS]; push_cast; ring
      refine ⟨ma * 2 ^ 0 - 2 * S, eb, ?_, hrep⟩
      have h1 : |a - s| ≤ 2 ^ p * g := by
        have h2 : |a - s| ≤ |b| + g := by
          have : a - s = -b + -(s - (a + b)) := by ring
          rw [this]
          refine le_trans (abs_add_le _ _) ?_
          rw [abs_neg, abs_neg]
          linarith
        have h3 : |b| + g ≤ 2 ^ p * g := by
          rw [hb', abs_mul, abs_of_pos hg0]
          have : |(mb : ℝ)| + 1 ≤ 2 ^ p := by rw [← Int.cast_abs]; exact_mod_cast hmb'
          have := mul_le_mul_of_nonneg_right this hg0.le
          linarith
        linarith
      rw [hrep, abs_mul, abs_of_pos hg0] at h1
      have h2 := le_of_mul_le_mul_right h1 hg0
      rw [← Int.cast_abs] at h2
      exact_mod_cast h2
    · have hrep : a - s = ((ma * 2 ^ d - S : ℤ) : ℝ) * (2 : ℝ) ^ (eb + 1) := by
        rw [hae, hS, zpow_add_one₀ (by norm_num), ← hg]; push_cast; ring
      refine ⟨ma * 2 ^ d - S, eb + 1, ?_, hrep⟩
      have h1 : |a - s| ≤ 2 ^ p * (g * 2) := by
        have : a - s = -b + (a + b - s) := by ring
        rw [this]
        refine le_trans (abs_add_le _ _) ?_
        rw [abs_neg]
        linarith
      rw [hrep, abs_mul, abs_of_pos (two_zpow_pos _), zpow_add_one₀ (by norm_num), ← hg] at h1
      have h2 := le_of_mul_le_mul_right h1 (by positivity)
      rw [← Int.cast_abs] at h2
      exact_mod_cast h2
  · have hrep : a + b - s = ((M - 2 * S : ℤ) : ℝ) * g := by rw [hsum, hS]; push_cast; ring
    refine ⟨M - 2 * S, eb, ?_, hrep⟩
    have h1 := le_trans hsb hbb
    rw [hrep, abs_mul, abs_of_pos hg0] at h1
    have h2 := le_of_mul_le_mul_right h1 hg0
    rw [← Int.cast_abs] at h2
    exact_mod_cast h2

end GooFit
