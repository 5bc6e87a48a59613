import Verif.Model.Printed
import Verif.Spec.Printed
import Mathlib.Tactic.IntervalCases
import Mathlib.Tactic.Linarith
import Mathlib.Tactic.Positivity
import Mathlib.Tactic.Ring
import Mathlib.Tactic.FieldSimp
/-!
# C98: a printed value with its uncertainty can be read back
-/
set_option autoImplicit false
namespace GooFit
open Spec

theorem digitCh_digit (d : Nat) (h : d < 10) : (digitCh d).isDigit = true ∧ digitOf (digitCh d) = d ∧ digitCh d ≠ '.'
    ∧ digitCh d ≠ '-' ∧ (digitCh d = '0' → d = 0) := by
  unfold digitOf
  have : (digitCh d).isDigit = true ∧ (digitCh d).toNat - '0'.toNat = d ∧ digitCh d ≠ '.' ∧ digitCh d ≠ '-'
      ∧ (digitCh d = '0' → d = 0) := by
    interval_cases d <;> decide
  exact ⟨this.1, by rw [this.2.1], this.2.2⟩

theorem wholeOf_concat (l : List Char) (c : Char) : wholeOf (l ++ [c]) = 10 * wholeOf l + digitOf c := by
  unfold wholeOf
  rw [List.foldl_append]
  rfl

theorem wholeDigits_digit (n : Nat) : ∀ c ∈ wholeDigits n, ∃ d < 10, c = digitCh d := by
  induction n using Nat.strong_induction_on with
  | _ n ih =>
    intro c hc
    rw [wholeDigits] at hc
    split_ifs at hc with h
    · exact ⟨n, h, by simpa using hc⟩
    · rw [List.mem_append] at hc
      rcases hc with hc | hc
      · exact ih (n / 10) (by omega) c hc
      · exact ⟨n % 10, by omega, by simpa using hc⟩

theorem wholeDigits_value (n : Nat) : wholeOf (wholeDigits n) = n := by
  induction n using Nat.strong_induction_on with
  | _ n ih =>
    rw [wholeDigits]
    split_ifs with h
    · simp [wholeOf, (digitCh_digit n h).2.1]
    · rw [wholeOf_concat, ih (n / 10) (by omega), (digitCh_digit (n % 10) (by omega)).2.1]
      have : 10 * (n / 10) + n % 10 = n := by omega
      exact_mod_cast this

theorem wholeDigits_ne (n : Nat) : wholeDigits n ≠ [] := by
  rw [wholeDigits]
  split_ifs <;> simp

/-- No superfluous zero. -/
theorem wholeDigits_head (n : Nat) : (wholeDigits n).head? = some '0' → n = 0 := by
  induction n using Nat.strong_induction_on with
  | _ n ih =>
    rw [wholeDigits]
    split_ifs with h
    · intro hh
      exact (digitCh_digit n h).2.2.2.2 (by simpa using hh)
    · intro hh
      have := ih (n / 10) (by omega) (by
        rw [List.head?_append] at hh
        cases hw : (wholeDigits (n / 10)).head? with
        | none => rw [List.head?_eq_none_iff] at hw; exact absurd hw (wholeDigits_ne _)
        | some c => rw [hw] at hh; simpa using hh)
      omega

theorem lastDigits_digit (k n : Nat) : ∀ c ∈ lastDigits k n, ∃ d < 10, c = digitCh d := by
  induction k generalizing n with
  | zero => intro c hc; simp [lastDigits] at hc
  | succ k ih =>
    intro c hc
    rw [lastDigits, List.mem_append] at hc
    rcases hc with hc | hc
    · exact ih _ c hc
    · exact ⟨n % 10, by omega, by simpa using hc⟩

theorem lastDigits_length (k n : Nat) : (lastDigits k n).length = k := by
  induction k generalizing n with
  | zero => rfl
  | succ k ih => rw [lastDigits, List.length_append, ih]; rfl

theorem lastDigits_value (k n : Nat) (h : n < 10 ^ k) : wholeOf (lastDigits k n) = n := by
  induction k generalizing n with
  | zero => have : n = 0 := by simpa using h
            subst this; simp [lastDigits, wholeOf]
  | succ k ih =>
    rw [lastDigits, wholeOf_concat, ih (n / 10) (by rw [pow_succ] at h; omega), (digitCh_digit (n % 10) (by omega)).2.1]
    have : 10 * (n / 10) + n % 10 = n := by omega
    exact_mod_cast this

theorem nearestEven_near (y : ℝ) (h : 0 ≤ y) : |(nearestEven y : ℝ) - y| ≤ 1 / 2 := by
  have h1 := Nat.floor_le h
  have h2 := Nat.lt_floor_add_one y
  unfold nearestEven
  dsimp only
  rw [abs_le]
  split_ifs with a b c <;> push_cast <;> constructor <;> linarith

/-- Splitting at the point. -/
theorem split_point (w f : List Char) (hw : ∀ c ∈ w, ∃ d < 10, c = digitCh d) (hf : f = [] ∨ ∃ g, f = '.' :: g) :
    (w ++ f).takeWhile (· ≠ '.') = w ∧ (w ++ f).dropWhile (· ≠ '.') = f := by
  have hw' : ∀ c ∈ w, (decide (c ≠ '.')) = true := by
    intro c hc
    obtain ⟨d, hd, rfl⟩ := hw c hc
    simpa using (digitCh_digit d hd).2.2.1
  rw [List.takeWhile_append_of_pos hw', List.dropWhile_append_of_pos hw']
  rcases hf with rfl | ⟨g, rfl⟩
  · simp
  · simp

/-- What is printed with `n` digits after the point. -/
theorem fixedText_spec (n : Nat) (x : ℝ) : IsDecimal (fixedText n x) ∧ decimals (fixedText n x) = n
    ∧ |numberOf (fixedText n x) - x| ≤ 1 / 2 / 10 ^ n := by
  set m := nearestEven (|x| * 10 ^ n) with hm
  set w := wholeDigits (m / 10 ^ n) with hw
  set f : List Char := if n = 0 then [] else '.' :: lastDigits n (m % 10 ^ n) with hf
  have htext : fixedText n x = (if x < 0 then ['-'] else []) ++ w ++ f := rfl
  have hwd : ∀ c ∈ w, ∃ d < 10, c = digitCh d := wholeDigits_digit _
  have hfd : f = [] ∨ ∃ g, f = '.' :: g := by
    rw [hf]
    split_ifs
    · exact Or.inl rfl
    · exact Or.inr ⟨_, rfl⟩
  obtain ⟨s1, s2⟩ := split_point w f hwd hfd
  have hflen : (f.drop 1).length = n := by
    rw [hf]
    split_ifs with h
    · simp [h]
    · simp [lastDigits_length]
  have hfval : wholeOf (f.drop 1) = ((m % 10 ^ n : Nat) : ℝ) := by
    rw [hf]
    split_ifs with h
    · subst h
      simp [wholeOf, Nat.mod_one]
    · rw [List.drop_one, List.tail_cons, lastDigits_value n _ (Nat.mod_lt _ (by positivity))]
  have hp : (0 : ℝ) < 10 ^ n := by positivity
  have huns : unsignedOf (w ++ f) = (m : ℝ) / 10 ^ n := by
    unfold unsignedOf
    rw [s1, s2, hflen, hfval, hw, wholeDigits_value]
    have : ((10 ^ n * (m / 10 ^ n) + m % 10 ^ n : Nat) : ℝ) = m := by rw [Nat.div_add_mod]
    push_cast at this
    rw [eq_div_iff hp.ne', add_mul, div_mul_cancel₀ _ hp.ne', ← this]
    ring
  have hdec : decimals (w ++ f) = n := by unfold decimals; rw [s2, hflen]
  have hnear : |(m : ℝ) / 10 ^ n - (|x|)| ≤ 1 / 2 / 10 ^ n := by
    have := nearestEven_near (|x| * 10 ^ n) (by positivity)
    rw [← hm] at this
    rw [le_div_iff₀ hp, ← abs_of_pos hp, ← abs_mul, sub_mul, abs_of_pos hp, div_mul_cancel₀ _ hp.ne']
    exact this
  refine ⟨⟨if x < 0 then ['-'] else [], w, f, htext, ?_, wholeDigits_ne _, ?_, ?_, ?_⟩, ?_, ?_⟩
  · split_ifs <;> simp
  · intro c hc
    obtain ⟨d, hd, rfl⟩ := hwd c hc
    exact (digitCh_digit d hd).1
  · intro hh
    rw [hw, wholeDigits_head _ hh]
    rw [wholeDigits]
    rfl
  · rw [hf]
    split_ifs with h
    · exact Or.inl rfl
    · refine Or.inr ⟨_, rfl, ?_, ?_⟩
      · intro h0
        have := lastDigits_length n (m % 10 ^ n)
        rw [h0] at this
        exact h this.symm
      · intro c hc
        obtain ⟨d, hd, rfl⟩ := lastDigits_digit _ _ c hc
        exact (digitCh_digit d hd).1
  · rw [htext]
    split_ifs with h
    · have : decimals ('-' :: (w ++ f)) = decimals (w ++ f) := by
        unfold decimals
        rw [List.dropWhile_cons_of_pos (by decide)]
      rw [← hdec, ← this]
      simp
    · simpa using hdec
  · rw [htext]
    split_ifs with h
    · have : numberOf (['-'] ++ w ++ f) = -unsignedOf (w ++ f) := rfl
      rw [this, huns]
      rw [abs_of_neg h] at hnear
      rw [← abs_neg]
      calc _ = |(m : ℝ) / 10 ^ n - -x| := by congr 1; ring
        _ ≤ _ := hnear
    · have : numberOf ([] ++ w ++ f) = unsignedOf (w ++ f) := by
        rw [List.nil_append]
        cases hw' : w with
        | nil => exact absurd hw' (wholeDigits_ne _)
        | cons c w' =>
          obtain ⟨d, hd, hc⟩ := hwd c (by rw [hw']; simp)
          have hne : c ≠ '-' := by rw [hc]; exact (digitCh_digit d hd).2.2.2.1
          rw [List.cons_append]
          unfold numberOf
          split
          · rename_i l heq
            exact absurd (List.cons.inj heq).1 hne
          · rfl
      rw [this, huns]
      rwa [abs_of_nonneg (not_lt.mp h)] at hnear

/-- **C98.**  A value with a positive uncertainty is printed as two decimal numbers with the same number of decimals; either differs
by at most a fifth of the uncertainty from what it stands for, and there is no superfluous decimal: the last is worth more than a
twenty-fifth of the uncertainty, and there is none if the uncertainty is 2.5 or more. -/
theorem C98_printed (plain : ℝ → List Char) (u : Uncertain ℝ) (h : 0 < u.uncertainty) :
    ∃ a b, uncertainText plain u = a ++ " +/- ".toList ++ b ∧ IsDecimal a ∧ IsDecimal b
      ∧ |numberOf a - u.value| ≤ u.uncertainty / 5 ∧ |numberOf b - u.uncertainty| ≤ u.uncertainty / 5
      ∧ decimals a = decimals b
      ∧ (u.uncertainty < 5 / 2 → u.uncertainty / 25 < 1 / 10 ^ decimals a) ∧ (5 / 2 ≤ u.uncertainty → decimals a = 0) := by
  set e := u.uncertainty with he
  have key : ∀ n : Nat, 1 / 10 ^ n ≤ e / (5 / 2) → ∀ x, |numberOf (fixedText n x) - x| ≤ e / 5 := by
    intro n hn x
    refine (fixedText_spec n x).2.2.trans ?_
    rw [show (1 : ℝ) / 2 / 10 ^ n = 1 / 2 * (1 / 10 ^ n) by ring]
    linarith
  unfold uncertainText
  dsimp only
  rw [← he]
  by_cases hs : e < 5 / 2
  · have hc : e > 0 ∧ e < 2.5 := ⟨h, by norm_num; linarith⟩
    rw [if_pos hc]
    set n := ⌈-Real.logb 10 e + Real.logb 10 2.5⌉.toNat with hn
    have hl : -Real.logb 10 e + Real.logb 10 2.5 = Real.logb 10 (5 / 2 / e) := by
      rw [Real.logb_div (by norm_num) h.ne']
      norm_num
      ring
    have hpos : 0 < Real.logb 10 (5 / 2 / e) := Real.logb_pos (by norm_num) (by rw [lt_div_iff₀ h]; linarith)
    have hcast : ((n : Nat) : ℝ) = (⌈Real.logb 10 (5 / 2 / e)⌉ : ℤ) := by
      rw [hn, hl]
      have : 0 ≤ ⌈Real.logb 10 (5 / 2 / e)⌉ := Int.ceil_nonneg hpos.le
      exact_mod_cast Int.toNat_of_nonneg this
    have h1 : Real.logb 10 (5 / 2 / e) ≤ n := by rw [hcast]; exact Int.le_ceil _
    have h2 : (n : ℝ) < Real.logb 10 (5 / 2 / e) + 1 := by rw [hcast]; exact Int.ceil_lt_add_one _
    have hq : 0 < 5 / 2 / e := by positivity
    have h10 : (10 : ℝ) ^ Real.logb 10 (5 / 2 / e) = 5 / 2 / e := Real.rpow_logb (by norm_num) (by norm_num) hq
    have hp1 : 5 / 2 / e ≤ (10 : ℝ) ^ n := by
      rw [← h10, ← Real.rpow_natCast]
      exact Real.rpow_le_rpow_of_exponent_le (by norm_num) h1
    have hp2 : (10 : ℝ) ^ n < 25 / e := by
      have : (10 : ℝ) ^ (n : ℝ) < (10 : ℝ) ^ (Real.logb 10 (5 / 2 / e) + 1) := Real.rpow_lt_rpow_of_exponent_lt (by norm_num) h2
      rw [Real.rpow_natCast, Real.rpow_add (by norm_num), h10, Real.rpow_one] at this
      calc (10 : ℝ) ^ n < _ := this
        _ = 25 / e := by ring
    have hp : (0 : ℝ) < 10 ^ n := by positivity
    have hn1 : 1 / 10 ^ n ≤ e / (5 / 2) := by
      rw [div_le_div_iff₀ hp (by norm_num)]
      rw [div_le_iff₀ h] at hp1
      linarith
    obtain ⟨a1, a2, -⟩ := fixedText_spec n u.value
    obtain ⟨b1, b2, -⟩ := fixedText_spec n e
    refine ⟨_, _, rfl, a1, b1, key n hn1 _, key n hn1 _, a2.trans b2.symm, ?_, fun h' => absurd hs (not_lt.mpr h')⟩
    intro _
    rw [a2, div_lt_div_iff₀ (by norm_num) hp]
    rw [lt_div_iff₀ h] at hp2
    linarith
  · have hc : ¬ (e > 0 ∧ e < 2.5) := by
      rintro ⟨-, h2⟩
      norm_num at h2
      exact hs h2
    have hc2 : e ≥ 2.5 := by norm_num; exact not_lt.mp hs
    rw [if_neg hc, if_pos hc2]
    have hn1 : 1 / 10 ^ 0 ≤ e / (5 / 2) := by
      rw [pow_zero, le_div_iff₀ (by norm_num)]
      push Not at hs
      linarith
    obtain ⟨a1, a2, -⟩ := fixedText_spec 0 u.value
    obtain ⟨b1, b2, -⟩ := fixedText_spec 0 e
    exact ⟨_, _, rfl, a1, b1, key 0 hn1 _, key 0 hn1 _, a2.trans b2.symm, fun h' => absurd h' hs, fun _ => a2⟩

/-- `-1.2345 ± 0.25` is printed as `-1.2` and `0.2`. -/
example (plain : ℝ → List Char) : uncertainText plain ⟨-1.2345, 0.25⟩ 
    = ['-', '1', '.', '2'] ++ " +/- ".toList ++ ['0', '.', '2'] := by
  have hn : ⌈-Real.logb 10 (0.25 : ℝ) + Real.logb 10 2.5⌉.toNat = 1 := by
    have : -Real.logb 10 (0.25 : ℝ) + Real.logb 10 2.5 = 1 := by
      rw [neg_add_eq_sub, ← Real.logb_div (by norm_num) (by norm_num)]
      norm_num
    rw [this]
    simp
  have m1 : nearestEven (|(-1.2345 : ℝ)| * 10 ^ 1) = 12 := by
    have hf : ⌊|(-1.2345 : ℝ)| * 10 ^ 1⌋₊ = 12 := by
      rw [Nat.floor_eq_iff (by positivity), abs_of_neg (by norm_num)]
      norm_num
    unfold nearestEven
    rw [hf, abs_of_neg (by norm_num)]
    norm_num
  have m2 : nearestEven (|(0.25 : ℝ)| * 10 ^ 1) = 2 := by
    have hf : ⌊|(0.25 : ℝ)| * 10 ^ 1⌋₊ = 2 := by
      rw [Nat.floor_eq_iff (by positivity), abs_of_pos (by norm_num)]
      norm_num
    unfold nearestEven
    rw [hf, abs_of_pos (by norm_num)]
    norm_num
  unfold uncertainText
  dsimp only
  rw [if_pos (by norm_num), hn]
  unfold fixedText
  rw [m1, m2, if_pos (by norm_num), if_neg (by norm_num)]
  have w1 : wholeDigits (12 / 10 ^ 1) = ['1'] := by rw [wholeDigits]; rfl
  have w2 : wholeDigits (2 / 10 ^ 1) = ['0'] := by rw [wholeDigits]; rfl
  dsimp only
  rw [w1, w2]
  rfl

/-- This text gives the two numbers back. -/
example : numberOf ['-', '1', '.', '2'] = -(6 / 5) ∧ numberOf ['0', '.', '2'] = 1 / 5 := by
  have d0 : digitOf '0' = 0 := by unfold digitOf; norm_num
  have d1 : digitOf '1' = 1 := by rw [show '1' = digitCh 1 from rfl, (digitCh_digit 1 (by decide)).2.1]; norm_num
  have d2 : digitOf '2' = 2 := by rw [show '2' = digitCh 2 from rfl, (digitCh_digit 2 (by decide)).2.1]; norm_num
  constructor
  · show -unsignedOf ['1', '.', '2'] = _
    simp [unsignedOf, wholeOf, d1, d2]
    norm_num
  · show unsignedOf ['0', '.', '2'] = _
    simp [unsignedOf, wholeOf, d0, d2]
    norm_num

end GooFit
