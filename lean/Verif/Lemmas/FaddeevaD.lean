import Verif.Lemmas.FaddeevaC
import Verif.Model.Faddeeva
import Mathlib.Data.List.GetD
import Mathlib.Analysis.SpecialFunctions.Trigonometric.Bounds
/-!
# The complex error function: tables, loop and pole correction of the code
-/
set_option autoImplicit false
namespace GooFit.Faddeeva
open MeasureTheory Complex Set

/-! ### Tables -/

theorem exp_quarter : 0.7788007830714048682451 ≤ Real.exp (-(1 / 4)) ∧
    Real.exp (-(1 / 4)) ≤ 0.7788007830714048682453 := by
  have h := Real.exp_bound (x := -(1 / 4)) (by norm_num) (n := 17) (by norm_num)
  rw [abs_le] at h
  norm_num [Finset.sum_range_succ, Nat.factorial] at h ⊢
  constructor <;> linarith [h.1, h.2]

theorem exp_2809 : 0.7551038420890235417156 ≤ Real.exp (-0.2809) ∧
    Real.exp (-0.2809) ≤ 0.7551038420890235417158 := by
  have h := Real.exp_bound (x := -0.2809) (by norm_num) (n := 18) (by norm_num)
  rw [abs_le] at h
  norm_num [Finset.sum_range_succ, Nat.factorial] at h ⊢
  constructor <;> linarith [h.1, h.2]

theorem pow_close (x lo hi e t : ℝ) (k : ℕ) (h0 : 0 ≤ lo) (h1 : lo ≤ x) (h2 : x ≤ hi)
    (h3 : hi ^ k - t ≤ e) (h4 : e ≤ lo ^ k + t) : |e - x ^ k| ≤ t := by
  have a1 := pow_le_pow_left₀ h0 h1 k
  have a2 := pow_le_pow_left₀ (h0.trans h1) h2 k
  rw [abs_le]
  constructor <;> linarith

theorem tab1 : ∀ n < 12, |devE1.getD n 0 - Real.exp (-(((n : ℝ) + 1) * (1 / 2)) ^ 2)| ≤ 1 / 10 ^ 16 := by
  intro n hn
  have hx : ∀ k : ℕ, Real.exp (-(1 / 4) * k) = Real.exp (-(1 / 4)) ^ k := by
    intro k; rw [← Real.exp_nat_mul]; congr 1; ring
  have key : Real.exp (-(((n : ℝ) + 1) * (1 / 2)) ^ 2) = Real.exp (-(1 / 4)) ^ ((n + 1) ^ 2) := by
    rw [← hx]; congr 1; push_cast; ring
  rw [key]
  obtain ⟨l, u⟩ := exp_quarter
  apply pow_close _ _ _ _ _ _ (by norm_num) l u
  all_goals
    interval_cases n <;> simp only [devE1, List.getD_cons_zero, List.getD_cons_succ] <;> norm_num

theorem tab2 : ∀ n < 12, |devE2.getD n 0 - Real.exp (-(((n : ℝ) + 1) * (53 / 100)) ^ 2)| ≤ 1 / 10 ^ 16 := by
  intro n hn
  have hx : ∀ k : ℕ, Real.exp (-0.2809 * k) = Real.exp (-0.2809) ^ k := by
    intro k; rw [← Real.exp_nat_mul]; congr 1; ring
  have key : Real.exp (-(((n : ℝ) + 1) * (53 / 100)) ^ 2) = Real.exp (-0.2809) ^ ((n + 1) ^ 2) := by
    rw [← hx]; congr 1; push_cast; ring
  rw [key]
  obtain ⟨l, u⟩ := exp_2809
  apply pow_close _ _ _ _ _ _ (by norm_num) l u
  all_goals
    interval_cases n <;> simp only [devE2, List.getD_cons_zero, List.getD_cons_succ] <;> norm_num

/-! ### The loop over the table -/

theorem den_eq (z : ℂ) (n : ℝ) :
    ((z.im - z.re) * (z.im + z.re) + n) * ((z.im - z.re) * (z.im + z.re) + n) +
      4 * z.re * z.re * z.im * z.im = Complex.normSq (z ^ 2 - n) := by
  rw [Complex.normSq_apply, sq]
  simp only [sub_re, mul_re, ofReal_re, sub_im, mul_im, ofReal_im]
  ring

theorem sq_sub_ne (z : ℂ) (hz : 0 < z.im) (n : ℝ) (hn : 0 ≤ n) : z ^ 2 - (n : ℂ) ≠ 0 := by
  have h1 := sub_ne z hz (Real.sqrt n)
  have h2 := sub_ne z hz (-Real.sqrt n)
  have h3 : z ^ 2 - (n : ℂ) = (z - (Real.sqrt n : ℝ)) * (z - (-Real.sqrt n : ℝ)) := by
    have : (n : ℂ) = ((Real.sqrt n : ℝ) : ℂ) ^ 2 := by
      rw [← Complex.ofReal_pow, Real.sq_sqrt hn]
    rw [this]; push_cast; ring
  rw [h3]
  exact mul_ne_zero h1 h2

theorem two_lit : (2.0 : ℝ) = 2 := by norm_num

/-- the term of one table entry -/
noncomputable def term (z : ℂ) (p : ℝ × ℝ) : ℂ := (p.2 : ℂ) * (2 * I * z / (z ^ 2 - (p.1 : ℂ)))

theorem term_eq (z : ℂ) (hz : 0 < z.im) (n e : ℝ) (hn : 0 ≤ n) :
    term z (n, e) = Complex.mk
      (z.im * (2.0 * ((Complex.normSq z + n) * (e / Complex.normSq (z ^ 2 - n)))))
      (z.re * (2.0 * ((Complex.normSq z - n) * (e / Complex.normSq (z ^ 2 - n))))) := by
  have h := sq_sub_ne z hz n hn
  have hN : Complex.normSq (z ^ 2 - n) ≠ 0 := by
    rw [Ne, Complex.normSq_eq_zero]; exact h
  rw [term, div_eq_mul_inv, Complex.inv_def]
  have hs : Complex.normSq z = z.re * z.re + z.im * z.im := Complex.normSq_apply z
  rw [hs]
  generalize Complex.normSq (z ^ 2 - n) = N at hN
  apply Complex.ext
  · simp only [mul_re, mul_im, ofReal_re, ofReal_im, I_re, I_im, sub_re, sub_im, sq, conj_re, conj_im, re_ofNat, im_ofNat]
    simp only [two_lit]
    ring
  · simp only [mul_re, mul_im, ofReal_re, ofReal_im, I_re, I_im, sub_re, sub_im, sq, conj_re, conj_im, re_ofNat, im_ofNat]
    simp only [two_lit]
    ring

theorem loop_eq (z : ℂ) (hz : 0 < z.im) (ns es : List ℝ) (hn : ∀ n ∈ ns, 0 ≤ n) (g h : ℝ) :
    ∃ g' h', tableLoop (Complex.normSq z) ((z.im - z.re) * (z.im + z.re))
        (4 * z.re * z.re * z.im * z.im) ns es g h = some (g', h') ∧
      Complex.mk (z.im * (2.0 * g')) (z.re * (2.0 * h')) =
        Complex.mk (z.im * (2.0 * g)) (z.re * (2.0 * h)) + ((ns.zip es).map (term z)).sum := by
  induction ns generalizing es g h with
  | nil => exact ⟨g, h, by simp [tableLoop], by simp⟩
  | cons n ns ih =>
    cases es with
    | nil => exact ⟨g, h, by simp [tableLoop], by simp⟩
    | cons e es =>
      have h0 : 0 ≤ n := hn n (by simp)
      have hne : Complex.normSq (z ^ 2 - n) ≠ 0 := by
        rw [Ne, Complex.normSq_eq_zero]; exact sq_sub_ne z hz n h0
      obtain ⟨g', h', e1, e2⟩ := ih es (fun m hm => hn m (by simp [hm]))
        (g + (Complex.normSq z + n) * (e / Complex.normSq (z ^ 2 - n)))
        (h + (Complex.normSq z - n) * (e / Complex.normSq (z ^ 2 - n)))
      refine ⟨g', h', ?_, ?_⟩
      · rw [tableLoop]
        simp only [den_eq, fdiv, if_neg hne, Option.bind_eq_bind, Option.bind_some]
        exact e1
      · rw [e2, List.zip_cons_cons, List.map_cons, List.sum_cons, ← add_assoc, term_eq z hz n e h0]
        congr 1
        apply Complex.ext
        · simp only [add_re, two_lit]; ring
        · simp only [add_im, two_lit]; ring

/-- the default table -/
theorem sum1 (z : ℂ) : ((devN1.zip devE1).map (term z)).sum =
    ∑ n ∈ Finset.range 12, (devE1.getD n 0 : ℂ) * pair z (((n : ℝ) + 1) * (1 / 2)) := by
  have hp : ∀ n : ℕ, pair z (((n : ℝ) + 1) * (1 / 2)) = 2 * I * z / (z ^ 2 - ((((n : ℝ) + 1) * (1 / 2)) ^ 2 : ℝ)) := by
    intro n; rw [pair]; push_cast; ring
  simp only [hp, Finset.sum_range_succ, Finset.sum_range_zero, devN1, devE1, List.zip_cons_cons, List.zip_nil_left,
    List.map_cons, List.map_nil, List.sum_cons, List.sum_nil, term, List.getD_cons_zero, List.getD_cons_succ]
  norm_num
  ring

theorem sum2 (z : ℂ) : ((devN2.zip devE2).map (term z)).sum =
    ∑ n ∈ Finset.range 12, (devE2.getD n 0 : ℂ) * pair z (((n : ℝ) + 1) * (53 / 100)) := by
  have hp : ∀ n : ℕ, pair z (((n : ℝ) + 1) * (53 / 100)) = 2 * I * z / (z ^ 2 - ((((n : ℝ) + 1) * (53 / 100)) ^ 2 : ℝ)) := by
    intro n; rw [pair]; push_cast; ring
  simp only [hp, Finset.sum_range_succ, Finset.sum_range_zero, devN2, devE2, List.zip_cons_cons, List.zip_nil_left,
    List.map_cons, List.map_nil, List.sum_cons, List.sum_nil, term, List.getD_cons_zero, List.getD_cons_succ]
  norm_num
  ring

theorem nn1 : ∀ n ∈ devN1, 0 ≤ n := by
  intro n hn
  simp only [devN1, List.mem_cons, List.not_mem_nil, or_false] at hn
  rcases hn with h | h | h | h | h | h | h | h | h | h | h | h <;> rw [h] <;> norm_num

theorem nn2 : ∀ n ∈ devN2, 0 ≤ n := by
  intro n hn
  simp only [devN2, List.mem_cons, List.not_mem_nil, or_false] at hn
  rcases hn with h | h | h | h | h | h | h | h | h | h | h | h <;> rw [h] <;> norm_num

end GooFit.Faddeeva
