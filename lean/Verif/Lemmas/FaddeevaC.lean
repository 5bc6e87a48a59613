import Verif.Lemmas.FaddeevaB
import Mathlib.Analysis.SpecialFunctions.Exponential
import Mathlib.Analysis.Complex.ExponentialBounds
import Mathlib.Analysis.Real.Pi.Bounds
/-!
# The trapezoid rule for the complex error function: error bounds
-/
set_option autoImplicit false
namespace GooFit.Faddeeva
open MeasureTheory Complex Set

/-- the correction for the pole between the real line and the point -/
noncomputable def poleTerm (z : ℂ) (h : ℝ) : ℂ :=
  2 * cexp (-z ^ 2) * (cexp (2 * I * z * (Real.pi / h : ℝ)) / (1 - cexp (2 * I * z * (Real.pi / h : ℝ))))

theorem exp34 : Real.exp (-34) ≤ 1 / 10 ^ 14 := by
  have h1 := Real.exp_one_gt_d9
  have h2 : Real.exp (34 : ℝ) = Real.exp 1 ^ 34 := by
    rw [← Real.exp_nat_mul]; norm_num
  have h3 : (10 : ℝ) ^ 14 ≤ Real.exp 34 := by
    rw [h2]
    calc (10 : ℝ) ^ 14 ≤ (2.7182818283 : ℝ) ^ 34 := by norm_num
      _ ≤ Real.exp 1 ^ 34 := pow_le_pow_left₀ (by norm_num) h1.le 34
  rw [Real.exp_neg, ← one_div]
  exact one_div_le_one_div_of_le (by norm_num) h3

theorem geo34 (C : ℝ) : HasSum (fun n : ℕ => C * Real.exp (-34 * ((n : ℝ) + 1)))
    (C * (Real.exp (-34) * (1 - Real.exp (-34))⁻¹)) := by
  have h := hasSum_geometric_of_lt_one (Real.exp_pos (-34)).le (exp_lt_one' (by norm_num : (-34 : ℝ) < 0))
  refine ((h.mul_left (Real.exp (-34))).mul_left C).congr_fun ?_ |> id
  intro n
  rw [← Real.exp_nat_mul, ← Real.exp_add]
  congr 2
  ring

theorem geo34_le (C : ℝ) (hC : 0 ≤ C) (hC4 : C ≤ 4) :
    C * (Real.exp (-34) * (1 - Real.exp (-34))⁻¹) ≤ 1 / 10 ^ 13 := by
  have h := exp34
  have hp := Real.exp_pos (-34)
  set r := Real.exp (-34)
  have h1 : (1 - r)⁻¹ ≤ 2 := by
    rw [inv_le_comm₀ (by norm_num at h ⊢; linarith) (by norm_num)]
    norm_num at h ⊢; linarith
  have h2 : r * (1 - r)⁻¹ ≤ 1 / 10 ^ 14 * 2 :=
    mul_le_mul h h1 (by
      apply inv_nonneg.2
      norm_num at h ⊢; linarith) (by norm_num)
  have h3 : 0 ≤ r * (1 - r)⁻¹ := mul_nonneg hp.le (by
    apply inv_nonneg.2
    norm_num at h ⊢; linarith)
  calc C * (r * (1 - r)⁻¹) ≤ 4 * (1 / 10 ^ 14 * 2) := mul_le_mul hC4 h2 h3 (by norm_num)
    _ ≤ 1 / 10 ^ 13 := by norm_num

/-- the frequencies other than zero, in pairs -/
theorem freq_pairs (z : ℂ) (h : ℝ) (S : ℂ) (hS : HasSum (fun k : ℤ => J z (Real.pi * k / h)) S) :
    HasSum (fun n : ℕ => J z (Real.pi / h * ((n : ℝ) + 1)) + J z (-(Real.pi / h * ((n : ℝ) + 1))))
      (S - W z) := by
  have h1 := hS.nat_add_neg
  have h2 := (hasSum_nat_add_iff' 1).2 h1
  simp only [Finset.range_one, Finset.sum_singleton] at h2
  have e1 : ∀ n : ℕ, J z (Real.pi / h * ((n : ℝ) + 1)) + J z (-(Real.pi / h * ((n : ℝ) + 1))) =
      J z (Real.pi * ((n + 1 : ℕ) : ℤ) / h) + J z (Real.pi * ((-((n + 1 : ℕ) : ℤ) : ℤ) : ℝ) / h) := by
    intro n
    congr 2
    · push_cast; ring
    · push_cast; ring
  have e2 : S - W z = S + J z (Real.pi * ((0 : ℤ) : ℝ) / h) - (J z (Real.pi * (((0 : ℕ) : ℤ) : ℝ) / h) +
      J z (Real.pi * ((-((0 : ℕ) : ℤ) : ℤ) : ℝ) / h)) := by
    simp [W]
  rw [e2]
  simp_rw [e1]
  exact h2

theorem freq_sq (h : ℝ) (h0 : 0 < h) (h1 : h ≤ 53 / 100) (n : ℕ) :
    34 * ((n : ℝ) + 1) ≤ (Real.pi / h * ((n : ℝ) + 1)) ^ 2 := by
  have hp := Real.pi_gt_d2
  have hb : 5.9 ≤ Real.pi / h := by
    rw [le_div_iff₀ h0]
    norm_num at hp ⊢
    linarith
  have hn : (1 : ℝ) ≤ (n : ℝ) + 1 := by
    have : (0 : ℝ) ≤ (n : ℝ) := Nat.cast_nonneg n
    linarith
  have hb2 : 34 ≤ (Real.pi / h) ^ 2 := by
    norm_num at hb
    nlinarith
  rw [mul_pow]
  have hm : (n : ℝ) + 1 ≤ ((n : ℝ) + 1) ^ 2 := by nlinarith
  exact mul_le_mul hb2 hm (by linarith) (by positivity)

/-- **Trapezoid rule with pole correction.** -/
theorem trap_pole (z : ℂ) (hz : 0 < z.im) (h : ℝ) (h0 : 0 < h) (h1 : h ≤ 53 / 100)
    (hy : z.im ≤ Real.pi / h) (S : ℂ) (hS : HasSum (fun k : ℤ => J z (Real.pi * k / h)) S) :
    ‖S - poleTerm z h - W z‖ ≤ 1 / 10 ^ 13 := by
  have hb : 0 < Real.pi / h := div_pos Real.pi_pos h0
  have hp := freq_pairs z h S hS
  set q := cexp (2 * I * z * (Real.pi / h : ℝ)) with hq
  have hqn : ‖q‖ < 1 := by
    rw [hq, Complex.norm_exp]
    apply exp_lt_one'
    have : (2 * I * z * ((Real.pi / h : ℝ) : ℂ)).re = -(2 * z.im * (Real.pi / h)) := by
      simp [mul_re, mul_im]
    rw [this]
    have := mul_pos hz hb
    linarith
  have hg := (hasSum_geometric_of_norm_lt_one hqn).mul_left (2 * cexp (-z ^ 2) * q)
  have hd := hp.sub hg
  have hb2 : ‖S - W z - 2 * cexp (-z ^ 2) * q * (1 - q)⁻¹‖ ≤
      2 * (Real.exp (-34) * (1 - Real.exp (-34))⁻¹) := by
    refine hd.norm_le_of_bounded (geo34 2) ?_
    intro n
    set a := Real.pi / h * ((n : ℝ) + 1) with ha
    have hn : (1 : ℝ) ≤ (n : ℝ) + 1 := by
      have : (0 : ℝ) ≤ (n : ℝ) := Nat.cast_nonneg n
      linarith
    have hab : Real.pi / h ≤ a := by
      rw [ha]; nlinarith
    have e1 := J_bound_pos z hz a (by linarith)
    have e2 := J_neg z a (by linarith)
    have eq : 2 * cexp (-z ^ 2) * q * q ^ n = 2 * cexp (-z ^ 2) * cexp (2 * I * z * a) := by
      rw [mul_assoc, ← pow_succ', hq, ← Complex.exp_nat_mul]
      congr 2
      rw [ha]
      push_cast
      ring
    rw [eq]
    have e3 : Real.exp (-a ^ 2) ≤ Real.exp (-34 * ((n : ℝ) + 1)) := by
      apply Real.exp_le_exp.2
      have := freq_sq h h0 h1 n
      rw [← ha] at this
      linarith
    calc ‖J z a + J z (-a) - 2 * cexp (-z ^ 2) * cexp (2 * I * z * a)‖
        = ‖J z a + (J z (-a) - 2 * cexp (-z ^ 2) * cexp (2 * I * z * a))‖ := by congr 1; ring
      _ ≤ ‖J z a‖ + ‖J z (-a) - 2 * cexp (-z ^ 2) * cexp (2 * I * z * a)‖ := norm_add_le _ _
      _ ≤ 2 * Real.exp (-34 * ((n : ℝ) + 1)) := by linarith
  have e : S - poleTerm z h - W z = S - W z - 2 * cexp (-z ^ 2) * q * (1 - q)⁻¹ := by
    rw [poleTerm, ← hq]
    ring
  rw [e]
  exact hb2.trans (geo34_le 2 (by norm_num) (by norm_num))

/-- **Trapezoid rule far above the real line.** -/
theorem trap_far (z : ℂ) (hz : 6 ≤ z.im) (S : ℂ)
    (hS : HasSum (fun k : ℤ => J z (Real.pi * k / (1 / 2 : ℝ))) S) :
    ‖S - W z‖ ≤ 1 / 10 ^ 13 := by
  have hp := freq_pairs z (1 / 2) S hS
  refine (hp.norm_le_of_bounded (geo34 3) ?_).trans (geo34_le 3 (by norm_num) (by norm_num))
  intro n
  set a := Real.pi / (1 / 2) * ((n : ℝ) + 1) with ha
  have hn : (1 : ℝ) ≤ (n : ℝ) + 1 := by
    have : (0 : ℝ) ≤ (n : ℝ) := Nat.cast_nonneg n
    linarith
  have ha6 : 6 * ((n : ℝ) + 1) ≤ a := by
    rw [ha]
    have := Real.pi_gt_three
    have h2 : 6 ≤ Real.pi / (1 / 2) := by
      rw [le_div_iff₀ (by norm_num)]; linarith
    nlinarith
  have e1 := J_bound_pos z (by linarith) a (by linarith)
  have e3 : Real.exp (-a ^ 2) ≤ Real.exp (-34 * ((n : ℝ) + 1)) := by
    apply Real.exp_le_exp.2
    nlinarith
  have e2 : ‖J z (-a)‖ ≤ 2 * Real.exp (-34 * ((n : ℝ) + 1)) := by
    by_cases hc : a ≤ z.im
    · have := J_bound_far z (-a) (by linarith)
      rw [neg_sq] at this
      have := Real.exp_pos (-34 * ((n : ℝ) + 1))
      linarith
    · push Not at hc
      have hk := kern_norm_int z (-a)
      have hJ : ‖J z (-a)‖ ≤ 2 * Real.exp (z.im ^ 2 + 2 * z.im * (-a)) := by
        rw [J, norm_mul, norm_div, norm_one, Complex.norm_of_nonneg sqrtpi_pos.le, one_div,
          inv_mul_le_iff₀ sqrtpi_pos]
        calc ‖∫ v in Ioi (0 : ℝ), kern z (-a) v‖ ≤ ∫ v in Ioi (0 : ℝ), ‖kern z (-a) v‖ :=
              norm_integral_le_integral_norm _
          _ ≤ _ := hk
          _ = _ := by ring
      refine hJ.trans ?_
      apply mul_le_mul_of_nonneg_left _ (by norm_num)
      apply Real.exp_le_exp.2
      nlinarith
  calc ‖J z a + J z (-a)‖ ≤ ‖J z a‖ + ‖J z (-a)‖ := norm_add_le _ _
    _ ≤ 3 * Real.exp (-34 * ((n : ℝ) + 1)) := by linarith

/-- two nodes -/
noncomputable def pair (z : ℂ) (t : ℝ) : ℂ := 2 * I * z / (z ^ 2 - (t : ℂ) ^ 2)

theorem pair_eq (z : ℂ) (hz : 0 < z.im) (t : ℝ) :
    pair z t = I / (z - t) + I / (z - (-t : ℝ)) := by
  have h1 := sub_ne z hz t
  have h2 := sub_ne z hz (-t)
  have h3 : z ^ 2 - (t : ℂ) ^ 2 = (z - t) * (z - (-t : ℝ)) := by push_cast; ring
  rw [pair, h3, div_add_div _ _ h1 h2]
  congr 1
  push_cast
  ring

theorem pair_norm (z : ℂ) (hz : 0 < z.im) (t r : ℝ) (hr : 0 < r) (h1 : r ≤ ‖z - t‖)
    (h2 : r ≤ ‖z + t‖) : ‖pair z t‖ ≤ 2 / r := by
  rw [pair_eq z hz]
  have e : z - ((-t : ℝ) : ℂ) = z + t := by push_cast; ring
  rw [e]
  calc ‖I / (z - t) + I / (z + t)‖ ≤ ‖I / (z - t)‖ + ‖I / (z + t)‖ := norm_add_le _ _
    _ ≤ 1 / r + 1 / r := by
        rw [norm_div, norm_div, norm_I]
        exact add_le_add (one_div_le_one_div_of_le hr h1) (one_div_le_one_div_of_le hr h2)
    _ = 2 / r := by ring

theorem node_pairs (z : ℂ) (hz : 0 < z.im) (h : ℝ) (S : ℂ) (hS : HasSum (node z h) S) :
    HasSum (fun n : ℕ => (h / Real.pi : ℂ) *
        ((Real.exp (-(((n : ℝ) + 1) * h) ^ 2) : ℂ) * pair z (((n : ℝ) + 1) * h)))
      (S - (h / Real.pi : ℂ) * (I / z)) := by
  have h1 := hS.nat_add_neg
  have h2 := (hasSum_nat_add_iff' 1).2 h1
  simp only [Finset.range_one, Finset.sum_singleton] at h2
  have e1 : ∀ n : ℕ, (h / Real.pi : ℂ) *
        ((Real.exp (-(((n : ℝ) + 1) * h) ^ 2) : ℂ) * pair z (((n : ℝ) + 1) * h)) =
      node z h ((n + 1 : ℕ) : ℤ) + node z h (-((n + 1 : ℕ) : ℤ)) := by
    intro n
    rw [pair_eq z hz, node, node]
    rw [mul_add, mul_add]
    congr 1
    · congr 2
      · push_cast; congr 1
      · push_cast; congr 1
    · congr 2
      · push_cast; congr 1; ring
      · push_cast; congr 2; ring
  have e2 : S - (h / Real.pi : ℂ) * (I / z) =
      S + node z h 0 - (node z h ((0 : ℕ) : ℤ) + node z h (-((0 : ℕ) : ℤ))) := by
    simp [node]
  rw [e2]
  simp_rw [e1]
  exact h2

theorem tail_exp (h : ℝ) (hh : 1 / 2 ≤ h) (m : ℕ) :
    Real.exp (-((((m + 12 : ℕ) : ℝ) + 1) * h) ^ 2) ≤
      Real.exp (-42) * (1 / 2) ^ m := by
  have h2 : (1 / 2 : ℝ) = Real.exp (-Real.log 2) := by
    rw [Real.exp_neg, Real.exp_log (by norm_num)]; norm_num
  rw [h2, ← Real.exp_nat_mul, ← Real.exp_add]
  apply Real.exp_le_exp.2
  have hl := Real.log_two_lt_d9
  have hm : (0 : ℝ) ≤ m := Nat.cast_nonneg m
  push_cast
  have h3 : ((m : ℝ) + 12 + 1) / 2 ≤ ((m : ℝ) + 12 + 1) * h := by nlinarith
  have h4 : (((m : ℝ) + 12 + 1) / 2) ^ 2 ≤ (((m : ℝ) + 12 + 1) * h) ^ 2 :=
    pow_le_pow_left₀ (by linarith) h3 2
  nlinarith

theorem exp42 : Real.exp (-42) ≤ 1 / 10 ^ 18 := by
  have h1 := Real.exp_one_gt_d9
  have h2 : Real.exp (42 : ℝ) = Real.exp 1 ^ 42 := by
    rw [← Real.exp_nat_mul]; norm_num
  have h3 : (10 : ℝ) ^ 18 ≤ Real.exp 42 := by
    rw [h2]
    calc (10 : ℝ) ^ 18 ≤ (2.7182818283 : ℝ) ^ 42 := by norm_num
      _ ≤ Real.exp 1 ^ 42 := pow_le_pow_left₀ (by norm_num) h1.le 42
  rw [Real.exp_neg, ← one_div]
  exact one_div_le_one_div_of_le (by norm_num) h3

/-- the trapezoid sum the code forms: twelve pairs of nodes with tabulated weights -/
noncomputable def trapSum (z : ℂ) (h : ℝ) (E : ℕ → ℝ) : ℂ :=
  (h / Real.pi : ℂ) * (I / z + ∑ n ∈ Finset.range 12, (E n : ℂ) * pair z (((n : ℝ) + 1) * h))

/-- truncation and table error -/
theorem trap_trunc (z : ℂ) (hz : 0 < z.im) (h : ℝ) (h0 : 1 / 2 ≤ h) (h1 : h ≤ 53 / 100)
    (E : ℕ → ℝ) (hE : ∀ n < 12, |E n - Real.exp (-(((n : ℝ) + 1) * h) ^ 2)| ≤ 1 / 10 ^ 16)
    (hnear : ∀ n : ℕ, n < 12 → 1 / 100 ≤ ‖z - (((n : ℝ) + 1) * h : ℝ)‖ ∧ 1 / 100 ≤ ‖z + (((n : ℝ) + 1) * h : ℝ)‖)
    (hfar : ∀ n : ℕ, 12 ≤ n → 1 / 10 ^ 9 ≤ ‖z - (((n : ℝ) + 1) * h : ℝ)‖ ∧
      1 / 10 ^ 9 ≤ ‖z + (((n : ℝ) + 1) * h : ℝ)‖)
    (S : ℂ) (hS : HasSum (node z h) S) : ‖trapSum z h E - S‖ ≤ 9 / 10 ^ 10 := by
  have hp := (hasSum_nat_add_iff' 12).2 (node_pairs z hz h S hS)
  have hpi := Real.pi_gt_three
  have hc : ‖(h / Real.pi : ℂ)‖ ≤ 18 / 100 := by
    have e : (h / Real.pi : ℂ) = ((h / Real.pi : ℝ) : ℂ) := by push_cast; ring
    rw [e, Complex.norm_of_nonneg (div_nonneg (by linarith) (by linarith)), div_le_iff₀ (by linarith)]
    linarith
  set R := S - (h / Real.pi : ℂ) * (I / z) - ∑ n ∈ Finset.range 12, (h / Real.pi : ℂ) *
        ((Real.exp (-(((n : ℝ) + 1) * h) ^ 2) : ℂ) * pair z (((n : ℝ) + 1) * h)) with hR
  have hRb : ‖R‖ ≤ (18 / 100 * (2 / (1 / 10 ^ 9)) * Real.exp (-42)) * 2 := by
    have hg := (hasSum_geometric_two).mul_left (18 / 100 * (2 / (1 / 10 ^ 9)) * Real.exp (-42))
    refine hp.norm_le_of_bounded hg ?_
    intro m
    have ht := tail_exp h h0 m
    obtain ⟨f1, f2⟩ := hfar (m + 12) (by omega)
    have hpn := pair_norm z hz ((((m + 12 : ℕ) : ℝ) + 1) * h) (1 / 10 ^ 9) (by norm_num) f1 f2
    rw [norm_mul, norm_mul, Complex.norm_of_nonneg (Real.exp_pos _).le]
    calc ‖(h / Real.pi : ℂ)‖ * (Real.exp (-((((m + 12 : ℕ) : ℝ) + 1) * h) ^ 2) *
          ‖pair z ((((m + 12 : ℕ) : ℝ) + 1) * h)‖)
        ≤ 18 / 100 * ((Real.exp (-42) * (1 / 2) ^ m) * (2 / (1 / 10 ^ 9))) :=
          mul_le_mul hc (mul_le_mul ht hpn (norm_nonneg _) (by positivity))
            (mul_nonneg (Real.exp_pos _).le (norm_nonneg _)) (by norm_num)
      _ = _ := by ring
  have hD : trapSum z h E - S = (h / Real.pi : ℂ) * ∑ n ∈ Finset.range 12,
      ((E n - Real.exp (-(((n : ℝ) + 1) * h) ^ 2) : ℝ) : ℂ) * pair z (((n : ℝ) + 1) * h) - R := by
    rw [hR, trapSum, ← Finset.mul_sum]
    have : ∑ n ∈ Finset.range 12,
      ((E n - Real.exp (-(((n : ℝ) + 1) * h) ^ 2) : ℝ) : ℂ) * pair z (((n : ℝ) + 1) * h) =
      ∑ n ∈ Finset.range 12, (E n : ℂ) * pair z (((n : ℝ) + 1) * h) -
      ∑ n ∈ Finset.range 12, (Real.exp (-(((n : ℝ) + 1) * h) ^ 2) : ℂ) * pair z (((n : ℝ) + 1) * h) := by
      rw [← Finset.sum_sub_distrib]
      refine Finset.sum_congr rfl fun n _ => ?_
      rw [Complex.ofReal_sub]
      ring
    rw [this]
    ring
  have hs : ‖∑ n ∈ Finset.range 12,
      ((E n - Real.exp (-(((n : ℝ) + 1) * h) ^ 2) : ℝ) : ℂ) * pair z (((n : ℝ) + 1) * h)‖ ≤
      12 * (1 / 10 ^ 16 * 200) := by
    refine (norm_sum_le _ _).trans ?_
    have : ∀ n ∈ Finset.range 12, ‖((E n - Real.exp (-(((n : ℝ) + 1) * h) ^ 2) : ℝ) : ℂ) *
        pair z (((n : ℝ) + 1) * h)‖ ≤ 1 / 10 ^ 16 * 200 := by
      intro n hn
      have hn := Finset.mem_range.1 hn
      obtain ⟨f1, f2⟩ := hnear n hn
      have hpn := pair_norm z hz (((n : ℝ) + 1) * h) (1 / 100) (by norm_num) f1 f2
      rw [norm_mul, Complex.norm_real]
      exact mul_le_mul (hE n hn) (hpn.trans (by norm_num)) (norm_nonneg _) (by norm_num)
    refine (Finset.sum_le_sum this).trans (le_of_eq ?_)
    simp
  rw [hD]
  refine (norm_sub_le _ _).trans ?_
  have h3 : ‖(h / Real.pi : ℂ) * ∑ n ∈ Finset.range 12,
      ((E n - Real.exp (-(((n : ℝ) + 1) * h) ^ 2) : ℝ) : ℂ) * pair z (((n : ℝ) + 1) * h)‖ ≤
      18 / 100 * (12 * (1 / 10 ^ 16 * 200)) := by
    rw [norm_mul]
    exact mul_le_mul hc hs (norm_nonneg _) (by norm_num)
  have h4 := exp42
  have h5 : (18 / 100 * (2 / (1 / 10 ^ 9)) * Real.exp (-42)) * 2 ≤
      (18 / 100 * (2 / (1 / 10 ^ 9)) * (1 / 10 ^ 18)) * 2 := by
    have : (0 : ℝ) ≤ 18 / 100 * (2 / (1 / 10 ^ 9)) := by norm_num
    nlinarith
  calc _ ≤ 18 / 100 * (12 * (1 / 10 ^ 16 * 200)) +
        (18 / 100 * (2 / (1 / 10 ^ 9)) * (1 / 10 ^ 18)) * 2 := add_le_add h3 (hRb.trans h5)
    _ ≤ 9 / 10 ^ 10 := by norm_num

end GooFit.Faddeeva
