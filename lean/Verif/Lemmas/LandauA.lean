import Verif.Model.Landau
import Verif.Lemmas.BasicReal
import Mathlib.Analysis.SpecialFunctions.Log.Deriv
import Mathlib.Analysis.SpecialFunctions.Exponential
import Mathlib.Analysis.Complex.ExponentialBounds
/-!
# The pieces of the Landau density: signs, jumps, agreement of the two copies
-/
set_option autoImplicit false
namespace GooFit.Landau
open Filter Topology

/-! ### The pieces -/

noncomputable def pA (v : ℝ) : ℝ :=
  let u := Real.exp (v + 1)
  3989422803 / 10 ^ 10 * (Real.exp (-1 / u) / Real.sqrt u) *
    (1 + (4166666667 / 10 ^ 11 + (-1996527778 / 10 ^ 11 + 2709538966 / 10 ^ 11 * u) * u) * u)
noncomputable def pB (v : ℝ) : ℝ :=
  let u := Real.exp (-v - 1)
  Real.exp (-u) * Real.sqrt u * horner p1 v / horner q1 v
noncomputable def pC (v : ℝ) : ℝ := horner p2 v / horner q2 v
noncomputable def pD (v : ℝ) : ℝ := horner p3 v / horner q3 v
noncomputable def pE (v : ℝ) : ℝ := (1 / v) * (1 / v) * horner p4 (1 / v) / horner q4 (1 / v)
noncomputable def pF (v : ℝ) : ℝ := (1 / v) * (1 / v) * horner p5 (1 / v) / horner q5 (1 / v)
noncomputable def pG (v : ℝ) : ℝ := (1 / v) * (1 / v) * horner p6 (1 / v) / horner q6 (1 / v)
noncomputable def pK (v : ℝ) : ℝ :=
  let u := 1 / (v - v * Real.log v / (v + 1))
  u * u * (1 + (-1845568670 / 10 ^ 9 + -4284640743 / 10 ^ 9 * u) * u)

open scoped Classical in
noncomputable def shape (v : ℝ) : ℝ :=
  if v < -(55 / 10) then (if Real.exp (v + 1) < 1 / 10 ^ 10 then 0 else pA v)
  else if v < -1 then pB v
  else if v < 1 then pC v
  else if v < 5 then pD v
  else if v < 12 then pE v
  else if v < 50 then pF v
  else if v < 300 then pG v
  else pK v

/-! ### Signs -/

theorem p1_pos (v : ℝ) (h : v ≤ 0) : 0 < horner p1 v := by
  have h0 : 0 ≤ -v := by linarith
  have : horner p1 v = 4259894875 / 10 ^ 10 + 1249762550 / 10 ^ 10 * (-v) + 3984243700 / 10 ^ 11 * (-v) ^ 2 +
    6298287635 / 10 ^ 12 * (-v) ^ 3 + 1511162253 / 10 ^ 12 * (-v) ^ 4 := by
    simp only [horner, p1]; ring
  rw [this]; positivity

theorem q1_pos (v : ℝ) (h : v ≤ 0) : 0 < horner q1 v := by
  have h0 : 0 ≤ -v := by linarith
  have : horner q1 v = 1 + 3388260629 / 10 ^ 10 * (-v) + 9594393323 / 10 ^ 11 * (-v) ^ 2 +
    1608042283 / 10 ^ 11 * (-v) ^ 3 + 3778942063 / 10 ^ 12 * (-v) ^ 4 := by
    simp only [horner, q1]; ring
  rw [this]; positivity

theorem abs_pow_le (v b : ℝ) (h : |v| ≤ b) (n : ℕ) : |v ^ n| ≤ b ^ n := by
  rw [abs_pow]; exact pow_le_pow_left₀ (abs_nonneg _) h n

theorem p2_pos (v : ℝ) (h : |v| ≤ 1) : 0 < horner p2 v := by
  have h1 := abs_le.1 (abs_pow_le v 1 h 1)
  have h2 := abs_le.1 (abs_pow_le v 1 h 2)
  have h3 := abs_le.1 (abs_pow_le v 1 h 3)
  have h4 := abs_le.1 (abs_pow_le v 1 h 4)
  norm_num at h1 h2 h3 h4
  have : horner p2 v = 1788541609 / 10 ^ 10 + 1173957403 / 10 ^ 10 * v + 1488850518 / 10 ^ 11 * v ^ 2 -
    1394989411 / 10 ^ 12 * v ^ 3 + 1283617211 / 10 ^ 13 * v ^ 4 := by
    simp only [horner, p2]; ring
  rw [this]
  norm_num
  linarith [h1.1, h1.2, h2.1, h3.1, h3.2, h4.1, sq_nonneg v]

theorem q2_pos (v : ℝ) (h : |v| ≤ 1) : 0 < horner q2 v := by
  have h1 := abs_le.1 (abs_pow_le v 1 h 1)
  have h3 := abs_le.1 (abs_pow_le v 1 h 3)
  have h4 : 0 ≤ v ^ 4 := by positivity
  norm_num at h1 h3
  have : horner q2 v = 1 + 7428795082 / 10 ^ 10 * v + 3153932961 / 10 ^ 10 * v ^ 2 +
    6694219548 / 10 ^ 11 * v ^ 3 + 8790609714 / 10 ^ 12 * v ^ 4 := by
    simp only [horner, q2]; ring
  rw [this]
  norm_num
  nlinarith [h1.1, h1.2, sq_nonneg v, h3.1, h3.2, h4]

theorem p3_pos (v : ℝ) (h0 : 0 ≤ v) (h : v ≤ 5) : 0 < horner p3 v := by
  have h4 : v ^ 4 ≤ 5 ^ 4 := pow_le_pow_left₀ h0 h 4
  have h2 := pow_nonneg h0 2
  have h3 := pow_nonneg h0 3
  have : horner p3 v = 1788544503 / 10 ^ 10 + 9359161662 / 10 ^ 11 * v + 6325387654 / 10 ^ 12 * v ^ 2 +
    6611667319 / 10 ^ 14 * v ^ 3 - 2031049101 / 10 ^ 15 * v ^ 4 := by
    simp only [horner, p3]; ring
  rw [this]
  norm_num at h4 ⊢
  linarith

theorem q3_pos (v : ℝ) (h0 : 0 ≤ v) : 0 < horner q3 v := by
  simp only [horner, q3]; positivity

theorem p4_pos (u : ℝ) (h0 : 0 ≤ u) (h : u ≤ 1) : 0 < horner p4 u := by
  have h3 : u ^ 3 ≤ u := by
    have := pow_le_of_le_one h0 h (n := 3) (by norm_num); exact this
  have h2 := pow_nonneg h0 2
  have h4 := pow_nonneg h0 4
  have h3' : u ^ 3 ≤ u ^ 2 := pow_le_pow_of_le_one h0 h (by norm_num)
  have : horner p4 u = 9874054407 / 10 ^ 10 + 1186723273 / 10 ^ 7 * u + 8492794360 / 10 ^ 7 * u ^ 2 -
    7437792444 / 10 ^ 7 * u ^ 3 + 4270262186 / 10 ^ 7 * u ^ 4 := by
    simp only [horner, p4]; ring
  rw [this]
  norm_num
  linarith

theorem q4_pos (u : ℝ) (h0 : 0 ≤ u) : 0 < horner q4 u := by
  simp only [horner, q4]; positivity

theorem p5_pos (u : ℝ) (h0 : 0 ≤ u) (h : u ≤ 1 / 12) : 0 < horner p5 u := by
  have h3 := pow_nonneg h0 3
  have h2 := pow_nonneg h0 2
  have h4 : u ^ 4 ≤ u ^ 3 := pow_le_pow_of_le_one h0 (by linarith) (by norm_num)
  have h3' : u ^ 3 ≤ u ^ 2 := pow_le_pow_of_le_one h0 (by linarith) (by norm_num)
  have : horner p5 u = 1003675074 / 10 ^ 9 + 1675702434 / 10 ^ 7 * u + 4789711289 / 10 ^ 6 * u ^ 2 +
    2121786767 / 10 ^ 5 * u ^ 3 - 2232494910 / 10 ^ 5 * u ^ 4 := by
    simp only [horner, p5]; ring
  rw [this]
  norm_num
  linarith

theorem q5_pos (u : ℝ) (h0 : 0 ≤ u) : 0 < horner q5 u := by
  simp only [horner, q5]; positivity

theorem p6_pos (u : ℝ) (h0 : 0 ≤ u) (h : u ≤ 1 / 50) : 0 < horner p6 u := by
  have h2 := pow_nonneg h0 2
  have h3 := pow_nonneg h0 3
  have h4 : u ^ 4 ≤ u ^ 2 * (1 / 50) ^ 2 := by
    have : u ^ 4 = u ^ 2 * u ^ 2 := by ring
    rw [this]
    exact mul_le_mul_of_nonneg_left (pow_le_pow_left₀ h0 h 2) h2
  have : horner p6 u = 1000827619 / 10 ^ 9 + 6649143136 / 10 ^ 7 * u + 6297292665 / 10 ^ 5 * u ^ 2 +
    4755546998 / 10 ^ 4 * u ^ 3 - 5743609109 / 10 ^ 3 * u ^ 4 := by
    simp only [horner, p6]; ring
  rw [this]
  norm_num at h4 ⊢
  linarith

theorem q6_pos (u : ℝ) (h0 : 0 ≤ u) (h : u ≤ 1 / 50) : 0 < horner q6 u := by
  have h2 := pow_nonneg h0 2
  have h3 := pow_nonneg h0 3
  have h4 : u ^ 4 ≤ u ^ 2 * (1 / 50) ^ 2 := by
    have : u ^ 4 = u ^ 2 * u ^ 2 := by ring
    rw [this]
    exact mul_le_mul_of_nonneg_left (pow_le_pow_left₀ h0 h 2) h2
  have : horner q6 u = 1 + 6514101098 / 10 ^ 7 * u + 5697473333 / 10 ^ 5 * u ^ 2 +
    1659174725 / 10 ^ 4 * u ^ 3 - 2815759939 / 10 ^ 3 * u ^ 4 := by
    simp only [horner, q6]; ring
  rw [this]
  norm_num at h4 ⊢
  linarith

theorem tail_den (v : ℝ) (h : 200 ≤ v) : v / 2 ≤ v - v * Real.log v / (v + 1) := by
  have hv : 0 < v := by linarith
  have h1 : Real.log (v / 2) ≤ v / 2 - 1 := Real.log_le_sub_one_of_pos (by linarith)
  rw [Real.log_div hv.ne' (by norm_num)] at h1
  have h2 := Real.log_two_lt_d9
  have h3 : Real.log v ≤ (v + 1) / 2 := by norm_num at h2; linarith
  have h4 : v * Real.log v / (v + 1) ≤ v / 2 := by
    rw [div_le_iff₀ (by linarith)]
    have := mul_le_mul_of_nonneg_left h3 hv.le
    linarith
  linarith

theorem poly_u (u : ℝ) (h0 : 0 ≤ u) (h : u ≤ 1 / 10) :
    0 < 1 + (-1845568670 / 10 ^ 9 + -4284640743 / 10 ^ 9 * u) * u := by
  have : u * u ≤ 1 / 10 * (1 / 10) := mul_le_mul h h h0 (by norm_num)
  have e : 1 + (-1845568670 / 10 ^ 9 + -4284640743 / 10 ^ 9 * u) * u =
    1 - 1845568670 / 10 ^ 9 * u - 4284640743 / 10 ^ 9 * (u * u) := by ring
  rw [e]
  norm_num
  linarith

theorem poly_a (u : ℝ) (h0 : 0 < u) (h : u ≤ 1) :
    0 < 1 + (4166666667 / 10 ^ 11 + (-1996527778 / 10 ^ 11 + 2709538966 / 10 ^ 11 * u) * u) * u := by
  have h2 : u ^ 2 ≤ 1 := pow_le_one₀ h0.le h
  have h3 : 0 < u ^ 3 := by positivity
  have e : 1 + (4166666667 / 10 ^ 11 + (-1996527778 / 10 ^ 11 + 2709538966 / 10 ^ 11 * u) * u) * u =
    1 + 4166666667 / 10 ^ 11 * u - 1996527778 / 10 ^ 11 * u ^ 2 + 2709538966 / 10 ^ 11 * u ^ 3 := by ring
  rw [e]
  norm_num
  linarith

theorem pA_pos (v : ℝ) (h : v < -(55 / 10)) : 0 < pA v := by
  have hu : 0 < Real.exp (v + 1) := Real.exp_pos _
  have hu1 : Real.exp (v + 1) ≤ 1 := Real.exp_le_one_iff.2 (by linarith)
  have := poly_a _ hu hu1
  have h2 : 0 < Real.sqrt (Real.exp (v + 1)) := Real.sqrt_pos.2 hu
  have h3 := Real.exp_pos (-1 / Real.exp (v + 1))
  rw [pA]
  positivity

theorem pB_pos (v : ℝ) (h : v ≤ 0) : 0 < pB v := by
  have hu : 0 < Real.exp (-v - 1) := Real.exp_pos _
  have h1 := p1_pos v h
  have h2 := q1_pos v h
  have h3 : 0 < Real.sqrt (Real.exp (-v - 1)) := Real.sqrt_pos.2 hu
  rw [pB]
  exact div_pos (mul_pos (mul_pos (Real.exp_pos _) h3) h1) h2

theorem inv_bounds (v b : ℝ) (hb : 0 < b) (h : b ≤ v) : 0 < 1 / v ∧ 1 / v ≤ 1 / b :=
  ⟨one_div_pos.2 (by linarith), one_div_le_one_div_of_le hb h⟩

theorem shape_pos (v : ℝ) (h : ¬ (v < -(55 / 10) ∧ Real.exp (v + 1) < 1 / 10 ^ 10)) : 0 < shape v := by
  unfold shape
  by_cases h1 : v < -(55 / 10)
  · rw [if_pos h1, if_neg (fun h' => h ⟨h1, h'⟩)]
    exact pA_pos v h1
  rw [if_neg h1]
  by_cases h2 : v < -1
  · rw [if_pos h2]; exact pB_pos v (by linarith)
  rw [if_neg h2]
  by_cases h3 : v < 1
  · rw [if_pos h3]
    have : |v| ≤ 1 := abs_le.2 ⟨by linarith, h3.le⟩
    exact div_pos (p2_pos v this) (q2_pos v this)
  rw [if_neg h3]
  by_cases h4 : v < 5
  · rw [if_pos h4]; exact div_pos (p3_pos v (by linarith) h4.le) (q3_pos v (by linarith))
  rw [if_neg h4]
  by_cases h5 : v < 12
  · rw [if_pos h5]
    obtain ⟨a, b⟩ := inv_bounds v 5 (by norm_num) (by linarith)
    exact div_pos (mul_pos (mul_pos a a) (p4_pos _ a.le (b.trans (by norm_num)))) (q4_pos _ a.le)
  rw [if_neg h5]
  by_cases h6 : v < 50
  · rw [if_pos h6]
    obtain ⟨a, b⟩ := inv_bounds v 12 (by norm_num) (by linarith)
    exact div_pos (mul_pos (mul_pos a a) (p5_pos _ a.le b)) (q5_pos _ a.le)
  rw [if_neg h6]
  by_cases h7 : v < 300
  · rw [if_pos h7]
    obtain ⟨a, b⟩ := inv_bounds v 50 (by norm_num) (by linarith)
    exact div_pos (mul_pos (mul_pos a a) (p6_pos _ a.le b)) (q6_pos _ a.le b)
  rw [if_neg h7]
  have hd := tail_den v (by linarith)
  obtain ⟨a, b⟩ := inv_bounds _ 100 (by norm_num) (show (100 : ℝ) ≤ v - v * Real.log v / (v + 1) by linarith)
  exact mul_pos (mul_pos a a) (poly_u _ a.le (b.trans (by norm_num)))

/-! ### The host function -/

theorem fdiv_some (a b : ℝ) (h : b ≠ 0) : fdiv a b = some (a / b) := by rw [fdiv, if_neg h]

theorem pdf_eq (x x0 xi : ℝ) (hxi : 0 < xi) : landauPDF x x0 xi = some (shape ((x - x0) / xi) / xi) := by
  rw [landauPDF, if_neg (by linarith), fdiv_some _ _ hxi.ne']
  simp only [Option.bind_eq_bind, Option.bind_some]
  generalize (x - x0) / xi = v
  unfold shape
  by_cases h1 : v < -(55 / 10)
  · simp only [if_pos h1]
    by_cases h' : Real.exp (v + 1) < 1 / 10 ^ 10
    · rw [if_pos h', if_pos h', zero_div]
    · rw [if_neg h', if_neg h']
      have hu : 0 < Real.exp (v + 1) := Real.exp_pos _
      have hs : Real.sqrt (Real.exp (v + 1)) ≠ 0 := (Real.sqrt_pos.2 hu).ne'
      rw [fdiv_some _ _ hu.ne']
      simp only [Option.bind_some]
      rw [fdiv_some _ _ hs]
      simp only [Option.bind_some]
      rw [fdiv_some _ _ hxi.ne', pA]
  simp only [if_neg h1]
  by_cases h2 : v < -1
  · simp only [if_pos h2]
    rw [fdiv_some _ _ (q1_pos v (by linarith)).ne']
    simp only [Option.bind_some]
    rw [fdiv_some _ _ hxi.ne', pB]
  simp only [if_neg h2]
  by_cases h3 : v < 1
  · simp only [if_pos h3]
    have : |v| ≤ 1 := abs_le.2 ⟨by linarith, h3.le⟩
    rw [fdiv_some _ _ (q2_pos v this).ne']
    simp only [Option.bind_some]
    rw [fdiv_some _ _ hxi.ne', pC]
  simp only [if_neg h3]
  by_cases h4 : v < 5
  · simp only [if_pos h4]
    rw [fdiv_some _ _ (q3_pos v (by linarith)).ne']
    simp only [Option.bind_some]
    rw [fdiv_some _ _ hxi.ne', pD]
  simp only [if_neg h4]
  have hv : v ≠ 0 := by intro h; linarith
  rw [fdiv_some 1 v hv]
  simp only [Option.bind_some]
  obtain ⟨a, b⟩ := inv_bounds v 5 (by norm_num) (by linarith)
  by_cases h5 : v < 12
  · simp only [if_pos h5]
    rw [fdiv_some _ _ (q4_pos _ a.le).ne']
    simp only [Option.bind_some]
    rw [fdiv_some _ _ hxi.ne', pE]
  simp only [if_neg h5]
  by_cases h6 : v < 50
  · simp only [if_pos h6]
    rw [fdiv_some _ _ (q5_pos _ a.le).ne']
    simp only [Option.bind_some]
    rw [fdiv_some _ _ hxi.ne', pF]
  simp only [if_neg h6]
  by_cases h7 : v < 300
  · simp only [if_pos h7]
    obtain ⟨a, b⟩ := inv_bounds v 50 (by norm_num) (by linarith)
    rw [fdiv_some _ _ (q6_pos _ a.le b).ne']
    simp only [Option.bind_some]
    rw [fdiv_some _ _ hxi.ne', pG]
  simp only [if_neg h7]
  have hd := tail_den v (by linarith)
  rw [fdiv_some _ (v + 1) (by intro h; linarith)]
  simp only [Option.bind_some]
  rw [fdiv_some _ _ (by intro h; linarith)]
  simp only [Option.bind_some]
  rw [fdiv_some _ _ hxi.ne', pK]

/-! ### The device function -/

theorem horner4_real (a b c d e : ℚ) (v : ℝ) : horner4 a b c d e v = horner [a, b, c, d, e] v := by
  simp only [horner4, horner]
  real_ops

theorem device_eq (x m s : ℝ) : landauValue x m s = shape ((x - m) / s) / s := by
  unfold landauValue shape
  simp only [real_sub, real_div]
  generalize (x - m) / s = v
  real_ops
  simp only [horner4_real]
  have c1 : ((-55 / 10 : ℚ) : ℝ) = -(55 / 10) := by norm_num
  have c2 : ((1 / 10000000000 : ℚ) : ℝ) = 1 / 10 ^ 10 := by norm_num
  have c3 : ((-1 : ℚ) : ℝ) = -1 := by norm_num
  have c4 : ((1 : ℚ) : ℝ) = 1 := by norm_num
  have c5 : ((5 : ℚ) : ℝ) = 5 := by norm_num
  have c6 : ((12 : ℚ) : ℝ) = 12 := by norm_num
  have c7 : ((50 : ℚ) : ℝ) = 50 := by norm_num
  have c8 : ((300 : ℚ) : ℝ) = 300 := by norm_num
  have c9 : ((0 : ℚ) : ℝ) = 0 := by norm_num
  simp only [c1, c2, c3, c4, c5, c6, c7, c8, c9]
  by_cases h1 : v < -(55 / 10)
  · simp only [if_pos h1]
    by_cases h2 : Real.exp (v + 1) < 1 / 10 ^ 10
    · simp only [if_pos h2, zero_div]
    · simp only [if_neg h2, pA]
      congr 1
      push_cast
      norm_num
  simp only [if_neg h1]
  by_cases h2 : v < -1
  · simp only [if_pos h2, pB]
    congr 3
    · simp only [p1]; push_cast; norm_num
    · simp only [q1]; push_cast; norm_num
  simp only [if_neg h2]
  by_cases h3 : v < 1
  · simp only [if_pos h3, pC]
    congr 3
    · simp only [p2]; push_cast; norm_num
    · simp only [q2]; push_cast; norm_num
  simp only [if_neg h3]
  by_cases h4 : v < 5
  · simp only [if_pos h4, pD]
    congr 3
    · simp only [p3]; push_cast; norm_num
    · simp only [q3]; push_cast; norm_num
  simp only [if_neg h4]
  by_cases h5 : v < 12
  · simp only [if_pos h5, pE]
    congr 3
    · simp only [p4]; push_cast; norm_num
    · simp only [q4]; push_cast; norm_num
  simp only [if_neg h5]
  by_cases h6 : v < 50
  · simp only [if_pos h6, pF]
    congr 3
    · simp only [p5]; push_cast; norm_num
    · simp only [q5]; push_cast; norm_num
  simp only [if_neg h6]
  by_cases h7 : v < 300
  · simp only [if_pos h7, pG]
    congr 3
    · simp only [p6]; push_cast; norm_num
    · simp only [q6]; push_cast; norm_num
  simp only [if_neg h7, pK]
  congr 1
  push_cast
  norm_num

end GooFit.Landau
