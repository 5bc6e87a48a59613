import Verif.Lemmas.LandauA
/-!
# The Landau density has no visible jumps
-/
set_option autoImplicit false
namespace GooFit.Landau
open Filter Topology

/-- no jump above `ε` at `v` -/
def Near (ε : ℝ) (g : ℝ → ℝ) (v : ℝ) : Prop := ∀ᶠ w in 𝓝 v, |g w - g v| ≤ ε

theorem Near.of_cont {ε : ℝ} (hε : 0 < ε) {g : ℝ → ℝ} {v : ℝ} (h : ContinuousAt g v) : Near ε g v := by
  have := Metric.continuousAt_iff.1 h ε hε
  obtain ⟨δ, hδ, h2⟩ := this
  refine Metric.eventually_nhds_iff.2 ⟨δ, hδ, fun w hw => ?_⟩
  have := h2 hw
  rw [Real.dist_eq] at this
  exact this.le

open scoped Classical in
theorem Near.ite {ε : ℝ} {l r : ℝ → ℝ} {b v : ℝ} (hl : v < b → Near ε l v) (hr : b ≤ v → Near ε r v)
    (hb : v = b → ∀ᶠ w in 𝓝 b, |l w - r b| ≤ ε) :
    Near ε (fun w => if w < b then l w else r w) v := by
  rcases lt_trichotomy v b with h | h | h
  · filter_upwards [hl h, Iio_mem_nhds h] with w h1 h2
    have h2 : w < b := h2
    simp only [if_pos h2, if_pos h]
    exact h1
  · subst h
    filter_upwards [hr (le_refl _), hb rfl] with w h1 h2
    simp only [if_neg (lt_irrefl v)]
    by_cases hw : w < v
    · simp only [if_pos hw]; exact h2
    · simp only [if_neg hw]; exact h1
  · filter_upwards [hr h.le, Ioi_mem_nhds h] with w h1 h2
    have h2 : b < w := h2
    simp only [if_neg (not_lt.2 h2.le), if_neg (not_lt.2 h.le)]
    exact h1

/-- a jump between continuous pieces -/
theorem jump {ε δ : ℝ} {l : ℝ → ℝ} {b y : ℝ} (hl : ContinuousAt l b) (h : |l b - y| ≤ δ) (hδ : δ < ε) :
    ∀ᶠ w in 𝓝 b, |l w - y| ≤ ε := by
  filter_upwards [Near.of_cont (sub_pos.2 hδ) hl] with w hw
  calc |l w - y| = |(l w - l b) + (l b - y)| := by congr 1; ring
    _ ≤ |l w - l b| + |l b - y| := abs_add_le _ _
    _ ≤ ε := by linarith

theorem horner_cont (a b c d e : ℝ) : Continuous fun v => horner [a, b, c, d, e] v := by
  simp only [horner]; fun_prop

theorem pA_cont (v : ℝ) : ContinuousAt pA v := by
  have hu : Real.exp (v + 1) ≠ 0 := (Real.exp_pos _).ne'
  have hs : Real.sqrt (Real.exp (v + 1)) ≠ 0 := (Real.sqrt_pos.2 (Real.exp_pos _)).ne'
  unfold pA
  have h1 : ContinuousAt (fun v => Real.exp (-1 / Real.exp (v + 1)) / Real.sqrt (Real.exp (v + 1))) v := by
    refine ContinuousAt.div ?_ (by fun_prop) hs
    refine Real.continuous_exp.continuousAt.comp ?_
    exact ContinuousAt.div continuousAt_const (by fun_prop) hu
  have h2 : Continuous fun v => (1 + (4166666667 / 10 ^ 11 + (-1996527778 / 10 ^ 11 + 2709538966 / 10 ^ 11 *
      Real.exp (v + 1)) * Real.exp (v + 1)) * Real.exp (v + 1)) := by fun_prop
  exact (continuousAt_const.mul h1).mul h2.continuousAt

theorem pB_cont (v : ℝ) (h : v ≤ 0) : ContinuousAt pB v := by
  unfold pB
  refine ContinuousAt.div ?_ (horner_cont _ _ _ _ _).continuousAt (q1_pos v h).ne'
  exact ContinuousAt.mul (by fun_prop) (horner_cont _ _ _ _ _).continuousAt

theorem pC_cont (v : ℝ) (h : |v| ≤ 1) : ContinuousAt pC v :=
  ContinuousAt.div (horner_cont _ _ _ _ _).continuousAt (horner_cont _ _ _ _ _).continuousAt (q2_pos v h).ne'

theorem pD_cont (v : ℝ) (h : 0 ≤ v) : ContinuousAt pD v :=
  ContinuousAt.div (horner_cont _ _ _ _ _).continuousAt (horner_cont _ _ _ _ _).continuousAt (q3_pos v h).ne'

theorem inv_cont (v : ℝ) (h : 0 < v) : ContinuousAt (fun v : ℝ => 1 / v) v :=
  ContinuousAt.div continuousAt_const continuousAt_id h.ne'

theorem rat_cont (p q : List ℝ) (hp : Continuous (horner p)) (hq : Continuous (horner q)) (v : ℝ) (h : 0 < v)
    (h0 : horner q (1 / v) ≠ 0) :
    ContinuousAt (fun v => (1 / v) * (1 / v) * horner p (1 / v) / horner q (1 / v)) v := by
  have hi := inv_cont v h
  refine ContinuousAt.div ?_ (hq.continuousAt.comp hi) h0
  exact (hi.mul hi).mul (hp.continuousAt.comp hi)

theorem pE_cont (v : ℝ) (h : 0 < v) : ContinuousAt pE v :=
  rat_cont p4 q4 (horner_cont _ _ _ _ _) (horner_cont _ _ _ _ _) v h (q4_pos _ (one_div_pos.2 h).le).ne'

theorem pF_cont (v : ℝ) (h : 0 < v) : ContinuousAt pF v :=
  rat_cont p5 q5 (horner_cont _ _ _ _ _) (horner_cont _ _ _ _ _) v h (q5_pos _ (one_div_pos.2 h).le).ne'

theorem pG_cont (v : ℝ) (h : 50 ≤ v) : ContinuousAt pG v :=
  rat_cont p6 q6 (horner_cont _ _ _ _ _) (horner_cont _ _ _ _ _) v (by linarith)
    (q6_pos _ (one_div_pos.2 (by linarith)).le (inv_bounds v 50 (by norm_num) h).2).ne'

theorem pK_cont (v : ℝ) (h : 200 ≤ v) : ContinuousAt pK v := by
  have hd := tail_den v h
  have hu : ContinuousAt (fun v : ℝ => 1 / (v - v * Real.log v / (v + 1))) v := by
    refine ContinuousAt.div continuousAt_const ?_ (by intro h'; linarith)
    refine ContinuousAt.sub continuousAt_id ?_
    refine ContinuousAt.div (continuousAt_id.mul (Real.continuousAt_log (by intro h'; linarith))) (by fun_prop)
      (by intro h'; linarith)
  unfold pK
  exact (hu.mul hu).mul (continuousAt_const.add ((continuousAt_const.add (continuousAt_const.mul hu)).mul hu))

/-! ### The jumps -/

theorem jump1 : |pC 1 - pD 1| ≤ 25 / 10 ^ 11 := by
  simp only [pC, pD, horner, p2, q2, p3, q3]; norm_num [abs_le]

theorem jump5 : |pD 5 - pE 5| ≤ 25 / 10 ^ 11 := by
  simp only [pD, pE, horner, p3, q3, p4, q4]; norm_num [abs_le]

theorem jump12 : |pE 12 - pF 12| ≤ 25 / 10 ^ 11 := by
  simp only [pE, pF, horner, p4, q4, p5, q5]; norm_num [abs_le]

theorem jump50 : |pF 50 - pG 50| ≤ 25 / 10 ^ 11 := by
  simp only [pF, pG, horner, p5, q5, p6, q6]; norm_num [abs_le]

theorem jumpm1 : |pB (-1) - pC (-1)| ≤ 25 / 10 ^ 11 := by
  have h1 := Real.exp_neg_one_gt_d9
  have h2 := Real.exp_neg_one_lt_d9
  simp only [pB, pC, horner, p1, q1, p2, q2]
  rw [show (-(-1 : ℝ) - 1) = 0 by norm_num, Real.exp_zero, Real.sqrt_one]
  generalize Real.exp (-1) = E at *
  norm_num [abs_le] at h1 h2 ⊢
  constructor <;> linarith

theorem small_exp (x : ℝ) (h : 80 ≤ x) : Real.exp (-x) ≤ 1 / 10 ^ 30 := by
  have h2 := Real.exp_neg_one_lt_d9
  calc Real.exp (-x) ≤ Real.exp (-80) := Real.exp_le_exp.2 (by linarith)
    _ = Real.exp (-1) ^ 80 := by rw [← Real.exp_nat_mul]; norm_num
    _ ≤ 0.3678794412 ^ 80 := pow_le_pow_left₀ (Real.exp_pos _).le h2.le 80
    _ ≤ 1 / 10 ^ 30 := by norm_num

theorem exp45 : 80 ≤ Real.exp 4.5 ∧ Real.exp 4.5 ≤ 10000 := by
  have h1 := Real.exp_one_gt_d9
  have h2 := Real.exp_one_lt_d9
  constructor
  · have e : Real.exp 4.5 = Real.exp 1 ^ 4 * Real.exp 0.5 := by
      rw [← Real.exp_nat_mul, ← Real.exp_add]; norm_num
    have h3 : 1.5 ≤ Real.exp 0.5 := by
      have := Real.add_one_le_exp (0.5 : ℝ); norm_num at this ⊢; linarith
    rw [e]
    calc (80 : ℝ) ≤ 2.7182818283 ^ 4 * 1.5 := by norm_num
      _ ≤ _ := mul_le_mul (pow_le_pow_left₀ (by norm_num) h1.le 4) h3 (by norm_num)
        (pow_nonneg (Real.exp_pos _).le _)
  · calc Real.exp 4.5 ≤ Real.exp 5 := Real.exp_le_exp.2 (by norm_num)
      _ = Real.exp 1 ^ 5 := by rw [← Real.exp_nat_mul]; norm_num
      _ ≤ 2.7182818286 ^ 5 := pow_le_pow_left₀ (Real.exp_pos _).le h2.le 5
      _ ≤ 10000 := by norm_num

/-- the left piece is negligible where `exp(-(v+1))` is above 80 -/
theorem pA_small (v : ℝ) (h : 80 ≤ Real.exp (-(v + 1))) (h2 : 1 / 10 ^ 10 ≤ Real.exp (v + 1)) :
    |pA v| ≤ 1 / 10 ^ 20 := by
  set u := Real.exp (v + 1) with hu
  have hu0 : 0 < u := Real.exp_pos _
  have hinv : Real.exp (-(v + 1)) = 1 / u := by rw [Real.exp_neg, hu, one_div]
  rw [hinv] at h
  have hu1 : u ≤ 1 := by
    rw [le_div_iff₀ hu0] at h; linarith
  have h3 : Real.exp (-1 / u) ≤ 1 / 10 ^ 30 := by
    rw [neg_div]; exact small_exp _ h
  have h4 : 1 / 10 ^ 5 ≤ Real.sqrt u := by
    apply Real.le_sqrt_of_sq_le; norm_num at h2 ⊢; exact h2
  have h5 : Real.exp (-1 / u) / Real.sqrt u ≤ 1 / 10 ^ 25 := by
    rw [div_le_iff₀ (by linarith [show (0:ℝ) < 1 / 10 ^ 5 by norm_num])]
    refine h3.trans ?_
    calc (1 / 10 ^ 30 : ℝ) = 1 / 10 ^ 25 * (1 / 10 ^ 5) := by norm_num
      _ ≤ _ := mul_le_mul_of_nonneg_left h4 (by norm_num)
  have h6 : 0 ≤ Real.exp (-1 / u) / Real.sqrt u := by positivity
  have h7 := poly_a u hu0 hu1
  have h8 : 1 + (4166666667 / 10 ^ 11 + (-1996527778 / 10 ^ 11 + 2709538966 / 10 ^ 11 * u) * u) * u ≤ 2 := by
    have e : 1 + (4166666667 / 10 ^ 11 + (-1996527778 / 10 ^ 11 + 2709538966 / 10 ^ 11 * u) * u) * u =
      1 + 4166666667 / 10 ^ 11 * u - 1996527778 / 10 ^ 11 * u ^ 2 + 2709538966 / 10 ^ 11 * u ^ 3 := by ring
    have a2 : 0 ≤ u ^ 2 := by positivity
    have a3 : u ^ 3 ≤ 1 := pow_le_one₀ hu0.le hu1
    rw [e]; norm_num; linarith
  have e : pA v = 3989422803 / 10 ^ 10 * (Real.exp (-1 / u) / Real.sqrt u) *
    (1 + (4166666667 / 10 ^ 11 + (-1996527778 / 10 ^ 11 + 2709538966 / 10 ^ 11 * u) * u) * u) := rfl
  rw [e, abs_of_nonneg (mul_nonneg (mul_nonneg (by norm_num) h6) h7.le)]
  calc _ ≤ 3989422803 / 10 ^ 10 * (1 / 10 ^ 25) * 2 :=
        mul_le_mul (mul_le_mul_of_nonneg_left h5 (by norm_num)) h8 h7.le (by norm_num)
    _ ≤ 1 / 10 ^ 20 := by norm_num

theorem jumpm55 : |pA (-(55 / 10)) - pB (-(55 / 10))| ≤ 25 / 10 ^ 11 := by
  have h45 := exp45
  have hA : |pA (-(55 / 10))| ≤ 1 / 10 ^ 20 := by
    apply pA_small
    · rw [show (-(-(55 / 10 : ℝ) + 1)) = 4.5 by norm_num]; exact h45.1
    · rw [show (-(55 / 10 : ℝ) + 1) = -4.5 by norm_num, Real.exp_neg]
      rw [← one_div]
      exact (one_div_le_one_div_of_le (Real.exp_pos _) h45.2).trans' (by norm_num)
  have hB : |pB (-(55 / 10))| ≤ 1 / 10 ^ 20 := by
    rw [abs_of_pos (pB_pos _ (by norm_num))]
    simp only [pB]
    rw [show (-(-(55 / 10 : ℝ)) - 1) = 4.5 by norm_num]
    have h1 := small_exp _ h45.1
    have h2 : Real.sqrt (Real.exp 4.5) ≤ 100 := by
      rw [Real.sqrt_le_left (by norm_num)]; exact h45.2.trans (by norm_num)
    have h3 : 0 ≤ Real.sqrt (Real.exp 4.5) := Real.sqrt_nonneg _
    rw [mul_div_assoc]
    have h4 : horner p1 (-(55 / 10)) / horner q1 (-(55 / 10)) ≤ 1 := by
      simp only [horner, p1, q1]; norm_num
    have h5 : 0 ≤ horner p1 (-(55 / 10)) / horner q1 (-(55 / 10)) :=
      (div_pos (p1_pos _ (by norm_num)) (q1_pos _ (by norm_num))).le
    calc _ ≤ 1 / 10 ^ 30 * 100 * 1 :=
          mul_le_mul (mul_le_mul h1 h2 h3 (by norm_num)) h4 h5 (by norm_num)
      _ ≤ 1 / 10 ^ 20 := by norm_num
  calc _ ≤ |pA (-(55 / 10))| + |pB (-(55 / 10))| := abs_sub _ _
    _ ≤ 25 / 10 ^ 11 := by norm_num at hA hB ⊢; linarith

theorem log300 : 5.7036 ≤ Real.log 300 ∧ Real.log 300 ≤ 5.704 := by
  have e : Real.log 300 = 8 * Real.log 2 - Real.log (1 - 11 / 75) := by
    rw [show (300 : ℝ) = 2 ^ 8 / (1 - 11 / 75) by norm_num, Real.log_div (by norm_num) (by norm_num), Real.log_pow]
    norm_num
  have h1 := Real.log_two_gt_d9
  have h2 := Real.log_two_lt_d9
  have h3 := Real.abs_log_sub_add_sum_range_le (x := (11 / 75 : ℝ)) (by norm_num [abs_lt]) 5
  rw [abs_le] at h3
  norm_num [Finset.sum_range_succ, abs_of_pos] at h3
  rw [e]
  norm_num at h1 h2 ⊢
  constructor <;> linarith [h3.1, h3.2]

theorem jump300 : |pG 300 - pK 300| ≤ 25 / 10 ^ 11 := by
  obtain ⟨h1, h2⟩ := log300
  have hG : |pG 300 - 114715303 / 10 ^ 13| ≤ 1 / 10 ^ 12 := by
    simp only [pG, horner, p6, q6]; norm_num [abs_le]
  have hK : |pK 300 - 114715303 / 10 ^ 13| ≤ 1 / 10 ^ 10 := by
    simp only [pK]
    set L := Real.log 300
    have hd : 0 < 300 - 300 * L / (300 + 1) := by norm_num at h2 ⊢; linarith
    have hu1 : 33977160 / 10 ^ 10 ≤ 1 / (300 - 300 * L / (300 + 1)) := by
      rw [le_div_iff₀ hd]; norm_num at h1 ⊢; linarith
    have hu2 : 1 / (300 - 300 * L / (300 + 1)) ≤ 33977209 / 10 ^ 10 := by
      rw [div_le_iff₀ hd]; norm_num at h2 ⊢; linarith
    generalize 1 / (300 - 300 * L / (300 + 1)) = u at hu1 hu2
    have hu0 : 0 ≤ u := le_trans (by norm_num) hu1
    have a2 := pow_le_pow_left₀ (by norm_num) hu1 2
    have a3 := pow_le_pow_left₀ (by norm_num) hu1 3
    have a4 := pow_le_pow_left₀ (by norm_num) hu1 4
    have b2 := pow_le_pow_left₀ hu0 hu2 2
    have b3 := pow_le_pow_left₀ hu0 hu2 3
    have b4 := pow_le_pow_left₀ hu0 hu2 4
    have e : u * u * (1 + (-1845568670 / 10 ^ 9 + -4284640743 / 10 ^ 9 * u) * u) =
      u ^ 2 - 1845568670 / 10 ^ 9 * u ^ 3 - 4284640743 / 10 ^ 9 * u ^ 4 := by ring
    rw [e]
    norm_num [abs_le] at a2 a3 a4 b2 b3 b4 ⊢
    constructor <;> linarith
  calc _ = |(pG 300 - 114715303 / 10 ^ 13) - (pK 300 - 114715303 / 10 ^ 13)| := by congr 1; ring
    _ ≤ |pG 300 - 114715303 / 10 ^ 13| + |pK 300 - 114715303 / 10 ^ 13| := abs_sub _ _
    _ ≤ _ := by norm_num at hG hK ⊢; linarith

/-! ### All together -/

open scoped Classical in
theorem cut_near (v : ℝ) (h : v ≤ -(55 / 10)) :
    Near (3 / 10 ^ 10) (fun v => if Real.exp (v + 1) < 1 / 10 ^ 10 then 0 else pA v) v := by
  have hc : ContinuousAt (fun v : ℝ => Real.exp (v + 1)) v := by fun_prop
  rcases lt_trichotomy (Real.exp (v + 1)) (1 / 10 ^ 10) with h1 | h1 | h1
  · filter_upwards [hc.eventually (Iio_mem_nhds h1)] with w hw
    have hw : Real.exp (w + 1) < 1 / 10 ^ 10 := hw
    simp only [if_pos hw, if_pos h1]
    norm_num
  · have hA : |pA v| ≤ 1 / 10 ^ 20 := by
      apply pA_small
      · rw [Real.exp_neg, h1]; norm_num
      · exact h1.ge
    filter_upwards [Near.of_cont (show (0 : ℝ) < 1 / 10 ^ 10 by norm_num) (pA_cont v)] with w hw
    simp only [if_neg (not_lt.2 h1.ge)]
    by_cases hw2 : Real.exp (w + 1) < 1 / 10 ^ 10
    · simp only [if_pos hw2, zero_sub, abs_neg]
      exact hA.trans (by norm_num)
    · simp only [if_neg hw2]
      exact hw.trans (by norm_num)
  · filter_upwards [hc.eventually (Ioi_mem_nhds h1), Near.of_cont (show (0 : ℝ) < 3 / 10 ^ 10 by norm_num) (pA_cont v)]
      with w hw hw2
    have hw : 1 / 10 ^ 10 < Real.exp (w + 1) := hw
    simp only [if_neg (not_lt.2 hw.le), if_neg (not_lt.2 h1.le)]
    exact hw2

theorem shape_near (v : ℝ) : Near (3 / 10 ^ 10) shape v := by
  have h3 : (0 : ℝ) < 3 / 10 ^ 10 := by norm_num
  have hlt : (25 / 10 ^ 11 : ℝ) < 3 / 10 ^ 10 := by norm_num
  unfold shape
  refine Near.ite (fun h => cut_near v h.le) (fun h1 => ?_) (fun hb => ?_)
  · refine Near.ite (fun h => Near.of_cont h3 (pB_cont v (by linarith))) (fun h2 => ?_) (fun hb => ?_)
    · refine Near.ite (fun h => Near.of_cont h3 (pC_cont v (abs_le.2 ⟨h2, h.le⟩))) (fun h4 => ?_) (fun hb => ?_)
      · refine Near.ite (fun h => Near.of_cont h3 (pD_cont v (by linarith))) (fun h5 => ?_) (fun hb => ?_)
        · refine Near.ite (fun h => Near.of_cont h3 (pE_cont v (by linarith))) (fun h6 => ?_) (fun hb => ?_)
          · refine Near.ite (fun h => Near.of_cont h3 (pF_cont v (by linarith))) (fun h7 => ?_) (fun hb => ?_)
            · refine Near.ite (fun h => Near.of_cont h3 (pG_cont v h7)) (fun h8 => ?_) (fun hb => ?_)
              · exact Near.of_cont h3 (pK_cont v (by linarith))
              · exact jump (pG_cont 300 (by norm_num)) jump300 hlt
            · rw [if_pos (by norm_num)]
              exact jump (pF_cont 50 (by norm_num)) jump50 hlt
          · rw [if_pos (by norm_num)]
            exact jump (pE_cont 12 (by norm_num)) jump12 hlt
        · rw [if_pos (by norm_num)]
          exact jump (pD_cont 5 (by norm_num)) jump5 hlt
      · rw [if_pos (by norm_num)]
        exact jump (pC_cont 1 (by norm_num)) jump1 hlt
    · rw [if_pos (by norm_num)]
      exact jump (pB_cont (-1) (by norm_num)) jumpm1 hlt
  · rw [if_pos (by norm_num)]
    have hj := jump (pA_cont (-(55 / 10))) jumpm55 hlt
    have hc : ContinuousAt (fun v : ℝ => Real.exp (v + 1)) (-(55 / 10)) := by fun_prop
    have he : 1 / 10 ^ 10 < Real.exp (-(55 / 10) + 1) := by
      rw [show (-(55 / 10 : ℝ) + 1) = -4.5 by norm_num, Real.exp_neg, ← one_div]
      exact (one_div_le_one_div_of_le (Real.exp_pos _) exp45.2).trans_lt' (by norm_num)
    filter_upwards [hj, hc.eventually (Ioi_mem_nhds he)] with w h1 h2
    have h2 : 1 / 10 ^ 10 < Real.exp (w + 1) := h2
    simp only [if_neg (not_lt.2 h2.le)]
    exact h1

end GooFit.Landau
