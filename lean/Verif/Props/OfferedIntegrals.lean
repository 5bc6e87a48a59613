import Verif.Props.Integrate
import Verif.Lemmas.OfferedIntegrals
import Mathlib.Analysis.Complex.ExponentialBounds
/-!
# C109: integrals that are offered without being declared

`a.offeredIntegral Spec.erf bins entries env.val lo hi` is what `integrate(lo, hi)` returns for the PDF built by
the call `a`; `IsFunction T env a x f` says that this PDF evaluates to `f X` where its observable `x` is `X`.
-/
set_option autoImplicit false
namespace GooFit
open Spec FpOps MeasureTheory

variable (T : HistTables ℝ) (env : Env ℝ)

private theorem allSome_one'' {e : Evt ℝ} {o : Nat} {x : ℝ} (h : ObsIs env e o x) :
    allSome (((registerAll [o]).map env.idx).map (at_ e)) = some [x] := by
  have : at_ e (env.idx o) = some x := h
  simp [registerAll, allSome, this]

/-! ### Crystal Ball -/

/-- The function of a Crystal Ball PDF of positive power. -/
theorem crystal_function (x m s al p : Nat) (hs : 0 < env.val s) (ha : env.val al ≠ 0) (hp : 0 < env.val p) :
    IsFunction T env (.crystalBall x m s al p) x
      (Spec.crystalBall (env.val m) (env.val s) (env.val al) (env.val p)) := by
  intro e X h
  refine evaluates_of T _ env e _ [X] trivial (by simp [BasicCall.leaf]) (by simp [BasicCall.leaf])
    storable_real (allSome_one'' env h) ?_
  show some (crystalValue X (env.val m) (env.val s) (env.val al) (env.val p)) = _
  unfold crystalValue Spec.crystalBall Spec.crystalShape
  simp only [Bool.or_eq_true, Bool.and_eq_true]
  real_ops
  push_cast
  rw [if_neg hs.ne']
  congr 1
  generalize (X - env.val m) / env.val s = t
  have he : Real.exp (-1 / 2 * env.val al * env.val al) = Real.exp (-env.val al ^ 2 / 2) := by congr 1; ring
  rcases lt_or_gt_of_ne ha with hn | hn
  · rw [if_neg (not_lt.mpr hn.le), abs_of_neg hn]
    by_cases hc : env.val al ≤ t
    · rw [if_pos (Or.inl (Or.inr ⟨hn, hc⟩)), if_pos (by linarith)]
      congr 1
      ring
    · have hd : env.val p / env.val al < 0 := div_neg_of_pos_of_neg hp hn
      rw [if_neg (by rintro ((⟨h, _⟩ | ⟨_, h⟩) | h) <;> [linarith; exact hc h; exact ha h]), if_neg (by linarith),
        if_neg (by intro h; linarith [not_le.mp hc]), he, neg_sq]
      congr 2
      rw [div_neg, show -(env.val p / env.val al) - -env.val al + -t =
        -(env.val p / env.val al - env.val al + t) by ring, neg_div_neg_eq]
  · rw [if_pos hn, abs_of_pos hn]
    by_cases hc : t ≤ env.val al
    · rw [if_pos (Or.inl (Or.inl ⟨hn, hc⟩)), if_pos hc]
      congr 1
      ring
    · have hd : 0 < env.val p / env.val al := div_pos hp hn
      rw [if_neg (by rintro ((⟨_, h⟩ | ⟨h, _⟩) | h) <;> [exact hc h; linarith; exact ha h]), if_neg hc,
        if_neg (by intro h; linarith [not_le.mp hc]), he]

theorem crystal_close (M S A P lo hi : ℝ) (h : lo ≤ hi) (hs : 0 < S) (ha : A ≠ 0) (hp : 0 < P)
    (hl : P = 1 ∨ 1 / 100000 ≤ |P - 1|) :
    |crystalIntegrate Spec.erf M S A P lo hi - ∫ X in (2 * M - hi)..(2 * M - lo), Spec.crystalBall M S A P X| ≤
      1 / 10 ^ 10 * (hi - lo) := by
  have habs : 0 < |A| := abs_pos.mpr ha
  have hlh : (lo - M) / S ≤ (hi - M) / S := div_le_div_of_nonneg_right (by linarith) hs.le
  have hlen : S * ((hi - M) / S - (lo - M) / S) = hi - lo := by field_simp; ring
  have hsub : ∀ g : ℝ → ℝ, ∫ X in (2 * M - hi)..(2 * M - lo), g ((X - M) / S) =
      S * ∫ t in (-((hi - M) / S))..(-((lo - M) / S)), g t := by
    intro g
    have := intervalIntegral.integral_comp_div_sub (a := 2 * M - hi) (b := 2 * M - lo) g hs.ne' (M / S)
    simp only [← sub_div] at this
    rw [this, smul_eq_mul]
    congr 2 <;> ring
  have key : ∀ t1 t2 : ℝ, t1 ≤ t2 → t2 - t1 = (hi - M) / S - (lo - M) / S →
      |cbCases Spec.erf S |A| P t1 t2 - S * ∫ t in t1..t2, Spec.crystalShape |A| P (-t)| ≤
        1 / 10 ^ 10 * (hi - lo) := by
    intro t1 t2 h12 hd
    rw [Offered.cases_scale, ← mul_sub, abs_mul, abs_of_pos hs]
    refine (mul_le_mul_of_nonneg_left (Offered.cases_close |A| P t1 t2 habs hp h12 hl) hs.le).trans ?_
    rw [hd, ← hlen]
    apply le_of_eq
    ring
  unfold crystalIntegrate
  real_ops
  push_cast
  unfold Spec.crystalBall
  by_cases hA : A < 0
  · rw [if_pos hA]
    simp only [if_neg (not_lt.mpr hA.le)]
    rw [hsub fun t => Spec.crystalShape |A| P (-t)]
    exact key _ _ (by linarith) (by ring)
  · have hA' : 0 < A := lt_of_le_of_ne (not_lt.mp hA) (Ne.symm ha)
    rw [if_neg hA]
    simp only [if_pos hA']
    rw [hsub fun t => Spec.crystalShape |A| P t, ← intervalIntegral.integral_comp_neg]
    exact key _ _ hlh rfl

/-- **C109, CrystalBallPdf**, partial: `integrate(lo, hi)` is, to within `10⁻¹⁰` of the length of the range, the
integral of the function over the *mirror image* of the range about the mean (so over the range itself when it is
symmetric about the mean).  The power must be one, or at least `10⁻⁵` away from it. -/
theorem C109_crystal_partial (bins : Int) (entries : ℝ × ℝ) (x m s al p : Nat) (lo hi : ℝ) (h : lo ≤ hi)
    (hs : 0 < env.val s) (ha : env.val al ≠ 0) (hp : 0 < env.val p)
    (hl : env.val p = 1 ∨ 1 / 100000 ≤ |env.val p - 1|) :
    ∃ f, IsFunction T env (.crystalBall x m s al p) x f ∧
      |(BasicCall.crystalBall x m s al p).offeredIntegral Spec.erf bins entries env.val lo hi -
        ∫ X in (2 * env.val m - hi)..(2 * env.val m - lo), f X| ≤ 1 / 10 ^ 10 * (hi - lo) := by
  exact ⟨_, crystal_function T env x m s al p hs ha hp, crystal_close _ _ _ _ lo hi h hs ha hp hl⟩

/-- A left-hand tail with power 3, over a range that reaches into it, meets the hypotheses. -/
example (bins : Int) (entries : ℝ × ℝ) (x m s al p : Nat) (hm : env.val m = 5) (hs : env.val s = 2)
    (ha : env.val al = -1) (hp : env.val p = 3) :
    ∃ f, IsFunction T env (.crystalBall x m s al p) x f ∧
      |(BasicCall.crystalBall x m s al p).offeredIntegral Spec.erf bins entries env.val 0 6 -
        ∫ X in (4 : ℝ)..10, f X| ≤ 1 / 10 ^ 10 * 6 := by
  have := C109_crystal_partial T env bins entries x m s al p 0 6 (by norm_num) (by rw [hs]; norm_num)
    (by rw [ha]; norm_num) (by rw [hp]; norm_num) (Or.inr (by rw [hp]; norm_num))
  rw [hm] at this
  norm_num at this ⊢
  exact this

/-- **C109, CrystalBallPdf**, on a range symmetric about the mean. -/
theorem C109_crystal_symmetric_partial (bins : Int) (entries : ℝ × ℝ) (x m s al p : Nat) (w : ℝ) (h : 0 ≤ w)
    (hs : 0 < env.val s) (ha : env.val al ≠ 0) (hp : 0 < env.val p)
    (hl : env.val p = 1 ∨ 1 / 100000 ≤ |env.val p - 1|) :
    ∃ f, IsFunction T env (.crystalBall x m s al p) x f ∧
      |(BasicCall.crystalBall x m s al p).offeredIntegral Spec.erf bins entries env.val (env.val m - w)
        (env.val m + w) - ∫ X in (env.val m - w)..(env.val m + w), f X| ≤ 2 / 10 ^ 10 * w := by
  obtain ⟨f, hf, hb⟩ := C109_crystal_partial T env bins entries x m s al p (env.val m - w) (env.val m + w)
    (by linarith) hs ha hp hl
  refine ⟨f, hf, ?_⟩
  rw [show 2 * env.val m - (env.val m + w) = env.val m - w by ring,
    show 2 * env.val m - (env.val m - w) = env.val m + w by ring] at hb
  refine hb.trans (le_of_eq ?_)
  ring

/-- **C109, violated for CrystalBallPdf**: at mean 0, width 1, `α = 1` and power 2 the integral over the tail
between 1 and 3 is `exp(-1/2)`, and `integrate(1, 3)` misses more than a tenth of it. -/
theorem C109_violation_crystal (bins : Int) (entries : ℝ × ℝ) (x m s al p : Nat) (hm : env.val m = 0)
    (hs : env.val s = 1) (ha : env.val al = 1) (hp : env.val p = 2) :
    ∃ f, IsFunction T env (.crystalBall x m s al p) x f ∧ ∫ X in (1 : ℝ)..3, f X = Real.exp (-1 / 2) ∧
      (BasicCall.crystalBall x m s al p).offeredIntegral Spec.erf bins entries env.val 1 3 <
        9 / 10 * ∫ X in (1 : ℝ)..3, f X := by
  have hf := crystal_function T env x m s al p (by rw [hs]; norm_num) (by rw [ha]; norm_num) (by rw [hp]; norm_num)
  have hb := crystal_close (env.val m) (env.val s) (env.val al) (env.val p) 1 3 (by norm_num)
    (by rw [hs]; norm_num) (by rw [ha]; norm_num) (by rw [hp]; norm_num) (Or.inr (by rw [hp]; norm_num))
  have h1 : ∫ X in (1 : ℝ)..3, Spec.crystalBall (env.val m) (env.val s) (env.val al) (env.val p) X =
      Real.exp (-1 / 2) := by
    rw [hm, hs, ha, hp]
    have hd : ∀ X ∈ Set.uIcc (1 : ℝ) 3, HasDerivAt (fun X : ℝ => Real.exp (-1 / 2) * (-4 * (1 + X)⁻¹))
        (Spec.crystalBall 0 1 1 2 X) X := by
      intro X hX
      rw [Set.uIcc_of_le (by norm_num)] at hX
      have h0 : (1 + X) ≠ 0 := by linarith [hX.1]
      have hder := (((hasDerivAt_id X).const_add 1).inv h0).const_mul (-4) |>.const_mul (Real.exp (-1 / 2))
      refine hder.congr_deriv ?_
      unfold Spec.crystalBall Spec.crystalShape
      rw [if_pos one_pos, abs_one]
      simp only [sub_zero, div_one]
      by_cases hx : X ≤ 1
      · have : X = 1 := le_antisymm hx hX.1
        subst this
        simp
        norm_num
      · rw [if_neg hx, show (2 : ℝ) - 1 + X = 1 + X by ring, Real.rpow_two]
        simp only [id]
        field_simp
        norm_num
    rw [intervalIntegral.integral_eq_sub_of_hasDerivAt hd]
    · norm_num
      ring
    · exact ((Offered.shape_continuous 1 2 one_pos two_pos).comp (by fun_prop : Continuous fun X : ℝ => X)).congr
        (fun X => by simp [Spec.crystalBall]) |>.intervalIntegrable _ _
  refine ⟨_, hf, h1, ?_⟩
  rw [h1]
  show crystalIntegrate Spec.erf (env.val m) (env.val s) (env.val al) (env.val p) 1 3 < _
  have h2 : ∫ X in (2 * env.val m - 3)..(2 * env.val m - 1),
      Spec.crystalBall (env.val m) (env.val s) (env.val al) (env.val p) X ≤
        Real.exp (-1 / 2) * (1 - Real.exp (-2)) := by
    rw [hm, hs, ha, hp]
    have h3 : ∫ X in (-3 : ℝ)..(-1), Real.exp (-1 / 2) * Real.exp (X + 1) =
        Real.exp (-1 / 2) * (1 - Real.exp (-2)) := by
      rw [intervalIntegral.integral_const_mul, intervalIntegral.integral_comp_add_right (fun X => Real.exp X),
        integral_exp]
      norm_num
    rw [← h3, show (2 * 0 - 3 : ℝ) = -3 by norm_num, show (2 * 0 - 1 : ℝ) = -1 by norm_num]
    apply intervalIntegral.integral_mono_on (by norm_num)
    · exact ((Offered.shape_continuous 1 2 one_pos two_pos).comp (by fun_prop : Continuous fun X : ℝ => X)).congr
        (fun X => by simp [Spec.crystalBall]) |>.intervalIntegrable _ _
    · exact (by fun_prop : Continuous fun X : ℝ => Real.exp (-1 / 2) * Real.exp (X + 1)).intervalIntegrable _ _
    · intro X hX
      unfold Spec.crystalBall Spec.crystalShape
      rw [if_pos one_pos, abs_one, sub_zero, div_one, if_pos (by linarith [hX.2]), ← Real.exp_add]
      apply Real.exp_le_exp.mpr
      nlinarith [sq_nonneg (X + 1)]
  have h4 : (1 / 2 : ℝ) ≤ Real.exp (-1 / 2) := by
    have := Real.add_one_le_exp (-1 / 2 : ℝ)
    linarith
  have h5 : (13 / 100 : ℝ) ≤ Real.exp (-2) := by
    have he := Real.exp_one_lt_d9
    have h0 := Real.exp_pos 1
    have : Real.exp (-2) = (Real.exp 1 * Real.exp 1)⁻¹ := by rw [← Real.exp_add, ← Real.exp_neg]; norm_num
    rw [this, le_inv_comm₀ (by norm_num) (by positivity)]
    nlinarith
  have h6 := (abs_le.mp hb).2
  nlinarith

/-- Such values exist. -/
example : ∃ (T : HistTables ℝ) (env : Env ℝ) (f : ℝ → ℝ), IsFunction T env (.crystalBall 0 0 1 1 2) 0 f ∧
    (BasicCall.crystalBall 0 0 1 1 2).offeredIntegral Spec.erf (-1) (0, 0) env.val 1 3 <
      9 / 10 * ∫ X in (1 : ℝ)..3, f X := by
  obtain ⟨f, h1, _, h2⟩ := C109_violation_crystal ⟨fun _ => none, fun _ => none⟩
    ⟨fun k => (k : ℝ), fun _ => 0⟩ (-1) (0, 0) 0 0 1 1 2 (by simp) (by simp) (by simp) (by simp)
  exact ⟨_, _, f, h1, h2⟩

/-! ### Bifurcated Gaussian -/

private theorem half_right (m s : ℝ) (hs : 0 < s) :
    ∫ X in Set.Ioi m, Real.exp (-(X - m) ^ 2 / (2 * s ^ 2)) = s * Real.sqrt (2 * Real.pi) / 2 := by
  have h := (measurePreserving_sub_right volume m).setIntegral_preimage_emb (measurableEmbedding_subRight m)
    (fun t => Real.exp (-(1 / (2 * s ^ 2)) * t ^ 2)) (Set.Ioi 0)
  rw [integral_gaussian_Ioi] at h
  rw [show (fun x => x - m) ⁻¹' Set.Ioi (0 : ℝ) = Set.Ioi m by ext; simp] at h
  have h2 : Real.sqrt (Real.pi / (1 / (2 * s ^ 2))) = s * Real.sqrt (2 * Real.pi) := by
    rw [show Real.pi / (1 / (2 * s ^ 2)) = s ^ 2 * (2 * Real.pi) by field_simp, Real.sqrt_mul (sq_nonneg _),
      Real.sqrt_sq hs.le]
  rw [h2] at h
  rw [← h]
  apply setIntegral_congr_fun measurableSet_Ioi
  intro X _
  show Real.exp _ = Real.exp _
  congr 1
  field_simp

private theorem half_left (m s : ℝ) (hs : 0 < s) :
    ∫ X in Set.Iic m, Real.exp (-(X - m) ^ 2 / (2 * s ^ 2)) = s * Real.sqrt (2 * Real.pi) / 2 := by
  rw [← half_right m s hs, integral_Iic_eq_integral_Iio]
  have h := (Measure.measurePreserving_sub_left volume (2 * m)).setIntegral_preimage_emb
    (MeasurableEquiv.subLeft (2 * m)).measurableEmbedding
    (fun t => Real.exp (-(t - m) ^ 2 / (2 * s ^ 2))) (Set.Ioi m)
  rw [show (fun x => 2 * m - x) ⁻¹' Set.Ioi m = Set.Iio m by ext y; simp; constructor <;> intro <;> linarith] at h
  rw [← h]
  apply setIntegral_congr_fun measurableSet_Iio
  intro X _
  show Real.exp _ = Real.exp _
  congr 1
  ring

/-- **C109, BifurGaussPdf**, partial: whatever the range, `integrate` returns a number whose product with the
integral over all values is `(σL+σR)²/(4σLσR)` (up to the rounding of π); for equal widths it is the *reciprocal* of
that integral. -/
theorem C109_bifur_partial (bins : Int) (entries : ℝ × ℝ) (x m sL sR : Nat) (lo hi : ℝ) (hL : 0 < env.val sL)
    (hR : 0 < env.val sR) :
    ∃ f, IsFunction T env (.bifurGauss x m sL sR) x f ∧
      (BasicCall.bifurGauss x m sL sR).offeredIntegral Spec.erf bins entries env.val lo hi * ∫ X, f X =
        (env.val sL + env.val sR) ^ 2 / (4 * env.val sL * env.val sR) *
          (Real.sqrt Real.pi / Real.sqrt 3.14159265358979323846) := by
  refine ⟨_, fun e X h => C43_bifurGauss T env e x m sL sR X h, ?_⟩
  have hI : ∫ X, (if X ≤ env.val m then Real.exp (-(X - env.val m) ^ 2 / (2 * env.val sL ^ 2))
      else Real.exp (-(X - env.val m) ^ 2 / (2 * env.val sR ^ 2))) =
      (env.val sL + env.val sR) * Real.sqrt (2 * Real.pi) / 2 := by
    have hc : Continuous fun X : ℝ => if X ≤ env.val m then Real.exp (-(X - env.val m) ^ 2 / (2 * env.val sL ^ 2))
        else Real.exp (-(X - env.val m) ^ 2 / (2 * env.val sR ^ 2)) := by
      apply Continuous.if_le (by fun_prop) (by fun_prop) continuous_id continuous_const
      intro X hX
      rw [show X = env.val m from hX]
      simp
    have e1 : ∫ X in Set.Iic (env.val m), (if X ≤ env.val m then
        Real.exp (-(X - env.val m) ^ 2 / (2 * env.val sL ^ 2))
        else Real.exp (-(X - env.val m) ^ 2 / (2 * env.val sR ^ 2))) = env.val sL * Real.sqrt (2 * Real.pi) / 2 := by
      rw [← half_left (env.val m) _ hL]
      exact setIntegral_congr_fun measurableSet_Iic fun X hX => if_pos hX
    have e2 : ∫ X in Set.Ioi (env.val m), (if X ≤ env.val m then
        Real.exp (-(X - env.val m) ^ 2 / (2 * env.val sL ^ 2))
        else Real.exp (-(X - env.val m) ^ 2 / (2 * env.val sR ^ 2))) = env.val sR * Real.sqrt (2 * Real.pi) / 2 := by
      rw [← half_right (env.val m) _ hR]
      exact setIntegral_congr_fun measurableSet_Ioi fun X hX => if_neg (not_le.mpr hX)
    have hp : 0 < Real.sqrt (2 * Real.pi) := Real.sqrt_pos.mpr (by positivity)
    have i1 := not_imp_comm.mp (integral_undef (μ := volume.restrict (Set.Iic (env.val m)))
      (f := fun X : ℝ => if X ≤ env.val m then Real.exp (-(X - env.val m) ^ 2 / (2 * env.val sL ^ 2))
        else Real.exp (-(X - env.val m) ^ 2 / (2 * env.val sR ^ 2)))) (by rw [e1]; positivity)
    have i2 := not_imp_comm.mp (integral_undef (μ := volume.restrict (Set.Ioi (env.val m)))
      (f := fun X : ℝ => if X ≤ env.val m then Real.exp (-(X - env.val m) ^ 2 / (2 * env.val sL ^ 2))
        else Real.exp (-(X - env.val m) ^ 2 / (2 * env.val sR ^ 2)))) (by rw [e2]; positivity)
    rw [← intervalIntegral.integral_Iic_add_Ioi i1 i2, e1, e2]
    ring
  rw [hI]
  show bifurIntegrate (env.val sL) (env.val sR) * _ = _
  unfold bifurIntegrate
  real_ops
  push_cast
  rw [Real.sqrt_mul (by norm_num), Real.sqrt_mul (by norm_num)]
  have h2 : Real.sqrt 2 ≠ 0 := (Real.sqrt_pos.mpr (by norm_num)).ne'
  have h3 : Real.sqrt (314159265358979323846 / 100000000000000000000) ≠ 0 :=
    (Real.sqrt_pos.mpr (by norm_num)).ne'
  rw [show (3.14159265358979323846 : ℝ) = 314159265358979323846 / 100000000000000000000 by norm_num]
  generalize Real.sqrt (314159265358979323846 / 100000000000000000000) = r at *
  field_simp
  ring

/-- **C109, violated for BifurGaussPdf**: over two ranges, one a proper part of the other, it returns the same
number, so that it cannot be right for both; over an empty range it returns a positive number. -/
theorem C109_violation_bifur (bins : Int) (entries : ℝ × ℝ) (x m sL sR : Nat) (lo mid hi : ℝ)
    (h2 : mid < hi) (hL : 0 < env.val sL) (hR : 0 < env.val sR) :
    ∃ f, IsFunction T env (.bifurGauss x m sL sR) x f ∧
      (BasicCall.bifurGauss x m sL sR).offeredIntegral Spec.erf bins entries env.val lo mid =
        (BasicCall.bifurGauss x m sL sR).offeredIntegral Spec.erf bins entries env.val lo hi ∧
      0 < (BasicCall.bifurGauss x m sL sR).offeredIntegral Spec.erf bins entries env.val lo lo ∧
      ∫ X in lo..mid, f X < ∫ X in lo..hi, f X := by
  refine ⟨_, fun e X h => C43_bifurGauss T env e x m sL sR X h, rfl, ?_, ?_⟩
  · show 0 < bifurIntegrate (env.val sL) (env.val sR)
    unfold bifurIntegrate
    real_ops
    push_cast
    have : 0 < Real.sqrt (2 * (314159265358979323846 / 100000000000000000000)) := Real.sqrt_pos.mpr (by norm_num)
    positivity
  · have hc : Continuous fun X : ℝ => if X ≤ env.val m then Real.exp (-(X - env.val m) ^ 2 / (2 * env.val sL ^ 2))
        else Real.exp (-(X - env.val m) ^ 2 / (2 * env.val sR ^ 2)) := by
      apply Continuous.if_le (by fun_prop) (by fun_prop) continuous_id continuous_const
      intro X hX
      rw [show X = env.val m from hX]
      simp
    rw [← intervalIntegral.integral_add_adjacent_intervals (hc.intervalIntegrable lo mid)
      (hc.intervalIntegrable mid hi)]
    refine lt_add_of_pos_right _ (intervalIntegral.intervalIntegral_pos_of_pos (hc.intervalIntegrable _ _) ?_ h2)
    intro X
    split_ifs <;> exact Real.exp_pos _

/-! ### ARGUS -/

/-- The lower ARGUS function. -/
theorem argus_helper_eq (X m0 a p : ℝ) (hm : 0 < m0) : argusHelper X m0 a p =
    if X ≤ m0 then 0 else X * ((X ^ 2 - m0 ^ 2) / m0 ^ 2) ^ p * Real.exp (a * ((X ^ 2 - m0 ^ 2) / m0 ^ 2)) := by
  unfold argusHelper
  real_ops
  push_cast
  by_cases hx : X ≤ m0
  · rw [if_pos hx, if_pos ((div_le_one hm).mpr hx)]
  · rw [if_neg hx, if_neg (by rw [div_le_one hm]; exact hx)]
    have : X / m0 * (X / m0) - 1 = (X ^ 2 - m0 ^ 2) / m0 ^ 2 := by field_simp
    rw [this]

theorem argus_sum (n : Nat) (m0 a p lo hi : ℝ) : argusIntegrate (n : Int) m0 a p lo hi =
    ∑ j ∈ Finset.range n, argusHelper (lo + (hi - lo) / n * j) m0 a p * ((hi - lo) / n) := by
  unfold argusIntegrate
  simp only [Int.toNat_natCast, real_add, real_sub, real_mul, real_div, real_lit, real_ofNat]
  rw [foldl_add_sum (fun j => argusHelper ((hi - lo) / (ofInt (n : Int) : ℝ) * (j : ℝ) + lo) m0 a p)]
  have : (ofInt (n : Int) : ℝ) = n := by unfold ofInt; rw [real_lit]; push_cast; rfl
  have hl : ∀ (g : Nat → ℝ) (k : Nat), ((List.range k).map g).sum = ∑ j ∈ Finset.range k, g j := by
    intro g k
    induction k with
    | zero => rfl
    | succ k ih => rw [List.range_succ, List.map_append, List.sum_append, ih, Finset.sum_range_succ]; simp
  rw [this, ← Finset.sum_mul, Rat.cast_zero, zero_add, hl]
  simp only [add_comm]

theorem argus_mono (m0 a p : ℝ) (hm : 0 < m0) (ha : 0 ≤ a) (hp : 0 ≤ p) :
    Monotone fun X => argusHelper X m0 a p := by
  intro X Y hXY
  show argusHelper X m0 a p ≤ argusHelper Y m0 a p
  rw [argus_helper_eq _ _ _ _ hm, argus_helper_eq _ _ _ _ hm]
  by_cases hX : X ≤ m0
  · rw [if_pos hX]
    split_ifs with hY
    · exact le_rfl
    · have h1 : 0 ≤ Y := by linarith [not_le.mp hY]
      have h2 : 0 ≤ (Y ^ 2 - m0 ^ 2) / m0 ^ 2 := div_nonneg (by nlinarith [not_le.mp hY]) (sq_nonneg _)
      positivity
  · have hX' := not_le.mp hX
    rw [if_neg hX, if_neg (by linarith)]
    have h0 : 0 ≤ (X ^ 2 - m0 ^ 2) / m0 ^ 2 := div_nonneg (by nlinarith) (sq_nonneg _)
    have h1 : (X ^ 2 - m0 ^ 2) / m0 ^ 2 ≤ (Y ^ 2 - m0 ^ 2) / m0 ^ 2 :=
      div_le_div_of_nonneg_right (by nlinarith) (sq_nonneg _)
    have h2 := Real.rpow_le_rpow h0 h1 hp
    have h3 : Real.exp (a * ((X ^ 2 - m0 ^ 2) / m0 ^ 2)) ≤ Real.exp (a * ((Y ^ 2 - m0 ^ 2) / m0 ^ 2)) :=
      Real.exp_le_exp.mpr (mul_le_mul_of_nonneg_left h1 ha)
    have h4 : 0 ≤ X := by linarith
    have h5 : 0 ≤ Y := by linarith
    have h6 := Real.rpow_nonneg h0 p
    have h7 := Real.rpow_nonneg (h0.trans h1) p
    exact mul_le_mul (mul_le_mul hXY h2 h6 h5) h3 (Real.exp_pos _).le (mul_nonneg h5 h7)

/-- **C109, ArgusPdf with `upper = false`**, partial: after `setIntegrationFineness(n)`, `integrate(lo, hi)` is the
sum over `n` bins of the value at the left edge times the width of the bin.  For a slope and a power that are not
negative it is below the integral, by at most one bin width times the growth of the function over the range. -/
theorem C109_argus_partial (n : Nat) (hn : 0 < n) (entries : ℝ × ℝ) (x m0 a p : Nat) (lo hi : ℝ) (h : lo ≤ hi)
    (hm : 0 < env.val m0) :
    ∃ f, IsFunction T env (.argus x m0 a false p) x f ∧
      (BasicCall.argus x m0 a false p).offeredIntegral Spec.erf n entries env.val lo hi =
        ∑ j ∈ Finset.range n, f (lo + (hi - lo) / n * j) * ((hi - lo) / n) ∧
      (0 ≤ env.val a → 0 ≤ env.val p →
        (BasicCall.argus x m0 a false p).offeredIntegral Spec.erf n entries env.val lo hi ≤ ∫ X in lo..hi, f X ∧
        ∫ X in lo..hi, f X ≤ (BasicCall.argus x m0 a false p).offeredIntegral Spec.erf n entries env.val lo hi +
          (hi - lo) / n * (f hi - f lo)) := by
  refine ⟨fun X => argusHelper X (env.val m0) (env.val a) (env.val p), fun e X hX => ?_, ?_, ?_⟩
  · show Evaluates T _ env e (argusHelper X _ _ _)
    rw [argus_helper_eq _ _ _ _ hm]
    exact C43_argus_lower T env e x m0 a p X hX hm
  · exact argus_sum n _ _ _ lo hi
  intro ha hp
  have hmono := argus_mono (env.val m0) (env.val a) (env.val p) hm ha hp
  show argusIntegrate (n : Int) (env.val m0) (env.val a) (env.val p) lo hi ≤ _ ∧
    _ ≤ argusIntegrate (n : Int) (env.val m0) (env.val a) (env.val p) lo hi + _
  rw [argus_sum]
  generalize hf : (fun X => argusHelper X (env.val m0) (env.val a) (env.val p)) = f at hmono ⊢
  have hfx : ∀ X, argusHelper X (env.val m0) (env.val a) (env.val p) = f X := fun X => by rw [← hf]
  simp only [hfx]
  have hn' : (0 : ℝ) < n := Nat.cast_pos.mpr hn
  set w := (hi - lo) / n with hw
  have hw0 : 0 ≤ w := div_nonneg (by linarith) hn'.le
  have hwn : w * n = hi - lo := by rw [hw]; field_simp
  have hint : ∫ X in lo..hi, f X = w * ∫ t in (0 : ℝ)..(0 + n), f (lo + w * t) := by
    have := intervalIntegral.smul_integral_comp_add_mul (a := (0 : ℝ)) (b := 0 + n) f w lo
    rw [smul_eq_mul] at this
    rw [this, mul_zero, add_zero, zero_add, hwn]
    congr 1
    ring
  have hg : Monotone fun t => f (lo + w * t) := fun s t hst =>
    hmono (add_le_add_right (mul_le_mul_of_nonneg_left hst hw0) lo)
  have b1 := (hg.monotoneOn (Set.Icc (0 : ℝ) (0 + n))).sum_le_integral
  have b2 := (hg.monotoneOn (Set.Icc (0 : ℝ) (0 + n))).integral_le_sum
  simp only [zero_add] at b1 b2 hint
  rw [hint, ← Finset.sum_mul, mul_comm _ w]
  refine ⟨mul_le_mul_of_nonneg_left b1 hw0, ?_⟩
  have hs2 := Finset.sum_range_sub (fun j : Nat => f (lo + w * j)) n
  rw [Finset.sum_sub_distrib] at hs2
  simp only [Nat.cast_zero, mul_zero, add_zero, hwn] at hs2
  rw [show lo + (hi - lo) = hi by ring] at hs2
  rw [← mul_add]
  refine mul_le_mul_of_nonneg_left ?_ hw0
  linarith

/-- A range that begins below the threshold, in ten bins, meets the hypotheses: the error is at most a tenth of the
range times the value at its upper end. -/
example (entries : ℝ × ℝ) (x m0 a p : Nat) (hm : env.val m0 = 5) (ha : env.val a = 1) (hp : env.val p = 1 / 2) :
    ∃ f, IsFunction T env (.argus x m0 a false p) x f ∧
      ∫ X in (4 : ℝ)..6, f X ≤ (BasicCall.argus x m0 a false p).offeredIntegral Spec.erf 10 entries env.val 4 6 +
        (6 - 4) / (10 : Nat) * (f 6 - f 4) := by
  obtain ⟨f, hf, _, h⟩ := C109_argus_partial T env 10 (by norm_num) entries x m0 a p 4 6 (by norm_num)
    (by rw [hm]; norm_num)
  exact ⟨f, hf, (h (by rw [ha]; norm_num) (by rw [hp]; norm_num)).2⟩

/-- **C109, violated for ArgusPdf** with the settings it is built with: without `setIntegrationFineness` the number
of bins is -1 and `integrate` returns 0 for every range, although the integral above the threshold is positive. -/
theorem C109_violation_argus_default (entries : ℝ × ℝ) (x m0 a p : Nat) (lo hi : ℝ) (hm : 0 < env.val m0)
    (h1 : env.val m0 < lo) (h2 : lo < hi) :
    ∃ f, IsFunction T env (.argus x m0 a false p) x f ∧
      (BasicCall.argus x m0 a false p).offeredIntegral Spec.erf (-1) entries env.val lo hi = 0 ∧
      0 < ∫ X in lo..hi, f X := by
  refine ⟨_, fun e X hX => C43_argus_lower T env e x m0 a p X hX hm, ?_, ?_⟩
  · show argusIntegrate (-1) _ _ _ lo hi = 0
    unfold argusIntegrate
    simp only [show Int.toNat (-1) = 0 from rfl, List.range_zero, List.foldl_nil, real_mul, real_lit, Rat.cast_zero,
      zero_mul]
  · apply intervalIntegral.intervalIntegral_pos_of_pos_on _ _ h2
    · apply ContinuousOn.intervalIntegrable
      rw [Set.uIcc_of_le h2.le]
      have hcong : Set.EqOn (fun X => if X ≤ env.val m0 then 0
          else X * ((X ^ 2 - env.val m0 ^ 2) / env.val m0 ^ 2) ^ env.val p *
            Real.exp (env.val a * ((X ^ 2 - env.val m0 ^ 2) / env.val m0 ^ 2)))
          (fun X => X * ((X ^ 2 - env.val m0 ^ 2) / env.val m0 ^ 2) ^ env.val p *
            Real.exp (env.val a * ((X ^ 2 - env.val m0 ^ 2) / env.val m0 ^ 2))) (Set.Icc lo hi) :=
        fun X hX => if_neg (by linarith [hX.1])
      refine ContinuousOn.congr ?_ hcong
      refine (continuousOn_id.mul (ContinuousOn.rpow_const (by fun_prop) ?_)).mul (by fun_prop)
      intro X hX
      left
      have : 0 < X ^ 2 - env.val m0 ^ 2 := by nlinarith [hX.1]
      positivity
    · intro X hX
      have hX1 := hX.1
      rw [if_neg (by linarith)]
      have : 0 < X ^ 2 - env.val m0 ^ 2 := by nlinarith
      have h3 : 0 < (X ^ 2 - env.val m0 ^ 2) / env.val m0 ^ 2 := by positivity
      have h4 : 0 < X := by linarith
      have h5 := Real.rpow_pos_of_pos h3 (env.val p)
      positivity

/-- **C109, violated for ArgusPdf with `upper = true`**: whatever the number of bins, `integrate` sums the other
function, which is zero up to the threshold; on a range between 0 and the threshold it returns 0 although the integral
is positive. -/
theorem C109_violation_argus_upper (n : Nat) (hn : 0 < n) (entries : ℝ × ℝ) (x m0 a p : Nat) (lo hi : ℝ)
    (h0 : 0 ≤ lo) (h1 : lo < hi) (h2 : hi < env.val m0) :
    ∃ f, IsFunction T env (.argus x m0 a true p) x f ∧
      (BasicCall.argus x m0 a true p).offeredIntegral Spec.erf n entries env.val lo hi = 0 ∧
      0 < ∫ X in lo..hi, f X := by
  have hm : 0 < env.val m0 := by linarith
  refine ⟨_, fun e X hX => C43_argus_upper T env e x m0 a p X hX hm, ?_, ?_⟩
  · show argusIntegrate (n : Int) _ _ _ lo hi = 0
    rw [argus_sum]
    apply Finset.sum_eq_zero
    intro j hj
    have hn' : (0 : ℝ) < n := Nat.cast_pos.mpr hn
    have hj' : (j : ℝ) ≤ n := Nat.cast_le.mpr (Finset.mem_range.mp hj).le
    have : (hi - lo) / n * j ≤ hi - lo := by
      rw [div_mul_eq_mul_div, div_le_iff₀ hn']
      exact mul_le_mul_of_nonneg_left hj' (by linarith)
    rw [argus_helper_eq _ _ _ _ hm, if_pos (by linarith), zero_mul]
  · apply intervalIntegral.intervalIntegral_pos_of_pos_on _ _ h1
    · apply ContinuousOn.intervalIntegrable
      rw [Set.uIcc_of_le h1.le]
      have hcong : Set.EqOn (fun X => if env.val m0 ≤ X then 0
          else X * ((env.val m0 ^ 2 - X ^ 2) / env.val m0 ^ 2) ^ env.val p *
            Real.exp (env.val a * ((env.val m0 ^ 2 - X ^ 2) / env.val m0 ^ 2)))
          (fun X => X * ((env.val m0 ^ 2 - X ^ 2) / env.val m0 ^ 2) ^ env.val p *
            Real.exp (env.val a * ((env.val m0 ^ 2 - X ^ 2) / env.val m0 ^ 2))) (Set.Icc lo hi) :=
        fun X hX => if_neg (by linarith [hX.2])
      refine ContinuousOn.congr ?_ hcong
      refine (continuousOn_id.mul (ContinuousOn.rpow_const (by fun_prop) ?_)).mul (by fun_prop)
      intro X hX
      left
      have hX1 := hX.1
      have hX2 := hX.2
      have : 0 < env.val m0 ^ 2 - X ^ 2 := by nlinarith
      positivity
    · intro X hX
      have hX1 := hX.1
      have hX2 := hX.2
      rw [if_neg (by linarith)]
      have : 0 < env.val m0 ^ 2 - X ^ 2 := by nlinarith
      have h3 : 0 < (env.val m0 ^ 2 - X ^ 2) / env.val m0 ^ 2 := by positivity
      have h4 : 0 < X := by linarith
      have h5 := Real.rpow_pos_of_pos h3 (env.val p)
      positivity

/-! ### Polynomial -/

private theorem integral_list_sum (l : List (ℝ × Nat)) (k : Nat) (lo hi : ℝ) :
    ∫ X in lo..hi, (l.map fun t => t.1 * X ^ (k + t.2)).sum =
      (l.map fun t => t.1 * ((hi ^ (k + t.2 + 1) - lo ^ (k + t.2 + 1)) / ((k + t.2 : Nat) + 1))).sum := by
  have hc : ∀ l : List (ℝ × Nat), Continuous fun X : ℝ => (l.map fun t => t.1 * X ^ (k + t.2)).sum := by
    intro l
    induction l with
    | nil => exact continuous_const
    | cons a l ih =>
      simp only [List.map_cons, List.sum_cons]
      exact (by fun_prop : Continuous fun X : ℝ => a.1 * X ^ (k + a.2)).add ih
  induction l with
  | nil => simp
  | cons a l ih =>
    simp only [List.map_cons, List.sum_cons]
    rw [intervalIntegral.integral_add
      ((by fun_prop : Continuous fun X : ℝ => a.1 * X ^ (k + a.2)).intervalIntegrable _ _)
      ((hc l).intervalIntegrable _ _), ih, intervalIntegral.integral_const_mul, integral_pow]

private theorem range_getD {α : Type} (g : ℝ → Nat → α) (l : List ℝ) (k : Nat) :
    (List.range' k l.length).map (fun i => g (l.getD (i - k) 0) i) = (l.zipIdx k).map fun t => g t.1 t.2 := by
  apply List.ext_getElem
  · simp
  · intro i h1 h2
    simp only [List.length_map, List.length_range'] at h1
    simp [List.getD_eq_getElem?_getD, List.getElem?_eq_getElem h1]

/-- **C109, PolynomialPdf without an offset**, partial: for a lowest degree of at least one, `integrate(lo, hi)` is
the integral of the polynomial without its lowest term and with every exponent lowered by two. -/
theorem C109_polynomial_partial (bins : Int) (entries : ℝ × ℝ) (x w : Nat) (ws : List Nat) (low : Nat)
    (hlow : 0 < low) (lo hi : ℝ) :
    (BasicCall.polynomial x (w :: ws) low).offeredIntegral Spec.erf bins entries env.val lo hi =
      ∫ X in lo..hi, ((ws.map env.val).zipIdx.map fun t => t.1 * X ^ (low - 1 + t.2)).sum := by
  show polyIntegrate (ofNat low) (env.val w :: ws.map env.val) none lo hi = _
  unfold polyIntegrate
  simp only [List.length_cons, Option.isSome_none, Bool.false_eq_true, if_false, real_add, real_sub, real_mul,
    real_div, real_lit, real_ofNat, Rat.cast_zero]
  rw [foldl_add_sum (fun i => (env.val w :: ws.map env.val).getD (i - 1) 0 *
    ((FpMath.pow hi ((low : ℝ) + (i : ℝ) - ((2 : ℚ) : ℝ)) - FpMath.pow lo ((low : ℝ) + (i : ℝ) - ((2 : ℚ) : ℝ))) /
      ((low : ℝ) + (i : ℝ) - ((2 : ℚ) : ℝ)))), zero_add]
  rw [integral_list_sum]
  generalize ws.map env.val = l
  obtain ⟨k, rfl⟩ : ∃ k, low = k + 1 := ⟨low - 1, by omega⟩
  rw [show l.length + 1 + 1 - 2 = l.length by omega, Nat.add_sub_cancel]
  have h := range_getD (fun c i => c * ((hi ^ (k + (i - 2) + 1) - lo ^ (k + (i - 2) + 1)) /
    (((k + (i - 2) : Nat) : ℝ) + 1))) l 2
  have h2 : l.zipIdx 2 = l.zipIdx.map fun t => (t.1, t.2 + 2) := by
    rw [List.zipIdx_eq_map_add]
    apply List.map_congr_left
    intro t _
    simp [add_comm]
  rw [h2, List.map_map] at h
  have h3 : (List.map ((fun t : ℝ × Nat => t.1 * ((hi ^ (k + (t.2 - 2) + 1) - lo ^ (k + (t.2 - 2) + 1)) /
    (((k + (t.2 - 2) : Nat) : ℝ) + 1))) ∘ fun t : ℝ × Nat => (t.1, t.2 + 2)) l.zipIdx) = l.zipIdx.map fun t =>
      t.1 * ((hi ^ (k + t.2 + 1) - lo ^ (k + t.2 + 1)) / ((k + t.2 : Nat) + 1)) :=
    List.map_congr_left fun t _ => by simp
  rw [← h3, ← h]
  congr 1
  apply List.map_congr_left
  intro i hi'
  rw [List.mem_range'] at hi'
  obtain ⟨j, hj, rfl⟩ := hi'
  have e1 : ((k + 1 : Nat) : ℝ) + ((2 + 1 * j : Nat) : ℝ) - ((2 : ℚ) : ℝ) = ((k + j + 1 : Nat) : ℝ) := by
    push_cast
    ring
  rw [e1, real_pow, real_pow, Real.rpow_natCast, Real.rpow_natCast,
    show 2 + 1 * j - 1 = j + 1 by omega, show 2 + 1 * j - 2 = j by omega, List.getD_cons_succ]
  push_cast
  ring

/-- A polynomial `w₀x + w₁x² + w₂x³`: what is integrated is `w₁ + w₂x`. -/
example (bins : Int) (entries : ℝ × ℝ) (x a b c : Nat) (lo hi : ℝ) :
    (BasicCall.polynomial x [a, b, c] 1).offeredIntegral Spec.erf bins entries env.val lo hi =
      ∫ X in lo..hi, (env.val b + env.val c * X) := by
  rw [C109_polynomial_partial env bins entries x a [b, c] 1 one_pos lo hi]
  simp

/-- **C109, violated for PolynomialPdf**: with one weight, whatever the lowest degree and with or without an offset,
`integrate` returns 0; without an offset the integral over a range of positive numbers is not zero unless the weight
is. -/
theorem C109_violation_polynomial (bins : Int) (entries : ℝ × ℝ) (x w x0 low : Nat) (lo hi : ℝ) (h0 : 0 ≤ lo)
    (h1 : lo < hi) (hw : env.val w ≠ 0) :
    (BasicCall.offsetPolynomial x [w] x0 low).offeredIntegral Spec.erf bins entries env.val lo hi = 0 ∧
    (BasicCall.polynomial x [w] low).offeredIntegral Spec.erf bins entries env.val lo hi = 0 ∧
    ∃ f, IsFunction T env (.polynomial x [w] low) x f ∧ ∫ X in lo..hi, f X ≠ 0 := by
  refine ⟨?_, ?_, _, fun e X h => C37_polynomial T env e x [w] low X h, ?_⟩
  · show polyIntegrate (ofNat low) [env.val w, env.val x0] (some entries) lo hi = 0
    unfold polyIntegrate
    simp [real_lit]
  · show polyIntegrate (ofNat low) [env.val w] none lo hi = 0
    unfold polyIntegrate
    simp [real_lit]
  · simp only [List.map_cons, List.map_nil, List.zipIdx_cons, List.zipIdx_nil, List.sum_cons, List.sum_nil, add_zero]
    rw [intervalIntegral.integral_const_mul, integral_pow]
    have : lo ^ (low + 1) < hi ^ (low + 1) := pow_lt_pow_left₀ h1 h0 (Nat.succ_ne_zero _)
    have h2 : (0 : ℝ) < (hi ^ (low + 1) - lo ^ (low + 1)) / (low + 1) :=
      div_pos (by linarith) (by positivity)
    exact mul_ne_zero hw h2.ne'

end GooFit
