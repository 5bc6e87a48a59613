import Verif.Spec.Angles
import Verif.Lemmas.BasicReal
import Verif.Lemmas.FaddeevaG
/-!
# The complex error function and the Voigt profile: C82
-/
set_option autoImplicit false
namespace GooFit
open Spec FpOps MeasureTheory

/-! ### The complex error function -/

/-- **C82, part.** Above the real line, except in the strip beyond 6.4 where the imaginary part is
below `10⁻⁹`, both copies of the algorithm agree with the integral to `10⁻⁹`.  Missing: the strip,
where it fails (`C82_violation_negative`). -/
theorem C82_faddeeva_partial (z : ℂ) (hz : 0 < z.im) (hr : |z.re| ≤ 6.4 ∨ 1 / 10 ^ 9 ≤ z.im) :
    ∃ w, devFaddeeva z = some w ∧ hostFaddeeva z = some w ∧ ‖w - Spec.faddeeva z‖ ≤ 1 / 10 ^ 9 := by
  obtain ⟨w, h1, h2⟩ := Faddeeva.dev_close z hz hr
  refine ⟨w, h1, h1, ?_⟩
  rw [Spec.faddeeva, Faddeeva.W_eq z hz]
  exact h2

/-- both alternatives of the hypothesis occur -/
example : (0 < (Complex.mk 3 0.001).im ∧ |(Complex.mk 3 0.001).re| ≤ 6.4) ∧
    (0 < (Complex.mk 300 0.001).im ∧ 1 / 10 ^ 9 ≤ (Complex.mk 300 0.001).im) := by
  norm_num

/-- **C82, no division by zero** above the real line. -/
theorem C82_defined (z : ℂ) (hz : 0 < z.im) : ∃ w, devFaddeeva z = some w ∧ hostFaddeeva z = some w := by
  obtain ⟨w, h⟩ := Faddeeva.dev_defined z hz
  exact ⟨w, h, h⟩

/-- **C82, reflection**: at `-x + iy` the algorithm returns the conjugate of what it returns at
`x + iy`, for every `z`. -/
theorem C82_reflection (z : ℂ) :
    devFaddeeva (Complex.mk (-z.re) z.im) = (devFaddeeva z).map (starRingEnd ℂ) ∧
    hostFaddeeva (Complex.mk (-z.re) z.im) = (hostFaddeeva z).map (starRingEnd ℂ) :=
  ⟨Faddeeva.dev_mirror z, Faddeeva.dev_mirror z⟩

/-! ### cpuvoigtian -/

theorem inv_sqrtpi : |0.5641895835477563 - 1 / Real.sqrt Real.pi| ≤ 1 / 10 ^ 15 := by
  have h1 := Real.pi_gt_d20
  have h2 := Real.pi_lt_d20
  have hp : 0 < Real.sqrt Real.pi := Faddeeva.sqrtpi_pos
  have hlo : (1.7724538509055159 : ℝ) ≤ Real.sqrt Real.pi := by
    apply Real.le_sqrt_of_sq_le
    norm_num at h1 ⊢
    linarith
  have hhi : Real.sqrt Real.pi ≤ (1.7724538509055162 : ℝ) := by
    rw [Real.sqrt_le_left (by norm_num)]
    norm_num at h2 ⊢
    linarith
  rw [abs_le]
  constructor
  · rw [neg_le_sub_iff_le_add, div_le_iff₀ hp]
    norm_num at hlo ⊢
    linarith
  · rw [sub_le_comm, le_div_iff₀ hp]
    norm_num at hhi ⊢
    linarith

/-- the error of the profile -/
theorem profile_close (c u a : ℝ) (hc : 0 < c) (w : ℂ) (ha : 0 < a)
    (hw : ‖w - Spec.faddeeva (Complex.mk u a)‖ ≤ 1 / 10 ^ 9) :
    |c * 0.5641895835477563 * w.re - c / Real.sqrt Real.pi * (Spec.faddeeva (Complex.mk u a)).re| ≤
      c * (0.565 / 10 ^ 9) := by
  have hk := inv_sqrtpi
  have hre := (Complex.abs_re_le_norm (w - Spec.faddeeva (Complex.mk u a))).trans hw
  rw [Complex.sub_re] at hre
  have hf : |(Spec.faddeeva (Complex.mk u a)).re| ≤ 1 := by
    refine (Complex.abs_re_le_norm _).trans ?_
    rw [Spec.faddeeva, Faddeeva.W_eq _ (by exact ha)]
    have := Faddeeva.J_bound_pos (Complex.mk u a) ha 0 (le_refl _)
    simpa [Faddeeva.W] using this
  have hs : 1 / Real.sqrt Real.pi ≤ 0.5642 := by
    have := (abs_le.1 hk).1
    norm_num at this ⊢
    linarith
  have hs0 : 0 ≤ 1 / Real.sqrt Real.pi := by positivity
  generalize Spec.faddeeva (Complex.mk u a) = W at *
  set k := 1 / Real.sqrt Real.pi with hkd
  have e : c * 0.5641895835477563 * w.re - c / Real.sqrt Real.pi * W.re =
      c * (0.5641895835477563 * (w.re - W.re) + (0.5641895835477563 - k) * W.re) := by
    rw [show c / Real.sqrt Real.pi = c * k by rw [hkd]; ring]
    generalize (0.5641895835477563 : ℝ) = q
    ring
  rw [e, abs_mul, abs_of_pos hc]
  refine mul_le_mul_of_nonneg_left ?_ hc.le
  calc _ ≤ |0.5641895835477563 * (w.re - W.re)| + |(0.5641895835477563 - k) * W.re| := abs_add_le _ _
    _ ≤ 0.5641895835477563 * (1 / 10 ^ 9) + 1 / 10 ^ 15 * 1 := by
        rw [abs_mul, abs_mul]
        refine add_le_add (mul_le_mul (by norm_num) hre (abs_nonneg _) (by norm_num))
          (mul_le_mul hk hf (abs_nonneg _) (by norm_num))
    _ ≤ 0.565 / 10 ^ 9 := by norm_num

/-- **C82, cpuvoigtian, part**: for a positive width and resolution the host function returns the
Voigt profile to `4·10⁻¹⁰/σ`, within nine resolutions of the mean or for widths above
`3·10⁻⁹ σ`.  Missing: the far tail of narrower peaks. -/
theorem C82_cpuvoigtian_partial (x m w s : ℝ) (hw : 0 < w) (hs : 0 < s)
    (hr : |x - m| ≤ 9 * s ∨ 3 / 10 ^ 9 * s ≤ w) :
    ∃ v, cpuVoigtian x m w s = .value (some v) ∧ |v - Spec.voigt x m s w| ≤ 4 / 10 ^ 10 / s := by
  have h2 : 0 < Real.sqrt 2 := Real.sqrt_pos.2 (by norm_num)
  have h2lo : (1.414 : ℝ) ≤ Real.sqrt 2 := by apply Real.le_sqrt_of_sq_le; norm_num
  have h2hi : Real.sqrt 2 ≤ (1.415 : ℝ) := by rw [Real.sqrt_le_left (by norm_num)]; norm_num
  obtain ⟨c, hc⟩ : ∃ c, c = 1.0 / (Real.sqrt 2 * s) := ⟨_, rfl⟩
  have hc1 : c = 1 / (Real.sqrt 2 * s) := by rw [hc]; norm_num
  have hc0 : 0 < c := by rw [hc1]; positivity
  have ha : 0 < 0.5 * c * w := by positivity
  have hcs : c * s = 1 / Real.sqrt 2 := by rw [hc1]; field_simp
  have hcl : 0.7 ≤ c * s := by
    rw [hcs, le_div_iff₀ h2]
    norm_num at h2hi ⊢
    linarith
  have hch : c * s ≤ 0.7073 := by
    rw [hcs, div_le_iff₀ h2]
    norm_num at h2lo ⊢
    linarith
  have hreg : |c * (x - m)| ≤ 6.4 ∨ 1 / 10 ^ 9 ≤ 0.5 * c * w := by
    rcases hr with h | h
    · left
      rw [abs_mul, abs_of_pos hc0]
      have := mul_le_mul_of_nonneg_left h hc0.le
      norm_num at hch ⊢
      linarith
    · right
      have := mul_le_mul_of_nonneg_left h hc0.le
      norm_num at hcl ⊢
      linarith
  obtain ⟨v, -, e2, e3⟩ := C82_faddeeva_partial (Complex.mk (c * (x - m)) (0.5 * c * w)) ha hreg
  refine ⟨c * 0.5641895835477563 * v.re, ?_, ?_⟩
  · rw [cpuVoigtian, if_neg (fun h => hs.ne h.1), if_neg (by push Not; exact ⟨hs, hw⟩)]
    simp only
    rw [if_neg hs.ne, if_neg hw.ne, ← hc, e2]
    rfl
  · have hp := profile_close c (c * (x - m)) (0.5 * c * w) hc0 v ha e3
    have hv := Faddeeva.voigt_eq x m s w hs hw
    rw [← hc1] at hv
    have e4 : (x - m) / (Real.sqrt 2 * s) = c * (x - m) := by rw [hc1]; ring
    have e5 : w / (2 * (Real.sqrt 2 * s)) = 0.5 * c * w := by
      rw [hc1, show (0.5 : ℝ) = 1 / 2 by norm_num]; field_simp
    rw [e4, e5] at hv
    rw [hv]
    refine hp.trans ?_
    rw [le_div_iff₀ hs]
    norm_num at hch ⊢
    linarith

/-- **C82 (violated by the host copy).** `cpuvoigtian` is documented to fall back to a Breit-Wigner when
the resolution is zero and to a Gaussian when the width is zero (`src/goofit/Faddeeva.cpp:136-143`);
its argument check throws in both cases. -/
theorem C82_violation_cpu_limits (x m w : ℝ) (hw : w ≠ 0) :
    cpuVoigtian x m w 0 = .throws ∧ cpuVoigtian x m 0 w = .throws := by
  constructor
  · rw [cpuVoigtian, if_neg (fun h => hw h.2.symm), if_pos (Or.inl (le_refl _))]
  · rw [cpuVoigtian, if_neg (fun h => hw h.1.symm), if_pos (Or.inr (le_refl _))]

/-- **C82, cpuvoigtian, arguments**: it throws exactly when the width or the resolution is not
positive, unless both are zero. -/
theorem C82_cpuvoigtian_throws (x m w s : ℝ) :
    cpuVoigtian x m w s = .throws ↔ ((s ≤ 0 ∨ w ≤ 0) ∧ ¬ (s = 0 ∧ w = 0)) := by
  rw [cpuVoigtian]
  by_cases h0 : 0 = s ∧ 0 = w
  · rw [if_pos h0]
    constructor
    · intro h; cases h
    · intro h; exact absurd ⟨h0.1.symm, h0.2.symm⟩ h.2
  · rw [if_neg h0]
    by_cases h1 : s ≤ 0 ∨ w ≤ 0
    · rw [if_pos h1]
      exact ⟨fun _ => ⟨h1, fun h => h0 ⟨h.1.symm, h.2.symm⟩⟩, fun _ => rfl⟩
    · rw [if_neg h1]
      push Not at h1
      simp only
      rw [if_neg h1.1.ne, if_neg h1.2.ne]
      constructor
      · intro h; cases h
      · intro h; rcases h.1 with h | h <;> linarith [h1.1, h1.2]

/-! ### VoigtianPdf -/

section pdf
variable (T : HistTables ℝ) (env : Env ℝ) (e : Evt ℝ)

private theorem allSome_one' {o : Nat} {x : ℝ} (h : ObsIs env e o x) :
    allSome (((registerAll [o]).map env.idx).map (at_ e)) = some [x] := by
  have : at_ e (env.idx o) = some x := h
  simp [registerAll, allSome, this]

/-- what the PDF evaluates to for the algorithm as coded -/
theorem voigtian_value (x m g s : Nat) (X : ℝ) (h : ObsIs env e x X) (hg : env.val g ≠ 0)
    (hs : env.val s ≠ 0) (w : ℂ)
    (hw : devFaddeeva (Complex.mk (0.707106781187 / env.val s * (X - env.val m))
      (0.5 * (0.707106781187 / env.val s) * env.val g)) = some w) :
    @Evaluates ℝ FpMath.realFad T (.voigtian x m g s) env e
      (0.707106781187 / env.val s * 0.5641895835477563 * w.re) := by
  refine @evaluates_of ℝ FpMath.realFad T _ env e _ [X] trivial (by simp [BasicCall.leaf])
    (by simp [BasicCall.leaf]) storable_real (allSome_one' env e h) ?_
  show some (@voigtianValue ℝ FpMath.realFad X (env.val m) (env.val g) (env.val s)) = _
  have e1 : @voigtianValue ℝ FpMath.realFad X (env.val m) (env.val g) (env.val s) =
    (if FpMath.eq (lit 0) (env.val s) && FpMath.eq (lit 0) (env.val g) then lit 1
    else
      let arg := sub X (env.val m)
      if FpMath.eq (lit 0) (env.val s) then div (lit 1) (add (mul arg arg) (mul (mul (lit (1/4)) (env.val g)) (env.val g)))
      else
        let coef := div (lit (-1/2)) (mul (env.val s) (env.val s))
        if FpMath.eq (lit 0) (env.val g) then FpMath.exp (mul (mul coef arg) arg)
        else
          let c := div (lit (707106781187/1000000000000)) (env.val s)
          let a := mul (mul (lit (1/2)) c) (env.val g)
          let u := mul c arg
          mul (mul c (lit (5641895835477563/10000000000000000)))
            (match devFaddeeva (Complex.mk u a) with
              | some w => (w.re, w.im)
              | none => (0, 0)).1) := rfl
  rw [e1]
  simp only [Bool.and_eq_true]
  real_ops
  push_cast
  rw [if_neg (fun h => hs h.1.symm), if_neg (fun h => hs h.symm), if_neg (fun h => hg h.symm)]
  rw [show ((707106781187 : ℝ) / 1000000000000) = 0.707106781187 by norm_num,
    show ((1 : ℝ) / 2) = 0.5 by norm_num, hw]
  norm_num

/-- **C82, VoigtianPdf, part**: built as VoigtianPdf(x, m, Γ, σ) with `Γ, σ > 0` (the order the code reads
them in, `C43_violation_voigtian_swapped`) and evaluated at `X`, the PDF is the Voigt profile to
`4·10⁻¹⁰/σ`, within nine resolutions of the mean or for widths above `3·10⁻⁹ σ`; the resolution is
off by at most `10⁻¹² σ`, because `1/√2` is written with twelve digits.  Missing: the documented order,
and the far tail of narrower peaks. -/
theorem C82_voigtian_partial (x m g s : Nat) (X : ℝ) (h : ObsIs env e x X) (hg : 0 < env.val g)
    (hs : 0 < env.val s)
    (hr : |X - env.val m| ≤ 9 * env.val s ∨ 3 / 10 ^ 9 * env.val s ≤ env.val g) :
    ∃ v σ', @Evaluates ℝ FpMath.realFad T (.voigtian x m g s) env e v ∧
      |σ' - env.val s| ≤ 1 / 10 ^ 12 * env.val s ∧
      |v - Spec.voigt X (env.val m) σ' (env.val g)| ≤ 4 / 10 ^ 10 / env.val s := by
  have h2 : 0 < Real.sqrt 2 := Real.sqrt_pos.2 (by norm_num)
  have h2lo : (1.41421356237309 : ℝ) ≤ Real.sqrt 2 := by apply Real.le_sqrt_of_sq_le; norm_num
  have h2hi : Real.sqrt 2 ≤ (1.41421356237310 : ℝ) := by rw [Real.sqrt_le_left (by norm_num)]; norm_num
  generalize hsd : env.val s = σ at *
  generalize hgd : env.val g = Γ at *
  set c := 0.707106781187 / σ with hc
  have hc0 : 0 < c := by rw [hc]; positivity
  have ha : 0 < 0.5 * c * Γ := by positivity
  have hcs : c * σ = 0.707106781187 := by rw [hc]; field_simp
  set σ' := σ / (Real.sqrt 2 * 0.707106781187) with hσ'
  have hσ0 : 0 < σ' := by rw [hσ']; positivity
  have hc1 : c = 1 / (Real.sqrt 2 * σ') := by
    rw [hσ', hc]
    generalize (0.707106781187 : ℝ) = q
    field_simp
  have hreg : |c * (X - env.val m)| ≤ 6.4 ∨ 1 / 10 ^ 9 ≤ 0.5 * c * Γ := by
    rcases hr with h | h
    · left
      rw [abs_mul, abs_of_pos hc0]
      have := mul_le_mul_of_nonneg_left h hc0.le
      norm_num at hcs ⊢
      linarith
    · right
      have := mul_le_mul_of_nonneg_left h hc0.le
      norm_num at hcs ⊢
      linarith
  obtain ⟨v, e1, -, e3⟩ := C82_faddeeva_partial (Complex.mk (c * (X - env.val m)) (0.5 * c * Γ)) ha hreg
  refine ⟨c * 0.5641895835477563 * v.re, σ', ?_, ?_, ?_⟩
  · have := voigtian_value T env e x m g s X h (by rw [hgd]; exact hg.ne') (by rw [hsd]; exact hs.ne') v
      (by rw [hsd, hgd]; exact e1)
    rw [hsd] at this
    exact this
  · have e4 : σ' - σ = σ * (1 / (Real.sqrt 2 * 0.707106781187) - 1) := by
      rw [hσ']
      generalize (Real.sqrt 2 * 0.707106781187 : ℝ) = q
      ring
    rw [e4, abs_mul, abs_of_pos hs, mul_comm]
    refine mul_le_mul_of_nonneg_right ?_ hs.le
    rw [abs_le]
    constructor
    · rw [neg_le_sub_iff_le_add, ← sub_le_iff_le_add, le_div_iff₀ (by positivity)]
      norm_num at h2hi ⊢
      linarith
    · rw [sub_le_iff_le_add, div_le_iff₀ (by positivity)]
      norm_num at h2lo ⊢
      linarith
  · have hp := profile_close c (c * (X - env.val m)) (0.5 * c * Γ) hc0 v ha e3
    have hv := Faddeeva.voigt_eq X (env.val m) σ' Γ hσ0 hg
    rw [← hc1] at hv
    have e4 : (X - env.val m) / (Real.sqrt 2 * σ') = c * (X - env.val m) := by rw [hc1]; ring
    have e5 : Γ / (2 * (Real.sqrt 2 * σ')) = 0.5 * c * Γ := by
      rw [hc1, show (0.5 : ℝ) = 1 / 2 by norm_num]; field_simp
    rw [e4, e5] at hv
    rw [hv]
    refine hp.trans ?_
    rw [le_div_iff₀ hs]
    norm_num at hcs ⊢
    linarith

/-- **C82, VoigtianPdf, symmetry**: the PDF has the same value at equal distances on the two sides of the
mean, wherever they are and however narrow the peak is. -/
theorem C82_voigtian_symmetric (e' : Evt ℝ) (x m g s : Nat) (D : ℝ)
    (h : ObsIs env e x (env.val m + D)) (h' : ObsIs env e' x (env.val m - D))
    (hg0 : 0 < env.val g) (hs0 : 0 < env.val s) :
    ∃ v, @Evaluates ℝ FpMath.realFad T (.voigtian x m g s) env e v ∧
      @Evaluates ℝ FpMath.realFad T (.voigtian x m g s) env e' v := by
  have hg := hg0.ne'
  have hs := hs0.ne'
  have ha : 0 < 0.5 * (0.707106781187 / env.val s) * env.val g := by
    have : 0.5 * (0.707106781187 / env.val s) * env.val g =
        0.5 * 0.707106781187 * ((env.val g * env.val s) / env.val s ^ 2) := by
      generalize (0.707106781187 : ℝ) = q
      rw [show (0.5 : ℝ) = 1 / 2 by norm_num]
      field_simp
    rw [this]
    positivity
  obtain ⟨w, hw, -⟩ := C82_defined (Complex.mk (0.707106781187 / env.val s * (env.val m + D - env.val m))
    (0.5 * (0.707106781187 / env.val s) * env.val g)) ha
  refine ⟨_, voigtian_value T env e x m g s _ h hg hs w hw, ?_⟩
  have hw' := (C82_reflection (Complex.mk (0.707106781187 / env.val s * (env.val m + D - env.val m))
    (0.5 * (0.707106781187 / env.val s) * env.val g))).1
  rw [hw] at hw'
  have := voigtian_value T env e' x m g s _ h' hg hs ((starRingEnd ℂ) w) (by
    rw [← Option.map_some (f := starRingEnd ℂ), ← hw']
    congr 2
    generalize (0.707106781187 : ℝ) = q
    ring)
  simpa using this

end pdf

/-- non-vacuity: variables 1, 2, 3 for an observable 0 with value 2: mean 1, width and resolution 1. -/
example : ∃ (env : Env ℝ) (e e' : Evt ℝ), ObsIs env e 0 2 ∧ ObsIs env e' 0 0 ∧
    0 < env.val 2 ∧ 0 < env.val 3 ∧ |2 - env.val 1| ≤ 9 * env.val 3  ∧
    (2 : ℝ) = env.val 1 + 1 ∧ (0 : ℝ) = env.val 1 - 1 := by
  refine ⟨⟨fun _ => 1, fun _ => 0⟩, fun _ => some 2, fun _ => some 0, rfl, rfl, ?_⟩
  norm_num

/-! ### Negative densities -/

namespace Faddeeva
open Complex

private theorem re_I_div (w : ℂ) : (I / w).re = w.im / Complex.normSq w := by
  rw [Complex.div_re]; simp

private theorem node_re (y t : ℝ) (hy : 0 < y) (ht : 1 / 2 ≤ |6.5 - t|) :
    |(I / (Complex.mk 6.5 y - (t : ℂ))).re| ≤ 4 * y := by
  rw [re_I_div, Complex.normSq_apply]
  simp only [sub_re, sub_im, ofReal_re, ofReal_im, sub_zero]
  have h1 : 1 / 4 ≤ (6.5 - t) * (6.5 - t) := by
    rw [← abs_mul_abs_self]; nlinarith
  have h2 : 1 / 4 ≤ (6.5 - t) * (6.5 - t) + y * y := by nlinarith
  rw [abs_of_nonneg (div_nonneg hy.le (by linarith)), div_le_iff₀ (by linarith)]
  nlinarith

private theorem trap_small (y : ℝ) (hy : 0 < y) :
    (trapSum (Complex.mk 6.5 y) (1 / 2) fun n => devE1.getD n 0).re ≤ 200 * y := by
  have hz : 0 < (Complex.mk 6.5 y).im := hy
  have e1 : ((1 / 2 : ℝ) / Real.pi : ℂ) = ((1 / 2 / Real.pi : ℝ) : ℂ) := by push_cast; rfl
  rw [trapSum, e1, Complex.re_ofReal_mul, add_re, re_sum]
  have hpi := Real.pi_gt_three
  have h0 : (I / Complex.mk 6.5 y).re ≤ 4 * y := by
    have := node_re y 0 hy (by rw [abs_of_nonneg (by norm_num)]; norm_num)
    rw [ofReal_zero, sub_zero] at this
    exact (le_abs_self _).trans this
  have hs : ∑ n ∈ Finset.range 12, (((devE1.getD n 0 : ℝ) : ℂ) * pair (Complex.mk 6.5 y) (((n : ℝ) + 1) * (1 / 2))).re ≤
      ∑ n ∈ Finset.range 12, 16 * y := by
    apply Finset.sum_le_sum
    intro n hn
    have hn : n < 12 := Finset.mem_range.1 hn
    have hn' : (n : ℝ) ≤ 11 := by exact_mod_cast Nat.le_of_lt_succ hn
    have hn0 : (0 : ℝ) ≤ n := Nat.cast_nonneg n
    have hE : |devE1.getD n 0| ≤ 2 := by
      have h1 := tab1 n hn
      have h2 : Real.exp (-(((n : ℝ) + 1) * (1 / 2)) ^ 2) ≤ 1 := Real.exp_le_one_iff.2 (by
        have := sq_nonneg (((n : ℝ) + 1) * (1 / 2)); linarith)
      have h3 := Real.exp_pos (-(((n : ℝ) + 1) * (1 / 2)) ^ 2)
      rw [abs_le] at h1 ⊢
      norm_num at h1 ⊢
      constructor <;> linarith [h1.1, h1.2]
    have hp : |(pair (Complex.mk 6.5 y) (((n : ℝ) + 1) * (1 / 2))).re| ≤ 8 * y := by
      rw [pair_eq _ hz, add_re]
      refine (abs_add_le _ _).trans ?_
      have a1 := node_re y (((n : ℝ) + 1) * (1 / 2)) hy (by
        refine le_trans ?_ (le_abs_self _)
        norm_num
        linarith)
      have a2 := node_re y (-(((n : ℝ) + 1) * (1 / 2))) hy (by
        refine le_trans ?_ (le_abs_self _)
        norm_num
        linarith)
      linarith
    rw [Complex.re_ofReal_mul]
    refine (le_abs_self _).trans ?_
    rw [abs_mul]
    calc _ ≤ 2 * (8 * y) := mul_le_mul hE hp (abs_nonneg _) (by norm_num)
      _ = 16 * y := by ring
  rw [Finset.sum_const, Finset.card_range, nsmul_eq_mul] at hs
  have hk : 1 / 2 / Real.pi ≤ 1 := by
    rw [div_le_iff₀ (by linarith)]; linarith
  have hk0 : 0 ≤ 1 / 2 / Real.pi := by positivity
  push_cast at hs
  calc _ ≤ 1 / 2 / Real.pi * (4 * y + 12 * (16 * y)) := mul_le_mul_of_nonneg_left (add_le_add h0 hs) hk0
    _ ≤ 1 * (4 * y + 12 * (16 * y)) := mul_le_mul_of_nonneg_right hk (by positivity)
    _ ≤ 200 * y := by linarith

private theorem exp_4225 : 4 / 10 ^ 19 ≤ Real.exp (-42.25) := by
  have h1 := Real.exp_neg_one_gt_d9
  have h2 := exp_quarter.1
  have e : Real.exp (-42.25) = Real.exp (-1) ^ 42 * Real.exp (-(1 / 4)) := by
    rw [← Real.exp_nat_mul, ← Real.exp_add]; norm_num
  rw [e]
  calc (4 / 10 ^ 19 : ℝ) ≤ 0.36787944116 ^ 42 * 0.7788007830714048682451 := by norm_num
    _ ≤ _ := mul_le_mul (pow_le_pow_left₀ (by norm_num) h1.le 42) h2 (by norm_num)
        (pow_nonneg (Real.exp_pos _).le _)

private theorem pole_big : 2 / 10 ^ 8 ≤ (poleTerm (Complex.mk 6.5 (1 / 10 ^ 12)) (1 / 2)).re := by
  set y : ℝ := 1 / 10 ^ 12 with hy
  have hpi := Real.pi_lt_d2
  have hpi0 := Real.pi_pos
  set u := 4 * Real.pi * y with hu
  have hu0 : 0 < u := by positivity
  have hu1 : u ≤ 1.3 / 10 ^ 11 := by
    rw [hu, hy]; norm_num at hpi ⊢; linarith
  have hq : cexp (2 * I * Complex.mk 6.5 y * (Real.pi / (1 / 2) : ℝ)) = ((Real.exp (-u) : ℝ) : ℂ) := by
    have : 2 * I * Complex.mk 6.5 y * ((Real.pi / (1 / 2) : ℝ) : ℂ) =
        ((-u : ℝ) : ℂ) + (13 : ℤ) * (2 * Real.pi * I) := by
      apply Complex.ext
      · simp [hu]; ring
      · simp [hu]; norm_num; ring
    rw [this, Complex.exp_add, Complex.exp_int_mul_two_pi_mul_I, mul_one, Complex.ofReal_exp]
  have hf : cexp (-(Complex.mk 6.5 y) ^ 2) = cexp (Complex.mk (-42.25 + y ^ 2) (-(13 * y))) := by
    congr 1
    apply Complex.ext
    · simp [sq]; norm_num
      try ring
    · simp [sq]; norm_num
      try ring
  have hfr : 3.6 / 10 ^ 19 ≤ (cexp (-(Complex.mk 6.5 y) ^ 2)).re := by
    rw [hf, Complex.exp_re]
    have h1 : 4 / 10 ^ 19 ≤ Real.exp (-42.25 + y ^ 2) := by
      refine exp_4225.trans (Real.exp_le_exp.2 ?_)
      have := sq_nonneg y
      linarith
    have h2 : 0.9 ≤ Real.cos (-(13 * y)) := by
      have := Real.one_sub_sq_div_two_le_cos (x := -(13 * y))
      refine le_trans ?_ this
      rw [hy]; norm_num
    calc (3.6 / 10 ^ 19 : ℝ) = 4 / 10 ^ 19 * 0.9 := by norm_num
      _ ≤ _ := mul_le_mul h1 h2 (by norm_num) (Real.exp_pos _).le
  have hqq : (3.8 * 10 ^ 10 : ℝ) ≤ Real.exp (-u) / (1 - Real.exp (-u)) := by
    have h1 : 1 - u ≤ Real.exp (-u) := by linarith [Real.add_one_le_exp (-u)]
    have h2 : Real.exp (-u) < 1 := exp_lt_one' (by linarith)
    rw [le_div_iff₀ (by linarith)]
    norm_num at hu1 ⊢
    nlinarith
  rw [poleTerm, hq]
  have e : 2 * cexp (-(Complex.mk 6.5 y) ^ 2) * (((Real.exp (-u) : ℝ) : ℂ) / (1 - ((Real.exp (-u) : ℝ) : ℂ))) =
      ((2 * (Real.exp (-u) / (1 - Real.exp (-u))) : ℝ) : ℂ) * cexp (-(Complex.mk 6.5 y) ^ 2) := by
    push_cast; ring
  rw [e, Complex.re_ofReal_mul]
  calc (2 / 10 ^ 8 : ℝ) ≤ 2 * (3.8 * 10 ^ 10) * (3.6 / 10 ^ 19) := by norm_num
    _ ≤ _ := by
      refine mul_le_mul ?_ hfr (by norm_num) ?_ <;> norm_num at hqq ⊢ <;> linarith

theorem negative : ∃ w, devFaddeeva (Complex.mk 6.5 (1 / 10 ^ 12)) = some w ∧ w.re ≤ -(19 / 10 ^ 9) := by
  have hz : 0 < (Complex.mk 6.5 (1 / 10 ^ 12)).im := by norm_num
  refine ⟨_, dev_trap1 _ hz ?_ ?_, ?_⟩
  · rw [Complex.normSq_apply]; norm_num
  · intro h
    have := h.1.2
    norm_num [abs_of_pos] at this
  · rw [trapValue, if_pos (by norm_num), add_re, neg_re]
    have h1 := trap_small (1 / 10 ^ 12) (by norm_num)
    have h2 := pole_big
    norm_num at h1 h2 ⊢
    linarith

end Faddeeva

/-- **C82 (violated by the code): a negative density.**  A VoigtianPdf of positive width and resolution is
negative in its tail: with mean 0, resolution 0.707106781187 and width `2·10⁻¹²` its value at 6.5 is
below `-10⁻⁸`, while the Voigt profile is positive.  The twelve tabulated nodes end at 6, the
correction for the pole does not. -/
theorem C82_violation_negative (T : HistTables ℝ) (env : Env ℝ) (e : Evt ℝ) (x m g s : Nat)
    (h : ObsIs env e x 6.5) (hm : env.val m = 0) (hs : env.val s = 0.707106781187)
    (hg : env.val g = 2 / 10 ^ 12) :
    ∃ v, @Evaluates ℝ FpMath.realFad T (.voigtian x m g s) env e v ∧ v ≤ -(1 / 10 ^ 8) := by
  obtain ⟨w, h1, h2⟩ := Faddeeva.negative
  have hc : (0.707106781187 : ℝ) / env.val s = 1 := by rw [hs]; norm_num
  have := voigtian_value T env e x m g s _ h (by rw [hg]; norm_num) (by rw [hs]; norm_num) w (by
    rw [hc, hm, hg, ← h1]
    norm_num)
  refine ⟨_, this, ?_⟩
  rw [hc]
  norm_num at h2 ⊢
  linarith

example : ∃ (env : Env ℝ) (e : Evt ℝ), ObsIs env e 0 6.5 ∧ env.val 0 = 0 ∧ env.val 1 = 0.707106781187 ∧
    env.val 2 = 2 / 10 ^ 12 :=
  ⟨⟨fun v => if v = 0 then 0 else if v = 1 then 0.707106781187 else 2 / 10 ^ 12, fun _ => 0⟩,
    fun _ => some 6.5, rfl, by simp, by simp, by simp⟩

/-- The Voigt profile is positive. -/
theorem C82_voigt_pos (x m σ Γ : ℝ) (hσ : 0 < σ) (hΓ : 0 < Γ) : 0 < Spec.voigt x m σ Γ := by
  rw [Faddeeva.voigt_eq x m σ Γ hσ hΓ]
  have h2 : 0 < Real.sqrt 2 := Real.sqrt_pos.2 (by norm_num)
  have hp := Faddeeva.sqrtpi_pos
  refine mul_pos (by positivity) ?_
  set z := Complex.mk ((x - m) / (Real.sqrt 2 * σ)) (Γ / (2 * (Real.sqrt 2 * σ))) with hzd
  have hz : 0 < z.im := by rw [hzd]; positivity
  rw [Faddeeva.fad_re z hz]
  refine mul_pos (by positivity) ?_
  have hpos : ∀ t : ℝ, 0 < z.im * Real.exp (-t ^ 2) / ((z.re - t) ^ 2 + z.im ^ 2) := fun t => by
    have := Real.exp_pos (-t ^ 2)
    positivity
  rw [integral_pos_iff_support_of_nonneg (fun t => (hpos t).le)]
  · have : Function.support (fun t : ℝ => z.im * Real.exp (-t ^ 2) / ((z.re - t) ^ 2 + z.im ^ 2)) = Set.univ := by
      ext t; exact iff_of_true (hpos t).ne' trivial
    rw [this]; simp
  · have ha : Integrable (fun t : ℝ => (1 / z.im) * Real.exp (-(1 : ℝ) * t ^ 2)) :=
      (integrable_exp_neg_mul_sq (by norm_num)).const_mul _
    refine ha.mono' (Continuous.aestronglyMeasurable ?_) (Filter.Eventually.of_forall fun t => ?_)
    · apply Continuous.div
      · fun_prop
      · fun_prop
      · intro t; positivity
    · rw [Real.norm_of_nonneg (hpos t).le, div_le_iff₀ (by positivity), neg_one_mul]
      have e0 := Real.exp_pos (-t ^ 2)
      have : 1 / z.im * Real.exp (-t ^ 2) * ((z.re - t) ^ 2 + z.im ^ 2) =
          z.im * Real.exp (-t ^ 2) + 1 / z.im * Real.exp (-t ^ 2) * (z.re - t) ^ 2 := by
        field_simp; ring
      rw [this]
      have : 0 ≤ 1 / z.im * Real.exp (-t ^ 2) * (z.re - t) ^ 2 := by positivity
      linarith

end GooFit
