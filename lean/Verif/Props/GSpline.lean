import Verif.Props.Component4
import Verif.Spec.GSpline
import Mathlib.Topology.Algebra.Order.LiminfLimsup
import Mathlib.Topology.Instances.Real.Lemmas
import Mathlib.Analysis.Calculus.Deriv.Pow
import Mathlib.Analysis.Calculus.Deriv.Mul
import Mathlib.Analysis.Calculus.Deriv.Add
import Mathlib.Data.List.GetD
/-!
# C79: the line shape with a spline for its width
-/
set_option autoImplicit false
namespace GooFit
open Spec

/-- The specification is what it says: values and second derivatives at the ends of the cell. -/
theorem cubicCell_ends (h y0 y1 c0 c1 : ℝ) (hh : h ≠ 0) :
    cubicCell h y0 y1 c0 c1 0 = y0 ∧ cubicCell h y0 y1 c0 c1 h = y1
    ∧ (∀ t, HasDerivAt (cubicCell h y0 y1 c0 c1) ((y1 - y0) / h - (c1 + 2 * c0) * h / 6 + t * c0 + t ^ 2 * (c1 - c0) / (2 * h)) t)
    ∧ ∀ t, HasDerivAt (fun t => (y1 - y0) / h - (c1 + 2 * c0) * h / 6 + t * c0 + t ^ 2 * (c1 - c0) / (2 * h))
        (c0 + t * (c1 - c0) / h) t := by
  refine ⟨by simp [cubicCell], ?_, fun t => ?_, fun t => ?_⟩
  · unfold cubicCell
    field_simp
    ring
  · unfold cubicCell
    have h1 := (hasDerivAt_id t).mul_const ((y1 - y0) / h - (c1 + 2 * c0) * h / 6)
    have h2 := ((hasDerivAt_pow 2 t).mul_const c0).div_const 2
    have h3 := ((hasDerivAt_pow 3 t).mul_const (c1 - c0)).div_const (6 * h)
    have := HasDerivAt.fun_add (HasDerivAt.fun_add (HasDerivAt.const_add y0 h1) h2) h3
    refine HasDerivAt.congr_deriv this ?_
    norm_num
    field_simp
    ring
  · have h1 := (hasDerivAt_id t).mul_const c0
    have h3 := ((hasDerivAt_pow 2 t).mul_const (c1 - c0)).div_const (2 * h)
    have := HasDerivAt.fun_add (HasDerivAt.const_add ((y1 - y0) / h - (c1 + 2 * c0) * h / 6) h1) h3
    refine HasDerivAt.congr_deriv this ?_
    norm_num
    field_simp

theorem curvatures_length (junk : Nat → Nat → ℝ) (y curv : List ℝ) (lo hi : ℝ)
    (h : splineCurvatures junk y lo hi = some curv) : curv.length = y.length ∧ 2 ≤ y.length := by
  unfold splineCurvatures at h
  split at h
  · simp at h
  · simp only [Option.some.injEq] at h
    subst h
    simp [curvaturesOf]
    omega

/-- What a constructed spline line shape holds. -/
theorem gspline_built (junk : Nat → Nat → ℝ) (h0 : Nat → ℝ) (a : LsArgs) (mass width : Nat) (vars : List Nat) (lo hi : ℝ)
    (n : Nat) (o : LsObj) (hb : lsBuild junk h0 (.gspline a mass width vars lo hi n) = some o) :
    ∃ curv, splineCurvatures junk (vars.map h0) lo hi = some curv ∧ curv.length = n ∧ 2 ≤ n ∧ o.fn = .Spline
      ∧ o.params = [mass, width] ∧ o.consts = [(a.pair : ℝ), a.radius, lo, hi, (n : ℝ)] ++ curv := by
  simp only [lsBuild] at hb
  split_ifs at hb with hn
  obtain ⟨curv, hc, hc'⟩ := Option.map_eq_some_iff.1 hb
  obtain ⟨l1, l2⟩ := curvatures_length _ _ _ _ _ hc
  simp only [List.length_map] at l1 l2
  subst hc'
  rw [not_not] at hn
  exact ⟨curv, hc, by omega, by omega, rfl, rfl, rfl⟩

/-- **C79 (violation).** The values of the spline at its knots never reach the device function, which expects them before the
second derivatives: strictly inside the range of the spline it reads constants that are not its own, whatever the arguments of
the constructor. -/
theorem C79_violation_out_of_range (junk : Nat → Nat → ℝ) (h0 : Nat → ℝ) (a : LsArgs) (mass width : Nat) (vars : List Nat)
    (lo hi : ℝ) (n : Nat) (o : LsObj) (hb : lsBuild junk h0 (.gspline a mass width vars lo hi n) = some o) (x : ℝ)
    (h1 : lo < x) (h2 : x < hi) (continued : Bool) : getSpline o.consts x continued = none := by
  obtain ⟨curv, -, hl, hn, -, -, hc⟩ := gspline_built _ _ _ _ _ _ _ _ _ _ hb
  rw [hc]
  unfold getSpline
  simp only [List.cons_append, List.nil_append, List.getElem?_cons_zero, List.getElem?_cons_succ, bind, Option.bind,
    toU_natCast, not_le.2 h1, not_le.2 h2, if_false, pure]
  have hout : ∀ k : Nat, ((a.pair : ℝ) :: a.radius :: lo :: hi :: (n : ℝ) :: curv)[5 + k + n]? = none := by
    intro k
    rw [List.getElem?_eq_none]
    simp
    omega
  rw [hout]
  generalize hA : ((a.pair : ℝ) :: a.radius :: lo :: hi :: (n : ℝ) :: curv)[5 + toU ((x - lo) / ((hi - lo) / (↑n - 1)))]? = A
  cases A with
  | none => rfl
  | some A =>
    dsimp only
    generalize hB : (a.radius :: lo :: hi :: (n : ℝ) :: curv)[5 + toU ((x - lo) / ((hi - lo) / (↑n - 1)))]? = B
    cases B <;> rfl

theorem gspline_outside (junk : Nat → Nat → ℝ) (h0 : Nat → ℝ) (a : LsArgs) (mass width : Nat) (vars : List Nat)
    (lo hi : ℝ) (n : Nat) (o : LsObj) (hb : lsBuild junk h0 (.gspline a mass width vars lo hi n) = some o) (x : ℝ)
    (h1 : ¬ (lo < x ∧ x < hi)) : ∃ y, ∀ continued : Bool, getSpline o.consts x continued = some (if continued then y else 0) := by
  obtain ⟨curv, -, hl, hn, -, -, hc⟩ := gspline_built _ _ _ _ _ _ _ _ _ _ hb
  rw [hc]
  unfold getSpline
  simp only [List.cons_append, List.nil_append, List.getElem?_cons_zero, List.getElem?_cons_succ, bind, Option.bind,
    toU_natCast, pure]
  by_cases h2 : x ≤ lo
  · have hlt : 0 < curv.length := by omega
    refine ⟨curv[0], fun continued => ?_⟩
    rw [if_pos h2, List.getElem?_eq_getElem hlt]
  · have h3 : hi ≤ x := by
      by_contra h3
      exact h1 ⟨not_le.1 h2, not_le.1 h3⟩
    have hlt : n - 1 < curv.length := by omega
    refine ⟨curv[n - 1], fun continued => ?_⟩
    rw [if_neg h2, if_pos h3, show 5 + n - 1 = n - 1 + 5 by omega]
    simp only [List.getElem?_cons_succ]
    rw [List.getElem?_eq_getElem hlt]

/-- **C79 (violation).** The width is never the one the user asked for.  If the nominal mass is inside the range of the spline,
every evaluation reads constants that are not the line shape's; if not, the width is zero wherever the evaluation does not. -/
theorem C79_violation_width (junk : Nat → Nat → ℝ) (h0 : Nat → ℝ) (a : LsArgs) (mass width : Nat) (vars : List Nat)
    (lo hi : ℝ) (n : Nat) (o : LsObj) (hb : lsBuild junk h0 (.gspline a mass width vars lo hi n) = some o) (h : Nat → ℝ)
    (M m1 m2 : ℝ) :
    (lo < h mass ^ 2 ∧ h mass ^ 2 < hi → lsDevice o.fn (o.params.map h) o.consts M m1 m2 = none)
    ∧ (lo < M ^ 2 ∧ M ^ 2 < hi → lsDevice o.fn (o.params.map h) o.consts M m1 m2 = none)
    ∧ (¬ (lo < h mass ^ 2 ∧ h mass ^ 2 < hi) → ¬ (lo < M ^ 2 ∧ M ^ 2 < hi) →
        lsDevice o.fn (o.params.map h) o.consts M m1 m2
          = some (((gsK (h mass) (h width) * Real.exp (-|gsQ2 (M ^ 2) (m1 ^ 2) (m2 ^ 2)| * a.radius ^ 2 / 2) : ℝ) : ℂ)
              / ((h mass ^ 2 - M ^ 2 : ℝ) : ℂ))) := by
  obtain ⟨curv, -, hl, hn, hf, hp, hc⟩ := gspline_built _ _ _ _ _ _ _ _ _ _ hb
  have hin := C79_violation_out_of_range _ _ _ _ _ _ _ _ _ _ hb
  have hout := gspline_outside _ _ _ _ _ _ _ _ _ _ hb
  have hr : o.consts[1]? = some a.radius := by rw [hc]; rfl
  rw [hf, hp]
  simp only [lsDevice, splineTDP, List.map_cons, List.map_nil, List.getElem?_cons_zero, List.getElem?_cons_succ, bind, Option.bind,
    hr, pure]
  refine ⟨fun hm => ?_, fun hs => ?_, fun hm hs => ?_⟩
  · rw [hin _ hm.1 hm.2]
    cases getSpline o.consts (M ^ 2) true <;> rfl
  · rw [hin _ hs.1 hs.2]
  · obtain ⟨y1, e1⟩ := hout _ hm
    obtain ⟨y2, e2⟩ := hout _ hs
    rw [e1, e2]
    simp only [if_true, Bool.false_eq_true, if_false, mul_zero]
    rfl

/-- **C79 (violation).** The values at the knots enter only through the second derivatives, at construction: values that differ
by a straight line give the same line shape. -/
theorem C79_violation_values (junk : Nat → Nat → ℝ) (h0 h1 : Nat → ℝ) (a : LsArgs) (mass width : Nat) (vars : List Nat)
    (lo hi : ℝ) (n : Nat) (α β : ℝ) (hv : ∀ (k : Nat) (v : Nat), vars[k]? = some v → h1 v = h0 v + (α + β * k)) :
    lsBuild junk h1 (.gspline a mass width vars lo hi n) = lsBuild junk h0 (.gspline a mass width vars lo hi n) := by
  simp only [lsBuild]
  have : splineCurvatures junk (vars.map h1) lo hi = splineCurvatures junk (vars.map h0) lo hi := by
    unfold splineCurvatures
    simp only [List.length_map]
    split
    · rfl
    · next hlt =>
      congr 1
      unfold curvaturesOf
      have hL : (fun i : Fin (vars.length - 2) => (vars.map h1).getD (i + 2) 0 - 2 * (vars.map h1).getD (i + 1) 0
            + (vars.map h1).getD i 0)
          = fun i : Fin (vars.length - 2) => (vars.map h0).getD (i + 2) 0 - 2 * (vars.map h0).getD (i + 1) 0
            + (vars.map h0).getD i 0 := by
        funext i
        have hi := i.2
        have e : ∀ k : Nat, k < vars.length → (vars.map h1).getD k 0 = (vars.map h0).getD k 0 + (α + β * k) := by
          intro k hk
          rw [List.getD_eq_getElem _ _ (by simpa using hk), List.getD_eq_getElem _ _ (by simpa using hk), List.getElem_map,
            List.getElem_map]
          exact hv k _ (List.getElem?_eq_getElem hk)
        rw [e _ (by omega), e _ (by omega), e _ (by omega)]
        push_cast
        ring
      simp only [hL]
  rw [this]

/-- **C79 (violation).** With three knots, where the matrix is in order, the second derivative at the middle one is 9/4 of that
of the natural cubic spline: the distance of the knots is taken to be a third of the range, it is a half. -/
theorem C79_violation_curvature (junk : Nat → Nat → ℝ) (y0 y1 y2 lo hi : ℝ) :
    splineCurvatures junk [y0, y1, y2] lo hi
      = some [0, 9 / 4 * (6 * (y2 - 2 * y1 + y0) / (4 * ((hi - lo) / 2) ^ 2)), 0] := by
  have hm : curvInverse (curvMatrix junk 1) 1 = Matrix.of fun _ _ => (1 / 4 : ℝ) := by
    unfold curvInverse
    refine Matrix.inv_eq_left_inv ?_
    ext i j
    fin_cases i; fin_cases j
    simp [Matrix.mul_apply, curvMatrix, put2]
  unfold splineCurvatures curvaturesOf
  simp only [List.length_cons, List.length_nil]
  rw [if_neg (by norm_num)]
  simp only [show 0 + 1 + 1 + 1 - 2 = 1 from rfl, hm]
  simp only [List.ofFn_succ, List.ofFn_zero, List.cons_append, List.nil_append, Option.some.injEq, List.cons.injEq, and_true,
    true_and]
  simp [Matrix.mulVec, dotProduct]
  by_cases hd : hi = lo
  · simp [hd]
  · have h1 : hi - lo ≠ 0 := sub_ne_zero.2 hd
    have h2 : lo - hi ≠ 0 := sub_ne_zero.2 (Ne.symm hd)
    rw [show (lo - hi) = -(hi - lo) by ring]
    generalize hi - lo = w at h1
    field_simp
    ring

/-- **C79 (violation).** With four knots the second derivatives depend on what happened to be in memory. -/
theorem C79_violation_uninitialised : ∃ junk junk' : Nat → Nat → ℝ,
    splineCurvatures junk [0, 0, 1, 0] 0 1 ≠ splineCurvatures junk' [0, 0, 1, 0] 0 1 := by
  have key : ∀ j : ℝ, j ≠ 16 → splineCurvatures (fun _ _ => j) [0, 0, 1, 0] 0 1
      = some [0, 6 * (6 / (16 - j)) * 16, 6 * ((-8 - j) / (16 - j)) * 16, 0] := by
    intro j hj
    have hj' : 16 - j ≠ 0 := sub_ne_zero.2 (Ne.symm hj)
    have hm : curvInverse (curvMatrix (fun _ _ => j) 2) 2
        = Matrix.of ![![4 / (16 - j), -1 / (16 - j)], ![-j / (16 - j), 4 / (16 - j)]] := by
      unfold curvInverse
      refine Matrix.inv_eq_left_inv ?_
      ext i k
      fin_cases i <;> fin_cases k <;>
        simp [Matrix.mul_apply, Fin.sum_univ_two, curvMatrix, put2, List.range_succ] <;> field_simp <;> ring
    unfold splineCurvatures curvaturesOf
    simp only [List.length_cons, List.length_nil]
    rw [if_neg (by norm_num)]
    simp only [show 0 + 1 + 1 + 1 + 1 - 2 = 2 from rfl, hm]
    simp [List.ofFn_succ, Matrix.mulVec, dotProduct, Fin.sum_univ_two]
    constructor <;> field_simp <;> ring
  refine ⟨fun _ _ => 0, fun _ _ => 1, ?_⟩
  rw [key 0 (by norm_num), key 1 (by norm_num)]
  norm_num

/-! ### The evaluation, if the constants were as it expects them -/

/-- The constants the device function expects: after the five others the values at the knots, then the second derivatives. -/
def splineConsts (pair r lo hi : ℝ) (y c : List ℝ) : List ℝ := [pair, r, lo, hi, (y.length : ℝ)] ++ y ++ c

/-- **C79 (evaluation)** (what is missing: the constructor does not register these constants,
`C79_violation_out_of_range`; and the term with the square of the distance is twice that of the cubic).  On the cell after knot
`k` the result is the cubic with the given values and second derivatives, plus `t² c_k / 2`; in particular at every knot it is
the given value. -/
theorem C79_evaluation_partial (pair r lo hi : ℝ) (y c : List ℝ) (hc : c.length = y.length) (hlt : lo < hi) (k : Nat)
    (hk : k + 1 < y.length) (t h : ℝ) (hh : h = (hi - lo) / ((y.length : ℝ) - 1)) (h0 : 0 ≤ t) (h1 : t < h) :
    getSpline (splineConsts pair r lo hi y c) (lo + k * h + t) true
      = some (cubicCell h (y.getD k 0) (y.getD (k + 1) 0) (c.getD k 0) (c.getD (k + 1) 0) t + t ^ 2 * c.getD k 0 / 2) := by
  have hn : (0 : ℝ) < (y.length : ℝ) - 1 := by
    have : (2 : ℝ) ≤ (y.length : ℝ) := by exact_mod_cast (by omega : 2 ≤ y.length)
    linarith
  have hpos : 0 < h := by rw [hh]; exact div_pos (by linarith) hn
  have hk0 : (0 : ℝ) ≤ k := Nat.cast_nonneg k
  have hread : ∀ j : Nat, j < y.length → (splineConsts pair r lo hi y c)[5 + j]? = some (y.getD j 0) := by
    intro j hj
    rw [Nat.add_comm 5 j]
    simp only [splineConsts, List.cons_append, List.nil_append, List.getElem?_cons_succ]
    rw [List.getElem?_append_left hj, List.getElem?_eq_getElem hj, List.getD_eq_getElem _ _ hj]
  have hread' : ∀ j : Nat, j < y.length → (splineConsts pair r lo hi y c)[5 + j + y.length]? = some (c.getD j 0) := by
    intro j hj
    rw [show 5 + j + y.length = y.length + j + 5 by ring]
    simp only [splineConsts, List.cons_append, List.nil_append, List.getElem?_cons_succ]
    rw [List.getElem?_append_right (by omega), show y.length + j - y.length = j by omega,
      List.getElem?_eq_getElem (by omega), List.getD_eq_getElem _ _ (by omega)]
  have hr2 : (splineConsts pair r lo hi y c)[2]? = some lo := rfl
  have hr3 : (splineConsts pair r lo hi y c)[3]? = some hi := rfl
  have hr4 : (splineConsts pair r lo hi y c)[4]? = some (y.length : ℝ) := rfl
  unfold getSpline
  simp only [bind, Option.bind, hr2, hr3, hr4, toU_natCast, pure, if_true]
  by_cases hx : lo + k * h + t ≤ lo
  · have hkt : (k : ℝ) * h = 0 ∧ t = 0 := by
      have := mul_nonneg hk0 hpos.le
      constructor <;> linarith
    have hk' : k = 0 := by
      rcases mul_eq_zero.1 hkt.1 with h' | h'
      · exact_mod_cast h'
      · exact absurd h' hpos.ne'
    rw [if_pos hx, hread 0 (by omega), hk', hkt.2]
    simp [cubicCell]
  · have hx2 : ¬ hi ≤ lo + k * h + t := by
      rw [not_le]
      have e : hi = lo + ((y.length : ℝ) - 1) * h := by
        rw [hh, mul_div_cancel₀ _ hn.ne']; ring
      have : ((k : ℝ) + 1) * h ≤ ((y.length : ℝ) - 1) * h := by
        refine mul_le_mul_of_nonneg_right ?_ hpos.le
        have : ((k + 1 + 1 : Nat) : ℝ) ≤ (y.length : ℝ) := by exact_mod_cast hk
        push_cast at this
        linarith
      rw [e]
      nlinarith
    rw [if_neg hx, if_neg hx2, ← hh]
    have hbin : toU ((lo + k * h + t - lo) / h) = k := by
      unfold toU
      rw [show (lo + k * h + t - lo) / h = (k : ℝ) + t / h by field_simp; ring, Nat.floor_eq_iff (by positivity)]
      have := (div_lt_one hpos).2 h1
      have h2 : 0 ≤ t / h := by positivity
      constructor <;> linarith
    rw [hbin, hread k (by omega), hread' k (by omega), show 5 + k + 1 = 5 + (k + 1) by ring, hread (k + 1) hk,
      show 5 + k + y.length + 1 = 5 + (k + 1) + y.length by ring, hread' (k + 1) hk]
    simp only [Option.some.injEq]
    unfold cubicCell
    rw [show lo + k * h + t - lo - k * h = t by ring]
    ring

/-- **C79 (outside)** (what is missing: as above).  Beyond the knots the spline continues with its end values, or is zero. -/
theorem C79_outside_partial (pair r lo hi : ℝ) (y c : List ℝ) (hn : 2 ≤ y.length) (hlt : lo < hi) (x : ℝ) :
    (x ≤ lo → getSpline (splineConsts pair r lo hi y c) x true = some (y.getD 0 0)
      ∧ getSpline (splineConsts pair r lo hi y c) x false = some 0)
    ∧ (hi ≤ x → getSpline (splineConsts pair r lo hi y c) x true = some (y.getD (y.length - 1) 0)
      ∧ getSpline (splineConsts pair r lo hi y c) x false = some 0) := by
  have hr2 : (splineConsts pair r lo hi y c)[2]? = some lo := rfl
  have hr3 : (splineConsts pair r lo hi y c)[3]? = some hi := rfl
  have hr4 : (splineConsts pair r lo hi y c)[4]? = some (y.length : ℝ) := rfl
  have hread : ∀ j : Nat, j < y.length → (splineConsts pair r lo hi y c)[j + 5]? = some (y.getD j 0) := by
    intro j hj
    simp only [splineConsts, List.cons_append, List.nil_append, List.getElem?_cons_succ]
    rw [List.getElem?_append_left hj, List.getElem?_eq_getElem hj, List.getD_eq_getElem _ _ hj]
  unfold getSpline
  simp only [bind, Option.bind, hr2, hr3, hr4, toU_natCast, pure]
  constructor
  · intro hx
    have hne : (5 + 0 : Nat) = 0 + 5 := rfl
    constructor <;> rw [if_pos hx, hne, hread 0 (by omega)] <;> rfl
  · intro hx
    have hne : 5 + y.length - 1 = y.length - 1 + 5 := by omega
    have hnl : ¬ x ≤ lo := by linarith
    constructor <;> rw [if_neg hnl, if_pos hx, hne, hread _ (by omega)] <;> rfl

/-- **C79 (violation).** Even with the right constants the spline jumps at a knot, unless the second derivative at the knot
before is zero. -/
theorem C79_violation_jump (pair r lo hi : ℝ) (y c : List ℝ) (hc : c.length = y.length) (hlt : lo < hi) (k : Nat)
    (hk : k + 1 < y.length) (h : ℝ) (hh : h = (hi - lo) / ((y.length : ℝ) - 1)) (hck : c.getD k 0 ≠ 0) :
    ¬ ContinuousAt (fun x => (getSpline (splineConsts pair r lo hi y c) x true).getD 0) (lo + (k + 1) * h) := by
  intro hcont
  have hn : (0 : ℝ) < (y.length : ℝ) - 1 := by
    have : (2 : ℝ) ≤ (y.length : ℝ) := by exact_mod_cast (by omega : 2 ≤ y.length)
    linarith
  have hpos : 0 < h := by rw [hh]; exact div_pos (by linarith) hn
  set g : ℝ → ℝ := fun x => cubicCell h (y.getD k 0) (y.getD (k + 1) 0) (c.getD k 0) (c.getD (k + 1) 0) (x - lo - k * h)
    + (x - lo - k * h) ^ 2 * c.getD k 0 / 2 with hg
  have hgc : Continuous g := by
    rw [hg]; unfold cubicCell; fun_prop
  have hev : (fun x => (getSpline (splineConsts pair r lo hi y c) x true).getD 0)
      =ᶠ[nhdsWithin (lo + (k + 1) * h) (Set.Iio (lo + (k + 1) * h))] g := by
    have : Set.Ioo (lo + k * h) (lo + (k + 1) * h) ∈ nhdsWithin (lo + (k + 1) * h) (Set.Iio (lo + (k + 1) * h)) :=
      Ioo_mem_nhdsLT (by nlinarith)
    filter_upwards [this] with x hx
    have h1 := hx.1
    have h2 := hx.2
    have := C79_evaluation_partial pair r lo hi y c hc hlt k hk (x - lo - k * h) h hh (by linarith) (by nlinarith)
    rw [show lo + k * h + (x - lo - k * h) = x by ring] at this
    rw [this]
    rfl
  have t1 : Filter.Tendsto (fun x => (getSpline (splineConsts pair r lo hi y c) x true).getD 0)
      (nhdsWithin (lo + (k + 1) * h) (Set.Iio (lo + (k + 1) * h)))
      (nhds ((getSpline (splineConsts pair r lo hi y c) (lo + (k + 1) * h) true).getD 0)) :=
    hcont.tendsto.mono_left nhdsWithin_le_nhds
  have t2 : Filter.Tendsto (fun x => (getSpline (splineConsts pair r lo hi y c) x true).getD 0)
      (nhdsWithin (lo + (k + 1) * h) (Set.Iio (lo + (k + 1) * h))) (nhds (g (lo + (k + 1) * h))) :=
    ((hgc.tendsto _).mono_left nhdsWithin_le_nhds).congr' hev.symm
  have e := tendsto_nhds_unique t1 t2
  have eg : g (lo + (k + 1) * h) = y.getD (k + 1) 0 + h ^ 2 * c.getD k 0 / 2 := by
    rw [hg]
    simp only
    rw [show lo + ((k : ℝ) + 1) * h - lo - k * h = h by ring, (cubicCell_ends h _ _ _ _ hpos.ne').2.1]
  have ef : (getSpline (splineConsts pair r lo hi y c) (lo + (k + 1) * h) true).getD 0 = y.getD (k + 1) 0 := by
    by_cases hlast : k + 2 < y.length
    · have := C79_evaluation_partial pair r lo hi y c hc hlt (k + 1) hlast 0 h hh le_rfl hpos
      rw [add_zero] at this
      push_cast at this
      rw [this]
      simp [cubicCell]
    · have hlen : y.length = k + 2 := by omega
      have hx : hi = lo + ((k : ℝ) + 1) * h := by
        rw [hh, hlen]
        push_cast
        have : (k : ℝ) + 2 - 1 ≠ 0 := by
          have : (0 : ℝ) ≤ k := Nat.cast_nonneg k
          linarith
        field_simp
        ring
      have := (C79_outside_partial pair r lo hi y c (by omega) hlt (lo + (k + 1) * h)).2 hx.le
      rw [this.1, hlen]
      rfl
  rw [ef, eg] at e
  have : h ^ 2 * c.getD k 0 / 2 = 0 := by linarith
  have h2 : h ^ 2 * c.getD k 0 ≠ 0 := mul_ne_zero (pow_ne_zero 2 hpos.ne') hck
  exact h2 (by linarith)

/-- **C79 (the line shape)** (what is missing: that the constants are the line shape's own).  Where the spline has the values `a`
at the pair mass and `b`, not zero, at the nominal mass, the width is `Γ a / b`; so at the nominal mass it is `Γ`. -/
theorem C79_line_shape_partial (m Γ : ℝ) (C : List ℝ) (r : ℝ) (hr : C[1]? = some r) (M m1 m2 a b : ℝ)
    (ha : getSpline C (M ^ 2) true = some a) (hb : getSpline C (m ^ 2) false = some b) (hb0 : b ≠ 0) (hΓ : Γ ≠ 0) :
    splineTDP [m, Γ] C M m1 m2
      = some (((gsK m Γ * Real.exp (-|gsQ2 (M ^ 2) (m1 ^ 2) (m2 ^ 2)| * r ^ 2 / 2) : ℝ) : ℂ)
          / (((m ^ 2 - M ^ 2 : ℝ) : ℂ) - Complex.I * ((m * (Γ * (a / b)) : ℝ) : ℂ))) := by
  unfold splineTDP
  simp only [List.getElem?_cons_zero, List.getElem?_cons_succ, bind, Option.bind, hr, ha, hb, pure, Option.some.injEq]
  congr 1
  rw [if_neg (mul_ne_zero hΓ hb0)]
  generalize m ^ 2 - M ^ 2 = u
  apply Complex.ext
  · simp
  · simp
    field_simp
    simp

/-! ### The hypotheses are met -/

/-- A spline line shape with three knots. -/
noncomputable def exSpline : LsNew := .gspline ⟨"a1", 1, 6, .One, 1.5⟩ 0 1 [2, 3, 4] 1 2 3

example (junk : Nat → Nat → ℝ) (h : Nat → ℝ) : ∃ o, lsBuild junk h exSpline = some o := by
  simp only [exSpline, lsBuild]
  rw [if_neg (by simp)]
  simp only [List.map_cons, List.map_nil, C79_violation_curvature, Option.map_some]
  exact ⟨_, rfl⟩

/-- With a linear spline (no second derivatives), the evaluation at the middle of the second cell. -/
example : getSpline (splineConsts 0 0 1 3 [1, 2, 4] [0, 0, 0]) (5 / 2) true = some 3 := by
  have := C79_evaluation_partial 0 0 1 3 [1, 2, 4] [0, 0, 0] rfl (by norm_num) 1 (by norm_num) (1 / 2) 1 (by norm_num)
    (by norm_num) (by norm_num)
  norm_num [cubicCell] at this
  rw [this]

end GooFit
