import Verif.Lemmas.SplineRes

/-!
# C56: the spline resonance is the smooth curve through its coefficients

A user of `Resonances::Spline` gives knots and complex coefficients, fits the
coefficients, and relies on the amplitude being the twice continuously
differentiable piecewise cubic through them.
-/

set_option autoImplicit false

namespace GooFit

open Spec Filter Topology

/-- The amplitude of object `o` as a function of the squared mass of its pair. -/
noncomputable def splAt (w : SplWorld) (o : SplineObj) (a b t : ℝ) : ℝ × ℝ :=
  splEval w o (place o.cyc t a b).1 (place o.cyc t a b).2.1 (place o.cyc t a b).2.2

theorem splAt_eq (w : SplWorld) (o : SplineObj) (hc : o.cyc ≤ 2) (hs : o.swap = false) (a b t : ℝ) :
    splAt w o a b t = (splVal o.x o.re (fun k => w.table (k + k)) o.n t,
      splVal o.x o.im (fun k => w.table (k + k + 1)) o.n t) := by
  unfold splAt splEval place
  rcases (by omega : o.cyc = 0 ∨ o.cyc = 1 ∨ o.cyc = 2) with h | h | h <;> simp [h, hs]

/-- **C56 (interpolation).**  In every state a program can reach, with any
number of splines and any values in the shared table: at each knot but the last
the amplitude is the coefficient of that knot. -/
theorem C56_interpolates (w : SplWorld) (o : SplineObj) (hx : Increasing o.x o.n)
    (hc : o.cyc ≤ 2) (hs : o.swap = false) (a b : ℝ) (k : Nat) (hk : k + 1 < o.n) :
    splAt w o a b (o.x k) = (o.re k, o.im k) := by
  rw [splAt_eq w o hc hs]
  have h1 := hx k hk
  rw [splVal_seg hx hk le_rfl h1, splVal_seg hx hk le_rfl h1, splSeg_left _ _ _ _ h1,
    splSeg_left _ _ _ _ h1]

/-- **C56 (zero outside).**  Outside the knots the amplitude is zero. -/
theorem C56_outside (w : SplWorld) (o : SplineObj) (hx : Increasing o.x o.n) (hn : 2 ≤ o.n)
    (hc : o.cyc ≤ 2) (hs : o.swap = false) (a b t : ℝ) (ht : t < o.x 0 ∨ o.x (o.n - 1) ≤ t) :
    splAt w o a b t = (0, 0) := by
  rw [splAt_eq w o hc hs]
  obtain ⟨-, h2, h3, h4⟩ := khiGo_spec o.x t o.n 0
  have : ¬ (0 < khiGo o.x t o.n 0 ∧ khiGo o.x t o.n 0 < o.n) := by
    rintro ⟨g1, g2⟩
    rcases ht with h | h
    · have := h3 0 le_rfl g1
      linarith
    · have := h4 (by omega)
      have h5 := hx.le (j := khiGo o.x t o.n 0) (k := o.n - 1) (by omega) (by omega)
      linarith
  unfold splVal
  simp only [if_neg this]

theorem splVal_pw {x y d : Nat → ℝ} {n : Nat} (hn : 2 ≤ n) {t : ℝ}
    (h1 : x 0 < t) (h2 : t < x (n - 1)) : splVal x y d n t = pw x n (splSeg x y d) t := by
  obtain ⟨-, b, c, d'⟩ := khiGo_spec x t n 0
  unfold splVal pw
  rw [if_pos]
  constructor
  · by_contra h
    have h0 : khiGo x t n 0 = 0 := by omega
    have := d' (by omega)
    rw [h0] at this
    linarith
  · by_contra h
    have := c (n - 1) (Nat.zero_le _) (by omega)
    linarith

theorem splVal_eventually {x y d : Nat → ℝ} {n : Nat} (hn : 2 ≤ n) {t : ℝ}
    (h1 : x 0 < t) (h2 : t < x (n - 1)) : splVal x y d n =ᶠ[𝓝 t] pw x n (splSeg x y d) := by
  filter_upwards [Ioo_mem_nhds h1 h2] with s hs
  exact splVal_pw hn hs.1 hs.2

/-- **C56 (continuity).**  In every state, whatever the table contains, the
amplitude is continuous between the first and the last knot. -/
theorem C56_continuous (w : SplWorld) (o : SplineObj) (hx : Increasing o.x o.n) (hn : 2 ≤ o.n)
    (hc : o.cyc ≤ 2) (hs : o.swap = false) (a b t : ℝ) (h1 : o.x 0 < t) (h2 : t < o.x (o.n - 1)) :
    ContinuousAt (splAt w o a b) t := by
  have : splAt w o a b = fun t => (splVal o.x o.re (fun k => w.table (k + k)) o.n t,
      splVal o.x o.im (fun k => w.table (k + k + 1)) o.n t) := funext (splAt_eq w o hc hs a b)
  rw [this]
  have hcont : ∀ y d : Nat → ℝ, ContinuousAt (splVal o.x y d o.n) t := fun y d =>
    (pw_cont hx (splSeg o.x y d) (splSeg_glue hx y d)
      (fun k hk m => (splSeg_deriv o.x y d k (hx k hk) m).continuousAt) h1 h2 hn).congr
      (splVal_eventually hn h1 h2).symm
  exact (hcont _ _).prodMk (hcont _ _)

/-- The table entries the constructor writes. -/
theorem splRun_last {w0 w : SplWorld} {ops : List SplOp} {o : SplineObj}
    (h : splRun w0 (ops ++ [.construct o]) = some w) :
    o ∈ w.objs ∧ ∀ k, k < o.n → w.table (k + k) = splDeriv o.x o.re o.n k ∧
      w.table (k + k + 1) = splDeriv o.x o.im o.n k := by
  induction ops generalizing w0 with
  | nil =>
    simp only [List.nil_append, splRun, splStep, splRecalc, Option.bind_eq_bind] at h
    by_cases hfit : 2 * o.n ≤ 200
    · rw [if_pos hfit] at h
      simp only [Option.map_some, Option.bind_some, Option.some.injEq] at h
      subst h
      refine ⟨by simp, fun k hk => ⟨?_, ?_⟩⟩
      · dsimp only
        rw [if_pos (by omega), if_pos (by omega), show (k + k) / 2 = k by omega]
      · dsimp only
        rw [if_pos (by omega), if_neg (by omega), show (k + k + 1) / 2 = k by omega]
    · rw [if_neg hfit] at h
      simp at h
  | cons op ops ih =>
    rw [List.cons_append, splRun] at h
    cases hstep : splStep w0 op with
    | none => rw [hstep] at h; simp at h
    | some w1 => rw [hstep, Option.bind_some] at h; exact ih h

theorem splSeg_congr (x y d d' : Nat → ℝ) (n k : Nat) (hk : k + 1 < n)
    (h : ∀ j, j < n → d j = d' j) (m : ℝ) : splSeg x y d k m = splSeg x y d' k m := by
  unfold splSeg
  dsimp only
  rw [h k (by omega), h (k + 1) hk]

theorem splVal_congr (x y d d' : Nat → ℝ) (n : Nat) (h : ∀ j, j < n → d j = d' j) (m : ℝ) :
    splVal x y d n m = splVal x y d' n m := by
  unfold splVal
  dsimp only
  split
  · rename_i hh
    exact splSeg_congr x y d d' n _ (by omega) h m
  · rfl

theorem splVal_smooth {x y : Nat → ℝ} {n : Nat} (hx : Increasing x n) (hn : 2 ≤ n) :
    TwiceSmooth (splVal x y (splDeriv x y n) n) (x 0) (x (n - 1)) := by
  refine ⟨pw x n (splSeg1 x y (splDeriv x y n)), pw x n (splSeg2 x (splDeriv x y n)),
    fun t h1 h2 => ⟨?_, ?_, ?_⟩⟩
  · exact (pw_deriv hx _ _ (splSeg_glue hx y _) (splSeg1_glue hx)
      (fun k hk m => splSeg_deriv x y _ k (hx k hk) m) h1 h2 hn).congr_of_eventuallyEq
      (splVal_eventually hn h1 h2)
  · exact pw_deriv hx _ _ (splSeg1_glue hx) (splSeg2_glue hx _)
      (fun k hk m => splSeg1_deriv x y _ k (hx k hk) m) h1 h2 hn
  · exact pw_cont hx _ (splSeg2_glue hx _) (fun k _ m => splSeg2_cont x _ k m) h1 h2 hn

theorem splVal_curve {x y : Nat → ℝ} {n : Nat} (hx : Increasing x n) (hn : 2 ≤ n) :
    SplineCurve (splVal x y (splDeriv x y n) n) x y n := by
  refine ⟨splVal_smooth hx hn, fun hy => ?_, fun hy => ?_⟩
  · have hy' : splYp1 x y ≤ 0.99e30 := by
      unfold splYp1; unfold chord at hy; rw [mul_div_assoc]; exact hy
    have h01 : x 0 < x 1 := hx 0 (by omega)
    have hd := (splSeg_deriv x y (splDeriv x y n) 0 h01 (x 0)).hasDerivWithinAt
      (s := Set.Ici (x 0))
    rw [splSeg1_first hx hn hy'] at hd
    refine hd.congr_of_eventuallyEq ?_ (splVal_seg hx (by omega) le_rfl h01)
    filter_upwards [Ico_mem_nhdsGE h01] with s hs
    exact splVal_seg hx (by omega) hs.1 hs.2
  · have e21 : n - 2 + 1 = n - 1 := by omega
    have hc : chord x y (n - 2) = (y (n - 1) - y (n - 2)) / (x (n - 1) - x (n - 2)) := by
      unfold chord; rw [e21]
    have hy' : splYpn x y n ≤ 0.99e30 := by
      unfold splYpn; rw [hc] at hy; rw [mul_div_assoc]; exact hy
    have h01 : x (n - 2) < x (n - 1) := by have := hx (n - 2) (by omega); rwa [e21] at this
    have hd := (splSeg_deriv x y (splDeriv x y n) (n - 2) (by rw [e21]; exact h01)
      (x (n - 1))).hasDerivWithinAt (s := Set.Iic (x (n - 1)))
    rw [splSeg1_last hx hn hy', ← hc] at hd
    have hr : splSeg x y (splDeriv x y n) (n - 2) (x (n - 1)) = y (n - 1) := by
      have := splSeg_right x y (splDeriv x y n) (n - 2)
      rwa [e21] at this
    refine hd.congr_of_eventuallyEq ?_ (by rw [if_neg (lt_irrefl _), hr])
    filter_upwards [Ioc_mem_nhdsLE h01] with s hs
    rcases eq_or_lt_of_le hs.2 with e | e
    · rw [e, if_neg (lt_irrefl _), hr]
    · rw [if_pos e]
      exact splVal_seg hx (by omega) hs.1.le (by rw [e21]; exact e)

/-- **C56, partial (smoothness).**  After any program whose last step constructs
the spline, its real and imaginary parts are twice continuously differentiable
between the first and the last knot, with the boundary slopes of the code.
Missing: the same after the coefficients have changed and after another spline has
been constructed; both are false, see `C56_violation_stale` and
`C56_violation_shared`. -/
theorem C56_smooth_partial (w0 w : SplWorld) (ops : List SplOp) (o : SplineObj)
    (hrun : splRun w0 (ops ++ [.construct o]) = some w)
    (hx : Increasing o.x o.n) (hn : 2 ≤ o.n) (hc : o.cyc ≤ 2) (hs : o.swap = false) (a b : ℝ) :
    o ∈ w.objs ∧
    SplineCurve (fun t => (splAt w o a b t).1) o.x o.re o.n ∧
    SplineCurve (fun t => (splAt w o a b t).2) o.x o.im o.n := by
  obtain ⟨hm, ht⟩ := splRun_last hrun
  have e1 : (fun t => (splAt w o a b t).1) = splVal o.x o.re (splDeriv o.x o.re o.n) o.n := by
    funext t
    rw [splAt_eq w o hc hs]
    exact splVal_congr _ _ _ _ _ (fun j hj => (ht j hj).1) t
  have e2 : (fun t => (splAt w o a b t).2) = splVal o.x o.im (splDeriv o.x o.im o.n) o.n := by
    funext t
    rw [splAt_eq w o hc hs]
    exact splVal_congr _ _ _ _ _ (fun j hj => (ht j hj).2) t
  rw [e1, e2]
  exact ⟨hm, splVal_curve hx hn, splVal_curve hx hn⟩

/-- **C56 (symmetrised spline).**  With `symmDP` the amplitude at a point is the
sum of the amplitudes of the two pairs, and is unchanged when the two squared
masses are exchanged. -/
theorem C56_symmetric (w : SplWorld) (o : SplineObj) (hs : o.swap = true) (hc : o.cyc ≤ 1)
    (m12 m13 m23 : ℝ) :
    splEval w o m12 m13 m23 = splEval w o m13 m12 m23 ∧
    splEval w o m12 m13 m23 = splEval w { o with swap := false } m12 m13 m23
      + splEval w { o with swap := false } m13 m12 m23 := by
  unfold splEval
  rcases (by omega : o.cyc = 0 ∨ o.cyc = 1) with h | h <;>
    simp [h, hs, add_comm]

/-! ## What fails -/

/-- Knots 0, 1, 2. -/
def unitKnots : Nat → ℝ := fun k => k

theorem unitKnots_inc (n : Nat) : Increasing unitKnots n := by
  intro k _; unfold unitKnots; push_cast; linarith

/-- A triangle: coefficients 0, 1, 0. -/
def hat : Nat → ℝ := fun k => if k = 1 then 1 else 0

/-- With derivatives that do not belong to it, a spline is not differentiable. -/
theorem hat_not_smooth (d : Nat → ℝ) (hd : ∀ k, k < 3 → d k = 0) :
    ¬ TwiceSmooth (splVal unitKnots hat d 3) (unitKnots 0) (unitKnots 2) := by
  rintro ⟨f', f'', h⟩
  have h1 := (h 1 (by norm_num [unitKnots]) (by norm_num [unitKnots])).1
  have e0 : unitKnots 0 = 0 := by norm_num [unitKnots]
  have e1 : unitKnots 1 = 1 := by norm_num [unitKnots]
  have e2 : unitKnots 2 = 2 := by norm_num [unitKnots]
  have hl : HasDerivWithinAt (splVal unitKnots hat d 3) 1 (Set.Iic 1) 1 := by
    have : HasDerivWithinAt (fun t : ℝ => t) 1 (Set.Iic 1) 1 := hasDerivWithinAt_id _ _
    refine this.congr_of_eventuallyEq ?_ ?_
    · filter_upwards [Ioc_mem_nhdsLE (show (0 : ℝ) < 1 by norm_num)] with s hs
      rcases eq_or_lt_of_le hs.2 with e | e
      · rw [splVal_seg (k := 1) (unitKnots_inc 3) (by norm_num) (by rw [e1, e])
          (by rw [e, e2]; norm_num)]
        simp [splSeg, hd, hat, e1, e2, e]
        norm_num
      · rw [splVal_seg (k := 0) (unitKnots_inc 3) (by norm_num) (by rw [e0]; exact hs.1.le)
          (by simpa [e1] using e)]
        simp [splSeg, hd, hat, e1, e0]
    · rw [splVal_seg (k := 1) (unitKnots_inc 3) (by norm_num) (by rw [e1]) (by rw [e2]; norm_num)]
      simp [splSeg, hd, hat, e1, e2]
      norm_num
  have hr : HasDerivWithinAt (splVal unitKnots hat d 3) (-1) (Set.Ici 1) 1 := by
    have : HasDerivWithinAt (fun t : ℝ => 2 - t) (-1) (Set.Ici 1) 1 := by
      exact ((hasDerivAt_id' (1 : ℝ)).const_sub (2 : ℝ)).hasDerivWithinAt
    refine this.congr_of_eventuallyEq ?_ ?_
    · filter_upwards [Ico_mem_nhdsGE (show (1 : ℝ) < 2 by norm_num)] with s hs
      rw [splVal_seg (k := 1) (unitKnots_inc 3) (by norm_num) (by rw [e1]; exact hs.1)
        (by simpa [e2] using hs.2)]
      simp [splSeg, hd, hat, e1, e2]
      norm_num
    · rw [splVal_seg (k := 1) (unitKnots_inc 3) (by norm_num) (by rw [e1]) (by rw [e2]; norm_num)]
      simp [splSeg, hd, hat, e1, e2]
      norm_num
  have u1 := (uniqueDiffWithinAt_Iic (1 : ℝ)).eq_deriv _ hl h1.hasDerivWithinAt
  have u2 := (uniqueDiffWithinAt_Ici (1 : ℝ)).eq_deriv _ hr h1.hasDerivWithinAt
  linarith

theorem splDeriv_zero (x : Nat → ℝ) (n k : Nat) : splDeriv x (fun _ => 0) n k = 0 := by
  have hdec : ∀ i, (splDec x (fun _ => 0) i).2 = 0 := by
    intro i
    induction i with
    | zero => unfold splDec splYp1; split <;> simp
    | succ i ih => rw [splDec]; simp [ih]
  have hlast : splLast x (fun _ => 0) n = 0 := by
    unfold splLast splYpn
    simp [hdec]
  have hb : ∀ j, splBack x (fun _ => 0) n j = 0 := by
    intro j
    induction j with
    | zero => exact hlast
    | succ j ih => rw [splBack, ih, hdec]; simp
  exact hb _

/-- A spline on the knots 0, 1, 2 with real coefficients `y`. -/
def unitSpline (y : Nat → ℝ) : SplineObj := ⟨3, unitKnots, y, fun _ => 0, 0, false⟩

/-- **C56, violation (stale derivatives).**  After the fit has changed the
coefficients the amplitude is no longer the smooth curve through them: the
second derivatives of the values at construction are still in use. -/
theorem C56_violation_stale (t0 : Nat → ℝ) :
    ∃ w o, splRun ⟨[], t0⟩ [.construct (unitSpline fun _ => 0), .setCoefs 0 hat (fun _ => 0)] = some w ∧
      w.objs = [o] ∧ o.re = hat ∧ o.n = 3 ∧ Increasing o.x o.n ∧
      ∀ a b, ¬ TwiceSmooth (fun t => (splAt w o a b t).1) (o.x 0) (o.x (o.n - 1)) := by
  refine ⟨_, unitSpline hat, rfl, rfl, rfl, rfl, unitKnots_inc 3, fun a b => ?_⟩
  rw [show (fun t => (splAt _ (unitSpline hat) a b t).1) = _ from
    funext fun t => by rw [splAt_eq _ _ (Nat.zero_le _) rfl]]
  refine hat_not_smooth _ (fun k hk => ?_)
  show (if k + k < 6 then _ else _) = (0 : ℝ)
  rw [if_pos (by omega), if_pos (by omega)]
  exact splDeriv_zero _ _ _

/-- **C56, violation (shared table).**  Constructing a second spline overwrites
the derivatives of the first. -/
theorem C56_violation_shared (t0 : Nat → ℝ) :
    ∃ w o o2, splRun ⟨[], t0⟩ [.construct (unitSpline hat), .construct (unitSpline fun _ => 0)] = some w ∧
      w.objs = [o, o2] ∧ o.re = hat ∧ o.n = 3 ∧ Increasing o.x o.n ∧
      ∀ a b, ¬ TwiceSmooth (fun t => (splAt w o a b t).1) (o.x 0) (o.x (o.n - 1)) := by
  refine ⟨_, unitSpline hat, unitSpline fun _ => 0, rfl, rfl, rfl, rfl, unitKnots_inc 3, fun a b => ?_⟩
  rw [show (fun t => (splAt _ (unitSpline hat) a b t).1) = _ from
    funext fun t => by rw [splAt_eq _ _ (Nat.zero_le _) rfl]]
  refine hat_not_smooth _ (fun k hk => ?_)
  show (if k + k < 6 then _ else _) = (0 : ℝ)
  rw [if_pos (by omega), if_pos (by omega)]
  exact splDeriv_zero _ _ _

/-- **C56, violation (last knot).**  At the last knot the amplitude is zero,
whatever coefficient the user gave there. -/
theorem C56_violation_last_knot (t0 : Nat → ℝ) :
    ∃ w, splRun ⟨[], t0⟩ [.construct (unitSpline fun _ => 1)] = some w ∧
      ∀ a b, splAt w (unitSpline fun _ => 1) a b ((unitSpline fun _ => 1).x 2) = (0, 0) ∧
        (unitSpline fun _ => 1).re 2 = 1 := by
  refine ⟨_, rfl, fun a b => ⟨?_, rfl⟩⟩
  exact C56_outside _ _ (unitKnots_inc 3) (by norm_num [unitSpline]) (Nat.zero_le _) rfl a b _ (Or.inr le_rfl)

/-- **C56, violation (straight line).**  Coefficients on a straight line do not
give a straight line: the slope at the ends is twice that of the chord. -/
theorem C56_violation_line (t0 : Nat → ℝ) :
    ∃ w, splRun ⟨[], t0⟩ [.construct (unitSpline unitKnots)] = some w ∧
      ∀ a b, ∃ t, 0 < t ∧ t < 2 ∧ (splAt w (unitSpline unitKnots) a b t).1 ≠ t := by
  refine ⟨_, rfl, fun a b => ?_⟩
  by_contra hc
  push Not at hc
  obtain ⟨-, ⟨-, h, -⟩, -⟩ := C56_smooth_partial ⟨[], t0⟩ _ [] (unitSpline unitKnots) rfl
    (unitKnots_inc 3) (by norm_num [unitSpline]) (Nat.zero_le _) rfl a b
  have e0 : (unitSpline unitKnots).x 0 = 0 := by norm_num [unitSpline, unitKnots]
  have e2 : 2 * chord (unitSpline unitKnots).x (unitSpline unitKnots).re 0 = 2 := by
    norm_num [unitSpline, unitKnots, chord]
  rw [e2, e0] at h
  have h := h (by norm_num)
  have hid : HasDerivWithinAt (fun t : ℝ => t) 1 (Set.Ici 0) 0 := hasDerivWithinAt_id _ _
  have h0 := congrArg Prod.fst (C56_interpolates
    ((splRun ⟨[], t0⟩ [.construct (unitSpline unitKnots)]).get rfl) (unitSpline unitKnots)
    (unitKnots_inc 3) (Nat.zero_le _) rfl a b 0 (by norm_num [unitSpline]))
  have hid' := hid.congr_of_eventuallyEq (f₁ := fun t => (splAt _ (unitSpline unitKnots) a b t).1) (by
    filter_upwards [Ico_mem_nhdsGE (show (0 : ℝ) < 2 by norm_num)] with s hs
    rcases eq_or_lt_of_le hs.1 with e | e
    · rw [← e]
      rw [e0] at h0
      exact h0.trans (by norm_num [unitSpline, unitKnots])
    · exact hc s e hs.2) (by
      rw [e0] at h0
      exact h0.trans (by norm_num [unitSpline, unitKnots]))
  have := (uniqueDiffWithinAt_Ici (0 : ℝ)).eq_deriv _ h hid'
  norm_num at this

/-! ## Non-vacuity -/

/-- The hypotheses of `C56_smooth_partial` are met by a program with two splines. -/
example (t0 : Nat → ℝ) : ∃ w, splRun ⟨[], t0⟩
    ([.construct (unitSpline fun _ => 1), .setCoefs 0 hat hat] ++ [.construct (unitSpline hat)]) = some w :=
  ⟨_, rfl⟩

end GooFit
