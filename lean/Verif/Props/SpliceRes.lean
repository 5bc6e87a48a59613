import Verif.Model.SpliceRes
import Verif.Spec.Acceptance
import Verif.Lemmas.SpliceRes
import Verif.Props.ExtRes
import Mathlib.Data.List.GetD

/-!
# C77: decay-time resolution with a spline for the efficiency
-/

set_option autoImplicit false

namespace GooFit

open Spec MeasureTheory Set

/-- **C77 (moments).**  The number computed for a power `n` and two limits is the
integral between them of that power times the standard normal distribution, for
every `n`. -/
theorem C77_moments (n : ℕ) (a b : ℝ) :
    evaluateConvo n a b = ∫ v in a..b, v ^ n * normalDensity 1 v := by
  rw [evaluateConvo_eq]
  unfold mom
  refine intervalIntegral.integral_congr fun v _ => ?_
  unfold smallPhi normalDensity
  have h := gaussRes_norm 1 one_pos
  rw [div_one, mul_one] at h
  rw [h]
  congr 3
  rw [show (-0.5 : ℝ) = -(1 / 2) by norm_num]
  ring

example := C77_moments 8 (-1) 2

/-- The rate the code folds: up to the last knot one series, after it another. -/
noncomputable def codeRate (b c1 c2 c3 c4 τ x y σ t : ℝ) : ℝ :=
  if b < t then truncRate c1 c2 c3 c4 τ x y 0 t else knotRate c1 c2 c3 c4 τ x y σ t

/-- What one Gaussian computes. -/
theorem splice_one {σ : ℝ} (hσ : 0 < σ) (t : SpliceTab) (h0 : 0 ≤ t.knots 0)
    (hk : ∀ i < t.nKnots - 1, t.knots i ≤ t.knots (i + 1)) (L s c1 c2 c3 c4 T τ x y : ℝ) :
    IntegrableOn (fun u => piecesThenExp t.knots t.piece (t.nKnots - 1) L s u
      * codeRate (t.knots (t.nKnots - 1)) c1 c2 c3 c4 τ x y σ u * normalDensity σ (T - u)) (Ioi 0)
    ∧ (let g := myGaussianHigh (gaussianSplice t τ T x y σ) τ T x y σ s (t.knots (t.nKnots - 1)) L
       c1 * g.1 + c2 * g.2.1 - 2 * c3 * g.2.2.1 - 2 * c4 * g.2.2.2)
      = smear (fun u => piecesThenExp t.knots t.piece (t.nKnots - 1) L s u
          * codeRate (t.knots (t.nKnots - 1)) c1 c2 c3 c4 τ x y σ u) (normalDensity σ) T := by
  have hN : Continuous (fun u => normalDensity σ (T - u)) := by
    have := normalDensity_cont σ
    fun_prop
  have hb := h0.trans (byPieces_split t.knots t.piece (fun _ => 0) (piece_cont t) continuous_const _ hk).1
  have hd : ∀ u, Real.exp (-s * u) * (truncRate c1 c2 c3 c4 τ x y 0 u * normalDensity σ (T - u))
      = truncRate c1 c2 c3 c4 τ x y s u * normalDensity σ (T - u) := by
    intro u; rw [truncRate_damp c1 c2 c3 c4 τ x y s]; ring
  obtain ⟨hi, hv⟩ := piecesThenExp_split t.knots t.piece
    (fun u => knotRate c1 c2 c3 c4 τ x y σ u * normalDensity σ (T - u))
    (fun u => truncRate c1 c2 c3 c4 τ x y 0 u * normalDensity σ (T - u)) (piece_cont t)
    ((knotRate_cont c1 c2 c3 c4 τ x y σ).mul hN) _ hk L s
    (by simp only [hd]; exact ((trunc_fold hσ c1 c2 c3 c4 T τ x y s).1).mono_set (Ioi_subset_Ioi hb)) 0 h0
  have e : ∀ u, piecesThenExp t.knots t.piece (t.nKnots - 1) L s u
      * codeRate (t.knots (t.nKnots - 1)) c1 c2 c3 c4 τ x y σ u * normalDensity σ (T - u)
      = piecesThenExp t.knots t.piece (t.nKnots - 1) L s u
        * (if t.knots (t.nKnots - 1) < u then truncRate c1 c2 c3 c4 τ x y 0 u * normalDensity σ (T - u)
          else knotRate c1 c2 c3 c4 τ x y σ u * normalDensity σ (T - u)) := by
    intro u
    unfold codeRate
    split_ifs <;> ring
  constructor
  · simp only [e]; exact hi
  · unfold smear
    simp only [e]
    rw [hv]
    simp only [hd, knotRate_sum]
    have fH := foldFrom_sum hσ hb c1 c2 c3 c4 T τ x y s
    unfold smearFrom at fH
    rw [fH, myGaussianHigh_eq _ hσ hb, gaussianSplice_eq hσ]
    dsimp only
    simp only [Finset.sum_add_distrib, Finset.sum_sub_distrib, ← Finset.mul_sum]
    ring

/-! ## Where the parameters are -/

theorem getD_skip {α : Type} (l r : List α) (d : α) (i : ℕ) : (l ++ r).getD (l.length + i) d = r.getD i d := by
  rw [List.getD_append_right _ _ _ _ (by omega)]
  congr 1
  omega

/-- **C77 (parameters).**  If there are from two to eight knots, and each of the four
lists of coefficients has one entry per gap, the arrays the code fills from the
flattened list of parameters hold the knots (with 0 for the first one) and the
coefficients the user gave. -/
theorem C77_layout (p : SplicePars) (h2 : 2 ≤ p.knots.length) (h8 : p.knots.length ≤ 8)
    (l0 : p.a0.length + 1 = p.knots.length) (l1 : p.a1.length + 1 = p.knots.length)
    (l2 : p.a2.length + 1 = p.knots.length) (l3 : p.a3.length + 1 = p.knots.length) :
    ∃ t, spliceRead p.params p.knots.length = some t ∧ t.nKnots = p.knots.length
      ∧ (∀ i < p.knots.length, t.knots i = (0 :: p.knots.tail).getD i 0)
      ∧ ∀ i < p.knots.length - 1,
          t.spline i = ⟨p.a0.getD i 0, p.a1.getD i 0, p.a2.getD i 0, p.a3.getD i 0⟩ := by
  have hl : p.params.length = 12 + p.knots.length + 4 * (p.knots.length - 1) := by
    simp [SplicePars.params]
    omega
  have hn : ¬ (8 < p.knots.length ∨ p.knots.length < 2
      ∨ p.params.length < 12 + p.knots.length + 4 * (p.knots.length - 1)) := by omega
  have hp : p.params = [p.coreFraction, p.tailFraction, p.coreBias, p.coreScale, p.tailBias, p.tailScale, p.outlBias,
      p.outlScale, p.commonBias, p.commonWidth, p.commonBias2, p.commonWidth2]
      ++ (p.knots ++ (p.a0 ++ (p.a1 ++ (p.a2 ++ p.a3)))) := by
    simp [SplicePars.params]
  have g : ∀ k, p.params.getD (12 + k) 0 = (p.knots ++ (p.a0 ++ (p.a1 ++ (p.a2 ++ p.a3)))).getD k 0 := by
    intro k
    rw [hp]
    exact getD_skip _ _ 0 k
  unfold spliceRead
  dsimp only
  rw [if_neg hn]
  refine ⟨_, rfl, rfl, ?_, ?_⟩
  · intro i hi
    dsimp only
    cases i with
    | zero => norm_num
    | succ i =>
      rw [if_neg (Nat.succ_ne_zero i), g, List.getD_append _ _ _ _ hi]
      simp [List.getD_eq_getElem?_getD, List.getElem?_tail]
  · intro i hi
    dsimp only
    have q0 : ∀ k, p.params.getD (12 + p.knots.length + k) 0 = (p.a0 ++ (p.a1 ++ (p.a2 ++ p.a3))).getD k 0 := by
      intro k
      rw [Nat.add_assoc, g, getD_skip]
    rw [q0, show 12 + p.knots.length + i + (p.knots.length - 1) = 12 + p.knots.length + (p.a0.length + i) by omega, q0,
      getD_skip, show 12 + p.knots.length + i + 2 * (p.knots.length - 1)
        = 12 + p.knots.length + (p.a0.length + (p.a1.length + i)) by omega, q0, getD_skip, getD_skip,
      show 12 + p.knots.length + i + 3 * (p.knots.length - 1)
        = 12 + p.knots.length + (p.a0.length + (p.a1.length + (p.a2.length + i))) by omega, q0, getD_skip, getD_skip,
      getD_skip, List.getD_append _ _ _ _ (by omega), List.getD_append _ _ _ _ (by omega),
      List.getD_append _ _ _ _ (by omega)]

/-- Three knots and two pieces. -/
example := C77_layout ⟨1, 0, 0, 1, 0, 1, 0, 1, [0, 1, 2], [1, 2], [3, 4], [5, 6], [7, 8], 0, 1, 0, 1⟩
  (by decide) (by decide) rfl rfl rfl rfl

/-- The parameters of the Gaussians are read in the order they were registered. -/
theorem splice_params (p : SplicePars) :
    p.params.getD 0 0 = p.coreFraction ∧ p.params.getD 1 0 = p.tailFraction ∧ p.params.getD 2 0 = p.coreBias
    ∧ p.params.getD 3 0 = p.coreScale ∧ p.params.getD 4 0 = p.tailBias ∧ p.params.getD 5 0 = p.tailScale
    ∧ p.params.getD 6 0 = p.outlBias ∧ p.params.getD 7 0 = p.outlScale ∧ p.params.getD 8 0 = p.commonBias
    ∧ p.params.getD 9 0 = p.commonWidth ∧ p.params.getD 10 0 = p.commonBias2 ∧ p.params.getD 11 0 = p.commonWidth2 :=
  ⟨rfl, rfl, rfl, rfl, rfl, rfl, rfl, rfl, rfl, rfl, rfl, rfl⟩

theorem byPieces_congr (k k' : ℕ → ℝ) (q q' : ℕ → ℝ → ℝ) (n : ℕ) (hk : ∀ i < n, k i = k' i) (hq : ∀ i < n, q i = q' i)
    (t : ℝ) : byPieces k q n t = byPieces k' q' n t := by
  induction n with
  | zero => rfl
  | succ n ih =>
    simp only [byPieces]
    rw [hk n (by omega), hq n (by omega), ih (fun i hi => hk i (by omega)) (fun i hi => hq i (by omega))]

theorem piecesThenExp_congr (k k' : ℕ → ℝ) (q q' : ℕ → ℝ → ℝ) (n : ℕ) (hk : ∀ i ≤ n, k i = k' i)
    (hq : ∀ i < n, q i = q' i) (L s t : ℝ) : piecesThenExp k q n L s t = piecesThenExp k' q' n L s t := by
  unfold piecesThenExp
  rw [hk n le_rfl, byPieces_congr k k' q q' n (fun i hi => hk i hi.le) hq]

theorem sorted_getD (l : List ℝ) (h : l.Pairwise (· ≤ ·)) (i : ℕ) (hi : i < l.length - 1) :
    l.getD i 0 ≤ l.getD (i + 1) 0 := by
  rw [List.getD_eq_getElem _ _ (by omega), List.getD_eq_getElem _ _ (by omega)]
  exact List.pairwise_iff_getElem.1 h i (i + 1) _ _ (by omega)

/-- The two series and the rate agree without oscillating terms. -/
theorem codeRate_truth (b c1 c2 c3 c4 τ x y σ t : ℝ) (hx : x = 0 ∨ (c2 = 0 ∧ c4 = 0)) :
    codeRate b c1 c2 c3 c4 τ x y σ t = truthResolution c1 c2 c3 c4 τ t x y := by
  have e : Real.exp (-(1 / τ + 0) * t) = Real.exp (-(t / τ)) := by congr 1; ring
  unfold codeRate truncRate knotRate knotFuns truthResolution
  dsimp only
  rw [e]
  rcases hx with rfl | ⟨rfl, rfl⟩
  · simp only [zero_mul, Real.cos_zero, Real.sin_zero, zero_div]
    split_ifs <;> ring
  · split_ifs <;> ring

/-- Combining three Gaussians. -/
theorem three_smears (f : ℝ → ℝ) (w1 w2 w3 b1 b2 b3 σ1 σ2 σ3 T : ℝ)
    (i1 : IntegrableOn (fun t => f t * normalDensity σ1 (T - b1 - t)) (Ioi 0))
    (i2 : IntegrableOn (fun t => f t * normalDensity σ2 (T - b2 - t)) (Ioi 0))
    (i3 : IntegrableOn (fun t => f t * normalDensity σ3 (T - b3 - t)) (Ioi 0)) :
    w1 * smear f (normalDensity σ1) (T - b1) + w2 * smear f (normalDensity σ2) (T - b2)
        + w3 * smear f (normalDensity σ3) (T - b3)
      = smear f (threeNormals w1 w2 w3 b1 b2 b3 σ1 σ2 σ3) T := by
  have e12 := integral_add (i1.const_mul w1) (i2.const_mul w2)
  have e123 := integral_add ((i1.const_mul w1).add (i2.const_mul w2)) (i3.const_mul w3)
  simp only [Pi.add_apply, integral_const_mul] at e12 e123
  unfold smear
  rw [← e12, ← e123]
  congr 1
  funext t
  unfold threeNormals
  rw [show T - b1 - t = T - t - b1 by ring, show T - b2 - t = T - t - b2 by ring, show T - b3 - t = T - t - b3 by ring]
  ring

/-- The efficiency the code uses: the pieces, and after the last knot the exponential
that continues the linear part of the last polynomial. -/
noncomputable def linearTail (knots a0 a1 a2 a3 : List ℝ) (t : ℝ) : ℝ :=
  let n := knots.length - 1
  let value := a1.getD (n - 1) 0 * knots.getD n 0 + a0.getD (n - 1) 0
  piecesThenExp (fun i => knots.getD i 0) (fun i => cubic (a0.getD i 0) (a1.getD i 0) (a2.getD i 0) (a3.getD i 0)) n
    value (-a1.getD (n - 1) 0 / value) t

theorem linearTail_eq (knots a0 a1 a2 a3 : List ℝ) (z2 : a2.getD (knots.length - 2) 0 = 0)
    (z3 : a3.getD (knots.length - 2) 0 = 0) (t : ℝ) :
    linearTail knots a0 a1 a2 a3 t = splineEfficiency knots a0 a1 a2 a3 t := by
  unfold linearTail splineEfficiency
  dsimp only
  rw [show knots.length - 1 - 1 = knots.length - 2 by omega, z2, z3]
  unfold cubic cubicSlope
  congr 1
  · ring
  · congr 1
    · ring
    · ring

/-- The conditions on the parameters. -/
structure SplicePars.Ok (p : SplicePars) (σ : ℝ) : Prop where
  two : 2 ≤ p.knots.length
  eight : p.knots.length ≤ 8
  len0 : p.a0.length + 1 = p.knots.length
  len1 : p.a1.length + 1 = p.knots.length
  len2 : p.a2.length + 1 = p.knots.length
  len3 : p.a3.length + 1 = p.knots.length
  core : 0 < p.coreScale * p.commonWidth * σ
  tail : 0 < p.tailScale * p.commonWidth2 * σ
  outl : 0 < p.outlScale * p.commonWidth2 * σ

/-- The whole value for every `x`, with the first knot at 0. -/
theorem splice_eq (p : SplicePars) (σ : ℝ) (h : p.Ok σ) (hs : (0 :: p.knots.tail).Pairwise (· ≤ ·))
    (c1 c2 c3 c4 τ T x y : ℝ) :
    let eff := linearTail (0 :: p.knots.tail) p.a0 p.a1 p.a2 p.a3
    let rate := codeRate ((0 :: p.knots.tail).getD (p.knots.length - 1) 0) c1 c2 c3 c4 τ x y
    (∀ σ' T, 0 < σ' → IntegrableOn (fun t => eff t * rate σ' t * normalDensity σ' (T - t)) (Ioi 0))
    ∧ spliceResolution p c1 c2 c3 c4 τ T x y σ
      = some (p.coreFraction * smear (fun t => eff t * rate (p.coreScale * p.commonWidth * σ) t)
            (normalDensity (p.coreScale * p.commonWidth * σ)) (T - (p.coreBias + p.commonBias) * σ)
          + p.tailFraction * smear (fun t => eff t * rate (p.tailScale * p.commonWidth2 * σ) t)
            (normalDensity (p.tailScale * p.commonWidth2 * σ)) (T - (p.tailBias + p.commonBias2) * σ)
          + (1 - p.coreFraction - p.tailFraction) * smear (fun t => eff t * rate (p.outlScale * p.commonWidth2 * σ) t)
            (normalDensity (p.outlScale * p.commonWidth2 * σ)) (T - (p.outlBias + p.commonBias2) * σ)) := by
  intro eff rate
  obtain ⟨t, ht, hn, hkn, hsp⟩ := C77_layout p h.two h.eight h.len0 h.len1 h.len2 h.len3
  have hlen : (0 :: p.knots.tail).length = p.knots.length := by
    have := h.two
    simp
    omega
  have hk : ∀ i < t.nKnots - 1, t.knots i ≤ t.knots (i + 1) := by
    intro i hi
    rw [hn] at hi
    rw [hkn i (by omega), hkn (i + 1) (by omega)]
    exact sorted_getD _ hs i (by rw [hlen]; exact hi)
  have h0 : 0 ≤ t.knots 0 := by
    rw [hkn 0 (by have := h.two; omega)]; simp
  have hpc : ∀ i < p.knots.length - 1,
      t.piece i = cubic (p.a0.getD i 0) (p.a1.getD i 0) (p.a2.getD i 0) (p.a3.getD i 0) := by
    intro i hi
    funext u
    unfold SpliceTab.piece
    rw [hsp i hi]
  have hlast : t.knots (t.nKnots - 1) = (0 :: p.knots.tail).getD (p.knots.length - 1) 0 := by
    rw [hn]; exact hkn _ (by have := h.two; omega)
  have ha1 : (t.spline (t.nKnots - 1 - 1)).a1 = p.a1.getD (p.knots.length - 1 - 1) 0 := by
    rw [hn, hsp _ (by have := h.two; omega)]
  have ha0 : (t.spline (t.nKnots - 1 - 1)).a0 = p.a0.getD (p.knots.length - 1 - 1) 0 := by
    rw [hn, hsp _ (by have := h.two; omega)]
  have heff : ∀ u, piecesThenExp t.knots t.piece (t.nKnots - 1)
      ((t.spline (t.nKnots - 1 - 1)).a1 * t.knots (t.nKnots - 1) + (t.spline (t.nKnots - 1 - 1)).a0)
      (-(t.spline (t.nKnots - 1 - 1)).a1
        / ((t.spline (t.nKnots - 1 - 1)).a1 * t.knots (t.nKnots - 1) + (t.spline (t.nKnots - 1 - 1)).a0)) u
      = eff u := by
    intro u
    show _ = linearTail (0 :: p.knots.tail) p.a0 p.a1 p.a2 p.a3 u
    unfold linearTail
    dsimp only
    rw [hlen, hlast, ha1, ha0, hn]
    exact piecesThenExp_congr _ _ _ _ _ (fun i hi => hkn i (by have := h.two; omega)) hpc _ _ _
  have one := fun (σ' : ℝ) (hσ' : 0 < σ') (T' : ℝ) => splice_one hσ' t h0 hk
    ((t.spline (t.nKnots - 1 - 1)).a1 * t.knots (t.nKnots - 1) + (t.spline (t.nKnots - 1 - 1)).a0)
    (-(t.spline (t.nKnots - 1 - 1)).a1
        / ((t.spline (t.nKnots - 1 - 1)).a1 * t.knots (t.nKnots - 1) + (t.spline (t.nKnots - 1 - 1)).a0))
    c1 c2 c3 c4 T' τ x y
  have e1 := (one _ h.core (T - (p.coreBias + p.commonBias) * σ)).2
  have e2 := (one _ h.tail (T - (p.tailBias + p.commonBias2) * σ)).2
  have e3 := (one _ h.outl (T - (p.outlBias + p.commonBias2) * σ)).2
  simp only [heff] at e1 e2 e3
  refine ⟨fun σ' T' hσ' => ?_, ?_⟩
  · have i := (one σ' hσ' T').1
    simp only [heff] at i
    rw [hlast] at i
    exact i
  · unfold spliceResolution
    rw [ht, Option.map_some]
    congr 1
    show _ = p.coreFraction * smear (fun t => eff t * codeRate ((0 :: p.knots.tail).getD (p.knots.length - 1) 0) c1 c2 c3 c4 τ x y _ t) _ _
      + p.tailFraction * smear (fun t => eff t * codeRate ((0 :: p.knots.tail).getD (p.knots.length - 1) 0) c1 c2 c3 c4 τ x y _ t) _ _
      + (1 - p.coreFraction - p.tailFraction) * smear (fun t => eff t * codeRate ((0 :: p.knots.tail).getD (p.knots.length - 1) 0) c1 c2 c3 c4 τ x y _ t) _ _
    rw [← hlast, ← e1, ← e2, ← e3]
    obtain ⟨q0, q1, q2, q3, q4, q5, q6, q7, q8, q9, q10, q11⟩ := splice_params p
    unfold spliceValue
    dsimp only
    rw [q0, q1, q2, q3, q4, q5, q6, q7, q8, q9, q10, q11]
    ring

/-- **C77, partial (value).**  Take from two to eight knots in increasing order, the
first one at 0, one cubic polynomial per gap, the last one linear and positive at its
end, and positive widths.  If `x = 0`, or if the oscillating terms are absent from the
rate, the value for an event with amplitudes `A` and `B`, measured at time `T` with
error `σ`, is the decay rate, times the efficiency described by the spline, folded
with the sum of the three Gaussians.  Missing: oscillating terms
(`C77_violation_powers`), a first knot elsewhere (`C77_violation_first_knot`), a curved
last piece (`C77_violation_last_piece`), more knots (`C77_violation_many_knots`). -/
theorem C77_resolution_partial (p : SplicePars) (A B : ℂ) (τ T x y σ : ℝ) (h : p.Ok σ)
    (hs : p.knots.Pairwise (· ≤ ·)) (hk0 : p.knots.head? = some 0)
    (z2 : p.a2.getD (p.knots.length - 2) 0 = 0) (z3 : p.a3.getD (p.knots.length - 2) 0 = 0)
    (_hL : 0 < p.a0.getD (p.knots.length - 2) 0
      + p.a1.getD (p.knots.length - 2) 0 * p.knots.getD (p.knots.length - 1) 0)
    (hx : x = 0 ∨ (Complex.normSq A = Complex.normSq B ∧ (A * starRingEnd ℂ B).im = 0)) :
    spliceResolution p (Complex.normSq A + Complex.normSq B) (Complex.normSq A - Complex.normSq B)
        (A * starRingEnd ℂ B).re (A * starRingEnd ℂ B).im τ T x y σ
      = some (smear (fun t => splineEfficiency p.knots p.a0 p.a1 p.a2 p.a3 t * decayRate A B τ x y t)
          (threeNormals p.coreFraction p.tailFraction (1 - p.coreFraction - p.tailFraction)
            ((p.coreBias + p.commonBias) * σ) ((p.tailBias + p.commonBias2) * σ) ((p.outlBias + p.commonBias2) * σ)
            (p.coreScale * p.commonWidth * σ) (p.tailScale * p.commonWidth2 * σ) (p.outlScale * p.commonWidth2 * σ))
          T) := by
  have hcons : (0 :: p.knots.tail) = p.knots := by
    cases hk : p.knots with
    | nil => rw [hk] at hk0; simp at hk0
    | cons a l => rw [hk] at hk0; simp at hk0; rw [hk0]; rfl
  have hx' : x = 0 ∨ (Complex.normSq A - Complex.normSq B = 0 ∧ (A * starRingEnd ℂ B).im = 0) := by
    rcases hx with hx | ⟨h1, h2⟩
    · exact Or.inl hx
    · exact Or.inr ⟨by rw [h1, sub_self], h2⟩
  obtain ⟨hi, hv⟩ := splice_eq p σ h (by rw [hcons]; exact hs) (Complex.normSq A + Complex.normSq B)
    (Complex.normSq A - Complex.normSq B) (A * starRingEnd ℂ B).re (A * starRingEnd ℂ B).im τ T x y
  rw [hv]
  simp only [hcons, linearTail_eq _ _ _ _ _ z2 z3, codeRate_truth _ _ _ _ _ _ _ _ _ _ hx', C62_rate] at hi ⊢
  rw [three_smears _ _ _ _ _ _ _ _ _ _ T (hi _ _ h.core) (hi _ _ h.tail) (hi _ _ h.outl)]

theorem splice_example_ok : SplicePars.Ok ⟨4 / 5, 1 / 10, 0, 1, 0, 2, 1 / 100, 3, [0, 1 / 5, 1, 4],
    [0, 1, 2], [2, 0, -1 / 4], [1, 1 / 2, 0], [-1, 1 / 3, 0], 1 / 100, 1, 0, 1⟩ (1 / 20) :=
  ⟨by decide, by decide, rfl, rfl, rfl, rfl, by norm_num, by norm_num, by norm_num⟩

/-- Four knots, a rising efficiency with a linear end, three Gaussians, mixing in `y`. -/
example (A B : ℂ) (T : ℝ) := C77_resolution_partial _ A B (41 / 100) T 0 (1 / 100) (1 / 20) splice_example_ok
  (by norm_num [List.pairwise_cons]) rfl rfl rfl (by norm_num) (Or.inl rfl)

/-- The normalisation for every `x`. -/
theorem splice_norm (p : SplicePars) (I1 I2 I3 I4 τ x y : ℝ) (h2 : 2 ≤ p.knots.length)
    (l0 : p.a0.length + 1 = p.knots.length) (l1 : p.a1.length + 1 = p.knots.length)
    (l2 : p.a2.length + 1 = p.knots.length) (l3 : p.a3.length + 1 = p.knots.length)
    (hs : p.knots.Pairwise (· ≤ ·)) (h0 : 0 ≤ p.knots.getD 0 0) (hτ : τ ≠ 0) (hm : y ≠ 1) (hp : y ≠ -1)
    (hy : |y / τ| < 1 / τ - p.a1.getD (p.knots.length - 2) 0
      / (p.a1.getD (p.knots.length - 2) 0 * p.knots.getD (p.knots.length - 1) 0 + p.a0.getD (p.knots.length - 2) 0)) :
    let f := fun t => linearTail p.knots p.a0 p.a1 p.a2 p.a3 t
      * (if p.knots.getD (p.knots.length - 1) 0 < t then truthResolution (I1 + I2) (I1 - I2) I3 I4 τ t x y
        else threeTermRate (I1 + I2) (I1 - I2) I3 I4 τ x y t)
    IntegrableOn f (Ioi 0) ∧ spliceNormalization p I1 I2 I3 I4 τ x y = some (∫ t in Ioi 0, f t) := by
  intro f
  rw [show p.knots.length - 2 = p.knots.length - 1 - 1 by omega] at hy
  have hn : ¬ (p.knots.length < 2 ∨ p.a0.length < p.knots.length - 1 ∨ p.a1.length < p.knots.length - 1
      ∨ p.a2.length < p.knots.length - 1 ∨ p.a3.length < p.knots.length - 1) := by omega
  have pc : ∀ i, Continuous (cubic (p.a0.getD i 0) (p.a1.getD i 0) (p.a2.getD i 0) (p.a3.getD i 0)) := by
    intro i; unfold cubic; fun_prop
  have fc : Continuous (threeTermRate (I1 + I2) (I1 - I2) I3 I4 τ x y) := by
    unfold threeTermRate; fun_prop
  have es : -p.a1.getD (p.knots.length - 1 - 1) 0
      / (p.a1.getD (p.knots.length - 1 - 1) 0 * p.knots.getD (p.knots.length - 1) 0 + p.a0.getD (p.knots.length - 1 - 1) 0)
      = -(p.a1.getD (p.knots.length - 1 - 1) 0
      / (p.a1.getD (p.knots.length - 1 - 1) 0 * p.knots.getD (p.knots.length - 1) 0 + p.a0.getD (p.knots.length - 1 - 1) 0)) := by
    ring
  rw [sub_eq_add_neg, ← es] at hy
  have hfe : f = fun t => piecesThenExp (fun i => p.knots.getD i 0)
      (fun i => cubic (p.a0.getD i 0) (p.a1.getD i 0) (p.a2.getD i 0) (p.a3.getD i 0)) (p.knots.length - 1)
      (p.a1.getD (p.knots.length - 1 - 1) 0 * p.knots.getD (p.knots.length - 1) 0 + p.a0.getD (p.knots.length - 1 - 1) 0)
      (-p.a1.getD (p.knots.length - 1 - 1) 0
      / (p.a1.getD (p.knots.length - 1 - 1) 0 * p.knots.getD (p.knots.length - 1) 0 + p.a0.getD (p.knots.length - 1 - 1) 0)) t
      * (if p.knots.getD (p.knots.length - 1) 0 < t then truthResolution (I1 + I2) (I1 - I2) I3 I4 τ t x y
        else threeTermRate (I1 + I2) (I1 - I2) I3 I4 τ x y t) := rfl
  unfold spliceNormalization
  dsimp only
  rw [if_neg hn]
  generalize p.a1.getD (p.knots.length - 1 - 1) 0 * p.knots.getD (p.knots.length - 1) 0
    + p.a0.getD (p.knots.length - 1 - 1) 0 = L at *
  generalize -p.a1.getD (p.knots.length - 1 - 1) 0 / L = s at *
  obtain ⟨ha, hb⟩ := abs_lt.1 hy
  have ey : y * (1 / τ) = y / τ := by ring
  have hm' : 0 < 1 / τ - y * (1 / τ) + s := by linarith
  have hp' : 0 < 1 / τ + y * (1 / τ) + s := by linarith
  have hk' : 0 < 1 / τ + s := by linarith
  have iH := truth_int_Ioi (I1 + I2) (I1 - I2) I3 I4 τ x y s (p.knots.getD (p.knots.length - 1) 0) hm' hp'
  have dH := fun t => antiRate_deriv (I1 + I2) (I1 - I2) I3 I4 τ x y s t hm'.ne' hp'.ne' (by positivity)
  obtain ⟨hi, hv⟩ := piecesThenExp_split (fun i => p.knots.getD i 0)
    (fun i => cubic (p.a0.getD i 0) (p.a1.getD i 0) (p.a2.getD i 0) (p.a3.getD i 0))
    (threeTermRate (I1 + I2) (I1 - I2) I3 I4 τ x y) (fun t => truthResolution (I1 + I2) (I1 - I2) I3 I4 τ t x y) pc fc
    (p.knots.length - 1) (fun i hi => sorted_getD _ hs i hi) L s iH 0 h0
  refine ⟨by rw [hfe]; exact hi, ?_⟩
  congr 1
  rw [hfe, hv, integral_Ioi_of_hasDerivAt_of_tendsto' (fun t _ => dH t) iH (antiRate_tendsto _ _ _ _ _ _ _ _ hm' hp'),
    ← tailIntegrals_eq]
  have hpiece : ∀ i, ∫ t in (p.knots.getD i 0)..(p.knots.getD (i + 1) 0),
      cubic (p.a0.getD i 0) (p.a1.getD i 0) (p.a2.getD i 0) (p.a3.getD i 0) t
        * threeTermRate (I1 + I2) (I1 - I2) I3 I4 τ x y t
      = (let l := normPiece (p.knots.getD i 0) (p.knots.getD (i + 1) 0) (1. / τ) x y
          ⟨p.a0.getD i 0, p.a1.getD i 0, p.a2.getD i 0, p.a3.getD i 0⟩
         l.1 * (I1 + I2) + l.2.1 * (I1 - I2) - 2 * l.2.2.1 * I3 - 2 * l.2.2.2 * I4) := by
    intro i
    rw [normPiece_eq hτ _ _ _ _ (sub_ne_zero.2 (Ne.symm hm)) (by rw [← sub_neg_eq_add]; exact sub_ne_zero.2 hp)]
    dsimp only
    have k1 : Continuous (fun t => cubic (p.a0.getD i 0) (p.a1.getD i 0) (p.a2.getD i 0) (p.a3.getD i 0) t
        * (serFuns τ x y t).1) := by unfold cubic serFuns; dsimp only; fun_prop
    have k2 : Continuous (fun t => cubic (p.a0.getD i 0) (p.a1.getD i 0) (p.a2.getD i 0) (p.a3.getD i 0) t
        * (serFuns τ x y t).2.1) := by unfold cubic serFuns; dsimp only; fun_prop
    have k3 : Continuous (fun t => cubic (p.a0.getD i 0) (p.a1.getD i 0) (p.a2.getD i 0) (p.a3.getD i 0) t
        * (serFuns τ x y t).2.2.1) := by unfold cubic serFuns; dsimp only; fun_prop
    have k4 : Continuous (fun t => cubic (p.a0.getD i 0) (p.a1.getD i 0) (p.a2.getD i 0) (p.a3.getD i 0) t
        * (serFuns τ x y t).2.2.2) := by unfold cubic serFuns; dsimp only; fun_prop
    have i1 := (k1.intervalIntegrable (μ := volume) (p.knots.getD i 0) (p.knots.getD (i + 1) 0)).const_mul (I1 + I2)
    have i2 := (k2.intervalIntegrable (μ := volume) (p.knots.getD i 0) (p.knots.getD (i + 1) 0)).const_mul (I1 - I2)
    have i3 := (k3.intervalIntegrable (μ := volume) (p.knots.getD i 0) (p.knots.getD (i + 1) 0)).const_mul (2 * I3)
    have i4 := (k4.intervalIntegrable (μ := volume) (p.knots.getD i 0) (p.knots.getD (i + 1) 0)).const_mul (2 * I4)
    have e := intervalIntegral.integral_sub ((i1.add i2).sub i3) i4
    rw [intervalIntegral.integral_sub (i1.add i2) i3, intervalIntegral.integral_add i1 i2] at e
    simp only [intervalIntegral.integral_const_mul] at e
    rw [mul_comm _ (I1 + I2), mul_comm _ (I1 - I2), mul_right_comm _ _ I3, mul_right_comm _ _ I4, ← e]
    refine intervalIntegral.integral_congr fun t _ => ?_
    unfold threeTermRate serFuns
    dsimp only
    ring
  rw [Finset.sum_congr rfl fun i _ => hpiece i]
  dsimp only
  simp only [Finset.sum_add_distrib, Finset.sum_sub_distrib, ← Finset.mul_sum, ← Finset.sum_mul]
  ring

/-- **C77 (normalisation, true times).**  For increasing knots, the first one not
before production, one polynomial per gap, the last one linear and positive at its end,
the reported normalisation is the integral over all true decay times of the rate times
the efficiency described by the spline, with the cosine and the sine cut after three
terms up to the last knot, for every `x` and `y ≠ ±1`.  The rate must be integrable
after the last knot.  `I1` to `I4` stand for the integrals over the Dalitz plot of
`|A|²`, `|B|²`, `Re AB*` and `Im AB*`. -/
theorem C77_norm_series_partial (p : SplicePars) (I1 I2 I3 I4 τ x y : ℝ) (h2 : 2 ≤ p.knots.length)
    (l0 : p.a0.length + 1 = p.knots.length) (l1 : p.a1.length + 1 = p.knots.length)
    (l2 : p.a2.length + 1 = p.knots.length) (l3 : p.a3.length + 1 = p.knots.length)
    (hs : p.knots.Pairwise (· ≤ ·)) (h0 : 0 ≤ p.knots.getD 0 0) (hτ : τ ≠ 0) (hm : y ≠ 1) (hp : y ≠ -1)
    (z2 : p.a2.getD (p.knots.length - 2) 0 = 0) (z3 : p.a3.getD (p.knots.length - 2) 0 = 0)
    (_hL : 0 < p.a1.getD (p.knots.length - 2) 0 * p.knots.getD (p.knots.length - 1) 0
      + p.a0.getD (p.knots.length - 2) 0)
    (hy : |y / τ| < 1 / τ - p.a1.getD (p.knots.length - 2) 0
      / (p.a1.getD (p.knots.length - 2) 0 * p.knots.getD (p.knots.length - 1) 0 + p.a0.getD (p.knots.length - 2) 0)) :
    spliceNormalization p I1 I2 I3 I4 τ x y
      = some (∫ t in Ioi 0, splineEfficiency p.knots p.a0 p.a1 p.a2 p.a3 t
          * (if t ≤ p.knots.getD (p.knots.length - 1) 0 then threeTermRate (I1 + I2) (I1 - I2) I3 I4 τ x y t
            else truthResolution (I1 + I2) (I1 - I2) I3 I4 τ t x y)) := by
  rw [(splice_norm p I1 I2 I3 I4 τ x y h2 l0 l1 l2 l3 hs h0 hτ hm hp hy).2]
  congr 2
  funext t
  beta_reduce
  rw [linearTail_eq _ _ _ _ _ z2 z3]
  by_cases h : t ≤ p.knots.getD (p.knots.length - 1) 0
  · rw [if_neg (not_lt.2 h), if_pos h]
  · rw [if_pos (not_le.1 h), if_neg h]

example (I1 I2 I3 I4 : ℝ) := C77_norm_series_partial ⟨4 / 5, 1 / 10, 0, 1, 0, 2, 1 / 100, 3, [0, 1 / 5, 1, 4],
    [0, 1, 2], [2, 0, -1 / 4], [1, 1 / 2, 0], [-1, 1 / 3, 0], 1 / 100, 1, 0, 1⟩ I1 I2 I3 I4 (41 / 100) (4 / 1000) (6 / 1000)
  (by decide) rfl rfl rfl rfl (by norm_num [List.pairwise_cons]) (by norm_num) (by norm_num) (by norm_num) (by norm_num)
  rfl rfl (by norm_num) (by norm_num [abs_lt])

theorem threeTermRate_truth (c1 c2 c3 c4 τ x y t : ℝ) (hx : x = 0 ∨ (c2 = 0 ∧ c4 = 0)) :
    threeTermRate c1 c2 c3 c4 τ x y t = truthResolution c1 c2 c3 c4 τ t x y := by
  unfold threeTermRate truthResolution
  dsimp only
  rcases hx with rfl | ⟨rfl, rfl⟩
  · simp only [zero_mul, Real.cos_zero, Real.sin_zero]
    ring
  · ring

/-- **C77, partial (normalisation, true times).**  If `x = 0`, or without oscillating
terms, the reported normalisation is the integral over all true decay times of the
rate times the efficiency.  Missing: oscillating terms, which are cut
(`C77_norm_series_partial`). -/
theorem C77_norm_partial (p : SplicePars) (I1 I2 I3 I4 τ x y : ℝ) (h2 : 2 ≤ p.knots.length)
    (l0 : p.a0.length + 1 = p.knots.length) (l1 : p.a1.length + 1 = p.knots.length)
    (l2 : p.a2.length + 1 = p.knots.length) (l3 : p.a3.length + 1 = p.knots.length)
    (hs : p.knots.Pairwise (· ≤ ·)) (h0 : 0 ≤ p.knots.getD 0 0) (hτ : τ ≠ 0) (hm : y ≠ 1) (hp : y ≠ -1)
    (z2 : p.a2.getD (p.knots.length - 2) 0 = 0) (z3 : p.a3.getD (p.knots.length - 2) 0 = 0)
    (hL : 0 < p.a1.getD (p.knots.length - 2) 0 * p.knots.getD (p.knots.length - 1) 0
      + p.a0.getD (p.knots.length - 2) 0)
    (hy : |y / τ| < 1 / τ - p.a1.getD (p.knots.length - 2) 0
      / (p.a1.getD (p.knots.length - 2) 0 * p.knots.getD (p.knots.length - 1) 0 + p.a0.getD (p.knots.length - 2) 0))
    (hx : x = 0 ∨ (I1 = I2 ∧ I4 = 0)) :
    spliceNormalization p I1 I2 I3 I4 τ x y
      = some (∫ t in Ioi 0, splineEfficiency p.knots p.a0 p.a1 p.a2 p.a3 t
          * truthResolution (I1 + I2) (I1 - I2) I3 I4 τ t x y) := by
  have hx' : x = 0 ∨ (I1 - I2 = 0 ∧ I4 = 0) := by
    rcases hx with hx | ⟨h1, h2⟩
    · exact Or.inl hx
    · exact Or.inr ⟨by rw [h1, sub_self], h2⟩
  rw [C77_norm_series_partial p I1 I2 I3 I4 τ x y h2 l0 l1 l2 l3 hs h0 hτ hm hp z2 z3 hL hy]
  congr 2
  funext t
  rw [threeTermRate_truth _ _ _ _ _ _ _ _ hx', ite_self]

example (I1 I2 I3 I4 : ℝ) := C77_norm_partial ⟨4 / 5, 1 / 10, 0, 1, 0, 2, 1 / 100, 3, [0, 1 / 5, 1, 4],
    [0, 1, 2], [2, 0, -1 / 4], [1, 1 / 2, 0], [-1, 1 / 3, 0], 1 / 100, 1, 0, 1⟩ I1 I2 I3 I4 (41 / 100) 0 (6 / 1000)
  (by decide) rfl rfl rfl rfl (by norm_num [List.pairwise_cons]) (by norm_num) (by norm_num) (by norm_num) (by norm_num)
  rfl rfl (by norm_num) (by norm_num [abs_lt]) (Or.inl rfl)

/-- Integrals over the measured time of three Gaussians. -/
theorem three_totals (f1 f2 f3 : ℝ → ℝ) (w1 w2 w3 b1 b2 b3 σ1 σ2 σ3 : ℝ) (h1 : 0 < σ1) (h2 : 0 < σ2) (h3 : 0 < σ3)
    (i1 : IntegrableOn f1 (Ioi 0)) (i2 : IntegrableOn f2 (Ioi 0)) (i3 : IntegrableOn f3 (Ioi 0)) :
    Integrable (fun T => w1 * smear f1 (normalDensity σ1) (T - b1) + w2 * smear f2 (normalDensity σ2) (T - b2)
        + w3 * smear f3 (normalDensity σ3) (T - b3))
    ∧ ∫ T, (w1 * smear f1 (normalDensity σ1) (T - b1) + w2 * smear f2 (normalDensity σ2) (T - b2)
        + w3 * smear f3 (normalDensity σ3) (T - b3))
      = w1 * (∫ t in Ioi 0, f1 t) + w2 * (∫ t in Ioi 0, f2 t) + w3 * ∫ t in Ioi 0, f3 t := by
  have j1 := ((smear_integrable h1 _ i1).comp_sub_right b1).const_mul w1
  have j2 := ((smear_integrable h2 _ i2).comp_sub_right b2).const_mul w2
  have j3 := ((smear_integrable h3 _ i3).comp_sub_right b3).const_mul w3
  have e12 := integral_add j1 j2
  have e123 := integral_add (j1.add j2) j3
  simp only [Pi.add_apply, integral_const_mul] at e12 e123
  refine ⟨(j1.add j2).add j3, ?_⟩
  rw [e123, e12, integral_sub_right_eq_self (smear _ _), integral_sub_right_eq_self (smear _ _),
    integral_sub_right_eq_self (smear _ _), smear_total h1 _ i1, smear_total h2 _ i2, smear_total h3 _ i3]

/-- The rate of the code times the efficiency is integrable. -/
theorem code_int (K a0 a1 a2 a3 : List ℝ) (hs : K.Pairwise (· ≤ ·)) (h0 : 0 ≤ K.getD 0 0) (c1 c2 c3 c4 τ x y σ : ℝ)
    (hy : |y / τ| < 1 / τ - a1.getD (K.length - 2) 0
      / (a1.getD (K.length - 2) 0 * K.getD (K.length - 1) 0 + a0.getD (K.length - 2) 0)) :
    IntegrableOn (fun t => linearTail K a0 a1 a2 a3 t * codeRate (K.getD (K.length - 1) 0) c1 c2 c3 c4 τ x y σ t) (Ioi 0)
    ∧ ∫ t in Ioi 0, linearTail K a0 a1 a2 a3 t * codeRate (K.getD (K.length - 1) 0) c1 c2 c3 c4 τ x y σ t
      = (∑ i ∈ Finset.range (K.length - 1), ∫ t in (K.getD i 0)..(K.getD (i + 1) 0),
          cubic (a0.getD i 0) (a1.getD i 0) (a2.getD i 0) (a3.getD i 0) t * knotRate c1 c2 c3 c4 τ x y σ t)
        + (a1.getD (K.length - 1 - 1) 0 * K.getD (K.length - 1) 0 + a0.getD (K.length - 1 - 1) 0)
          * Real.exp (-a1.getD (K.length - 1 - 1) 0
            / (a1.getD (K.length - 1 - 1) 0 * K.getD (K.length - 1) 0 + a0.getD (K.length - 1 - 1) 0)
            * K.getD (K.length - 1) 0)
          * ∫ t in Ioi (K.getD (K.length - 1) 0), truncRate c1 c2 c3 c4 τ x y (-a1.getD (K.length - 1 - 1) 0
            / (a1.getD (K.length - 1 - 1) 0 * K.getD (K.length - 1) 0 + a0.getD (K.length - 1 - 1) 0)) t := by
  rw [show K.length - 2 = K.length - 1 - 1 by omega] at hy
  have pc : ∀ i, Continuous (cubic (a0.getD i 0) (a1.getD i 0) (a2.getD i 0) (a3.getD i 0)) := by
    intro i; unfold cubic; fun_prop
  have hb := h0.trans (byPieces_split (fun i => K.getD i 0)
    (fun i => cubic (a0.getD i 0) (a1.getD i 0) (a2.getD i 0) (a3.getD i 0)) (fun _ => 0) pc continuous_const
    (K.length - 1) fun i hi => sorted_getD K hs i hi).1
  unfold linearTail codeRate
  dsimp only
  rw [sub_eq_add_neg, ← neg_div] at hy
  generalize a1.getD (K.length - 1 - 1) 0 * K.getD (K.length - 1) 0 + a0.getD (K.length - 1 - 1) 0 = L at *
  generalize -a1.getD (K.length - 1 - 1) 0 / L = s at *
  obtain ⟨ha, hb'⟩ := abs_lt.1 hy
  have ey : y * (1 / τ) = y / τ := by ring
  have hg : IntegrableOn (fun t => Real.exp (-s * t) * truncRate c1 c2 c3 c4 τ x y 0 t) (Ioi (K.getD (K.length - 1) 0)) := by
    simp only [← truncRate_damp]
    exact (trunc_total c1 c2 c3 c4 τ x y s (by linarith) (by linarith)).1.mono_set (Ioi_subset_Ioi hb)
  have h := piecesThenExp_split (fun i => K.getD i 0)
    (fun i => cubic (a0.getD i 0) (a1.getD i 0) (a2.getD i 0) (a3.getD i 0)) (knotRate c1 c2 c3 c4 τ x y σ)
    (fun t => truncRate c1 c2 c3 c4 τ x y 0 t) pc (knotRate_cont _ _ _ _ _ _ _ _) (K.length - 1)
    (fun i hi => sorted_getD K hs i hi) L s hg 0 h0
  simp only [← truncRate_damp] at h
  exact h

/-- **C77, partial (normalisation, measured times).**  If the first knot is at 0, and
`x = 0` or the oscillating terms are absent, the value is integrable over all measured
times and the reported normalisation is its integral, whatever the biases, the widths,
the fractions and the error of the event, and whatever the last polynomial.  Missing:
oscillating terms (`C77_violation_norm`), a first knot elsewhere
(`C77_violation_first_knot`). -/
theorem C77_total_partial (p : SplicePars) (I1 I2 I3 I4 τ x y σ : ℝ) (h : p.Ok σ)
    (hs : p.knots.Pairwise (· ≤ ·)) (hk0 : p.knots.head? = some 0) (hτ : τ ≠ 0) (hm : y ≠ 1) (hp : y ≠ -1)
    (_hL : 0 < p.a1.getD (p.knots.length - 2) 0 * p.knots.getD (p.knots.length - 1) 0
      + p.a0.getD (p.knots.length - 2) 0)
    (hy : |y / τ| < 1 / τ - p.a1.getD (p.knots.length - 2) 0
      / (p.a1.getD (p.knots.length - 2) 0 * p.knots.getD (p.knots.length - 1) 0 + p.a0.getD (p.knots.length - 2) 0))
    (hx : x = 0 ∨ (I1 = I2 ∧ I4 = 0)) :
    ∃ v : ℝ → ℝ, (∀ T, spliceResolution p (I1 + I2) (I1 - I2) I3 I4 τ T x y σ = some (v T))
      ∧ Integrable v ∧ spliceNormalization p I1 I2 I3 I4 τ x y = some (∫ T, v T) := by
  have hcons : (0 :: p.knots.tail) = p.knots := by
    cases hk : p.knots with
    | nil => rw [hk] at hk0; simp at hk0
    | cons a l => rw [hk] at hk0; simp at hk0; rw [hk0]; rfl
  have h0 : 0 ≤ p.knots.getD 0 0 := by rw [← hcons]; simp
  have hx' : x = 0 ∨ (I1 - I2 = 0 ∧ I4 = 0) := by
    rcases hx with hx | ⟨h1, h2⟩
    · exact Or.inl hx
    · exact Or.inr ⟨by rw [h1, sub_self], h2⟩
  have hv := fun T => (splice_eq p σ h (by rw [hcons]; exact hs) (I1 + I2) (I1 - I2) I3 I4 τ T x y).2
  have hi := fun σ' => (code_int p.knots p.a0 p.a1 p.a2 p.a3 hs h0 (I1 + I2) (I1 - I2) I3 I4 τ x y σ' hy).1
  rw [hcons] at hv
  have tot := three_totals _ _ _ p.coreFraction p.tailFraction (1 - p.coreFraction - p.tailFraction)
    ((p.coreBias + p.commonBias) * σ) ((p.tailBias + p.commonBias2) * σ) ((p.outlBias + p.commonBias2) * σ) _ _ _
    h.core h.tail h.outl (hi (p.coreScale * p.commonWidth * σ)) (hi (p.tailScale * p.commonWidth2 * σ))
    (hi (p.outlScale * p.commonWidth2 * σ))
  refine ⟨_, hv, tot.1, ?_⟩
  rw [tot.2, (splice_norm p I1 I2 I3 I4 τ x y h.two h.len0 h.len1 h.len2 h.len3 hs h0 hτ hm hp hy).2]
  congr 1
  simp only [codeRate_truth _ _ _ _ _ _ _ _ _ _ hx', threeTermRate_truth _ _ _ _ _ _ _ _ hx', ite_self]
  ring

example (I1 I2 I3 I4 : ℝ) := C77_total_partial _ I1 I2 I3 I4 (41 / 100) 0 (6 / 1000) (1 / 20) splice_example_ok
  (by norm_num [List.pairwise_cons]) rfl (by norm_num) (by norm_num) (by norm_num) (by norm_num)
  (by norm_num [abs_lt]) (Or.inl rfl)

/-! ## Where the code departs from the property -/

/-- **C77, violation (powers of `x`).**  Between the knots the second number is not the
cosine cut after three terms: the factor `x σ/τ` is squared instead of multiplied, and
the third term comes out too small by the factor `(x σ/τ)⁴`. -/
theorem C77_violation_powers (t : SpliceTab) (τ T x y σ : ℝ) (hσ : 0 < σ) :
    (gaussianSplice t τ T x y σ).2.1
      = ∑ i ∈ Finset.range (t.nKnots - 1), ∫ u in (t.knots i)..(t.knots (i + 1)),
          cubic (t.spline i).a0 (t.spline i).a1 (t.spline i).a2 (t.spline i).a3 u
            * (Real.exp (-(u / τ)) * (1 - (x * (u / τ)) ^ 2 / 2 + (x / τ * σ) ^ 4 * (x * (u / τ)) ^ 4 / 24)
              * normalDensity σ (T - u))
    ∧ (gaussianSplice t τ T x y σ).2.2.2
      = ∑ i ∈ Finset.range (t.nKnots - 1), ∫ u in (t.knots i)..(t.knots (i + 1)),
          cubic (t.spline i).a0 (t.spline i).a1 (t.spline i).a2 (t.spline i).a3 u
            * (Real.exp (-(u / τ)) * (x * (u / τ) - (x / τ * σ) * (x * (u / τ)) ^ 3 / 6
                + (x / τ * σ) ^ 11 * (x * (u / τ)) ^ 5 / 120)
              * normalDensity σ (T - u)) := by
  rw [gaussianSplice_eq hσ]
  unfold knotFuns SpliceTab.piece
  dsimp only
  exact ⟨rfl, rfl⟩

/-- **C77, violation (number of knots).**  More than eight knots are accepted, and the
value then writes behind the local arrays. -/
theorem C77_violation_many_knots (p : SplicePars) (h : 8 < p.knots.length) (c1 c2 c3 c4 τ T x y σ : ℝ) :
    spliceResolution p c1 c2 c3 c4 τ T x y σ = none := by
  unfold spliceResolution spliceRead
  dsimp only
  rw [if_pos (Or.inl h)]
  rfl

example := C77_violation_many_knots ⟨1, 0, 0, 1, 0, 1, 0, 1, [0, 1, 2, 3, 4, 5, 6, 7, 8], [], [], [], [], 0, 1, 0, 1⟩
  (by decide)

theorem exp_tail (a : ℝ) : ∫ t in Ioi a, 2 * Real.exp (-t) = 2 * Real.exp (-a) := by
  rw [integral_const_mul, integral_exp_neg_Ioi]

theorem truth_simple (t : ℝ) : truthResolution (1 + 0) (1 - 0) 0 0 1 t 0 0 = 2 * Real.exp (-t) := by
  unfold truthResolution
  simp
  ring

/-- **C77, violation (first knot).**  The value moves the first knot to 0, the
normalisation does not: with the knots 1 and 2 and an efficiency of 1, one Gaussian and
an unmixed decay of lifetime 1, the integral of the value over all measured times is 2
and the reported normalisation is `2/e`. -/
theorem C77_violation_first_knot :
    ∃ (p : SplicePars) (v : ℝ → ℝ), p.Ok 1 ∧ p.knots = [1, 2] ∧ p.a0 = [1] ∧ p.a1 = [0] ∧ p.a2 = [0] ∧ p.a3 = [0]
      ∧ (∀ T, spliceResolution p (1 + 0) (1 - 0) 0 0 1 T 0 0 1 = some (v T))
      ∧ ∫ T, v T = 2 ∧ spliceNormalization p 1 0 0 0 1 0 0 = some (2 * Real.exp (-1)) := by
  let p : SplicePars := ⟨1, 0, 0, 1, 0, 1, 0, 1, [1, 2], [1], [0], [0], [0], 0, 1, 0, 1⟩
  have hok : p.Ok 1 := ⟨by decide, by decide, rfl, rfl, rfl, rfl, by norm_num [p], by norm_num [p], by norm_num [p]⟩
  have hs : (0 :: p.knots.tail).Pairwise (· ≤ ·) := by norm_num [p, List.pairwise_cons]
  have hv := fun T => (splice_eq p 1 hok hs (1 + 0) (1 - 0) 0 0 1 T 0 0).2
  have hi := fun σ' => (code_int (0 :: p.knots.tail) p.a0 p.a1 p.a2 p.a3 hs (by norm_num) (1 + 0) (1 - 0) 0 0 1 0 0 σ'
    (by norm_num [p])).1
  have tot := three_totals _ _ _ p.coreFraction p.tailFraction (1 - p.coreFraction - p.tailFraction)
    ((p.coreBias + p.commonBias) * 1) ((p.tailBias + p.commonBias2) * 1) ((p.outlBias + p.commonBias2) * 1) _ _ _
    hok.core hok.tail hok.outl (hi (p.coreScale * p.commonWidth * 1)) (hi (p.tailScale * p.commonWidth2 * 1))
    (hi (p.outlScale * p.commonWidth2 * 1))
  have e1 : ∀ t, 0 < t → linearTail (0 :: p.knots.tail) p.a0 p.a1 p.a2 p.a3 t = 1 := by
    intro t ht
    unfold linearTail piecesThenExp
    simp [p, byPieces, cubic, ht]
  have e2 : ∀ t, linearTail p.knots p.a0 p.a1 p.a2 p.a3 t = if 1 < t then 1 else 0 := by
    intro t
    change (if (2 : ℝ) < t then (0 * 2 + 1) * Real.exp (-(-0 / (0 * 2 + 1)) * (t - 2))
      else if (1 : ℝ) < t then cubic 1 0 0 0 t else 0) = _
    unfold cubic
    by_cases h : (2 : ℝ) < t
    · have : (1 : ℝ) < t := by linarith
      simp [h, this]
    · simp [h]
  refine ⟨p, _, hok, rfl, rfl, rfl, rfl, rfl, hv, ?_, ?_⟩
  · refine tot.2.trans ?_
    simp only [codeRate_truth _ _ _ _ _ _ _ _ _ _ (Or.inl rfl), truth_simple]
    have : ∫ t in Ioi 0, linearTail (0 :: p.knots.tail) p.a0 p.a1 p.a2 p.a3 t * (2 * Real.exp (-t)) = 2 := by
      rw [setIntegral_congr_fun measurableSet_Ioi (g := fun t => 2 * Real.exp (-t))
        (fun t ht => by rw [e1 t ht, one_mul]), exp_tail]
      simp
    rw [this]
    ring
  · rw [(splice_norm p 1 0 0 0 1 0 0 (by decide) rfl rfl rfl rfl (by norm_num [p, List.pairwise_cons]) (by norm_num [p])
      one_ne_zero (by norm_num) (by norm_num) (by norm_num [p])).2]
    congr 1
    simp only [threeTermRate_truth _ _ _ _ _ _ _ _ (Or.inl rfl), ite_self, truth_simple, e2]
    rw [← exp_tail, ← integral_indicator measurableSet_Ioi, ← integral_indicator measurableSet_Ioi]
    congr 1
    funext t
    by_cases h : 1 < t
    · rw [indicator_of_mem (show t ∈ Ioi (0 : ℝ) from by simp; linarith), indicator_of_mem (show t ∈ Ioi (1 : ℝ) from h),
        if_pos h, one_mul]
    · rw [indicator_of_notMem (show t ∉ Ioi (1 : ℝ) from h)]
      by_cases h0 : 0 < t
      · rw [indicator_of_mem (show t ∈ Ioi (0 : ℝ) from h0), if_neg h, zero_mul]
      · rw [indicator_of_notMem (show t ∉ Ioi (0 : ℝ) from h0)]

/-- **C77, violation (last polynomial).**  The normalisation continues the last
polynomial with only its two lower coefficients: with the single piece `2 - t²` between
0 and 1, which ends at 1 with the slope -2, an efficiency of 2 is integrated after the
last knot. -/
theorem C77_violation_last_piece :
    ∃ p : SplicePars, p.Ok 1 ∧ p.knots = [0, 1] ∧ p.a0 = [2] ∧ p.a1 = [0] ∧ p.a2 = [-1] ∧ p.a3 = [0]
      ∧ spliceNormalization p 1 0 0 0 1 0 0
        = some ((∫ t in Ioi 0, splineEfficiency p.knots p.a0 p.a1 p.a2 p.a3 t * (2 * Real.exp (-t)))
          + 10 / 3 * Real.exp (-1)) := by
  let p : SplicePars := ⟨1, 0, 0, 1, 0, 1, 0, 1, [0, 1], [2], [0], [-1], [0], 0, 1, 0, 1⟩
  have hok : p.Ok 1 := ⟨by decide, by decide, rfl, rfl, rfl, rfl, by norm_num [p], by norm_num [p], by norm_num [p]⟩
  have pc : ∀ i, Continuous (cubic (p.a0.getD i 0) (p.a1.getD i 0) (p.a2.getD i 0) (p.a3.getD i 0)) := by
    intro i; unfold cubic; fun_prop
  have fc : Continuous fun t : ℝ => 2 * Real.exp (-t) := by fun_prop
  have hk : ∀ i < 1, p.knots.getD i 0 ≤ p.knots.getD (i + 1) 0 := by
    intro i hi
    interval_cases i
    norm_num [p]
  have ex : ∀ s t : ℝ, Real.exp (-s * t) * (2 * Real.exp (-t)) = 2 * Real.exp (-(s + 1) * t) := by
    intro s t
    rw [mul_left_comm, ← Real.exp_add]
    ring_nf
  have hi : ∀ s : ℝ, 0 ≤ s → IntegrableOn (fun t => Real.exp (-s * t) * (2 * Real.exp (-t))) (Ioi (p.knots.getD 1 0)) := by
    intro s hs
    simp only [ex]
    exact (exp_neg_integrableOn_Ioi _ (by linarith)).const_mul 2
  have hv : ∀ s : ℝ, 0 ≤ s → ∫ t in Ioi (p.knots.getD 1 0), Real.exp (-s * t) * (2 * Real.exp (-t))
      = 2 * (Real.exp (-(s + 1)) / (s + 1)) := by
    intro s hs
    simp only [ex]
    rw [integral_const_mul, integral_exp_mul_Ioi (by linarith)]
    simp [p]
    rw [show -1 + -s = -(s + 1) by ring, div_neg, neg_div, neg_neg]
  have sp := fun (L s : ℝ) (hs : 0 ≤ s) => (piecesThenExp_split (fun i => p.knots.getD i 0)
    (fun i => cubic (p.a0.getD i 0) (p.a1.getD i 0) (p.a2.getD i 0) (p.a3.getD i 0)) (fun t => 2 * Real.exp (-t))
    (fun t => 2 * Real.exp (-t)) pc fc 1 hk L s (hi s hs) 0 le_rfl).2
  have s1 := sp 2 0 le_rfl
  have s2 := sp 1 2 (by norm_num)
  simp only [ite_self, hv 0 le_rfl] at s1
  simp only [ite_self, hv 2 (by norm_num)] at s2
  refine ⟨p, hok, rfl, rfl, rfl, rfl, rfl, ?_⟩
  rw [(splice_norm p 1 0 0 0 1 0 0 (by decide) rfl rfl rfl rfl (by norm_num [p, List.pairwise_cons]) (by norm_num [p])
      one_ne_zero (by norm_num) (by norm_num) (by norm_num [p])).2]
  congr 1
  simp only [threeTermRate_truth _ _ _ _ _ _ _ _ (Or.inl rfl), ite_self, truth_simple]
  have t1 : linearTail p.knots p.a0 p.a1 p.a2 p.a3 = piecesThenExp (fun i => p.knots.getD i 0)
      (fun i => cubic (p.a0.getD i 0) (p.a1.getD i 0) (p.a2.getD i 0) (p.a3.getD i 0)) 1 2 0 := by
    funext t
    unfold linearTail
    congr 1 <;> norm_num [p]
  have t2 : splineEfficiency p.knots p.a0 p.a1 p.a2 p.a3 = piecesThenExp (fun i => p.knots.getD i 0)
      (fun i => cubic (p.a0.getD i 0) (p.a1.getD i 0) (p.a2.getD i 0) (p.a3.getD i 0)) 1 1 2 := by
    funext t
    unfold splineEfficiency
    congr 1 <;> norm_num [p, cubic, cubicSlope]
  rw [t1, t2, s1, s2]
  have e : p.knots.getD 1 0 = 1 := rfl
  have e3 : Real.exp (2 * 1) * Real.exp (-(2 + 1)) = Real.exp (-1) := by
    rw [← Real.exp_add]; norm_num
  rw [e]
  simp only [zero_mul, Real.exp_zero, zero_add, div_one]
  linear_combination (-2 / 3 : ℝ) * e3

/-- A positive continuous function has a positive integral over a half-line. -/
theorem pos_tail {f : ℝ → ℝ} {b : ℝ} (hf : IntegrableOn f (Ioi b)) (hp : ∀ t, b < t → 0 < f t) : 0 < ∫ t in Ioi b, f t := by
  rw [setIntegral_pos_iff_support_of_nonneg_ae _ hf]
  · have : Function.support f ∩ Ioi b = Ioi b := by
      apply inter_eq_right.2
      intro t ht
      exact (hp t ht).ne'
    rw [this, Real.volume_Ioi]
    exact ENNReal.zero_lt_top
  · exact (ae_restrict_mem measurableSet_Ioi).mono fun t ht => (hp t ht).le

theorem trunc_less (τ x y t : ℝ) (hx : x ≠ 0) (hτ : τ ≠ 0) (ht : t ≠ 0) :
    truncRate (1 + 0) (1 - 0) 0 0 τ x y 0 t < truthResolution (1 + 0) (1 - 0) 0 0 τ t x y := by
  have hz : x * (t / τ) ≠ 0 := mul_ne_zero hx (div_ne_zero ht hτ)
  have hc := Real.one_sub_sq_div_two_lt_cos hz
  have he := Real.exp_pos (-(t / τ))
  unfold truncRate truthResolution
  dsimp only
  rw [show -(1 / τ + 0) * t = -(t / τ) by ring]
  nlinarith [mul_lt_mul_of_pos_left hc he]

theorem knot_less (τ x y σ t : ℝ) (hc : |x / τ * σ| ≤ 1) :
    knotRate (1 + 0) (1 - 0) 0 0 τ x y σ t ≤ threeTermRate (1 + 0) (1 - 0) 0 0 τ x y t := by
  have h4 : (x / τ * σ) ^ 4 ≤ 1 := by
    have := pow_le_one₀ (abs_nonneg _) hc (n := 4)
    rwa [← abs_pow, abs_of_nonneg (by positivity)] at this
  have he := Real.exp_pos (-(t / τ))
  have hz : 0 ≤ Real.exp (-(t / τ)) * (x * (t / τ)) ^ 4 := by positivity
  unfold knotRate knotFuns threeTermRate
  dsimp only
  generalize (x / τ * σ) ^ 4 = c at *
  generalize (x * (t / τ)) ^ 4 = z at *
  nlinarith [mul_le_mul_of_nonneg_left h4 hz]

theorem mix_less {a b c N f g h : ℝ} (l1 : a < N) (l2 : b < N) (l3 : c < N) (hf : 0 ≤ f) (hg : 0 ≤ g) (hh : 0 ≤ h)
    (he : f + g + h = 1) : f * a + g * b + h * c < N := by
  have hm : max a (max b c) < N := max_lt l1 (max_lt l2 l3)
  have h1 : f * a ≤ f * max a (max b c) := mul_le_mul_of_nonneg_left (le_max_left _ _) hf
  have h2 : g * b ≤ g * max a (max b c) :=
    mul_le_mul_of_nonneg_left ((le_max_left _ _).trans (le_max_right _ _)) hg
  have h3 : h * c ≤ h * max a (max b c) :=
    mul_le_mul_of_nonneg_left ((le_max_right _ _).trans (le_max_right _ _)) hh
  have h4 : f * max a (max b c) + g * max a (max b c) + h * max a (max b c) = max a (max b c) := by
    rw [← add_mul, ← add_mul, he, one_mul]
  linarith

/-- **C77, violation (oscillating terms).**  For an unmixed decay (`A = 1`, `B = 0`),
`x ≠ 0`, Gaussians that are not wider than `τ/|x|`, fractions that are not negative, a
first knot at 0, an efficiency that is not negative and positive after the last knot,
the reported normalisation is greater than the integral of the value over all measured
times. -/
theorem C77_violation_norm (p : SplicePars) (τ x y σ : ℝ) (h : p.Ok σ)
    (hs : p.knots.Pairwise (· ≤ ·)) (hk0 : p.knots.head? = some 0) (hτ : τ ≠ 0) (hm : y ≠ 1) (hp : y ≠ -1)
    (z2 : p.a2.getD (p.knots.length - 2) 0 = 0) (z3 : p.a3.getD (p.knots.length - 2) 0 = 0)
    (hpos : ∀ t, 0 ≤ splineEfficiency p.knots p.a0 p.a1 p.a2 p.a3 t)
    (hL : 0 < p.a1.getD (p.knots.length - 2) 0 * p.knots.getD (p.knots.length - 1) 0
      + p.a0.getD (p.knots.length - 2) 0)
    (hy : |y / τ| < 1 / τ - p.a1.getD (p.knots.length - 2) 0
      / (p.a1.getD (p.knots.length - 2) 0 * p.knots.getD (p.knots.length - 1) 0 + p.a0.getD (p.knots.length - 2) 0))
    (hx : x ≠ 0) (hf1 : 0 ≤ p.coreFraction) (hf2 : 0 ≤ p.tailFraction) (hf3 : p.coreFraction + p.tailFraction ≤ 1)
    (w1 : |x / τ * (p.coreScale * p.commonWidth * σ)| ≤ 1) (w2 : |x / τ * (p.tailScale * p.commonWidth2 * σ)| ≤ 1)
    (w3 : |x / τ * (p.outlScale * p.commonWidth2 * σ)| ≤ 1) :
    ∃ (v : ℝ → ℝ) (N : ℝ), (∀ T, spliceResolution p (1 + 0) (1 - 0) 0 0 τ T x y σ = some (v T))
      ∧ spliceNormalization p 1 0 0 0 τ x y = some N ∧ Integrable v ∧ ∫ T, v T < N := by
  have hcons : (0 :: p.knots.tail) = p.knots := by
    cases hk : p.knots with
    | nil => rw [hk] at hk0; simp at hk0
    | cons a l => rw [hk] at hk0; simp at hk0; rw [hk0]; rfl
  have h0 : 0 ≤ p.knots.getD 0 0 := by rw [← hcons]; simp
  have hb : 0 ≤ p.knots.getD (p.knots.length - 1) 0 := h0.trans (byPieces_split (fun i => p.knots.getD i 0)
    (fun _ => 0) (fun _ => 0) (fun _ => continuous_const) continuous_const
    (p.knots.length - 1) fun i hi => sorted_getD p.knots hs i hi).1
  have hv := fun T => (splice_eq p σ h (by rw [hcons]; exact hs) (1 + 0) (1 - 0) 0 0 τ T x y).2
  have hi := fun σ' => (code_int p.knots p.a0 p.a1 p.a2 p.a3 hs h0 (1 + 0) (1 - 0) 0 0 τ x y σ' hy).1
  rw [hcons] at hv
  have tot := three_totals _ _ _ p.coreFraction p.tailFraction (1 - p.coreFraction - p.tailFraction)
    ((p.coreBias + p.commonBias) * σ) ((p.tailBias + p.commonBias2) * σ) ((p.outlBias + p.commonBias2) * σ) _ _ _
    h.core h.tail h.outl (hi (p.coreScale * p.commonWidth * σ)) (hi (p.tailScale * p.commonWidth2 * σ))
    (hi (p.outlScale * p.commonWidth2 * σ))
  obtain ⟨ni, nv⟩ := splice_norm p 1 0 0 0 τ x y h.two h.len0 h.len1 h.len2 h.len3 hs h0 hτ hm hp hy
  have less : ∀ σ', |x / τ * σ'| ≤ 1 → ∫ t in Ioi 0, linearTail p.knots p.a0 p.a1 p.a2 p.a3 t
        * codeRate (p.knots.getD (p.knots.length - 1) 0) (1 + 0) (1 - 0) 0 0 τ x y σ' t
      < ∫ t in Ioi 0, linearTail p.knots p.a0 p.a1 p.a2 p.a3 t
        * (if p.knots.getD (p.knots.length - 1) 0 < t then truthResolution (1 + 0) (1 - 0) 0 0 τ t x y
          else threeTermRate (1 + 0) (1 - 0) 0 0 τ x y t) := by
    intro σ' hσ'
    have hle : ∀ t, linearTail p.knots p.a0 p.a1 p.a2 p.a3 t
        * codeRate (p.knots.getD (p.knots.length - 1) 0) (1 + 0) (1 - 0) 0 0 τ x y σ' t
      ≤ linearTail p.knots p.a0 p.a1 p.a2 p.a3 t
        * (if p.knots.getD (p.knots.length - 1) 0 < t then truthResolution (1 + 0) (1 - 0) 0 0 τ t x y
          else threeTermRate (1 + 0) (1 - 0) 0 0 τ x y t) := by
      intro t
      refine mul_le_mul_of_nonneg_left ?_ (by rw [linearTail_eq _ _ _ _ _ z2 z3]; exact hpos t)
      unfold codeRate
      by_cases ht : p.knots.getD (p.knots.length - 1) 0 < t
      · rw [if_pos ht, if_pos ht]
        exact (trunc_less τ x y t hx hτ (hb.trans_lt ht).ne').le
      · rw [if_neg ht, if_neg ht]
        exact knot_less τ x y σ' t hσ'
    rw [← sub_pos, ← integral_sub ni (hi σ')]
    have gi := ni.sub (hi σ')
    refine lt_of_lt_of_le (pos_tail (gi.mono_set (Ioi_subset_Ioi hb)) ?_)
      (setIntegral_mono_set gi (Filter.Eventually.of_forall fun t => sub_nonneg.2 (hle t))
        (Filter.Eventually.of_forall (Ioi_subset_Ioi hb)))
    intro t ht
    have hl : 0 < linearTail p.knots p.a0 p.a1 p.a2 p.a3 t := by
      unfold linearTail piecesThenExp
      dsimp only
      rw [if_pos ht, show p.knots.length - 1 - 1 = p.knots.length - 2 by omega]
      exact mul_pos hL (Real.exp_pos _)
    rw [Pi.sub_apply, ← mul_sub]
    refine mul_pos hl ?_
    unfold codeRate
    rw [if_pos ht, if_pos ht]
    exact sub_pos.2 (trunc_less τ x y t hx hτ (hb.trans_lt ht).ne')
  refine ⟨_, _, hv, nv, tot.1, ?_⟩
  refine lt_of_eq_of_lt tot.2 ?_
  have l1 := less _ w1
  have l2 := less _ w2
  have l3 := less _ w3
  have f3 : 0 ≤ 1 - p.coreFraction - p.tailFraction := by linarith
  exact mix_less l1 l2 l3 hf1 hf2 f3 (by ring)

theorem violation_example_pos (t : ℝ) : 0 ≤ splineEfficiency [0, 1 / 5, 1, 4] [0, 1, 2] [2, 0, -1 / 4] [1, 1 / 2, 0] [-1, 1 / 3, 0] t := by
  change 0 ≤ if (4 : ℝ) < t then cubic 2 (-1 / 4) 0 0 4 * Real.exp (-(-cubicSlope (-1 / 4) 0 0 4 / cubic 2 (-1 / 4) 0 0 4)
      * (t - 4))
    else if (1 : ℝ) < t then cubic 2 (-1 / 4) 0 0 t else if (1 / 5 : ℝ) < t then cubic 1 0 (1 / 2) (1 / 3) t
    else if (0 : ℝ) < t then cubic 0 2 1 (-1) t else 0
  unfold cubic
  split_ifs with h1 h2 h3 h4
  · exact mul_nonneg (by norm_num) (Real.exp_pos _).le
  · linarith
  · have : 0 < t := by linarith
    positivity
  · have a : t ^ 2 ≤ 1 := by nlinarith
    nlinarith
  · exact le_rfl

example := C77_violation_norm _ (41 / 100) (1 / 100) (6 / 1000) (1 / 20) splice_example_ok
  (by norm_num [List.pairwise_cons]) rfl (by norm_num) (by norm_num) (by norm_num) rfl rfl
  violation_example_pos (by norm_num) (by norm_num [abs_lt]) (by norm_num) (by norm_num) (by norm_num) (by norm_num)
  (by norm_num [abs_le]) (by norm_num [abs_le]) (by norm_num [abs_le])

end GooFit
