import Verif.Model.SplineRes
import Verif.Spec.SplineRes
import Mathlib.Analysis.Calculus.Deriv.Pow
import Mathlib.Analysis.Calculus.Deriv.Mul
import Mathlib.Analysis.Calculus.Deriv.Add
import Mathlib.Tactic.Linarith
import Mathlib.Tactic.FieldSimp
import Mathlib.Tactic.LinearCombination

set_option autoImplicit false

namespace GooFit

open Filter Topology Spec

/-! ## The knot search -/

theorem khiGo_spec (x : Nat → ℝ) (m : ℝ) : ∀ fuel k,
    k ≤ khiGo x m fuel k ∧ khiGo x m fuel k ≤ k + fuel ∧
    (∀ j, k ≤ j → j < khiGo x m fuel k → x j ≤ m) ∧
    (khiGo x m fuel k < k + fuel → m < x (khiGo x m fuel k)) := by
  intro fuel
  induction fuel with
  | zero => intro k; exact ⟨le_rfl, le_rfl, fun j h1 h2 => absurd h2 (by unfold khiGo; omega),
      fun h => absurd h (by unfold khiGo; omega)⟩
  | succ f ih =>
    intro k
    unfold khiGo
    by_cases h : m < x k
    · rw [if_pos h]
      exact ⟨le_rfl, by omega, fun j h1 h2 => absurd h2 (by omega), fun _ => h⟩
    · rw [if_neg h]
      obtain ⟨a, b, c, d⟩ := ih (k + 1)
      refine ⟨by omega, by omega, fun j h1 h2 => ?_, fun hh => d (by omega)⟩
      rcases Nat.eq_or_lt_of_le h1 with e | e
      · rw [← e]; exact not_lt.1 h
      · exact c j e h2

theorem khiGo_eq (x : Nat → ℝ) (n : Nat) (m : ℝ) (k : Nat) (hk : k + 1 < n)
    (hx : ∀ j, j ≤ k → x j ≤ m) (hm : m < x (k + 1)) : khiGo x m n 0 = k + 1 := by
  obtain ⟨-, b, c, d⟩ := khiGo_spec x m n 0
  rcases Nat.lt_trichotomy (khiGo x m n 0) (k + 1) with h | h | h
  · have := d (by omega)
    have := hx (khiGo x m n 0) (by omega)
    linarith
  · exact h
  · have := c (k + 1) (Nat.zero_le _) h
    linarith

theorem Spec.Increasing.le {x : Nat → ℝ} {n : Nat} (h : Increasing x n) {j k : Nat} (hjk : j ≤ k)
    (hk : k < n) : x j ≤ x k := by
  induction k with
  | zero => rw [Nat.le_zero.1 hjk]
  | succ k ih =>
    rcases Nat.eq_or_lt_of_le hjk with e | e
    · rw [e]
    · exact (ih (by omega) (by omega)).trans (h k hk).le

theorem splVal_seg {x y d : Nat → ℝ} {n k : Nat} (hx : Increasing x n) (hk : k + 1 < n) {m : ℝ}
    (h1 : x k ≤ m) (h2 : m < x (k + 1)) : splVal x y d n m = splSeg x y d k m := by
  have := khiGo_eq x n m k hk (fun j hj => (hx.le hj (by omega)).trans h1) h2
  unfold splVal
  simp only [this]
  rw [if_pos ⟨by omega, hk⟩]
  rfl

theorem splSeg_left (x y d : Nat → ℝ) (k : Nat) (h : x k < x (k + 1)) :
    splSeg x y d k (x k) = y k := by
  have h0 : x (k + 1) - x k ≠ 0 := by linarith
  unfold splSeg
  dsimp only
  rw [div_self h0]
  norm_num

theorem splSeg_right (x y d : Nat → ℝ) (k : Nat) : splSeg x y d k (x (k + 1)) = y (k + 1) := by
  unfold splSeg
  dsimp only
  rw [sub_self, zero_div]
  norm_num

/-! ## Derivatives of one interval -/

/-- First derivative of `splSeg`. -/
noncomputable def splSeg1 (x y d : Nat → ℝ) (k : Nat) (m : ℝ) : ℝ :=
  let h := x (k + 1) - x k
  let aa := (x (k + 1) - m) / h
  let bb := 1 - aa
  (y (k + 1) - y k) / h + (-(3 * aa * aa - 1) * d k + (3 * bb * bb - 1) * d (k + 1)) * h / 6

/-- Second derivative of `splSeg`. -/
noncomputable def splSeg2 (x d : Nat → ℝ) (k : Nat) (m : ℝ) : ℝ :=
  let aa := (x (k + 1) - m) / (x (k + 1) - x k)
  aa * d k + (1 - aa) * d (k + 1)

theorem hasDeriv_aa (c h m : ℝ) : HasDerivAt (fun m => (c - m) / h) (-1 / h) m := by
  have := ((hasDerivAt_const m c).sub (hasDerivAt_id m)).div_const h
  simpa using this

theorem splSeg_deriv (x y d : Nat → ℝ) (k : Nat) (h : x k < x (k + 1)) (m : ℝ) :
    HasDerivAt (splSeg x y d k) (splSeg1 x y d k m) m := by
  have h0 : x (k + 1) - x k ≠ 0 := by linarith
  have ha := hasDeriv_aa (x (k + 1)) (x (k + 1) - x k) m
  have hb := (hasDerivAt_const m (1 : ℝ)).sub ha
  have ha3 := (ha.mul ha).mul ha
  have hb3 := (hb.mul hb).mul hb
  have := ((ha.mul_const (y k)).add (hb.mul_const (y (k + 1)))).add
    (((((ha3.sub ha).mul_const (d k)).add ((hb3.sub hb).mul_const (d (k + 1)))).mul_const
      ((x (k + 1) - x k) * (x (k + 1) - x k))).div_const 6.0)
  refine (this.congr_deriv ?_).congr_of_eventuallyEq ?_
  · unfold splSeg1
    simp only [Pi.mul_apply, Pi.sub_apply]
    norm_num
    field_simp
    ring
  · exact Eventually.of_forall fun t => by simp [splSeg]

theorem splSeg1_deriv (x y d : Nat → ℝ) (k : Nat) (h : x k < x (k + 1)) (m : ℝ) :
    HasDerivAt (splSeg1 x y d k) (splSeg2 x d k m) m := by
  have h0 : x (k + 1) - x k ≠ 0 := by linarith
  have ha := hasDeriv_aa (x (k + 1)) (x (k + 1) - x k) m
  have hb := (hasDerivAt_const m (1 : ℝ)).sub ha
  have ha2 := ((ha.const_mul 3).mul ha).sub_const 1
  have hb2 := ((hb.const_mul 3).mul hb).sub_const 1
  have := ((((ha2.neg.mul_const (d k)).add (hb2.mul_const (d (k + 1)))).mul_const
      (x (k + 1) - x k)).div_const 6).const_add ((y (k + 1) - y k) / (x (k + 1) - x k))
  refine (this.congr_deriv ?_).congr_of_eventuallyEq ?_
  · unfold splSeg2
    simp only [Pi.sub_apply]
    field_simp
    ring
  · exact Eventually.of_forall fun t => by simp [splSeg1]

theorem splSeg2_cont (x d : Nat → ℝ) (k : Nat) (m : ℝ) : ContinuousAt (splSeg2 x d k) m := by
  unfold splSeg2
  dsimp only
  fun_prop

/-! ## Gluing -/

theorem glue_deriv {f g1 g2 : ℝ → ℝ} {t d : ℝ} (h1 : ∀ᶠ s in 𝓝[≤] t, f s = g1 s)
    (h2 : ∀ᶠ s in 𝓝[≥] t, f s = g2 s) (d1 : HasDerivAt g1 d t) (d2 : HasDerivAt g2 d t) :
    HasDerivAt f d t := by
  have a : HasDerivWithinAt f d (Set.Iic t) t :=
    d1.hasDerivWithinAt.congr_of_eventuallyEq h1 (h1.self_of_nhdsWithin (Set.mem_Iic.2 le_rfl))
  have b : HasDerivWithinAt f d (Set.Ici t) t :=
    d2.hasDerivWithinAt.congr_of_eventuallyEq h2 (h2.self_of_nhdsWithin (Set.mem_Ici.2 le_rfl))
  have := a.union b
  rw [Set.Iic_union_Ici, hasDerivWithinAt_univ] at this
  exact this

theorem glue_cont {f g1 g2 : ℝ → ℝ} {t : ℝ} (h1 : ∀ᶠ s in 𝓝[≤] t, f s = g1 s)
    (h2 : ∀ᶠ s in 𝓝[≥] t, f s = g2 s) (d1 : ContinuousAt g1 t) (d2 : ContinuousAt g2 t) :
    ContinuousAt f t := by
  have a : ContinuousWithinAt f (Set.Iic t) t :=
    d1.continuousWithinAt.congr_of_eventuallyEq h1 (h1.self_of_nhdsWithin (Set.mem_Iic.2 le_rfl))
  have b : ContinuousWithinAt f (Set.Ici t) t :=
    d2.continuousWithinAt.congr_of_eventuallyEq h2 (h2.self_of_nhdsWithin (Set.mem_Ici.2 le_rfl))
  have := a.union b
  rw [Set.Iic_union_Ici, continuousWithinAt_univ] at this
  exact this

/-- A function given by `g k` on `[x k, x (k+1))`. -/
noncomputable def pw (x : Nat → ℝ) (n : Nat) (g : Nat → ℝ → ℝ) (m : ℝ) : ℝ :=
  g (khiGo x m n 0 - 1) m

theorem pw_seg {x : Nat → ℝ} {n k : Nat} (hx : Increasing x n) (hk : k + 1 < n) (g : Nat → ℝ → ℝ)
    {m : ℝ} (h1 : x k ≤ m) (h2 : m < x (k + 1)) : pw x n g m = g k m := by
  unfold pw
  rw [khiGo_eq x n m k hk (fun j hj => (hx.le hj (by omega)).trans h1) h2]
  rfl

/-- Near an interior point the piecewise function is one piece to the left and one to the right. -/
theorem pw_local {x : Nat → ℝ} {n : Nat} (hx : Increasing x n) (g : Nat → ℝ → ℝ)
    (hg : ∀ k, k + 2 < n → g k (x (k + 1)) = g (k + 1) (x (k + 1))) {t : ℝ}
    (h1 : x 0 < t) (h2 : t < x (n - 1)) (hn : 2 ≤ n) :
    (∃ k, k + 1 < n ∧ x k ≤ t ∧ t < x (k + 1) ∧ (∀ᶠ s in 𝓝[≤] t, pw x n g s = g k s) ∧
      (∀ᶠ s in 𝓝[≥] t, pw x n g s = g k s)) ∨
    (∃ k, k + 2 < n ∧ t = x (k + 1) ∧ (∀ᶠ s in 𝓝[≤] t, pw x n g s = g k s) ∧
      (∀ᶠ s in 𝓝[≥] t, pw x n g s = g (k + 1) s)) := by
  obtain ⟨-, b, c, d⟩ := khiGo_spec x t n 0
  generalize hK : khiGo x t n 0 = K at b c d
  have hK0 : K ≠ 0 := by
    intro h
    have := d (by omega)
    rw [h] at this
    linarith
  have hKn : K < n := by
    by_contra hc
    have := c (n - 1) (Nat.zero_le _) (by omega)
    linarith
  obtain ⟨k, rfl⟩ : ∃ k, K = k + 1 := ⟨K - 1, by omega⟩
  have hr : t < x (k + 1) := d (by omega)
  have hl : x k ≤ t := c k (Nat.zero_le _) (by omega)
  have hright : ∀ᶠ s in 𝓝[≥] t, pw x n g s = g k s := by
    have : Set.Ico t (x (k + 1)) ∈ 𝓝[≥] t := Ico_mem_nhdsGE hr
    filter_upwards [this] with s hs
    exact pw_seg hx (by omega) g (hl.trans hs.1) hs.2
  rcases eq_or_lt_of_le hl with e | e
  · have hk0 : k ≠ 0 := by rintro rfl; linarith
    obtain ⟨j, rfl⟩ : ∃ j, k = j + 1 := ⟨k - 1, by omega⟩
    right
    refine ⟨j, by omega, e.symm, ?_, hright⟩
    have hj : x j < t := by rw [← e]; exact hx j (by omega)
    have : Set.Ioc (x j) t ∈ 𝓝[≤] t := Ioc_mem_nhdsLE hj
    filter_upwards [this] with s hs
    rcases eq_or_lt_of_le hs.2 with e' | e'
    · rw [e', pw_seg hx (by omega) g hl hr, ← e, hg j (by omega)]
    · exact pw_seg hx (by omega) g hs.1.le (by rw [e]; exact e')
  · left
    refine ⟨k, by omega, hl, hr, ?_, hright⟩
    have : Set.Ioc (x k) t ∈ 𝓝[≤] t := Ioc_mem_nhdsLE e
    filter_upwards [this] with s hs
    exact pw_seg hx (by omega) g hs.1.le (hs.2.trans_lt hr)

theorem pw_cont {x : Nat → ℝ} {n : Nat} (hx : Increasing x n) (g : Nat → ℝ → ℝ)
    (hg : ∀ k, k + 2 < n → g k (x (k + 1)) = g (k + 1) (x (k + 1)))
    (hc : ∀ k, k + 1 < n → ∀ m, ContinuousAt (g k) m) {t : ℝ}
    (h1 : x 0 < t) (h2 : t < x (n - 1)) (hn : 2 ≤ n) : ContinuousAt (pw x n g) t := by
  rcases pw_local hx g hg h1 h2 hn with ⟨k, hk, -, -, a, b⟩ | ⟨k, hk, -, a, b⟩
  · exact glue_cont a b (hc k hk t) (hc k hk t)
  · exact glue_cont a b (hc k (by omega) t) (hc (k + 1) (by omega) t)

theorem pw_deriv {x : Nat → ℝ} {n : Nat} (hx : Increasing x n) (g g' : Nat → ℝ → ℝ)
    (hg : ∀ k, k + 2 < n → g k (x (k + 1)) = g (k + 1) (x (k + 1)))
    (hg' : ∀ k, k + 2 < n → g' k (x (k + 1)) = g' (k + 1) (x (k + 1)))
    (hd : ∀ k, k + 1 < n → ∀ m, HasDerivAt (g k) (g' k m) m) {t : ℝ}
    (h1 : x 0 < t) (h2 : t < x (n - 1)) (hn : 2 ≤ n) :
    HasDerivAt (pw x n g) (pw x n g' t) t := by
  rcases pw_local hx g hg h1 h2 hn with ⟨k, hk, hl, hr, a, b⟩ | ⟨k, hk, e, a, b⟩
  · rw [pw_seg hx hk g' hl hr]
    exact glue_deriv a b (hd k hk t) (hd k hk t)
  · have hv : pw x n g' t = g' (k + 1) t :=
      pw_seg hx (by omega) g' (le_of_eq e.symm) (by rw [e]; exact hx (k + 1) (by omega))
    rw [hv]
    refine glue_deriv a b ?_ (hd (k + 1) (by omega) t)
    have := hd k (by omega) t
    rw [e] at this ⊢
    rw [← hg' k hk]
    exact this

/-! ## The tridiagonal system -/

theorem splDec_range {x y : Nat → ℝ} {n : Nat} (hx : Increasing x n) :
    ∀ i, i + 1 < n → -1 < (splDec x y i).1 ∧ (splDec x y i).1 ≤ 0 := by
  intro i
  induction i with
  | zero =>
    intro _
    unfold splDec
    split <;> norm_num
  | succ i ih =>
    intro hi
    obtain ⟨h1, h2⟩ := ih (by omega)
    have e1 := hx i (by omega)
    have e2 := hx (i + 1) (by omega)
    have hs0 : 0 < (x (i + 1) - x i) / (x (i + 2) - x i) := div_pos (by linarith) (by linarith)
    have hs1 : (x (i + 1) - x i) / (x (i + 2) - x i) < 1 := by
      rw [div_lt_one (by linarith)]; linarith
    rw [splDec]
    dsimp only
    generalize (x (i + 1) - x i) / (x (i + 2) - x i) = sig at hs0 hs1
    generalize (splDec x y i).1 = q at h1 h2
    have hp : 1 < sig * q + 2.0 := by norm_num; nlinarith
    constructor
    · rw [lt_div_iff₀ (by linarith)]; linarith
    · exact div_nonpos_of_nonpos_of_nonneg (by linarith) (by linarith)

theorem splDec_p {x y : Nat → ℝ} {n : Nat} (hx : Increasing x n) (i : Nat) (hi : i + 2 < n) :
    (x (i + 1) - x i) / (x (i + 2) - x i) * (splDec x y i).1 + 2.0 ≠ 0 := by
  obtain ⟨h1, h2⟩ := splDec_range (y := y) hx i (by omega)
  have e1 := hx i (by omega)
  have e2 := hx (i + 1) (by omega)
  have hs0 : 0 < (x (i + 1) - x i) / (x (i + 2) - x i) := div_pos (by linarith) (by linarith)
  have hs1 : (x (i + 1) - x i) / (x (i + 2) - x i) < 1 := by
    rw [div_lt_one (by linarith)]; linarith
  generalize (x (i + 1) - x i) / (x (i + 2) - x i) = sig at hs0 hs1
  generalize (splDec x y i).1 = q at h1 h2
  have hp : 1 < sig * q + 2.0 := by norm_num; nlinarith
  linarith

theorem splDeriv_back {x y : Nat → ℝ} {n : Nat} (k : Nat) (hk : k + 1 < n) :
    splDeriv x y n k = (splDec x y k).1 * splDeriv x y n (k + 1) + (splDec x y k).2 := by
  unfold splDeriv
  obtain ⟨j, hj⟩ : ∃ j, n - 1 - k = j + 1 := ⟨n - 2 - k, by omega⟩
  rw [hj, splBack, show n - 1 - (j + 1) = k by omega, show n - 1 - (k + 1) = j by omega]

/-- The interior equations of the spline: continuity of the first derivative. -/
theorem splDeriv_interior {x y : Nat → ℝ} {n : Nat} (hx : Increasing x n) (k : Nat) (hk : k + 2 < n) :
    (x (k + 1) - x k) * splDeriv x y n k + 2 * (x (k + 2) - x k) * splDeriv x y n (k + 1)
      + (x (k + 2) - x (k + 1)) * splDeriv x y n (k + 2)
      = 6 * ((y (k + 2) - y (k + 1)) / (x (k + 2) - x (k + 1)) - (y (k + 1) - y k) / (x (k + 1) - x k)) := by
  have hp := splDec_p (y := y) hx k hk
  have e1 := hx k (by omega)
  have e2 := hx (k + 1) (by omega)
  have hH : x (k + 2) - x k ≠ 0 := by
    have : x (k + 1) < x (k + 2) := e2
    linarith
  have b1 := splDeriv_back (x := x) (y := y) (n := n) k (by omega)
  have b2 := splDeriv_back (x := x) (y := y) (n := n) (k + 1) (by omega)
  rw [splDec] at b2
  dsimp only at b2
  generalize hsig : (x (k + 1) - x k) / (x (k + 2) - x k) = sig at hp b2
  have hsig' : sig * (x (k + 2) - x k) = x (k + 1) - x k := by
    rw [← hsig, div_mul_cancel₀ _ hH]
  generalize (y (k + 2) - y (k + 1)) / (x (k + 2) - x (k + 1)) - (y (k + 1) - y k) / (x (k + 1) - x k)
    = D at b2 ⊢
  generalize hP : sig * (splDec x y k).1 + 2.0 = P at hp b2
  have b3 : P * splDeriv x y n (k + 1)
      = (sig - 1.0) * splDeriv x y n (k + 2)
        + (6.0 * D / (x (k + 2) - x k) - sig * (splDec x y k).2) := by
    rw [b2]
    field_simp
  rw [← hP] at b3
  have b4 : (6.0 * D / (x (k + 2) - x k)) * (x (k + 2) - x k) = 6 * D := by
    rw [div_mul_cancel₀ _ hH]; norm_num
  generalize 6.0 * D / (x (k + 2) - x k) = E at b3 b4
  norm_num at b3
  have h12 : x (k + 2) - x (k + 1) = (1 - sig) * (x (k + 2) - x k) := by linear_combination hsig'
  rw [h12, ← hsig', b1]
  generalize x (k + 2) - x k = H at *
  linear_combination H * b3 + b4

theorem splSeg1_glue {x y : Nat → ℝ} {n : Nat} (hx : Increasing x n) (k : Nat) (hk : k + 2 < n) :
    splSeg1 x y (splDeriv x y n) k (x (k + 1)) = splSeg1 x y (splDeriv x y n) (k + 1) (x (k + 1)) := by
  have h := splDeriv_interior (y := y) hx k hk
  have e1 : x (k + 1) - x k ≠ 0 := by have := hx k (by omega); linarith
  have e2 : x (k + 1 + 1) - x (k + 1) ≠ 0 := by have := hx (k + 1) (by omega); linarith
  unfold splSeg1
  dsimp only
  rw [sub_self, zero_div, div_self e2]
  rw [show k + 1 + 1 = k + 2 from rfl] at *
  linear_combination h / 6

theorem splSeg2_glue {x : Nat → ℝ} {n : Nat} (hx : Increasing x n) (d : Nat → ℝ) (k : Nat)
    (hk : k + 2 < n) : splSeg2 x d k (x (k + 1)) = splSeg2 x d (k + 1) (x (k + 1)) := by
  have e2 : x (k + 1 + 1) - x (k + 1) ≠ 0 := by have := hx (k + 1) (by omega); linarith
  unfold splSeg2
  dsimp only
  rw [sub_self, zero_div, div_self e2]
  ring

theorem splSeg_glue {x : Nat → ℝ} {n : Nat} (hx : Increasing x n) (y d : Nat → ℝ) (k : Nat)
    (hk : k + 2 < n) : splSeg x y d k (x (k + 1)) = splSeg x y d (k + 1) (x (k + 1)) := by
  rw [splSeg_right, splSeg_left x y d (k + 1) (hx (k + 1) (by omega))]

/-- Boundary slopes. -/
theorem splSeg1_first {x y : Nat → ℝ} {n : Nat} (hx : Increasing x n) (hn : 2 ≤ n)
    (hb : splYp1 x y ≤ 0.99e30) :
    splSeg1 x y (splDeriv x y n) 0 (x 0) = 2 * ((y 1 - y 0) / (x 1 - x 0)) := by
  have e1 : x 1 - x 0 ≠ 0 := by have := hx 0 (by omega); linarith
  have b1 := splDeriv_back (x := x) (y := y) (n := n) 0 (by omega)
  rw [splDec, if_neg (not_lt.2 hb)] at b1
  dsimp only at b1
  unfold splSeg1
  simp only [zero_add] at *
  rw [div_self e1, b1]
  unfold splYp1
  norm_num
  field_simp
  ring

theorem splSeg1_last {x y : Nat → ℝ} {n : Nat} (hx : Increasing x n) (hn : 2 ≤ n)
    (hb : splYpn x y n ≤ 0.99e30) :
    splSeg1 x y (splDeriv x y n) (n - 2) (x (n - 1))
      = 2 * ((y (n - 1) - y (n - 2)) / (x (n - 1) - x (n - 2))) := by
  have h21 : n - 2 + 1 = n - 1 := by omega
  have e1 : x (n - 1) - x (n - 2) ≠ 0 := by
    have := hx (n - 2) (by omega)
    rw [h21] at this; linarith
  have b1 := splDeriv_back (x := x) (y := y) (n := n) (n - 2) (by omega)
  have hl : splDeriv x y n (n - 1) = splLast x y n := by
    unfold splDeriv; rw [Nat.sub_self]; rfl
  obtain ⟨r1, r2⟩ := splDec_range (y := y) hx (n - 2) (by omega)
  rw [h21] at b1
  unfold splSeg1
  dsimp only
  rw [h21, sub_self, zero_div, b1]
  have hl2 : splDeriv x y n (n - 1) * (0.5 * (splDec x y (n - 2)).1 + 1)
      = 3 / (x (n - 1) - x (n - 2)) * ((y (n - 1) - y (n - 2)) / (x (n - 1) - x (n - 2)))
        - 0.5 * (splDec x y (n - 2)).2 := by
    rw [hl]
    unfold splLast
    simp only [if_neg (not_lt.2 hb)]
    have hne : (0.5 : ℝ) * (splDec x y (n - 2)).1 + 1.0 ≠ 0 := by norm_num; linarith
    rw [show (0.5 : ℝ) * (splDec x y (n - 2)).1 + 1 = 0.5 * (splDec x y (n - 2)).1 + 1.0 by norm_num,
      div_mul_cancel₀ _ hne]
    unfold splYpn
    rw [show (3.0 : ℝ) = 3 by norm_num]
    ring
  generalize splDeriv x y n (n - 1) = M at *
  generalize (splDec x y (n - 2)).1 = q at *
  generalize (splDec x y (n - 2)).2 = u at *
  generalize x (n - 1) - x (n - 2) = h at *
  generalize y (n - 1) - y (n - 2) = Y at *
  have hh : h * (3 / h * (Y / h)) = 3 * (Y / h) := by field_simp
  norm_num at hl2 ⊢
  linear_combination (h / 3) * hl2 + hh / 3

end GooFit
