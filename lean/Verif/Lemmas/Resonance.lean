import Verif.Model.Resonance
import Verif.Spec.Resonance
import Mathlib.Tactic.Ring
import Mathlib.Tactic.FieldSimp
import Mathlib.Tactic.Linarith
import Mathlib.Tactic.LinearCombination
import Mathlib.Tactic.NormNum
import Mathlib.Tactic.Positivity

/-!
# Lemmas about resonances
-/

set_option autoImplicit false

namespace GooFit

open Spec

theorem Mom.sq_nonneg' (p : Mom) : 0 ≤ Mom.sq p := Finset.sum_nonneg fun i _ => by positivity

theorem energy_sq' (m : ℝ) (p : Mom) : energy m p ^ 2 = m ^ 2 + Mom.sq p :=
  Real.sq_sqrt (by have := Mom.sq_nonneg' p; positivity)

theorem energy_nonneg' (m : ℝ) (p : Mom) : 0 ≤ energy m p := Real.sqrt_nonneg _

theorem energy_ge' (m : ℝ) (p : Mom) (hm : 0 ≤ m) : m ≤ energy m p := by
  have h := energy_sq' m p
  have := Mom.sq_nonneg' p
  exact le_of_sq_le_sq' hm (energy_nonneg' m p) (by linarith)
where
  le_of_sq_le_sq' {a b : ℝ} (_ha : 0 ≤ a) (hb : 0 ≤ b) (h : a ^ 2 ≤ b ^ 2) : a ≤ b :=
    (pow_le_pow_iff_left₀ _ha hb (by norm_num)).1 h

theorem Mom.sq_add (p q : Mom) : Mom.sq (p + q) = Mom.sq p + 2 * Mom.dot p q + Mom.sq q := by
  unfold Mom.sq Mom.dot
  rw [Finset.mul_sum, ← Finset.sum_add_distrib, ← Finset.sum_add_distrib]
  exact Finset.sum_congr rfl fun i _ => by simp only [Pi.add_apply]; ring

theorem Mom.sq_neg' (p : Mom) : Mom.sq (-p) = Mom.sq p := by
  unfold Mom.sq
  exact Finset.sum_congr rfl fun i _ => by simp only [Pi.neg_apply]; ring

theorem Mom.dot_neg_left (p q : Mom) : Mom.dot (-p) q = -Mom.dot p q := by
  unfold Mom.dot
  rw [← Finset.sum_neg_distrib]
  exact Finset.sum_congr rfl fun i _ => by simp only [Pi.neg_apply]; ring

theorem Mom.sq_zero : Mom.sq 0 = 0 := by simp [Mom.sq]

/-- The spin factor with the roles of the particles made explicit. -/
noncomputable def spinCore (L : Nat) (M2 mA2 mB2 mC2 mAB mAC mBC : ℝ) : ℝ :=
  match L with
  | 0 => 1
  | 1 => -((mBC - mAC) + (M2 - mC2) * (mA2 - mB2) / mAB)
  | _ => ((mBC - mAC) + (M2 - mC2) * (mA2 - mB2) / mAB) ^ 2
      - ((mAB - 2 * M2 - 2 * mC2) + (M2 - mC2) ^ 2 / mAB)
        * ((mAB - 2 * mA2 - 2 * mB2) + (mA2 - mB2) ^ 2 / mAB) / 3

theorem spinCore_one (M2 mA2 mB2 mC2 mAB mAC mBC : ℝ) : spinCore 1 M2 mA2 mB2 mC2 mAB mAC mBC
    = -((mBC - mAC) + (M2 - mC2) * (mA2 - mB2) / mAB) := rfl

theorem spinCore_two (M2 mA2 mB2 mC2 mAB mAC mBC : ℝ) : spinCore 2 M2 mA2 mB2 mC2 mAB mAC mBC
    = ((mBC - mAC) + (M2 - mC2) * (mA2 - mB2) / mAB) ^ 2
      - ((mAB - 2 * M2 - 2 * mC2) + (M2 - mC2) ^ 2 / mAB)
        * ((mAB - 2 * mA2 - 2 * mB2) + (mA2 - mB2) ^ 2 / mAB) / 3 := rfl

theorem spinFactor_core (L : Nat) (hL : L ≤ 2) (M m1 m2 m3 m12 m13 m23 : ℝ) (cyc : Nat) :
    spinFactorDalitz L M m1 m2 m3 m12 m13 m23 cyc =
      spinCore L (M ^ 2)
        ((if 0 = cyc then m1 else if 1 = cyc then m3 else m2) ^ 2)
        ((if 0 = cyc then m2 else if 1 = cyc then m1 else m3) ^ 2)
        ((if 0 = cyc then m3 else if 1 = cyc then m2 else m1) ^ 2)
        (if 0 = cyc then m12 else if 1 = cyc then m13 else m23)
        (if 0 = cyc then m13 else if 1 = cyc then m23 else m12)
        (if 0 = cyc then m23 else if 1 = cyc then m12 else m13) := by
  have h1 : (1.0 : ℝ) = 1 := by norm_num
  unfold spinFactorDalitz
  dsimp only
  rw [h1]
  generalize (if 0 = cyc then m1 else if 1 = cyc then m3 else m2) = mA
  generalize (if 0 = cyc then m2 else if 1 = cyc then m1 else m3) = mB
  generalize (if 0 = cyc then m3 else if 1 = cyc then m2 else m1) = mC
  generalize (if 0 = cyc then m12 else if 1 = cyc then m13 else m23) = sAB
  generalize (if 0 = cyc then m13 else if 1 = cyc then m23 else m12) = sAC
  generalize (if 0 = cyc then m23 else if 1 = cyc then m12 else m13) = sBC
  rcases (by omega : L = 0 ∨ L = 1 ∨ L = 2) with h | h | h <;> subst h
  · simp [spinCore]
  · rw [if_neg (by norm_num), if_neg (by norm_num), spinCore_one,
      div_eq_mul_one_div ((M ^ 2 - mC ^ 2) * (mA ^ 2 - mB ^ 2))]
    ring
  · rw [if_neg (by norm_num), if_pos rfl, spinCore_two,
      div_eq_mul_one_div ((M ^ 2 - mC ^ 2) * (mA ^ 2 - mB ^ 2)),
      div_eq_mul_one_div ((M ^ 2 - mC ^ 2) ^ 2), div_eq_mul_one_div ((mA ^ 2 - mB ^ 2) ^ 2)]
    ring

/-- In the rest frame of the pair the spin factor is Zemach's. -/
theorem spinCore_zemach (L : Nat) (hL : L ≤ 2) (mA mB mC M2 : ℝ) (q p : Mom)
    (hS : 0 < energy mA q + energy mB q)
    (hM : M2 = (energy mA q + energy mB q + energy mC p) ^ 2 - Mom.sq p) :
    spinCore L M2 (mA ^ 2) (mB ^ 2) (mC ^ 2) ((energy mA q + energy mB q) ^ 2)
      ((energy mA q + energy mC p) ^ 2 - Mom.sq (q + p))
      ((energy mB q + energy mC p) ^ 2 - Mom.sq (-q + p)) = zemach L q p := by
  have eA := energy_sq' mA q
  have eB := energy_sq' mB q
  have eC := energy_sq' mC p
  have hne : energy mA q + energy mB q ≠ 0 := hS.ne'
  rw [Mom.sq_add, Mom.sq_add, Mom.dot_neg_left, Mom.sq_neg', hM]
  rw [show mA ^ 2 = energy mA q ^ 2 - Mom.sq q by linarith,
    show mB ^ 2 = energy mB q ^ 2 - Mom.sq q by linarith,
    show mC ^ 2 = energy mC p ^ 2 - Mom.sq p by linarith]
  clear eA eB eC hM hS
  generalize energy mA q = a at *
  generalize energy mB q = b at *
  generalize energy mC p = c at *
  rcases (by omega : L = 0 ∨ L = 1 ∨ L = 2) with h | h | h <;> subst h
  · rfl
  · rw [spinCore_one, show zemach 1 q p = -4 * Mom.dot q p from rfl]
    generalize Mom.sq q = qq
    generalize Mom.sq p = pp
    generalize Mom.dot q p = qp
    rw [show ((a + b + c) ^ 2 - pp - (c ^ 2 - pp)) * (a ^ 2 - qq - (b ^ 2 - qq)) / (a + b) ^ 2
      = (a + b + 2 * c) * (a - b) by rw [div_eq_iff (by positivity)]; ring]
    ring
  · rw [spinCore_two, show zemach 2 q p = 16 * (Mom.dot q p ^ 2 - Mom.sq q * Mom.sq p / 3) from rfl]
    generalize Mom.sq q = qq
    generalize Mom.sq p = pp
    generalize Mom.dot q p = qp
    rw [show ((a + b + c) ^ 2 - pp - (c ^ 2 - pp)) * (a ^ 2 - qq - (b ^ 2 - qq)) / (a + b) ^ 2
      = (a + b + 2 * c) * (a - b) by rw [div_eq_iff (by positivity)]; ring]
    rw [show ((a + b + c) ^ 2 - pp - (c ^ 2 - pp)) ^ 2 / (a + b) ^ 2
      = (a + b + 2 * c) ^ 2 by rw [div_eq_iff (by positivity)]; ring]
    rw [show (a ^ 2 - qq - (b ^ 2 - qq)) ^ 2 / (a + b) ^ 2
      = (a - b) ^ 2 by rw [div_eq_iff (by positivity)]; ring]
    ring

/-- The two-body momentum. -/
theorem twoBodyCMmom_eq (m1 m2 : ℝ) (h1 : 0 ≤ m1) (h2 : 0 ≤ m2) (k : Mom)
    (hS : 0 < energy m1 k + energy m2 k) :
    twoBodyCMmom ((energy m1 k + energy m2 k) ^ 2) m1 m2 = √(Mom.sq k) := by
  have e1 := energy_sq' m1 k
  have e2 := energy_sq' m2 k
  have g1 := energy_ge' m1 k h1
  have g2 := energy_ge' m2 k h2
  set S := energy m1 k + energy m2 k with hSdef
  have hS2 : 0 < S ^ 2 := by positivity
  have hk1 : 0 ≤ 1 - (m1 + m2) * (m1 + m2) / S ^ 2 := by
    rw [sub_nonneg, div_le_one hS2]
    have : m1 + m2 ≤ S := by linarith
    nlinarith
  have hk2 : 0 ≤ 1 - (m1 - m2) * (m1 - m2) / S ^ 2 := by
    rw [sub_nonneg, div_le_one hS2]
    have : m1 + m2 ≤ S := by linarith
    nlinarith
  unfold twoBodyCMmom
  dsimp only
  rw [if_pos hk1, if_pos hk2, Real.sqrt_sq hS.le]
  symm
  rw [Real.sqrt_eq_iff_mul_self_eq (Mom.sq_nonneg' k) (by positivity)]
  have a1 := Real.mul_self_sqrt hk1
  have a2 := Real.mul_self_sqrt hk2
  have h5 : (0.5 : ℝ) = 1 / 2 := by norm_num
  rw [h5]
  generalize √(1 - (m1 + m2) * (m1 + m2) / S ^ 2) = x at *
  generalize √(1 - (m1 - m2) * (m1 - m2) / S ^ 2) = y at *
  have key : S ^ 2 / 4 * (1 - (m1 + m2) * (m1 + m2) / S ^ 2) * (1 - (m1 - m2) * (m1 - m2) / S ^ 2)
      = Mom.sq k := by
    have hne : S ≠ 0 := hS.ne'
    rw [show S ^ 2 / 4 * (1 - (m1 + m2) * (m1 + m2) / S ^ 2) * (1 - (m1 - m2) * (m1 - m2) / S ^ 2)
      = (S ^ 4 - 2 * S ^ 2 * (m1 ^ 2 + m2 ^ 2) + (m1 ^ 2 - m2 ^ 2) ^ 2) / (4 * S ^ 2) by
        field_simp; ring]
    rw [div_eq_iff (by positivity), show m1 ^ 2 = energy m1 k ^ 2 - Mom.sq k by linarith,
      show m2 ^ 2 = energy m2 k ^ 2 - Mom.sq k by linarith, hSdef]
    ring
  rw [← key, ← a1, ← a2]
  ring

/-- In the physical region both square roots of `twoBodyCMMothermom` have
negative arguments. -/
theorem mothermom_eq (s M m3 : ℝ) (hs : 0 < s) (h3 : 0 ≤ m3) (h : √s + m3 < M) :
    twoBodyCMMothermom s M m3 = s / (2 * M) := by
  have hq := Real.sq_sqrt hs.le
  have hq0 := Real.sqrt_pos.2 hs
  have hM : 0 < M := by linarith
  have h1 : ¬ (1 - (M + m3) * (M + m3) / s ≥ 0) := by
    rw [not_le, sub_neg, one_lt_div hs]
    nlinarith
  have h2 : ¬ (1 - (M - m3) * (M - m3) / s ≥ 0) := by
    rw [not_le, sub_neg, one_lt_div hs]
    nlinarith
  unfold twoBodyCMMothermom
  dsimp only
  rw [if_neg h1, if_neg h2]
  have h5 : (0.5 : ℝ) = 1 / 2 := by norm_num
  rw [h5]
  field_simp

end GooFit
