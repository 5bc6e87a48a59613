import Verif.Lemmas.BasicReal
import Verif.Spec.Decay
import Mathlib.Tactic.FieldSimp
import Mathlib.Tactic.Positivity
/-!
# The Dalitz region
-/
set_option autoImplicit false
namespace GooFit
open Spec FpOps

/-- The code's test, over the real numbers. -/
theorem inDalitz_iff (s12 s13 M m1 m2 m3 : ℝ) :
      let s23 := M * M + m1 * m1 + m2 * m2 + m3 * m3 - s12 - s13
      let e1 := 1 / 2 * (s12 - m2 * m2 + m1 * m1) / Real.sqrt s12
      let e3 := 1 / 2 * (M * M - s12 - m3 * m3) / Real.sqrt s12
      let r1 := Real.sqrt (e1 * e1 - m1 * m1)
      let r3 := Real.sqrt (e3 * e3 - m3 * m3)
      inDalitz s12 s13 M m1 m2 m3 = true ↔
      0 ≤ s23 ∧ s23 ≤ (M - m1) * (M - m1) ∧ (m1 + m2) * (m1 + m2) ≤ s12 ∧
        s12 ≤ (M - m3) * (M - m3) ∧
        (e1 + e3) * (e1 + e3) - (r1 + r3) * (r1 + r3) ≤ s13 ∧
        s13 ≤ (e1 + e3) * (e1 + e3) - (r1 - r3) * (r1 - r3) := by
  intro s23 e1 e3 r1 r3
  unfold inDalitz
  have hl : ∀ a b : ℝ, FpMath.lt a b = decide (a < b) := fun a b => by
    rw [Bool.eq_iff_iff, real_lt]; simp
  have h2 : ((1 / 2 : ℚ) : ℝ) = 1 / 2 := by push_cast; rfl
  simp only [real_add, real_sub, real_mul, real_div, real_lit, real_sqrt, gt, hl, h2, Rat.cast_zero]
  by_cases h : s23 < 0 ∨ (M - m1) * (M - m1) < s23
  · have hc : (decide (s23 < 0) || decide ((M - m1) * (M - m1) < s23)) = true := by simpa using h
    rw [if_pos hc]
    constructor
    · intro h'; cases h'
    · rintro ⟨a, b, _⟩
      rcases h with h | h
      · exact absurd h (not_lt.mpr a)
      · exact absurd h (not_lt.mpr b)
  · have hc : ¬ (decide (s23 < 0) || decide ((M - m1) * (M - m1) < s23)) = true := by simpa using h
    rw [if_neg hc]
    push Not at h
    simp only [Bool.and_eq_true, Bool.not_eq_true', decide_eq_false_iff_not, not_lt]
    constructor
    · rintro ⟨⟨⟨a, b⟩, c⟩, d⟩; exact ⟨h.1, h.2, a, b, c, d⟩
    · rintro ⟨_, _, a, b, c, d⟩; exact ⟨⟨⟨a, b⟩, c⟩, d⟩

/-- The interval for `s13` as one inequality. -/
theorem interval_iff (E s13 a b r1 r3 : ℝ) (h1 : r1 * r1 = a) (h3 : r3 * r3 = b) (p1 : 0 ≤ r1)
    (p3 : 0 ≤ r3) :
    (E - (r1 + r3) * (r1 + r3) ≤ s13 ∧ s13 ≤ E - (r1 - r3) * (r1 - r3)) ↔
      (s13 - E + a + b) ^ 2 ≤ 4 * a * b := by
  have hab : 4 * a * b = (2 * (r1 * r3)) ^ 2 := by rw [← h1, ← h3]; ring
  have hp : 0 ≤ 2 * (r1 * r3) := by positivity
  rw [hab, sq_le_sq, abs_of_nonneg hp, abs_le, ← h1, ← h3]
  constructor
  · rintro ⟨a, b⟩; constructor <;> nlinarith
  · rintro ⟨a, b⟩; constructor <;> nlinarith

/-- The same Gram determinant in two frames. -/
theorem gram_identity (s12 s13 M m1 m2 m3 : ℝ) (hs : s12 ≠ 0) (hM : M ≠ 0) :
    let E3 := (M ^ 2 + m3 ^ 2 - s12) / (2 * M)
    let E2 := (M ^ 2 + m2 ^ 2 - s13) / (2 * M)
    let E1 := M - E2 - E3
    let P1 := E1 ^ 2 - m1 ^ 2
    let P2 := E2 ^ 2 - m2 ^ 2
    let P3 := E3 ^ 2 - m3 ^ 2
    let e11 := (s12 - m2 * m2 + m1 * m1) ^ 2 / (4 * s12)
    let e33 := (M * M - s12 - m3 * m3) ^ 2 / (4 * s12)
    let e13 := (s12 - m2 * m2 + m1 * m1) * (M * M - s12 - m3 * m3) / (4 * s12)
    s12 * (4 * (e11 - m1 * m1) * (e33 - m3 * m3) -
      (s13 - (e11 + 2 * e13 + e33) + (e11 - m1 * m1) + (e33 - m3 * m3)) ^ 2) =
    M ^ 2 * (4 * P1 * P3 - (P2 - P1 - P3) ^ 2) := by
  intro E3 E2 E1 P1 P2 P3 e11 e33 e13
  simp only [P1, P2, P3, E1, E2, E3, e11, e33, e13]
  field_simp
  ring

/-- Energies and squared momenta of the daughters in the rest frame of the mother. -/
structure Frame (M m1 m2 m3 s12 s13 : ℝ) where
  E1 : ℝ
  E2 : ℝ
  E3 : ℝ
  h3 : 2 * M * E3 = M ^ 2 + m3 ^ 2 - s12
  h2 : 2 * M * E2 = M ^ 2 + m2 ^ 2 - s13
  h1 : E1 + E2 + E3 = M

/-- For `s12 > 0` the code's test is a statement about the rest frame of the mother. -/
theorem inDalitz_frame (s12 s13 M m1 m2 m3 : ℝ) (f : Frame M m1 m2 m3 s12 s13) (hs : 0 < s12)
    (hM : 0 < M) (hm1 : 0 ≤ m1) (hm2 : 0 ≤ m2) (hm3 : 0 ≤ m3) :
    inDalitz s12 s13 M m1 m2 m3 = true ↔
      0 ≤ M * M + m1 * m1 + m2 * m2 + m3 * m3 - s12 - s13 ∧ m1 ≤ f.E1 ∧ m3 ≤ f.E3 ∧
      (m1 + m2) ^ 2 ≤ s12 ∧
      ((f.E2 ^ 2 - m2 ^ 2) - (f.E1 ^ 2 - m1 ^ 2) - (f.E3 ^ 2 - m3 ^ 2)) ^ 2 ≤
        4 * (f.E1 ^ 2 - m1 ^ 2) * (f.E3 ^ 2 - m3 ^ 2) := by
  have hi := inDalitz_iff s12 s13 M m1 m2 m3
  have hss : Real.sqrt s12 * Real.sqrt s12 = s12 := Real.mul_self_sqrt hs.le
  have hsp : 0 < Real.sqrt s12 := Real.sqrt_pos.mpr hs
  simp only at hi
  rw [hi]
  have k3 : f.E3 = (M ^ 2 + m3 ^ 2 - s12) / (2 * M) := by
    rw [eq_div_iff (by positivity)]; linarith [f.h3]
  have k2 : f.E2 = (M ^ 2 + m2 ^ 2 - s13) / (2 * M) := by
    rw [eq_div_iff (by positivity)]; linarith [f.h2]
  have k1 : f.E1 = M - f.E2 - f.E3 := by linarith [f.h1]
  have h1 : 2 * M * f.E1 = M ^ 2 + m1 ^ 2 - (M * M + m1 * m1 + m2 * m2 + m3 * m3 - s12 - s13) := by
    rw [k1]; linarith [f.h2, f.h3]
  have hg := gram_identity s12 s13 M m1 m2 m3 hs.ne' hM.ne'
  simp only [← k3, ← k2] at hg
  rw [← k1] at hg
  have hA : ∀ a b : ℝ, 1 / 2 * a / Real.sqrt s12 * (1 / 2 * b / Real.sqrt s12) = a * b / (4 * s12) := by
    intro a b
    rw [div_mul_div_comm, hss]
    field_simp
    ring
  have q11 := hA (s12 - m2 * m2 + m1 * m1) (s12 - m2 * m2 + m1 * m1)
  have q13 := hA (s12 - m2 * m2 + m1 * m1) (M * M - s12 - m3 * m3)
  have q33 := hA (M * M - s12 - m3 * m3) (M * M - s12 - m3 * m3)
  clear hi hA
  generalize 1 / 2 * (s12 - m2 * m2 + m1 * m1) / Real.sqrt s12 = A at *
  generalize 1 / 2 * (M * M - s12 - m3 * m3) / Real.sqrt s12 = B at *
  rw [← pow_two] at q11 q33
  have q11' := q11
  have q33' := q33
  rw [← pow_two] at q11' q33'
  rw [← q11', ← q13, ← q33'] at hg
  have hcond : (m1 + m2) * (m1 + m2) ≤ s12 → s12 ≤ (M - m3) * (M - m3) →
      (((A + B) * (A + B) - (Real.sqrt (A * A - m1 * m1) + Real.sqrt (B * B - m3 * m3)) *
          (Real.sqrt (A * A - m1 * m1) + Real.sqrt (B * B - m3 * m3)) ≤ s13 ∧
        s13 ≤ (A + B) * (A + B) - (Real.sqrt (A * A - m1 * m1) - Real.sqrt (B * B - m3 * m3)) *
          (Real.sqrt (A * A - m1 * m1) - Real.sqrt (B * B - m3 * m3))) ↔
        (s13 - (A + B) * (A + B) + (A * A - m1 * m1) + (B * B - m3 * m3)) ^ 2 ≤
          4 * (A * A - m1 * m1) * (B * B - m3 * m3)) := by
    intro ha hb
    apply interval_iff _ _ _ _ _ _ (Real.mul_self_sqrt _) (Real.mul_self_sqrt _) (Real.sqrt_nonneg _)
      (Real.sqrt_nonneg _)
    · rw [← pow_two, q11']
      have : (s12 - m2 * m2 + m1 * m1) ^ 2 / (4 * s12) - m1 * m1 =
        (s12 - (m1 + m2) * (m1 + m2)) * (s12 - (m1 - m2) * (m1 - m2)) / (4 * s12) := by
        field_simp
        ring
      rw [this]
      have h1 : 0 ≤ s12 - (m1 + m2) * (m1 + m2) := by linarith
      have h2 : 0 ≤ s12 - (m1 - m2) * (m1 - m2) := by
        have := mul_nonneg hm1 hm2
        linarith
      positivity
    · rw [← pow_two, q33']
      have : (M * M - s12 - m3 * m3) ^ 2 / (4 * s12) - m3 * m3 =
        ((M - m3) * (M - m3) - s12) * ((M + m3) * (M + m3) - s12) / (4 * s12) := by
        field_simp
        ring
      rw [this]
      have h1 : 0 ≤ (M - m3) * (M - m3) - s12 := by linarith
      have h2 : 0 ≤ (M + m3) * (M + m3) - s12 := by
        have := mul_nonneg hM.le hm3
        linarith
      positivity
  have hM2 : 0 < M ^ 2 := by positivity
  constructor
  · rintro ⟨a, b, c, d, hmin, hmax⟩
    refine ⟨a, ?_, ?_, by linarith, ?_⟩
    · have : 2 * M * m1 ≤ 2 * M * f.E1 := by rw [h1]; linarith
      exact le_of_mul_le_mul_left this (by positivity)
    · have : 2 * M * m3 ≤ 2 * M * f.E3 := by rw [f.h3]; linarith
      exact le_of_mul_le_mul_left this (by positivity)
    · have := (hcond c d).mp ⟨hmin, hmax⟩
      have e : 4 * (A * A - m1 * m1) * (B * B - m3 * m3) -
        (s13 - (A + B) * (A + B) + (A * A - m1 * m1) + (B * B - m3 * m3)) ^ 2 =
        4 * (A ^ 2 - m1 * m1) * (B ^ 2 - m3 * m3) -
        (s13 - (A ^ 2 + 2 * (A * B) + B ^ 2) + (A ^ 2 - m1 * m1) + (B ^ 2 - m3 * m3)) ^ 2 := by ring
      have h := mul_nonneg hs.le (sub_nonneg.mpr this)
      rw [e, hg] at h
      exact sub_nonneg.mp (nonneg_of_mul_nonneg_right h hM2)
  · rintro ⟨a, b, c, d, h⟩
    have hb : M * M + m1 * m1 + m2 * m2 + m3 * m3 - s12 - s13 ≤ (M - m1) * (M - m1) := by
      have : 2 * M * m1 ≤ 2 * M * f.E1 := mul_le_mul_of_nonneg_left b (by positivity)
      rw [h1] at this; linarith
    have hd : s12 ≤ (M - m3) * (M - m3) := by
      have : 2 * M * m3 ≤ 2 * M * f.E3 := mul_le_mul_of_nonneg_left c (by positivity)
      rw [f.h3] at this; linarith
    have hc : (m1 + m2) * (m1 + m2) ≤ s12 := by linarith
    have h' := mul_nonneg hM2.le (sub_nonneg.mpr h)
    rw [← hg] at h'
    have h'' := sub_nonneg.mp (nonneg_of_mul_nonneg_right h' hs)
    have e : (s13 - (A + B) * (A + B) + (A * A - m1 * m1) + (B * B - m3 * m3)) ^ 2 =
      (s13 - (A ^ 2 + 2 * (A * B) + B ^ 2) + (A ^ 2 - m1 * m1) + (B ^ 2 - m3 * m3)) ^ 2 := by ring
    have := (hcond hc hd).mpr (by rw [e, ← pow_two A, ← pow_two B]; exact h'')
    exact ⟨a, hb, hc, hd, this.1, this.2⟩

/-! ### Momenta -/

theorem sq_neg (p : Mom) : Mom.sq (-p) = Mom.sq p := by
  simp [Mom.sq]

theorem energy_nonneg (m : ℝ) (p : Mom) : 0 ≤ energy m p := Real.sqrt_nonneg _

theorem msq_nonneg (p : Mom) : 0 ≤ Mom.sq p := Finset.sum_nonneg fun i _ => sq_nonneg _

theorem energy_sq (m : ℝ) (p : Mom) : energy m p ^ 2 = m ^ 2 + Mom.sq p :=
  Real.sq_sqrt (add_nonneg (sq_nonneg _) (msq_nonneg p))

theorem energy_ge (m : ℝ) (p : Mom) (h : 0 ≤ m) : m ≤ energy m p := by
  have := energy_sq m p
  have := msq_nonneg p
  exact le_of_sq_le_sq (by linarith) (energy_nonneg m p)

theorem energy_of (m E : ℝ) (p : Mom) (hE : 0 ≤ E) (h : Mom.sq p = E ^ 2 - m ^ 2) : energy m p = E := by
  unfold energy
  rw [h, show m ^ 2 + (E ^ 2 - m ^ 2) = E ^ 2 by ring, Real.sqrt_sq hE]

/-- Scalar product. -/
def dot (p q : Mom) : ℝ := ∑ i, p i * q i

theorem sq_add (p q : Mom) : Mom.sq (p + q) = Mom.sq p + 2 * dot p q + Mom.sq q := by
  simp only [Mom.sq, dot, Fin.sum_univ_three, Pi.add_apply]
  ring

theorem dot_sq_le (p q : Mom) : dot p q ^ 2 ≤ Mom.sq p * Mom.sq q := by
  simp only [Mom.sq, dot, Fin.sum_univ_three]
  nlinarith [sq_nonneg (p 0 * q 1 - p 1 * q 0), sq_nonneg (p 0 * q 2 - p 2 * q 0),
    sq_nonneg (p 1 * q 2 - p 2 * q 1)]

/-- The invariant mass of a pair is at least the sum of the masses. -/
theorem pair_mass (m n : ℝ) (p q : Mom) (hm : 0 ≤ m) (hn : 0 ≤ n) :
    (m + n) ^ 2 ≤ (energy m p + energy n q) ^ 2 - Mom.sq (p + q) := by
  have hp := energy_sq m p
  have hq := energy_sq n q
  have h1 := dot_sq_le p q
  have h2 := sq_add p q
  have key : m * n + dot p q ≤ energy m p * energy n q := by
    apply le_of_sq_le_sq _ (mul_nonneg (energy_nonneg _ _) (energy_nonneg _ _))
    rw [mul_pow, hp, hq]
    set d := dot p q
    have hP := msq_nonneg p
    have hQ := msq_nonneg q
    set P := Mom.sq p
    set Q := Mom.sq q
    have h3 : 2 * (m * n) * d ≤ m ^ 2 * Q + n ^ 2 * P := by
      have h4 : 0 ≤ m ^ 2 * Q + n ^ 2 * P := by positivity
      apply le_of_sq_le_sq _ h4
      have : (2 * (m * n) * d) ^ 2 ≤ (2 * (m * n)) ^ 2 * (P * Q) := by
        rw [mul_pow]; exact mul_le_mul_of_nonneg_left h1 (sq_nonneg _)
      nlinarith [sq_nonneg (m ^ 2 * Q - n ^ 2 * P)]
    nlinarith
  nlinarith

/-- Momenta of a triangle with given squared sides. -/
theorem triangle (P1 P2 P3 : ℝ) (h1 : 0 ≤ P1) (h3 : 0 ≤ P3)
    (h : (P2 - P1 - P3) ^ 2 ≤ 4 * P1 * P3) :
    ∃ p1 p3 : Mom, Mom.sq p1 = P1 ∧ Mom.sq p3 = P3 ∧ Mom.sq (p1 + p3) = P2 := by
  by_cases h0 : P3 = 0
  · subst h0
    have : P2 - P1 = 0 := by
      have : (P2 - P1) ^ 2 ≤ 0 := by simpa using h
      exact pow_eq_zero_iff (two_ne_zero) |>.mp (le_antisymm this (sq_nonneg _))
    refine ⟨![Real.sqrt P1, 0, 0], 0, ?_, ?_, ?_⟩
    · simp [Mom.sq, Fin.sum_univ_three, Real.sq_sqrt h1]
    · simp [Mom.sq]
    · simp [Mom.sq, Fin.sum_univ_three, Real.sq_sqrt h1]
      linarith
  · have hp : 0 < P3 := lt_of_le_of_ne h3 (Ne.symm h0)
    have ha := Real.sq_sqrt h3
    set a := Real.sqrt P3 with hadef
    have ha0 : 0 < a := Real.sqrt_pos.mpr hp
    set b := (P2 - P1 - P3) / (2 * a) with hb
    have hab : 2 * a * b = P2 - P1 - P3 := by rw [hb]; field_simp
    have hb2 : b ^ 2 ≤ P1 := by
      have h5 : (2 * a) ^ 2 * b ^ 2 ≤ (2 * a) ^ 2 * P1 := by
        rw [← mul_pow, hab, mul_pow, ha]; linarith
      exact le_of_mul_le_mul_left h5 (by positivity)
    have hc := Real.sq_sqrt (sub_nonneg.mpr hb2)
    refine ⟨![b, Real.sqrt (P1 - b ^ 2), 0], ![a, 0, 0], ?_, ?_, ?_⟩
    · simp [Mom.sq, Fin.sum_univ_three, hc]
    · simp [Mom.sq, Fin.sum_univ_three, ha]
    · simp [Mom.sq, Fin.sum_univ_three, hc]
      nlinarith

/-- The energy of the second daughter is positive as well. -/
theorem second_energy (m1 m2 E1 E2 P3 s12 : ℝ) (hm1 : 0 ≤ m1) (hm2 : 0 ≤ m2) (hs : 0 < s12)
    (h1 : m1 ≤ E1) (h2 : m2 ^ 2 ≤ E2 ^ 2) (h12 : 0 < E1 + E2) (hmin : (m1 + m2) ^ 2 ≤ s12)
    (hs12 : (E1 + E2) ^ 2 - P3 = s12)
    (hP : (P3 - (E1 ^ 2 - m1 ^ 2) - (E2 ^ 2 - m2 ^ 2)) ^ 2 ≤
      4 * (E1 ^ 2 - m1 ^ 2) * (E2 ^ 2 - m2 ^ 2)) : 0 ≤ E2 := by
  by_contra hE
  push Not at hE
  have hE1 : 0 < E1 := by linarith
  have hp : P3 - (E1 ^ 2 - m1 ^ 2) - (E2 ^ 2 - m2 ^ 2) = 2 * E1 * E2 + m1 ^ 2 + m2 ^ 2 - s12 := by
    rw [← hs12]; ring
  rw [hp] at hP
  -- put F = -E2 > 0
  obtain ⟨F, hF, rfl⟩ : ∃ F : ℝ, 0 < F ∧ E2 = -F := ⟨-E2, by linarith, by ring⟩
  have hm12 : 0 ≤ m1 * m2 := mul_nonneg hm1 hm2
  have hEF : 0 < E1 * F := by positivity
  have hbig : 2 * E1 * F + 2 * (m1 * m2) ≤ -(2 * E1 * -F + m1 ^ 2 + m2 ^ 2 - s12) := by nlinarith
  have hsq : (2 * E1 * F + 2 * (m1 * m2)) ^ 2 ≤ (2 * E1 * -F + m1 ^ 2 + m2 ^ 2 - s12) ^ 2 := by
    rw [← neg_sq (2 * E1 * -F + m1 ^ 2 + m2 ^ 2 - s12)]
    exact pow_le_pow_left₀ (by positivity) hbig 2
  have hle := hsq.trans hP
  have hx : 0 ≤ (m1 * F) ^ 2 + (m2 * E1) ^ 2 + 2 * (m1 * m2) * (E1 * F) := by positivity
  have hz : (m1 * F) ^ 2 + (m2 * E1) ^ 2 + 2 * (m1 * m2) * (E1 * F) ≤ 0 := by nlinarith
  have hz1 : (m1 * F) ^ 2 = 0 := by
    have : 0 ≤ 2 * (m1 * m2) * (E1 * F) := by positivity
    nlinarith [sq_nonneg (m1 * F), sq_nonneg (m2 * E1)]
  have hz2 : (m2 * E1) ^ 2 = 0 := by
    have : 0 ≤ 2 * (m1 * m2) * (E1 * F) := by positivity
    nlinarith [sq_nonneg (m1 * F), sq_nonneg (m2 * E1)]
  have hm1' : m1 = 0 := by
    rcases mul_eq_zero.mp (pow_eq_zero_iff two_ne_zero |>.mp hz1) with h | h
    · exact h
    · linarith
  have hm2' : m2 = 0 := by
    rcases mul_eq_zero.mp (pow_eq_zero_iff two_ne_zero |>.mp hz2) with h | h
    · exact h
    · linarith
  subst hm1' hm2'
  nlinarith

/-- The code's test is the existence of a decay. -/
theorem inDalitz_canDecay (s12 s13 M m1 m2 m3 : ℝ) (hs : s12 ≠ 0)
    (hM : 0 < M) (hm1 : 0 ≤ m1) (hm2 : 0 ≤ m2) (hm3 : 0 ≤ m3) (h3M : m3 ≤ M) :
    inDalitz s12 s13 M m1 m2 m3 = true ↔ CanDecay M m1 m2 m3 s12 s13 := by
  rcases lt_or_gt_of_ne hs with hneg | hs
  · constructor
    · intro h
      have hi := (inDalitz_iff s12 s13 M m1 m2 m3).mp h
      have := hi.2.2.1
      nlinarith [mul_self_nonneg (m1 + m2)]
    · rintro ⟨p1, p2, p3, _, _, h, _⟩
      have := pair_mass m1 m2 p1 p2 hm1 hm2
      nlinarith [sq_nonneg (m1 + m2)]
  · let f : Frame M m1 m2 m3 s12 s13 :=
      { E3 := (M ^ 2 + m3 ^ 2 - s12) / (2 * M)
        E2 := (M ^ 2 + m2 ^ 2 - s13) / (2 * M)
        E1 := M - (M ^ 2 + m2 ^ 2 - s13) / (2 * M) - (M ^ 2 + m3 ^ 2 - s12) / (2 * M)
        h3 := by field_simp
        h2 := by field_simp
        h1 := by ring }
    rw [inDalitz_frame s12 s13 M m1 m2 m3 f hs hM hm1 hm2 hm3]
    have f1 := f.h1
    have f2 := f.h2
    have f3 := f.h3
    generalize f.E1 = E1 at *
    generalize f.E2 = E2 at *
    generalize f.E3 = E3 at *
    clear f
    constructor
    · rintro ⟨h0, h1, h3, hmin, hP⟩
      have hP1 : 0 ≤ E1 ^ 2 - m1 ^ 2 := sub_nonneg.mpr (pow_le_pow_left₀ hm1 h1 2)
      have hP3 : 0 ≤ E3 ^ 2 - m3 ^ 2 := sub_nonneg.mpr (pow_le_pow_left₀ hm3 h3 2)
      obtain ⟨p1, p3, hp1, hp3, hp2⟩ := triangle _ _ _ hP1 hP3 hP
      have hs12 : (E1 + E2) ^ 2 - (E3 ^ 2 - m3 ^ 2) = s12 := by
        rw [show E1 + E2 = M - E3 by linarith]
        linarith
      have h12 : 0 < E1 + E2 := by
        have : 0 < 2 * M * (E1 + E2) := by
          rw [show E1 + E2 = M - E3 by linarith]
          nlinarith
        exact (pos_iff_pos_of_mul_pos this).mp (by positivity)
      have hE2 : 0 ≤ E2 := by
        refine second_energy m1 m2 E1 E2 (E3 ^ 2 - m3 ^ 2) s12 hm1 hm2 hs h1 ?_ h12 hmin hs12 ?_
        · have := msq_nonneg (p1 + p3)
          rw [hp2] at this
          linarith
        · nlinarith
      refine ⟨p1, -(p1 + p3), p3, by ring, ?_, ?_, ?_⟩
      · rw [energy_of m1 E1 p1 (by linarith) hp1, energy_of m3 E3 p3 (by linarith) hp3,
          energy_of m2 E2 _ hE2 (by rw [sq_neg, hp2])]
        exact f1
      · rw [energy_of m1 E1 p1 (by linarith) hp1, energy_of m2 E2 _ hE2 (by rw [sq_neg, hp2]),
          show p1 + -(p1 + p3) = -p3 by ring, sq_neg, hp3]
        exact hs12
      · rw [energy_of m1 E1 p1 (by linarith) hp1, energy_of m3 E3 p3 (by linarith) hp3, hp2,
          show E1 + E3 = M - E2 by linarith]
        linarith
    · rintro ⟨p1, p2, p3, hsum, hE, h12, h13⟩
      have q12 : p1 + p2 = -p3 := by
        rw [← add_eq_zero_iff_eq_neg]; exact hsum
      have q13 : p1 + p3 = -p2 := by
        rw [← add_eq_zero_iff_eq_neg, ← hsum]; ring
      rw [q12, sq_neg, show energy m1 p1 + energy m2 p2 = M - energy m3 p3 by linarith] at h12
      rw [q13, sq_neg, show energy m1 p1 + energy m3 p3 = M - energy m2 p2 by linarith] at h13
      have e1 := energy_sq m1 p1
      have e2 := energy_sq m2 p2
      have e3 := energy_sq m3 p3
      have k3 : E3 = energy m3 p3 := by
        have : 2 * M * E3 = 2 * M * energy m3 p3 := by rw [f3]; nlinarith
        exact mul_left_cancel₀ (by positivity) this
      have k2 : E2 = energy m2 p2 := by
        have : 2 * M * E2 = 2 * M * energy m2 p2 := by rw [f2]; nlinarith
        exact mul_left_cancel₀ (by positivity) this
      have k1 : E1 = energy m1 p1 := by linarith
      subst k1 k2 k3
      refine ⟨?_, energy_ge _ _ hm1, energy_ge _ _ hm3, ?_, ?_⟩
      · have h23 := pair_mass m2 m3 p2 p3 hm2 hm3
        have q23 : p2 + p3 = -p1 := by
          rw [← add_eq_zero_iff_eq_neg, ← hsum]; ring
        rw [q23, sq_neg, show energy m2 p2 + energy m3 p3 = M - energy m1 p1 by linarith] at h23
        nlinarith [sq_nonneg (m2 + m3)]
      · have h := pair_mass m1 m2 p1 p2 hm1 hm2
        rw [q12, sq_neg, show energy m1 p1 + energy m2 p2 = M - energy m3 p3 by linarith, h12] at h
        exact h
      · rw [e1, e2, e3]
        have hd := dot_sq_le p1 p3
        have hs2 := sq_add p1 p3
        rw [q13, sq_neg] at hs2
        rw [show m2 ^ 2 + Mom.sq p2 - m2 ^ 2 - (m1 ^ 2 + Mom.sq p1 - m1 ^ 2) -
          (m3 ^ 2 + Mom.sq p3 - m3 ^ 2) = 2 * dot p1 p3 by rw [hs2]; ring]
        nlinarith

end GooFit
