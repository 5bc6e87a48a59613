import Verif.Spec.Momenta4
import Verif.Lemmas.FourBody
import Verif.Props.FourBody
import Mathlib.Tactic.LinearCombination
import Mathlib.LinearAlgebra.Matrix.NonsingularInverse
import Mathlib.Analysis.SpecialFunctions.Complex.Arg
/-! # Lemmas for C88 -/
set_option autoImplicit false
namespace GooFit
open Spec LV

/-! ### Turning -/

theorem cols_of {R : Matrix (Fin 3) (Fin 3) ℝ} (h : R.transpose * R = 1) (i j : Fin 3) :
    R 0 i * R 0 j + R 1 i * R 1 j + R 2 i * R 2 j = if i = j then 1 else 0 := by
  have := congrFun (congrFun h i) j
  simpa [Matrix.mul_apply, Fin.sum_univ_three, Matrix.one_apply] using this

theorem turn_add (R : Matrix (Fin 3) (Fin 3) ℝ) (a b : LV ℝ) : turn R (a + b) = turn R a + turn R b := by
  ext
  · show R 0 0 * (a.x + b.x) + R 0 1 * (a.y + b.y) + R 0 2 * (a.z + b.z)
      = (R 0 0 * a.x + R 0 1 * a.y + R 0 2 * a.z) + (R 0 0 * b.x + R 0 1 * b.y + R 0 2 * b.z)
    ring
  · show R 1 0 * (a.x + b.x) + R 1 1 * (a.y + b.y) + R 1 2 * (a.z + b.z)
      = (R 1 0 * a.x + R 1 1 * a.y + R 1 2 * a.z) + (R 1 0 * b.x + R 1 1 * b.y + R 1 2 * b.z)
    ring
  · show R 2 0 * (a.x + b.x) + R 2 1 * (a.y + b.y) + R 2 2 * (a.z + b.z)
      = (R 2 0 * a.x + R 2 1 * a.y + R 2 2 * a.z) + (R 2 0 * b.x + R 2 1 * b.y + R 2 2 * b.z)
    ring
  · rfl

theorem turn_smul (R : Matrix (Fin 3) (Fin 3) ℝ) (c : ℝ) (a : LV ℝ) : turn R (a.smul c) = (turn R a).smul c := by
  ext <;> simp only [turn, LV.smul] <;> ring

theorem turn_divs (R : Matrix (Fin 3) (Fin 3) ℝ) (a : LV ℝ) (c : ℝ) : turn R (a.divs c) = (turn R a).divs c := by
  ext <;> simp only [turn, LV.divs] <;> ring

theorem turn_dot3 {R : Matrix (Fin 3) (Fin 3) ℝ} (h : R.transpose * R = 1) (a b : LV ℝ) :
    (turn R a).dot3 (turn R b) = a.dot3 b := by
  have c00 := cols_of h 0 0
  have c01 := cols_of h 0 1
  have c02 := cols_of h 0 2
  have c11 := cols_of h 1 1
  have c12 := cols_of h 1 2
  have c22 := cols_of h 2 2
  simp only [if_true, Fin.reduceEq, if_false] at c00 c01 c02 c11 c12 c22
  simp only [turn, dot3]
  linear_combination a.x * b.x * c00 + (a.x * b.y + a.y * b.x) * c01 + (a.x * b.z + a.z * b.x) * c02 + a.y * b.y * c11
    + (a.y * b.z + a.z * b.y) * c12 + a.z * b.z * c22

theorem turn_mink {R : Matrix (Fin 3) (Fin 3) ℝ} (h : R.transpose * R = 1) (a b : LV ℝ) :
    (turn R a).mink (turn R b) = a.mink b := by
  have := turn_dot3 h a b
  simp only [mink, dot3] at this ⊢
  have e : (turn R a).e * (turn R b).e = a.e * b.e := rfl
  linarith

theorem turn_mag3 {R : Matrix (Fin 3) (Fin 3) ℝ} (h : R.transpose * R = 1) (a : LV ℝ) : (turn R a).mag3 = a.mag3 := by
  simp only [mag3, turn_dot3 h]

theorem cofactor_of {R : Matrix (Fin 3) (Fin 3) ℝ} (h : IsRotation R) : R.adjugate = R.transpose := by
  have h1 : R.adjugate * R = 1 := by rw [Matrix.adjugate_mul, h.2, one_smul]
  have h2 : R * R.transpose = 1 := mul_eq_one_comm.1 h.1
  calc R.adjugate = R.adjugate * (R * R.transpose) := by rw [h2, mul_one]
    _ = R.transpose := by rw [← mul_assoc, h1, one_mul]

theorem turn_cross {R : Matrix (Fin 3) (Fin 3) ℝ} (h : IsRotation R) (a b : LV ℝ) :
    (turn R a).cross (turn R b) = turn R (a.cross b) := by
  have hc := cofactor_of h
  rw [Matrix.adjugate_fin_three] at hc
  have e (i j : Fin 3) := congrFun (congrFun hc i) j
  have e00 := e 0 0
  have e01 := e 0 1
  have e02 := e 0 2
  have e10 := e 1 0
  have e11 := e 1 1
  have e12 := e 1 2
  have e20 := e 2 0
  have e21 := e 2 1
  have e22 := e 2 2
  simp [Matrix.transpose_apply] at e00 e01 e02 e10 e11 e12 e20 e21 e22
  ext <;> simp only [turn, cross]
  · linear_combination (a.y * b.z - a.z * b.y) * e00 + (a.z * b.x - a.x * b.z) * e10 + (a.x * b.y - a.y * b.x) * e20
  · linear_combination (a.y * b.z - a.z * b.y) * e01 + (a.z * b.x - a.x * b.z) * e11 + (a.x * b.y - a.y * b.x) * e21
  · linear_combination (a.y * b.z - a.z * b.y) * e02 + (a.z * b.x - a.x * b.z) * e12 + (a.x * b.y - a.y * b.x) * e22

theorem turn_turn (R S : Matrix (Fin 3) (Fin 3) ℝ) (v : LV ℝ) : turn R (turn S v) = turn (R * S) v := by
  ext <;> simp only [turn, Matrix.mul_apply, Fin.sum_univ_three] <;> ring

theorem turn_one (v : LV ℝ) : turn 1 v = v := by
  ext <;> simp [turn]

theorem turn4_turn4 (R S : Matrix (Fin 3) (Fin 3) ℝ) (v : LV ℝ × LV ℝ × LV ℝ × LV ℝ) :
    turn4 R (turn4 S v) = turn4 (R * S) v := by
  simp only [turn4, turn_turn]

theorem turn4_one (v : LV ℝ × LV ℝ × LV ℝ × LV ℝ) : turn4 1 v = v := by
  simp only [turn4, turn_one]

theorem rotation_mul {R S : Matrix (Fin 3) (Fin 3) ℝ} (hR : IsRotation R) (hS : IsRotation S) : IsRotation (R * S) := by
  refine ⟨?_, by rw [Matrix.det_mul, hR.2, hS.2, one_mul]⟩
  rw [Matrix.transpose_mul, Matrix.mul_assoc, ← Matrix.mul_assoc R.transpose, hR.1, Matrix.one_mul, hS.1]

theorem rotation_inv {R : Matrix (Fin 3) (Fin 3) ℝ} (hR : IsRotation R) : IsRotation R.transpose :=
  ⟨by rw [Matrix.transpose_transpose]; exact mul_eq_one_comm.1 hR.1, by rw [Matrix.det_transpose, hR.2]⟩

theorem reflections_mul {R S : Matrix (Fin 3) (Fin 3) ℝ} (hR : IsReflection R) (hS : IsReflection S) : IsRotation (R * S) := by
  refine ⟨?_, by rw [Matrix.det_mul, hR.2, hS.2]; norm_num⟩
  rw [Matrix.transpose_mul, Matrix.mul_assoc, ← Matrix.mul_assoc R.transpose, hR.1, Matrix.one_mul, hS.1]

theorem dim5_turn {R : Matrix (Fin 3) (Fin 3) ℝ} (h : IsRotation R) (a b c d : LV ℝ) :
    dim5 (turn R a) (turn R b) (turn R c) (turn R d) = dim5 a b c d := by
  unfold dim5 dim5phi cosHELANG
  simp only [← turn_add, turn_mink h.1, turn_mag3 h.1, ← turn_divs, turn_cross h, ← turn_smul, turn_dot3 h.1]

theorem decay_turn {R : Matrix (Fin 3) (Fin 3) ℝ} (h : R.transpose * R = 1) {M m1 m2 m3 m4 : ℝ}
    {v : LV ℝ × LV ℝ × LV ℝ × LV ℝ} (hd : IsDecay M m1 m2 m3 m4 v) : IsDecay M m1 m2 m3 m4 (turn4 R v) := by
  have key : ∀ a : LV ℝ, (turn R a).e ^ 2 - (turn R a).x ^ 2 - (turn R a).y ^ 2 - (turn R a).z ^ 2
      = a.e ^ 2 - a.x ^ 2 - a.y ^ 2 - a.z ^ 2 := by
    intro a
    have := turn_mink h a a
    simp only [mink] at this
    linarith
  refine ⟨⟨(key _).trans hd.shell1.1, hd.shell1.2⟩, ⟨(key _).trans hd.shell2.1, hd.shell2.2⟩,
    ⟨(key _).trans hd.shell3.1, hd.shell3.2⟩, ⟨(key _).trans hd.shell4.1, hd.shell4.2⟩, ?_, ?_, ?_, hd.energy⟩
  · simp only [turn4, turn]
    linear_combination R 0 0 * hd.momX + R 0 1 * hd.momY + R 0 2 * hd.momZ
  · simp only [turn4, turn]
    linear_combination R 1 0 * hd.momX + R 1 1 * hd.momY + R 1 2 * hd.momZ
  · simp only [turn4, turn]
    linear_combination R 2 0 * hd.momX + R 2 1 * hd.momY + R 2 2 * hd.momZ

/-! ### The frame of `get4Vecs` -/

theorem pair_bound {a b : LV ℝ} {m n : ℝ} (hm : 0 ≤ m) (hn : 0 ≤ n) (ha : a.e ^ 2 - a.x ^ 2 - a.y ^ 2 - a.z ^ 2 = m ^ 2)
    (hb : b.e ^ 2 - b.x ^ 2 - b.y ^ 2 - b.z ^ 2 = n ^ 2) (hae : 0 < a.e) (hbe : 0 < b.e) (hl : ¬ OneLine a b) :
    (m + n) ^ 2 < (a + b).mink (a + b) := by
  have hc : 0 < (a.y * b.z - a.z * b.y) ^ 2 + (a.z * b.x - a.x * b.z) ^ 2 + (a.x * b.y - a.y * b.x) ^ 2 := by
    by_contra hc
    refine hl ⟨?_, ?_, ?_⟩ <;>
      nlinarith [sq_nonneg (a.y * b.z - a.z * b.y), sq_nonneg (a.z * b.x - a.x * b.z), sq_nonneg (a.x * b.y - a.y * b.x)]
  have h2 : (m * n + (a.x * b.x + a.y * b.y + a.z * b.z)) ^ 2 < (a.e * b.e) ^ 2 := by
    have e : (a.e * b.e) ^ 2 - (m * n + (a.x * b.x + a.y * b.y + a.z * b.z)) ^ 2
        = (m * b.x - n * a.x) ^ 2 + (m * b.y - n * a.y) ^ 2 + (m * b.z - n * a.z) ^ 2
          + ((a.y * b.z - a.z * b.y) ^ 2 + (a.z * b.x - a.x * b.z) ^ 2 + (a.x * b.y - a.y * b.x) ^ 2) := by
      have h1 : a.e ^ 2 = m ^ 2 + a.x ^ 2 + a.y ^ 2 + a.z ^ 2 := by linarith
      have h2 : b.e ^ 2 = n ^ 2 + b.x ^ 2 + b.y ^ 2 + b.z ^ 2 := by linarith
      rw [mul_pow, h1, h2]
      ring
    have := sq_nonneg (m * b.x - n * a.x)
    have := sq_nonneg (m * b.y - n * a.y)
    have := sq_nonneg (m * b.z - n * a.z)
    linarith
  have h3 := lt_of_pow_lt_pow_left₀ 2 (mul_pos hae hbe).le h2
  show (m + n) ^ 2 < (a.e + b.e) * (a.e + b.e) - (a.x + b.x) * (a.x + b.x) - (a.y + b.y) * (a.y + b.y) - (a.z + b.z) * (a.z + b.z)
  linarith

/-- Four momenta in the frame in which `get4Vecs` gives them. -/
structure Standard (v : LV ℝ × LV ℝ × LV ℝ × LV ℝ) : Prop where
  y12 : v.1.y + v.2.1.y = 0
  z12 : v.1.z + v.2.1.z = 0
  x12 : 0 < v.1.x + v.2.1.x
  z3 : v.2.2.1.z = 0
  y3 : v.2.2.1.y < 0
  t1 : 0 < v.1.y ^ 2 + v.1.z ^ 2

theorem standard_inside {M m1 m2 m3 m4 : ℝ} {v : LV ℝ × LV ℝ × LV ℝ × LV ℝ} (hd : IsDecay M m1 m2 m3 m4 v) (h1 : 0 ≤ m1)
    (h2 : 0 ≤ m2) (h3 : 0 ≤ m3) (h4 : 0 ≤ m4) (hg : TwoPlanes v) (hx : 0 < (v.1 + v.2.1).dot3 (v.1 + v.2.1)) :
    Inside M m1 m2 m3 m4 √((v.1 + v.2.1).mink (v.1 + v.2.1)) √((v.2.2.1 + v.2.2.2).mink (v.2.2.1 + v.2.2.2)) := by
  have b12 := pair_bound h1 h2 hd.shell1.1 hd.shell2.1 hd.shell1.2 hd.shell2.2 hg.1
  have b34 := pair_bound h3 h4 hd.shell3.1 hd.shell4.1 hd.shell3.2 hd.shell4.2 hg.2
  refine ⟨h1, h2, h3, h4, Real.lt_sqrt_of_sq_lt b12, Real.lt_sqrt_of_sq_lt b34, ?_⟩
  have e12 : √((v.1 + v.2.1).mink (v.1 + v.2.1)) < (v.1 + v.2.1).e := by
    have he : 0 < (v.1 + v.2.1).e := add_pos hd.shell1.2 hd.shell2.2
    rw [Real.sqrt_lt' he]
    simp only [mink, dot3] at hx ⊢
    linarith
  have e34 : √((v.2.2.1 + v.2.2.2).mink (v.2.2.1 + v.2.2.2)) ≤ (v.2.2.1 + v.2.2.2).e := by
    have he : 0 < (v.2.2.1 + v.2.2.2).e := add_pos hd.shell3.2 hd.shell4.2
    rw [Real.sqrt_le_left he.le]
    simp only [mink]
    nlinarith [sq_nonneg (v.2.2.1 + v.2.2.2).x, sq_nonneg (v.2.2.1 + v.2.2.2).y, sq_nonneg (v.2.2.1 + v.2.2.2).z]
  have : (v.1 + v.2.1).e + (v.2.2.1 + v.2.2.2).e = M := by
    rw [← hd.energy]
    show v.1.e + v.2.1.e + (v.2.2.1.e + v.2.2.2.e) = _
    ring
  linarith

/-- Two numbers with a given sum and a given difference of squares. -/
theorem sum_diff {a b a' b' : ℝ} (hs : a + b = a' + b') (h0 : 0 < a + b) (hd : a ^ 2 - b ^ 2 = a' ^ 2 - b' ^ 2) : a = a' := by
  have : (a + b) * (a - b) = (a + b) * (a' - b') := by
    rw [show (a + b) * (a - b) = a ^ 2 - b ^ 2 by ring, hd, hs]; ring
  have := mul_left_cancel₀ h0.ne' this
  linarith

set_option maxHeartbeats 1000000 in
/-- In this frame, the five variables give the four momenta. -/
theorem standard_vecs {M m1 m2 m3 m4 : ℝ} {v : LV ℝ × LV ℝ × LV ℝ × LV ℝ} (hd : IsDecay M m1 m2 m3 m4 v)
    (hv : Standard v) {m12 m34 : ℝ} (hi : Inside M m1 m2 m3 m4 m12 m34) (h12 : m12 ^ 2 = (v.1 + v.2.1).mink (v.1 + v.2.1))
    (h34 : m34 ^ 2 = (v.2.2.1 + v.2.2.2).mink (v.2.2.1 + v.2.2.2)) :
    ∃ c12 c34 phi, c12 ^ 2 < 1 ∧ c34 ^ 2 < 1 ∧ -Real.pi < phi ∧ phi ≤ Real.pi ∧
      get4Vecs m12 m34 c12 c34 phi M m1 m2 m3 m4 = v := by
  obtain ⟨⟨x1, y1, z1, e1⟩, ⟨x2, y2, z2, e2⟩, ⟨x3, y3, z3, e3⟩, ⟨x4, y4, z4, e4⟩⟩ := v
  obtain ⟨⟨s1, p1⟩, ⟨s2, p2⟩, ⟨s3, p3⟩, ⟨s4, p4⟩, mx, my, mz, en⟩ := hd
  obtain ⟨y12, z12, x12, hz3, hy3, ht⟩ := hv
  have hm12 : 0 < m12 := by have := hi.h1; have := hi.h2; have := hi.pair12; linarith
  have hm34 : 0 < m34 := by have := hi.h3; have := hi.h4; have := hi.pair34; linarith
  have hM : 0 < M := by have := hi.mother; linarith
  change m12 ^ 2 = (e1 + e2) * (e1 + e2) - (x1 + x2) * (x1 + x2) - (y1 + y2) * (y1 + y2) - (z1 + z2) * (z1 + z2) at h12
  change m34 ^ 2 = (e3 + e4) * (e3 + e4) - (x3 + x4) * (x3 + x4) - (y3 + y4) * (y3 + y4) - (z3 + z4) * (z3 + z4) at h34
  dsimp only at *
  subst hz3
  have hy2 : y2 = -y1 := by linarith
  have hz2 : z2 = -z1 := by linarith
  have hy4 : y4 = -y3 := by linarith
  have hz4 : z4 = 0 := by linarith
  have hx4 : x4 = -(x1 + x2) - x3 := by linarith
  subst hy2 hz2 hy4 hz4 hx4
  set X := x1 + x2 with hX
  set A := e1 + e2 with hA
  set B := e3 + e4 with hB
  have hA0 : 0 < A := add_pos p1 p2
  have hB0 : 0 < B := add_pos p3 p4
  have q12 : A ^ 2 - X ^ 2 = m12 ^ 2 := by rw [h12]; ring
  have q34 : B ^ 2 - X ^ 2 = m34 ^ 2 := by rw [h34]; ring
  have hAB : A + B = M := by linarith
  -- the momenta in the rest frames of the pairs
  set k1 := (A * x1 - X * e1) / m12 with hk1
  set ε1 := (A * e1 - X * x1) / m12 with hε1
  set ε2 := (A * e2 - X * x2) / m12 with hε2
  set k3 := (B * x3 + X * e3) / m34 with hk3
  set ε3 := (B * e3 + X * x3) / m34 with hε3
  set ε4 := (B * e4 + X * (-X - x3)) / m34 with hε4
  have sum12 : ε1 + ε2 = m12 := by
    rw [hε1, hε2]; field_simp; rw [← q12, hA, hX]; ring
  have sum34 : ε3 + ε4 = m34 := by
    rw [hε3, hε4]; field_simp; rw [← q34, hB]; ring
  have sh1 : ε1 ^ 2 - m1 ^ 2 = k1 ^ 2 + (y1 ^ 2 + z1 ^ 2) := by
    have : (A * e1 - X * x1) ^ 2 - (A * x1 - X * e1) ^ 2 = m12 ^ 2 * (m1 ^ 2 + y1 ^ 2 + z1 ^ 2) := by
      rw [← q12, ← s1]; ring
    have h : ε1 ^ 2 - k1 ^ 2 = m1 ^ 2 + y1 ^ 2 + z1 ^ 2 := by
      rw [hε1, hk1, div_pow, div_pow, ← sub_div, this]; field_simp
    linarith
  have sh2 : ε2 ^ 2 - m2 ^ 2 = k1 ^ 2 + (y1 ^ 2 + z1 ^ 2) := by
    have hk : k1 = -((A * x2 - X * e2) / m12) := by
      rw [hk1, ← neg_div]; congr 1; rw [hA, hX]; ring
    have : (A * e2 - X * x2) ^ 2 - (A * x2 - X * e2) ^ 2 = m12 ^ 2 * (m2 ^ 2 + y1 ^ 2 + z1 ^ 2) := by
      rw [← q12, ← s2]; ring
    have h : ε2 ^ 2 - k1 ^ 2 = m2 ^ 2 + y1 ^ 2 + z1 ^ 2 := by
      rw [hε2, hk, neg_sq, div_pow, div_pow, ← sub_div, this]; field_simp
    linarith
  have sh3 : ε3 ^ 2 - m3 ^ 2 = k3 ^ 2 + y3 ^ 2 := by
    have : (B * e3 + X * x3) ^ 2 - (B * x3 + X * e3) ^ 2 = m34 ^ 2 * (m3 ^ 2 + y3 ^ 2) := by
      rw [← q34, ← s3]; ring
    have h : ε3 ^ 2 - k3 ^ 2 = m3 ^ 2 + y3 ^ 2 := by
      rw [hε3, hk3, div_pow, div_pow, ← sub_div, this]; field_simp
    linarith
  have sh4 : ε4 ^ 2 - m4 ^ 2 = k3 ^ 2 + y3 ^ 2 := by
    have hk : k3 = -((B * (-X - x3) + X * e4) / m34) := by
      rw [hk3, ← neg_div]; congr 1; rw [hB]; ring
    have : (B * e4 + X * (-X - x3)) ^ 2 - (B * (-X - x3) + X * e4) ^ 2 = m34 ^ 2 * (m4 ^ 2 + y3 ^ 2) := by
      rw [← q34, ← s4]; ring
    have h : ε4 ^ 2 - k3 ^ 2 = m4 ^ 2 + y3 ^ 2 := by
      rw [hε4, hk, neg_sq, div_pow, div_pow, ← sub_div, this]; field_simp
    linarith
  have hy3' : 0 < y3 ^ 2 := by have := mul_pos_of_neg_of_neg hy3 hy3; rwa [← pow_two] at this
  set r1 := √(k1 ^ 2 + (y1 ^ 2 + z1 ^ 2)) with hr1
  set r3 := √(k3 ^ 2 + y3 ^ 2) with hr3
  have r1pos : 0 < r1 := Real.sqrt_pos.2 (by positivity)
  have r3pos : 0 < r3 := Real.sqrt_pos.2 (by positivity)
  have r1sq : r1 ^ 2 = k1 ^ 2 + (y1 ^ 2 + z1 ^ 2) := Real.sq_sqrt (by positivity)
  have r3sq : r3 ^ 2 = k3 ^ 2 + y3 ^ 2 := Real.sq_sqrt (by positivity)
  have hc12 : (k1 / r1) ^ 2 < 1 := by rw [div_pow, div_lt_one (by positivity), r1sq]; linarith
  have hc34 : (-(k3 / r3)) ^ 2 < 1 := by rw [neg_sq, div_pow, div_lt_one (by positivity), r3sq]; linarith
  refine ⟨k1 / r1, -(k3 / r3), Complex.arg ⟨y1, z1⟩, hc12, hc34, Complex.neg_pi_lt_arg _, Complex.arg_le_pi _, ?_⟩
  obtain ⟨f, hf⟩ := get4Vecs_frame hi hc12.le hc34.le
  rw [hf]
  -- the numbers of the frame
  have fE1 : f.E1 = ε1 := sum_diff (f.sumE12.trans sum12.symm) (by rw [f.sumE12]; exact hm12) (by
    have := f.sh1; have := f.sh2; linarith)
  have fE2 : f.E2 = ε2 := by have := f.sumE12; linarith
  have fE3 : f.E3 = ε3 := sum_diff (f.sumE34.trans sum34.symm) (by rw [f.sumE34]; exact hm34) (by
    have := f.sh3; have := f.sh4; linarith)
  have fE4 : f.E4 = ε4 := by have := f.sumE34; linarith
  have fp1 : f.p1 = r1 := by
    refine (sq_eq_sq₀ f.hp1.le r1pos.le).1 ?_
    rw [f.sh1, r1sq, fE1, sh1]
  have fp3 : f.p3 = r3 := by
    refine (sq_eq_sq₀ f.hp3.le r3pos.le).1 ?_
    rw [f.sh3, r3sq, fE3, sh3]
  have fu : f.u1 * m12 = A := by
    refine sum_diff (b := f.u2 * m34) (b' := B) (by rw [f.energy, hAB]) (by rw [f.energy]; exact hM) ?_
    have h1 : (f.u1 * m12) ^ 2 = m12 ^ 2 + (f.w1 * m12) ^ 2 := by rw [mul_pow, f.uw1]; ring
    have h2 : (f.u2 * m34) ^ 2 = m34 ^ 2 + (f.w2 * m34) ^ 2 := by rw [mul_pow, f.uw2]; ring
    rw [h1, h2, f.momentum]
    linarith
  have fu2 : f.u2 * m34 = B := by have := f.energy; linarith
  have fw : f.w1 * m12 = X := by
    refine (sq_eq_sq₀ (mul_pos f.hw1 hm12).le x12.le).1 ?_
    have h1 : (f.u1 * m12) ^ 2 = m12 ^ 2 + (f.w1 * m12) ^ 2 := by rw [mul_pow, f.uw1]; ring
    rw [fu] at h1
    linarith
  have fw2 : f.w2 * m34 = X := by rw [← f.momentum, fw]
  have fu' : f.u1 = A / m12 := by rw [← fu]; field_simp
  have fw' : f.w1 = X / m12 := by rw [← fw]; field_simp
  have fu2' : f.u2 = B / m34 := by rw [← fu2]; field_simp
  have fw2' : f.w2 = X / m34 := by rw [← fw2]; field_simp
  set ρ := √(y1 ^ 2 + z1 ^ 2) with hρ
  have hρ0 : 0 < ρ := Real.sqrt_pos.2 ht
  have hρ2 : ρ ^ 2 = y1 ^ 2 + z1 ^ 2 := Real.sq_sqrt ht.le
  have fs1 : f.s12 * f.p1 = ρ := by
    refine (sq_eq_sq₀ (mul_nonneg f.hs12 f.hp1.le) hρ0.le).1 ?_
    rw [mul_pow, f.sc12, fp1, hρ2, div_pow, sub_mul, div_mul_cancel₀ _ (by positivity), r1sq]
    ring
  have fs3 : f.s34 * f.p3 = -y3 := by
    refine (sq_eq_sq₀ (mul_nonneg f.hs34 f.hp3.le) (by linarith)).1 ?_
    rw [mul_pow, f.sc34, fp3, neg_sq, neg_sq, div_pow, sub_mul, div_mul_cancel₀ _ (by positivity), r3sq]
    ring
  have fc1 : k1 / r1 * f.p1 = k1 := by rw [fp1]; field_simp
  have fc3 : -(k3 / r3) * f.p3 = -k3 := by rw [fp3]; field_simp
  have hne : (⟨y1, z1⟩ : ℂ) ≠ 0 := by
    intro h0
    have h1 := congrArg Complex.re h0
    have h2 := congrArg Complex.im h0
    simp only [Complex.zero_re, Complex.zero_im] at h1 h2
    rw [h1, h2] at ht
    norm_num at ht
  have hnorm : ‖(⟨y1, z1⟩ : ℂ)‖ = ρ := by
    rw [Complex.norm_def, Complex.normSq_mk, hρ]; congr 1; ring
  have hcos : Real.cos (Complex.arg ⟨y1, z1⟩) * ρ = y1 := by
    rw [Complex.cos_arg hne, hnorm]; field_simp
  have hsin : Real.sin (Complex.arg ⟨y1, z1⟩) * ρ = z1 := by
    rw [Complex.sin_arg, hnorm]; field_simp
  unfold Frame4.vecs
  rw [fc1, fc3, fs1, fs3, hcos, hsin, fE1, fE2, fE3, fE4, fu', fw', fu2', fw2']
  have i1 : m12 * ε1 = A * e1 - X * x1 := by rw [hε1]; field_simp
  have i2 : m12 * ε2 = A * e2 - X * x2 := by rw [hε2]; field_simp
  have j1 : m12 * k1 = A * x1 - X * e1 := by rw [hk1]; field_simp
  have i3 : m34 * ε3 = B * e3 + X * x3 := by rw [hε3]; field_simp
  have i4 : m34 * ε4 = B * e4 + X * (-X - x3) := by rw [hε4]; field_simp
  have j3 : m34 * k3 = B * x3 + X * e3 := by rw [hk3]; field_simp
  have solve : ∀ {m a b u w t : ℝ}, 0 < m → u * (m * a) + w * (m * b) = m ^ 2 * t → u / m * a + w / m * b = t := by
    intro m a b u w t hm h
    field_simp
    have : m * (u * a + w * b) = m * (m * t) := by linear_combination h
    exact mul_left_cancel₀ hm.ne' this
  refine Prod.ext ?_ (Prod.ext ?_ (Prod.ext ?_ ?_)) <;> ext <;> dsimp only
  · exact solve hm12 (by rw [i1, j1, ← q12]; ring)
  · exact solve hm12 (by rw [i1, j1, ← q12]; ring)
  · have : A / m12 * -k1 + X / m12 * ε2 = x2 := solve hm12 (by rw [i2, mul_neg, j1, ← q12, hA, hX]; ring)
    linear_combination this
  · have : A / m12 * ε2 + X / m12 * -k1 = e2 := solve hm12 (by rw [i2, mul_neg, j1, ← q12, hA, hX]; ring)
    linear_combination this
  · have : B / m34 * k3 + X / m34 * -ε3 = x3 := solve hm34 (by rw [mul_neg m34, i3, j3, ← q34]; ring)
    linear_combination this
  · ring
  · have : B / m34 * ε3 + X / m34 * -k3 = e3 := solve hm34 (by rw [mul_neg m34, i3, j3, ← q34]; ring)
    linear_combination this
  · have : B / m34 * -k3 + X / m34 * -ε4 = -X - x3 := solve hm34 (by rw [mul_neg m34, mul_neg m34, i4, j3, ← q34, hB]; ring)
    linear_combination this
  · have : B / m34 * ε4 + X / m34 * k3 = e4 := solve hm34 (by rw [i4, j3, ← q34, hB]; ring)
    linear_combination this

end GooFit
