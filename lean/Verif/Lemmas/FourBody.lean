import Verif.Spec.FourBody
import Mathlib.Tactic.FieldSimp
import Mathlib.Tactic.Linarith
/-! # Lemmas about four-body kinematics -/
set_option autoImplicit false
namespace GooFit
open Spec

theorem gamma_eq {M E P : ℝ} (hM : 0 < M) (hE : 0 < E) (hP : P ^ 2 = E ^ 2 - M ^ 2) :
    1 / √(1 - P / E * (P / E)) = E / M := by
  have h : 1 - P / E * (P / E) = (M / E) ^ 2 := by
    field_simp
    linarith
  rw [h, Real.sqrt_sq (by positivity)]
  field_simp

theorem boost_unit {M E P : ℝ} (hM : 0 < M) (hP : P ^ 2 = E ^ 2 - M ^ 2) : (E / M) ^ 2 = 1 + (P / M) ^ 2 := by
  rw [div_pow, div_pow, hP]
  field_simp
  ring

/-- The energy and momentum of the products of a two-body decay in its rest frame. -/
theorem two_body {m a b : ℝ} (ha : 0 ≤ a) (hb : 0 ≤ b) (h : a + b < m) :
    let E := (m * m + a * a - b * b) / (2 * m)
    let p := √(E * E - a * a)
    0 < p ∧ 0 < E ∧ p ^ 2 = E ^ 2 - a ^ 2 := by
  intro E p
  have hm : 0 < m := by linarith
  have hE : 0 < E := by
    apply div_pos _ (by linarith)
    nlinarith
  have h1 : 0 < E * E - a * a := by
    have : E * E - a * a = ((m + a + b) * (m + a - b) * (m - a + b) * (m - a - b)) / (4 * m ^ 2) := by
      show (m * m + a * a - b * b) / (2 * m) * ((m * m + a * a - b * b) / (2 * m)) - a * a = _
      field_simp
      ring
    rw [this]
    have k1 : 0 < m + a + b := by linarith
    have k2 : 0 < m + a - b := by linarith
    have k3 : 0 < m - a + b := by linarith
    have k4 : 0 < m - a - b := by linarith
    positivity
  refine ⟨Real.sqrt_pos.2 h1, hE, ?_⟩
  rw [Real.sq_sqrt h1.le]
  ring

/-- The numbers `get4Vecs` works with. -/
structure Frame4 (M m1 m2 m3 m4 m12 m34 cos12 cos34 : ℝ) where
  (E1 E2 E3 E4 p1 p3 s12 s34 u1 w1 u2 w2 : ℝ)
  sumE12 : E1 + E2 = m12
  sumE34 : E3 + E4 = m34
  sh1 : p1 ^ 2 = E1 ^ 2 - m1 ^ 2
  sh2 : p1 ^ 2 = E2 ^ 2 - m2 ^ 2
  sh3 : p3 ^ 2 = E3 ^ 2 - m3 ^ 2
  sh4 : p3 ^ 2 = E4 ^ 2 - m4 ^ 2
  (hp1 : 0 < p1) (hp3 : 0 < p3) (hE1 : 0 < E1) (hE2 : 0 < E2) (hE3 : 0 < E3) (hE4 : 0 < E4)
  hs12 : 0 ≤ s12
  hs34 : 0 ≤ s34
  sc12 : s12 ^ 2 = 1 - cos12 ^ 2
  sc34 : s34 ^ 2 = 1 - cos34 ^ 2
  (hu1 : 0 < u1) (hw1 : 0 < w1) (hu2 : 0 < u2) (hw2 : 0 < w2)
  uw1 : u1 ^ 2 = 1 + w1 ^ 2
  uw2 : u2 ^ 2 = 1 + w2 ^ 2
  energy : u1 * m12 + u2 * m34 = M
  momentum : w1 * m12 = w2 * m34

/-- The four vectors in these numbers. -/
noncomputable def Frame4.vecs {M m1 m2 m3 m4 m12 m34 cos12 cos34 : ℝ} (f : Frame4 M m1 m2 m3 m4 m12 m34 cos12 cos34) (phi : ℝ) :
    LV ℝ × LV ℝ × LV ℝ × LV ℝ :=
  (⟨f.u1 * (cos12 * f.p1) + f.w1 * f.E1, Real.cos phi * (f.s12 * f.p1), Real.sin phi * (f.s12 * f.p1),
      f.u1 * f.E1 + f.w1 * (cos12 * f.p1)⟩,
   ⟨-(f.u1 * (cos12 * f.p1)) + f.w1 * f.E2, -(Real.cos phi * (f.s12 * f.p1)), -(Real.sin phi * (f.s12 * f.p1)),
      f.u1 * f.E2 - f.w1 * (cos12 * f.p1)⟩,
   ⟨-(f.u2 * (cos34 * f.p3)) - f.w2 * f.E3, -(f.s34 * f.p3), 0, f.u2 * f.E3 + f.w2 * (cos34 * f.p3)⟩,
   ⟨f.u2 * (cos34 * f.p3) - f.w2 * f.E4, f.s34 * f.p3, 0, f.u2 * f.E4 - f.w2 * (cos34 * f.p3)⟩)

/-- `get4Vecs` inside the phase space. -/
theorem get4Vecs_frame {M m1 m2 m3 m4 m12 m34 cos12 cos34 : ℝ} (h : Inside M m1 m2 m3 m4 m12 m34) (hc12 : cos12 ^ 2 ≤ 1)
    (hc34 : cos34 ^ 2 ≤ 1) :
    ∃ f : Frame4 M m1 m2 m3 m4 m12 m34 cos12 cos34, ∀ phi,
      get4Vecs m12 m34 cos12 cos34 phi M m1 m2 m3 m4 = f.vecs phi := by
  obtain ⟨h1, h2, h3, h4, h12, h34, hM⟩ := h
  have hm12 : 0 < m12 := by linarith
  have hm34 : 0 < m34 := by linarith
  have hMp : 0 < M := by linarith
  obtain ⟨a1, a2, a3⟩ := two_body h1 h2 h12
  obtain ⟨_, b2, b3⟩ := two_body h2 h1 (by linarith : m2 + m1 < m12)
  obtain ⟨c1, c2, c3⟩ := two_body h3 h4 h34
  obtain ⟨_, d2, d3⟩ := two_body h4 h3 (by linarith : m4 + m3 < m34)
  have key : ∀ {a b : ℝ}, 0 < a → 0 < b → a + b < M →
      0 < (M * M + a * a - b * b) / (2 * a) ∧
      0 < ((M * M + a * a - b * b) / (2 * a)) * ((M * M + a * a - b * b) / (2 * a)) - M * M := by
    intro a b ha hb hab
    constructor
    · apply div_pos _ (by linarith)
      nlinarith
    · have : ((M * M + a * a - b * b) / (2 * a)) * ((M * M + a * a - b * b) / (2 * a)) - M * M
          = ((M + a + b) * (M + a - b) * (M - a + b) * (M - a - b)) / (4 * a ^ 2) := by
        field_simp
        ring
      rw [this]
      have k1 : 0 < M + a + b := by linarith
      have k2 : 0 < M + a - b := by linarith
      have k3 : 0 < M - a + b := by linarith
      have k4 : 0 < M - a - b := by linarith
      positivity
  obtain ⟨g1, g2⟩ := key hm12 hm34 hM
  obtain ⟨g3', g4'⟩ := key hm34 hm12 (by linarith)
  have e34 : (M * M + m34 * m34 - m12 * m12) / (2 * m34) = (M * M - m12 * m12 + m34 * m34) / (2 * m34) := by ring
  rw [e34] at g3' g4'
  set E1 := (m12 * m12 + m1 * m1 - m2 * m2) / (2 * m12) with hE1
  set E2 := (m12 * m12 - m1 * m1 + m2 * m2) / (2 * m12) with hE2
  set E3 := (m34 * m34 + m3 * m3 - m4 * m4) / (2 * m34) with hE3
  set E4 := (m34 * m34 - m3 * m3 + m4 * m4) / (2 * m34) with hE4
  set ED1 := (M * M + m12 * m12 - m34 * m34) / (2 * m12) with hED1
  set ED2 := (M * M - m12 * m12 + m34 * m34) / (2 * m34) with hED2
  have e2 : (m12 * m12 + m2 * m2 - m1 * m1) / (2 * m12) = E2 := by rw [hE2]; ring
  have e4 : (m34 * m34 + m4 * m4 - m3 * m3) / (2 * m34) = E4 := by rw [hE4]; ring
  rw [e2] at b2
  rw [e4] at d2
  have sumE12 : E1 + E2 = m12 := by rw [hE1, hE2]; field_simp; ring
  have sumE34 : E3 + E4 = m34 := by rw [hE3, hE4]; field_simp; ring
  have dE12 : E1 ^ 2 - E2 ^ 2 = m1 ^ 2 - m2 ^ 2 := by rw [hE1, hE2]; field_simp; ring
  have dE34 : E3 ^ 2 - E4 ^ 2 = m3 ^ 2 - m4 ^ 2 := by rw [hE3, hE4]; field_simp; ring
  have hP1 : √(ED1 * ED1 - M * M) ^ 2 = ED1 ^ 2 - M ^ 2 := by rw [Real.sq_sqrt g2.le]; ring
  have hP2 : √(ED2 * ED2 - M * M) ^ 2 = ED2 ^ 2 - M ^ 2 := by rw [Real.sq_sqrt g4'.le]; ring
  have hG1 := gamma_eq hMp g1 hP1
  have hG2 := gamma_eq hMp g3' (P := -√(ED2 * ED2 - M * M)) (by rw [neg_sq]; exact hP2)
  have pos1 := Real.sqrt_pos.2 g2
  have pos2 := Real.sqrt_pos.2 g4'
  have hs12 : 0 ≤ 1 - cos12 * cos12 := by rw [← pow_two]; exact sub_nonneg.2 hc12
  have hs34 : 0 ≤ 1 - cos34 * cos34 := by rw [← pow_two]; exact sub_nonneg.2 hc34
  refine ⟨⟨E1, E2, E3, E4, √(E1 * E1 - m1 * m1), √(E3 * E3 - m3 * m3), √(1 - cos12 * cos12), √(1 - cos34 * cos34),
    ED1 / M, √(ED1 * ED1 - M * M) / M, ED2 / M, √(ED2 * ED2 - M * M) / M,
    sumE12, sumE34, a3, by rw [a3]; linarith, c3, by rw [c3]; linarith, a1, c1, a2, b2, c2, d2,
    Real.sqrt_nonneg _, Real.sqrt_nonneg _, by rw [Real.sq_sqrt hs12]; ring, by rw [Real.sq_sqrt hs34]; ring,
    by positivity, by positivity, by positivity, by positivity, ?_, ?_, ?_, ?_⟩, fun phi => ?_⟩
  · exact boost_unit hMp hP1
  · exact boost_unit hMp hP2
  · rw [hED1, hED2]; field_simp; ring
  · have hsq : (√(ED1 * ED1 - M * M) * m12) ^ 2 = (√(ED2 * ED2 - M * M) * m34) ^ 2 := by
      rw [mul_pow, mul_pow, hP1, hP2, hED1, hED2]
      field_simp
      ring
    have : √(ED1 * ED1 - M * M) * m12 = √(ED2 * ED2 - M * M) * m34 :=
      (sq_eq_sq₀ (by positivity) (by positivity)).1 hsq
    linear_combination (1 / M) * this
  · unfold get4Vecs Frame4.vecs
    simp only [← hE1, ← hE2, ← hE3, ← hE4, ← hED1, ← hED2, hG1, hG2, boostX, rotX]
    refine Prod.ext ?_ (Prod.ext ?_ (Prod.ext ?_ ?_)) <;> ext <;> dsimp only <;> field_simp <;> ring

end GooFit
