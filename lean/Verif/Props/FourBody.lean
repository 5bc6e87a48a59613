import Verif.Lemmas.FourBody
import Mathlib.Tactic.LinearCombination
import Mathlib.Tactic.IntervalCases
/-!
# C51 and C52: the momenta of a four-body event

`get4Vecs` makes the momenta of the four particles from the five variables of an event; `dim5` makes the variables from the
momenta; `lsMass` is the mass a line shape is evaluated at.
-/
set_option autoImplicit false
namespace GooFit
open Spec

section
variable {M m1 m2 m3 m4 m12 m34 cos12 cos34 : ℝ}

theorem energy_pos {u w E p c m : ℝ} (hu : 0 < u) (hw : 0 < w) (huw : u ^ 2 = 1 + w ^ 2) (hE : 0 < E) (hp : 0 < p)
    (hsh : p ^ 2 = E ^ 2 - m ^ 2) (hc : c ^ 2 ≤ 1) : 0 < u * E + w * (c * p) := by
  have h1 : w < u := by nlinarith
  have h2 : p ≤ E := by nlinarith [sq_nonneg m]
  have h3 : -1 ≤ c := by nlinarith
  have h4 : w * p < u * E := by nlinarith
  nlinarith [mul_pos hw hp]

/-- **C51** The momenta are those of a decay of the mother at rest: masses, momentum and energy are right. -/
theorem C51_decay (h : Inside M m1 m2 m3 m4 m12 m34) (hc12 : cos12 ^ 2 ≤ 1) (hc34 : cos34 ^ 2 ≤ 1) (phi : ℝ) :
    IsDecay M m1 m2 m3 m4 (get4Vecs m12 m34 cos12 cos34 phi M m1 m2 m3 m4) := by
  obtain ⟨f, hf⟩ := get4Vecs_frame h hc12 hc34
  rw [hf phi]
  have tr := Real.cos_sq_add_sin_sq phi
  unfold Frame4.vecs
  refine ⟨⟨?_, ?_⟩, ⟨?_, ?_⟩, ⟨?_, ?_⟩, ⟨?_, ?_⟩, ?_, ?_, ?_, ?_⟩ <;> dsimp only
  · have a := f.uw1; have b := f.sc12; have c := f.sh1
    linear_combination (f.E1 ^ 2 - cos12 ^ 2 * f.p1 ^ 2) * a - (f.s12 * f.p1) ^ 2 * tr - f.p1 ^ 2 * b - c
  · exact energy_pos f.hu1 f.hw1 f.uw1 f.hE1 f.hp1 f.sh1 hc12
  · have a := f.uw1; have b := f.sc12; have c := f.sh2
    linear_combination (f.E2 ^ 2 - cos12 ^ 2 * f.p1 ^ 2) * a - (f.s12 * f.p1) ^ 2 * tr - f.p1 ^ 2 * b - c
  · have := energy_pos (c := -cos12) f.hu1 f.hw1 f.uw1 f.hE2 f.hp1 f.sh2 (by rw [neg_sq]; exact hc12)
    linarith
  · have a := f.uw2; have b := f.sc34; have c := f.sh3
    linear_combination (f.E3 ^ 2 - cos34 ^ 2 * f.p3 ^ 2) * a - f.p3 ^ 2 * b - c
  · exact energy_pos f.hu2 f.hw2 f.uw2 f.hE3 f.hp3 f.sh3 hc34
  · have a := f.uw2; have b := f.sc34; have c := f.sh4
    linear_combination (f.E4 ^ 2 - cos34 ^ 2 * f.p3 ^ 2) * a - f.p3 ^ 2 * b - c
  · have := energy_pos (c := -cos34) f.hu2 f.hw2 f.uw2 f.hE4 f.hp3 f.sh4 (by rw [neg_sq]; exact hc34)
    linarith
  · have a := f.momentum; have b := f.sumE12; have c := f.sumE34
    linear_combination f.w1 * b - f.w2 * c + a
  · ring
  · ring
  · have a := f.energy; have b := f.sumE12; have c := f.sumE34
    linear_combination f.u1 * b + f.u2 * c + a

/-- The pair masses, squared. -/
theorem pair_masses (h : Inside M m1 m2 m3 m4 m12 m34) (hc12 : cos12 ^ 2 ≤ 1) (hc34 : cos34 ^ 2 ≤ 1) (phi : ℝ) :
    let v := get4Vecs m12 m34 cos12 cos34 phi M m1 m2 m3 m4
    (v.1 + v.2.1).mink (v.1 + v.2.1) = m12 ^ 2 ∧ (v.2.2.1 + v.2.2.2).mink (v.2.2.1 + v.2.2.2) = m34 ^ 2 := by
  obtain ⟨f, hf⟩ := get4Vecs_frame h hc12 hc34
  rw [hf phi]
  intro v
  constructor
  · show (f.u1 * f.E1 + f.w1 * (cos12 * f.p1) + (f.u1 * f.E2 - f.w1 * (cos12 * f.p1)))
        * (f.u1 * f.E1 + f.w1 * (cos12 * f.p1) + (f.u1 * f.E2 - f.w1 * (cos12 * f.p1)))
      - (f.u1 * (cos12 * f.p1) + f.w1 * f.E1 + (-(f.u1 * (cos12 * f.p1)) + f.w1 * f.E2))
        * (f.u1 * (cos12 * f.p1) + f.w1 * f.E1 + (-(f.u1 * (cos12 * f.p1)) + f.w1 * f.E2))
      - (Real.cos phi * (f.s12 * f.p1) + -(Real.cos phi * (f.s12 * f.p1)))
        * (Real.cos phi * (f.s12 * f.p1) + -(Real.cos phi * (f.s12 * f.p1)))
      - (Real.sin phi * (f.s12 * f.p1) + -(Real.sin phi * (f.s12 * f.p1)))
        * (Real.sin phi * (f.s12 * f.p1) + -(Real.sin phi * (f.s12 * f.p1))) = m12 ^ 2
    linear_combination (f.E1 + f.E2) ^ 2 * f.uw1 + (f.E1 + f.E2 + m12) * f.sumE12
  · show (f.u2 * f.E3 + f.w2 * (cos34 * f.p3) + (f.u2 * f.E4 - f.w2 * (cos34 * f.p3)))
        * (f.u2 * f.E3 + f.w2 * (cos34 * f.p3) + (f.u2 * f.E4 - f.w2 * (cos34 * f.p3)))
      - (-(f.u2 * (cos34 * f.p3)) - f.w2 * f.E3 + (f.u2 * (cos34 * f.p3) - f.w2 * f.E4))
        * (-(f.u2 * (cos34 * f.p3)) - f.w2 * f.E3 + (f.u2 * (cos34 * f.p3) - f.w2 * f.E4))
      - (-(f.s34 * f.p3) + f.s34 * f.p3) * (-(f.s34 * f.p3) + f.s34 * f.p3) - (0 + 0) * (0 + 0) = m34 ^ 2
    linear_combination (f.E3 + f.E4) ^ 2 * f.uw2 + (f.E3 + f.E4 + m34) * f.sumE34

/-- **C51** The invariant masses of the two pairs are the variables the event was made from. -/
theorem C51_pair_masses (h : Inside M m1 m2 m3 m4 m12 m34) (hc12 : cos12 ^ 2 ≤ 1) (hc34 : cos34 ^ 2 ≤ 1) (phi : ℝ) :
    let v := get4Vecs m12 m34 cos12 cos34 phi M m1 m2 m3 m4
    √((v.1.e + v.2.1.e) ^ 2 - (v.1.x + v.2.1.x) ^ 2 - (v.1.y + v.2.1.y) ^ 2 - (v.1.z + v.2.1.z) ^ 2) = m12 ∧
    √((v.2.2.1.e + v.2.2.2.e) ^ 2 - (v.2.2.1.x + v.2.2.2.x) ^ 2 - (v.2.2.1.y + v.2.2.2.y) ^ 2
      - (v.2.2.1.z + v.2.2.2.z) ^ 2) = m34 := by
  intro v
  obtain ⟨h1, h2⟩ := pair_masses h hc12 hc34 phi
  have p12 : 0 ≤ m12 := by have := h.h1; have := h.h2; have := h.pair12; linarith
  have p34 : 0 ≤ m34 := by have := h.h3; have := h.h4; have := h.pair34; linarith
  constructor
  · rw [← Real.sqrt_sq p12, ← h1]
    congr 1
    show _ = (v.1.e + v.2.1.e) * (v.1.e + v.2.1.e) - (v.1.x + v.2.1.x) * (v.1.x + v.2.1.x)
      - (v.1.y + v.2.1.y) * (v.1.y + v.2.1.y) - (v.1.z + v.2.1.z) * (v.1.z + v.2.1.z)
    ring
  · rw [← Real.sqrt_sq p34, ← h2]
    congr 1
    show _ = (v.2.2.1.e + v.2.2.2.e) * (v.2.2.1.e + v.2.2.2.e) - (v.2.2.1.x + v.2.2.2.x) * (v.2.2.1.x + v.2.2.2.x)
      - (v.2.2.1.y + v.2.2.2.y) * (v.2.2.1.y + v.2.2.2.y) - (v.2.2.1.z + v.2.2.2.z) * (v.2.2.1.z + v.2.2.2.z)
    ring

/-- The helicity angle of a pair that moves along x. -/
theorem helicity {u w E p c m M dy dz : ℝ} (huw : u ^ 2 = 1 + w ^ 2) (hd : dy ^ 2 + dz ^ 2 = (1 - c ^ 2) * p ^ 2)
    (hpos : 0 < M * m ^ 2 * w * p ∨ M * m ^ 2 * w * p < 0) :
    cosHELANG ⟨0, 0, 0, M⟩ ⟨w * m, 0, 0, u * m⟩ ⟨u * (c * p) + w * E, dy, dz, u * E + w * (c * p)⟩
      = if 0 < M * m ^ 2 * w * p then c else -c := by
  unfold cosHELANG
  have hnum : (LV.mink ⟨0, 0, 0, M⟩ ⟨u * (c * p) + w * E, dy, dz, u * E + w * (c * p)⟩
        * LV.mink ⟨w * m, 0, 0, u * m⟩ ⟨w * m, 0, 0, u * m⟩
      - LV.mink ⟨0, 0, 0, M⟩ ⟨w * m, 0, 0, u * m⟩
        * LV.mink ⟨w * m, 0, 0, u * m⟩ ⟨u * (c * p) + w * E, dy, dz, u * E + w * (c * p)⟩) = c * (M * m ^ 2 * w * p) := by
    simp only [LV.mink]
    linear_combination (M * m ^ 2 * (w * (c * p))) * huw
  have hden : (LV.mink ⟨0, 0, 0, M⟩ ⟨w * m, 0, 0, u * m⟩ * LV.mink ⟨0, 0, 0, M⟩ ⟨w * m, 0, 0, u * m⟩
        - LV.mink ⟨w * m, 0, 0, u * m⟩ ⟨w * m, 0, 0, u * m⟩ * LV.mink ⟨0, 0, 0, M⟩ ⟨0, 0, 0, M⟩)
      * (LV.mink ⟨w * m, 0, 0, u * m⟩ ⟨u * (c * p) + w * E, dy, dz, u * E + w * (c * p)⟩
          * LV.mink ⟨w * m, 0, 0, u * m⟩ ⟨u * (c * p) + w * E, dy, dz, u * E + w * (c * p)⟩
        - LV.mink ⟨w * m, 0, 0, u * m⟩ ⟨w * m, 0, 0, u * m⟩
          * LV.mink ⟨u * (c * p) + w * E, dy, dz, u * E + w * (c * p)⟩
              ⟨u * (c * p) + w * E, dy, dz, u * E + w * (c * p)⟩) = (M * m ^ 2 * w * p) ^ 2 := by
    have e1 : LV.mink ⟨0, 0, 0, M⟩ ⟨w * m, 0, 0, u * m⟩ * LV.mink ⟨0, 0, 0, M⟩ ⟨w * m, 0, 0, u * m⟩
        - LV.mink ⟨w * m, 0, 0, u * m⟩ ⟨w * m, 0, 0, u * m⟩ * LV.mink ⟨0, 0, 0, M⟩ ⟨0, 0, 0, M⟩ = M ^ 2 * m ^ 2 * w ^ 2 := by
      simp only [LV.mink]
      ring
    have e2 : LV.mink ⟨w * m, 0, 0, u * m⟩ ⟨u * (c * p) + w * E, dy, dz, u * E + w * (c * p)⟩ = m * E := by
      simp only [LV.mink]
      linear_combination (m * E) * huw
    have e3 : LV.mink ⟨w * m, 0, 0, u * m⟩ ⟨w * m, 0, 0, u * m⟩ = m ^ 2 := by
      simp only [LV.mink]
      linear_combination m ^ 2 * huw
    have e4 : LV.mink ⟨u * (c * p) + w * E, dy, dz, u * E + w * (c * p)⟩
        ⟨u * (c * p) + w * E, dy, dz, u * E + w * (c * p)⟩ = E ^ 2 - p ^ 2 := by
      simp only [LV.mink]
      linear_combination (E ^ 2 - (c * p) ^ 2) * huw - hd
    rw [e1, e2, e3, e4]
    ring
  rw [hnum, hden]
  rcases hpos with hp | hp
  · rw [if_pos hp, Real.sqrt_sq hp.le, mul_div_cancel_right₀ c hp.ne']
  · rw [if_neg (not_lt.2 hp.le), show (M * m ^ 2 * w * p) ^ 2 = (-(M * m ^ 2 * w * p)) ^ 2 by ring,
      Real.sqrt_sq (by linarith)]
    rw [div_neg, mul_div_cancel_right₀ c (ne_of_lt hp)]

theorem mag3_smul {k : ℝ} (hk : 0 < k) (v : LV ℝ) : (v.smul k).mag3 = k * v.mag3 := by
  unfold LV.mag3 LV.dot3 LV.smul
  dsimp only
  rw [show k * v.x * (k * v.x) + k * v.y * (k * v.y) + k * v.z * (k * v.z) = k ^ 2 * (v.x * v.x + v.y * v.y + v.z * v.z) by ring,
    Real.sqrt_mul (by positivity), Real.sqrt_sq hk.le]

/-- The unit vector of a cross product does not depend on the lengths. -/
theorem unit_cross {a b : LV ℝ} (ha : 0 < a.mag3) (hb : 0 < b.mag3) :
    (((a.divs a.mag3).cross (b.divs b.mag3)).smul (1 / ((a.divs a.mag3).cross (b.divs b.mag3)).mag3))
      = (a.cross b).smul (1 / (a.cross b).mag3) := by
  have hc : (a.divs a.mag3).cross (b.divs b.mag3) = (a.cross b).smul (1 / (a.mag3 * b.mag3)) := by
    ext <;> simp only [LV.cross, LV.divs, LV.smul] <;> field_simp
    ring
  rw [hc, mag3_smul (by positivity)]
  ext <;> simp only [LV.smul] <;> field_simp

/-- The angle between the planes of two pairs that move along x in opposite directions. -/
theorem dim5phi_spec {a a' g g' b t P phi : ℝ} (hb : 0 < b) (ht : 0 < t) (hP : 0 < P) (ha : a + a' = P) (hg : g + g' = -P)
    (e1 e2 e3 e4 : ℝ) (hlo : -Real.pi < phi) (hhi : phi ≤ Real.pi) :
    dim5phi ⟨a, Real.cos phi * b, Real.sin phi * b, e1⟩ ⟨a', -(Real.cos phi * b), -(Real.sin phi * b), e2⟩
      ⟨g, -t, 0, e3⟩ ⟨g', t, 0, e4⟩ = phi := by
  have tr := Real.cos_sq_add_sin_sq phi
  have m1 : 0 < LV.mag3 ⟨a, Real.cos phi * b, Real.sin phi * b, e1⟩ := by
    refine Real.sqrt_pos.2 ?_
    have : LV.dot3 ⟨a, Real.cos phi * b, Real.sin phi * b, e1⟩ ⟨a, Real.cos phi * b, Real.sin phi * b, e1⟩ = a ^ 2 + b ^ 2 := by
      simp only [LV.dot3]
      linear_combination b ^ 2 * tr
    rw [this]
    positivity
  have m2 : 0 < LV.mag3 ⟨a', -(Real.cos phi * b), -(Real.sin phi * b), e2⟩ := by
    refine Real.sqrt_pos.2 ?_
    have : LV.dot3 ⟨a', -(Real.cos phi * b), -(Real.sin phi * b), e2⟩ ⟨a', -(Real.cos phi * b), -(Real.sin phi * b), e2⟩
        = a' ^ 2 + b ^ 2 := by
      simp only [LV.dot3]
      linear_combination b ^ 2 * tr
    rw [this]
    positivity
  have m3 : 0 < LV.mag3 ⟨g, -t, 0, e3⟩ := by
    refine Real.sqrt_pos.2 ?_
    have : LV.dot3 ⟨g, -t, 0, e3⟩ ⟨g, -t, 0, e3⟩ = g ^ 2 + t ^ 2 := by simp only [LV.dot3]; ring
    rw [this]
    positivity
  have m4 : 0 < LV.mag3 ⟨g', t, 0, e4⟩ := by
    refine Real.sqrt_pos.2 ?_
    have : LV.dot3 ⟨g', t, 0, e4⟩ ⟨g', t, 0, e4⟩ = g' ^ 2 + t ^ 2 := by simp only [LV.dot3]; ring
    rw [this]
    positivity
  have n1 : (LV.cross ⟨a, Real.cos phi * b, Real.sin phi * b, e1⟩ ⟨a', -(Real.cos phi * b), -(Real.sin phi * b), e2⟩)
      = ⟨0, Real.sin phi * (b * P), -(Real.cos phi * (b * P)), 0⟩ := by
    subst ha
    ext <;> simp only [LV.cross] <;> ring
  have n1m : LV.mag3 ⟨0, Real.sin phi * (b * P), -(Real.cos phi * (b * P)), 0⟩ = b * P := by
    have : LV.dot3 ⟨0, Real.sin phi * (b * P), -(Real.cos phi * (b * P)), 0⟩
        ⟨0, Real.sin phi * (b * P), -(Real.cos phi * (b * P)), 0⟩ = (b * P) ^ 2 := by
      simp only [LV.dot3]
      linear_combination (b * P) ^ 2 * tr
    unfold LV.mag3
    rw [this, Real.sqrt_sq (by positivity)]
  have n2 : (LV.cross ⟨g, -t, 0, e3⟩ ⟨g', t, 0, e4⟩) = ⟨0, 0, -(t * P), 0⟩ := by
    ext
    · simp only [LV.cross]; ring
    · simp only [LV.cross]; ring
    · simp only [LV.cross]; linear_combination t * hg
    · rfl
  have n2m : LV.mag3 ⟨0, 0, -(t * P), 0⟩ = t * P := by
    unfold LV.mag3 LV.dot3
    dsimp only
    rw [show (0 : ℝ) * 0 + 0 * 0 + -(t * P) * -(t * P) = (t * P) ^ 2 by ring, Real.sqrt_sq (by positivity)]
  have h12 : (⟨g, -t, 0, e3⟩ + ⟨g', t, 0, e4⟩ : LV ℝ) = ⟨-P, 0, 0, e3 + e4⟩ := by
    ext
    · exact hg
    · show -t + t = 0; ring
    · show (0 : ℝ) + 0 = 0; ring
    · rfl
  have h12m : LV.mag3 ⟨-P, 0, 0, e3 + e4⟩ = P := by
    unfold LV.mag3 LV.dot3
    dsimp only
    rw [show -P * -P + (0 : ℝ) * 0 + 0 * 0 = P ^ 2 by ring, Real.sqrt_sq hP.le]
  unfold dim5phi
  dsimp only
  rw [unit_cross m1 m2, unit_cross m3 m4, n1, n1m, n2, n2m, h12, h12m]
  have u1 : LV.smul (1 / (b * P)) ⟨0, Real.sin phi * (b * P), -(Real.cos phi * (b * P)), 0⟩
      = ⟨0, Real.sin phi, -Real.cos phi, 0⟩ := by
    have hne : b * P ≠ 0 := (mul_pos hb hP).ne'
    ext
    · exact mul_zero _
    · show 1 / (b * P) * (Real.sin phi * (b * P)) = Real.sin phi
      field_simp
    · show 1 / (b * P) * -(Real.cos phi * (b * P)) = -Real.cos phi
      field_simp
    · exact mul_zero _
  have u2 : LV.smul (1 / (t * P)) ⟨0, 0, -(t * P), 0⟩ = ⟨0, 0, -1, 0⟩ := by
    have hne : t * P ≠ 0 := (mul_pos ht hP).ne'
    ext
    · exact mul_zero _
    · exact mul_zero _
    · show 1 / (t * P) * -(t * P) = -1
      field_simp
    · exact mul_zero _
  rw [u1, u2]
  have cp : LV.dot3 ⟨0, Real.sin phi, -Real.cos phi, 0⟩ ⟨0, 0, -1, 0⟩ = Real.cos phi := by
    simp only [LV.dot3]; ring
  have sp : (LV.cross ⟨0, Real.sin phi, -Real.cos phi, 0⟩ ⟨0, 0, -1, 0⟩).dot3 (LV.smul (1 / P) ⟨-P, 0, 0, e3 + e4⟩)
      = Real.sin phi := by
    simp only [LV.cross, LV.dot3, LV.smul]; field_simp; ring
  rw [cp, sp]
  by_cases h0 : 0 ≤ phi
  · rw [if_neg (not_lt.2 (Real.sin_nonneg_of_nonneg_of_le_pi h0 hhi)), Real.arccos_cos h0 hhi]
  · have h0' : phi < 0 := not_le.1 h0
    rw [if_pos (Real.sin_neg_of_neg_of_neg_pi_lt h0' hlo), ← Real.cos_neg, Real.arccos_cos (by linarith) (by linarith)]
    ring

/-- **C51** Back and forth: the variables computed from the momenta are those the momenta were made from, strictly inside
the phase space. -/
theorem C51_round_trip (h : Inside M m1 m2 m3 m4 m12 m34) (hc12 : cos12 ^ 2 < 1) (hc34 : cos34 ^ 2 < 1) (phi : ℝ)
    (hlo : -Real.pi < phi) (hhi : phi ≤ Real.pi) :
    let v := get4Vecs m12 m34 cos12 cos34 phi M m1 m2 m3 m4
    dim5 v.1 v.2.1 v.2.2.1 v.2.2.2 = (m12, m34, cos12, cos34, phi) := by
  intro v
  obtain ⟨hm12, hm34⟩ := pair_masses h hc12.le hc34.le phi
  have p12 : 0 < m12 := by have := h.h1; have := h.h2; have := h.pair12; linarith
  have p34 : 0 < m34 := by have := h.h3; have := h.h4; have := h.pair34; linarith
  have pM : 0 < M := by have := h.mother; linarith
  obtain ⟨f, hf⟩ := get4Vecs_frame h hc12.le hc34.le
  have hv : v = f.vecs phi := hf phi
  have tr := Real.cos_sq_add_sin_sq phi
  have hdec := C51_decay h hc12.le hc34.le phi
  -- the sums
  have s12 : v.1 + v.2.1 = ⟨f.w1 * m12, 0, 0, f.u1 * m12⟩ := by
    rw [hv]
    have := f.sumE12
    ext
    · show f.u1 * (cos12 * f.p1) + f.w1 * f.E1 + (-(f.u1 * (cos12 * f.p1)) + f.w1 * f.E2) = f.w1 * m12
      linear_combination f.w1 * this
    · show Real.cos phi * (f.s12 * f.p1) + -(Real.cos phi * (f.s12 * f.p1)) = 0
      ring
    · show Real.sin phi * (f.s12 * f.p1) + -(Real.sin phi * (f.s12 * f.p1)) = 0
      ring
    · show f.u1 * f.E1 + f.w1 * (cos12 * f.p1) + (f.u1 * f.E2 - f.w1 * (cos12 * f.p1)) = f.u1 * m12
      linear_combination f.u1 * this
  have s34 : v.2.2.1 + v.2.2.2 = ⟨-(f.w2 * m34), 0, 0, f.u2 * m34⟩ := by
    rw [hv]
    have := f.sumE34
    ext
    · show -(f.u2 * (cos34 * f.p3)) - f.w2 * f.E3 + (f.u2 * (cos34 * f.p3) - f.w2 * f.E4) = -(f.w2 * m34)
      linear_combination -f.w2 * this
    · show -(f.s34 * f.p3) + f.s34 * f.p3 = 0
      ring
    · show (0 : ℝ) + 0 = 0
      ring
    · show f.u2 * f.E3 + f.w2 * (cos34 * f.p3) + (f.u2 * f.E4 - f.w2 * (cos34 * f.p3)) = f.u2 * m34
      linear_combination f.u2 * this
  have sM : v.1 + v.2.1 + v.2.2.1 + v.2.2.2 = ⟨0, 0, 0, M⟩ := by
    ext
    · exact hdec.momX
    · exact hdec.momY
    · exact hdec.momZ
    · exact hdec.energy
  have v1 : v.1 = ⟨f.u1 * (cos12 * f.p1) + f.w1 * f.E1, Real.cos phi * (f.s12 * f.p1), Real.sin phi * (f.s12 * f.p1),
      f.u1 * f.E1 + f.w1 * (cos12 * f.p1)⟩ := by rw [hv]; rfl
  have v2 : v.2.1 = ⟨-(f.u1 * (cos12 * f.p1)) + f.w1 * f.E2, -(Real.cos phi * (f.s12 * f.p1)),
      -(Real.sin phi * (f.s12 * f.p1)), f.u1 * f.E2 - f.w1 * (cos12 * f.p1)⟩ := by rw [hv]; rfl
  have v3 : v.2.2.1 = ⟨-(f.u2 * (cos34 * f.p3)) - f.w2 * f.E3, -(f.s34 * f.p3), 0,
      f.u2 * f.E3 + f.w2 * (cos34 * f.p3)⟩ := by rw [hv]; rfl
  have v4 : v.2.2.2 = ⟨f.u2 * (cos34 * f.p3) - f.w2 * f.E4, f.s34 * f.p3, 0,
      f.u2 * f.E4 - f.w2 * (cos34 * f.p3)⟩ := by rw [hv]; rfl
  have hu1 := f.uw1
  have hu2 := f.uw2
  have hs12 : 0 < f.s12 := by
    rcases f.hs12.lt_or_eq with h | h
    · exact h
    · have := f.sc12
      rw [← h] at this
      exfalso
      linarith [this]
  have hs34 : 0 < f.s34 := by
    rcases f.hs34.lt_or_eq with h | h
    · exact h
    · have := f.sc34
      rw [← h] at this
      exfalso
      linarith [this]
  refine Prod.ext ?_ (Prod.ext ?_ (Prod.ext ?_ (Prod.ext ?_ ?_)))
  · show √((v.1 + v.2.1).mink (v.1 + v.2.1)) = m12
    rw [hm12, Real.sqrt_sq p12.le]
  · show √((v.2.2.1 + v.2.2.2).mink (v.2.2.1 + v.2.2.2)) = m34
    rw [hm34, Real.sqrt_sq p34.le]
  · show cosHELANG (v.1 + v.2.1 + v.2.2.1 + v.2.2.2) (v.1 + v.2.1) v.1 = cos12
    rw [sM, s12, v1]
    have hpos : 0 < M * m12 ^ 2 * f.w1 * f.p1 := by have := f.hw1; have := f.hp1; positivity
    rw [helicity hu1 (by linear_combination (f.s12 * f.p1) ^ 2 * tr + f.p1 ^ 2 * f.sc12) (Or.inl hpos), if_pos hpos]
  · show cosHELANG (v.1 + v.2.1 + v.2.2.1 + v.2.2.2) (v.2.2.1 + v.2.2.2) v.2.2.1 = cos34
    have hneg : M * m34 ^ 2 * -f.w2 * f.p3 < 0 := by
      have : 0 < M * m34 ^ 2 * f.w2 * f.p3 := by have := f.hw2; have := f.hp3; positivity
      linarith
    have := helicity (u := f.u2) (w := -f.w2) (E := f.E3) (p := f.p3) (c := -cos34) (m := m34) (M := M)
      (dy := -(f.s34 * f.p3)) (dz := 0) (by rw [neg_sq]; exact hu2) (by linear_combination f.p3 ^ 2 * f.sc34) (Or.inr hneg)
    rw [if_neg (not_lt.2 hneg.le), neg_neg] at this
    rw [sM, s34, v3]
    refine Eq.trans ?_ this
    congr 1 <;> ext <;> dsimp only <;> ring
  · show dim5phi v.1 v.2.1 v.2.2.1 v.2.2.2 = phi
    rw [v1, v2, v3, v4]
    have hp1 := f.hp1
    have hp3 := f.hp3
    refine dim5phi_spec (P := f.w1 * m12) (mul_pos hs12 hp1) (mul_pos hs34 hp3) (mul_pos f.hw1 p12) ?_ ?_ _ _ _ _ hlo hhi
    · linear_combination f.w1 * f.sumE12
    · linear_combination -f.w2 * f.sumE34 + f.momentum

theorem sqrt_massSq1 (V : Fin 4 → LV ℝ) (i : Fin 4) {m : ℝ} (hm : 0 ≤ m)
    (h : (V i).e ^ 2 - (V i).x ^ 2 - (V i).y ^ 2 - (V i).z ^ 2 = m ^ 2) : m = √(massSq V [i]) := by
  unfold massSq
  simp only [List.map_cons, List.map_nil, List.sum_cons, List.sum_nil, add_zero]
  rw [h, Real.sqrt_sq hm]

theorem sqrt_massSq2 (V : Fin 4 → LV ℝ) (i j : Fin 4) : mass2 (V i) (V j) = √(massSq V [i, j]) := by
  unfold massSq mass2
  simp only [List.map_cons, List.map_nil, List.sum_cons, List.sum_nil, add_zero]
  congr 1
  ring

theorem sqrt_massSq3 (V : Fin 4 → LV ℝ) (i j k : Fin 4) : mass3 (V i) (V j) (V k) = √(massSq V [i, j, k]) := by
  unfold massSq mass3
  simp only [List.map_cons, List.map_nil, List.sum_cons, List.sum_nil, add_zero]
  congr 1
  ring

theorem massSq_perm (V : Fin 4 → LV ℝ) {a b : List (Fin 4)} (h : a.Perm b) : massSq V a = massSq V b := by
  unfold massSq
  rw [(h.map _).sum_eq, (h.map _).sum_eq, (h.map _).sum_eq, (h.map _).sum_eq]

theorem sqrt_massSq3' (V : Fin 4 → LV ℝ) (i j k : Fin 4) {l : List (Fin 4)} (h : [i, j, k].Perm l) :
    mass3 (V i) (V j) (V k) = √(massSq V l) := by
  rw [sqrt_massSq3, massSq_perm V h]

/-- **C52** Every named system of two or three of the four particles is given its own invariant mass, and the two parts it
decays into are given theirs, whatever the point of the phase space; nothing else has a mass. -/
theorem C52_masses_of_named_systems {M m1 m2 m3 m4 m12 m34 cos12 cos34 : ℝ} (h : Inside M m1 m2 m3 m4 m12 m34)
    (hc12 : cos12 ^ 2 ≤ 1) (hc34 : cos34 ^ 2 ≤ 1) (phi : ℝ) (pair : Nat) :
    (∀ a b, pairParts pair = some (a, b) →
      ∃ r, lsMass pair m12 m34 cos12 cos34 phi M m1 m2 m3 m4 = some r ∧
        r.m = √(massSq (vecOf (get4Vecs m12 m34 cos12 cos34 phi M m1 m2 m3 m4)) (a ++ b)) ∧
        r.d1 = √(massSq (vecOf (get4Vecs m12 m34 cos12 cos34 phi M m1 m2 m3 m4)) a) ∧
        r.d2 = √(massSq (vecOf (get4Vecs m12 m34 cos12 cos34 phi M m1 m2 m3 m4)) b)) ∧
    (pairParts pair = none → lsMass pair m12 m34 cos12 cos34 phi M m1 m2 m3 m4 = none) := by
  have hd := C51_decay h hc12 hc34 phi
  obtain ⟨hm12, hm34⟩ := C51_pair_masses h hc12 hc34 phi
  have l0 := h.h1
  have l1 := h.h2
  have l2 := h.h3
  have l3 := h.h4
  unfold lsMass
  generalize get4Vecs m12 m34 cos12 cos34 phi M m1 m2 m3 m4 = v at *
  have q0 : m1 = √(massSq (vecOf v) [0]) := sqrt_massSq1 _ 0 l0 hd.shell1.1
  have q1 : m2 = √(massSq (vecOf v) [1]) := sqrt_massSq1 _ 1 l1 hd.shell2.1
  have q2 : m3 = √(massSq (vecOf v) [2]) := sqrt_massSq1 _ 2 l2 hd.shell3.1
  have q3 : m4 = √(massSq (vecOf v) [3]) := sqrt_massSq1 _ 3 l3 hd.shell4.1
  have q01 : m12 = √(massSq (vecOf v) [0, 1]) := by
    rw [← hm12]
    simp [massSq, vecOf]
  have q23 : m34 = √(massSq (vecOf v) [2, 3]) := by
    rw [← hm34]
    simp [massSq, vecOf]
  by_cases hp : pair < 18
  · refine ⟨?_, ?_⟩
    · intro a b hab
      interval_cases pair <;>
        simp only [pairParts, Option.some.injEq, Prod.mk.injEq] at hab <;>
        obtain ⟨rfl, rfl⟩ := hab
      · exact ⟨_, rfl, q01, q0, q1⟩
      · exact ⟨_, rfl, q23, q2, q3⟩
      · exact ⟨_, rfl, (sqrt_massSq2 (vecOf v) 0 2), q0, q2⟩
      · exact ⟨_, rfl, (sqrt_massSq2 (vecOf v) 0 3), q0, q3⟩
      · exact ⟨_, rfl, (sqrt_massSq2 (vecOf v) 1 2), q1, q2⟩
      · exact ⟨_, rfl, (sqrt_massSq2 (vecOf v) 1 3), q1, q3⟩
      · exact ⟨_, rfl, (sqrt_massSq3' (vecOf v) 0 1 2 (l := [0, 1, 2]) (by decide)), (sqrt_massSq2 (vecOf v) 0 1), q2⟩
      · exact ⟨_, rfl, (sqrt_massSq3' (vecOf v) 0 1 2 (l := [0, 2, 1]) (by decide)), (sqrt_massSq2 (vecOf v) 0 2), q1⟩
      · exact ⟨_, rfl, (sqrt_massSq3' (vecOf v) 0 1 2 (l := [1, 2, 0]) (by decide)), (sqrt_massSq2 (vecOf v) 1 2), q0⟩
      · exact ⟨_, rfl, (sqrt_massSq3' (vecOf v) 0 1 3 (l := [0, 1, 3]) (by decide)), (sqrt_massSq2 (vecOf v) 0 1), q3⟩
      · exact ⟨_, rfl, (sqrt_massSq3' (vecOf v) 0 1 3 (l := [0, 3, 1]) (by decide)), (sqrt_massSq2 (vecOf v) 0 3), q1⟩
      · exact ⟨_, rfl, (sqrt_massSq3' (vecOf v) 0 1 3 (l := [1, 3, 0]) (by decide)), (sqrt_massSq2 (vecOf v) 1 3), q0⟩
      · exact ⟨_, rfl, (sqrt_massSq3' (vecOf v) 0 2 3 (l := [0, 2, 3]) (by decide)), (sqrt_massSq2 (vecOf v) 0 2), q3⟩
      · exact ⟨_, rfl, (sqrt_massSq3' (vecOf v) 0 2 3 (l := [0, 3, 2]) (by decide)), (sqrt_massSq2 (vecOf v) 0 3), q2⟩
      · exact ⟨_, rfl, (sqrt_massSq3' (vecOf v) 0 2 3 (l := [2, 3, 0]) (by decide)), (sqrt_massSq2 (vecOf v) 2 3), q0⟩
      · exact ⟨_, rfl, (sqrt_massSq3' (vecOf v) 1 2 3 (l := [1, 2, 3]) (by decide)), (sqrt_massSq2 (vecOf v) 1 2), q3⟩
      · exact ⟨_, rfl, (sqrt_massSq3' (vecOf v) 1 2 3 (l := [1, 3, 2]) (by decide)), (sqrt_massSq2 (vecOf v) 1 3), q2⟩
      · exact ⟨_, rfl, (sqrt_massSq3' (vecOf v) 1 2 3 (l := [2, 3, 1]) (by decide)), (sqrt_massSq2 (vecOf v) 2 3), q1⟩
    · intro hn
      interval_cases pair <;> simp [pairParts] at hn
  · have e1 : pairParts pair = none := by
      unfold pairParts
      split <;> first | rfl | omega
    refine ⟨fun a b hab => absurd hab (by rw [e1]; exact Option.some_ne_none _ |>.symm), fun _ => ?_⟩
    rw [if_neg (by omega)]
    unfold getmass
    split <;> first | rfl | omega

example : Inside 10 1 1 1 1 3 4 := ⟨by norm_num, by norm_num, by norm_num, by norm_num, by norm_num, by norm_num, by norm_num⟩
example : Inside (186 / 100) (49 / 100) (13 / 100) (13 / 100) (13 / 100) (89 / 100) (76 / 100) :=
  ⟨by norm_num, by norm_num, by norm_num, by norm_num, by norm_num, by norm_num, by norm_num⟩

/-- A point of the phase space: the variables come back. -/
example : let v := get4Vecs 3 4 (1 / 2) (-1 / 3) (-1) 10 1 1 1 1
    dim5 v.1 v.2.1 v.2.2.1 v.2.2.2 = (3, 4, 1 / 2, -1 / 3, -1) :=
  C51_round_trip ⟨by norm_num, by norm_num, by norm_num, by norm_num, by norm_num, by norm_num, by norm_num⟩
    (by norm_num) (by norm_num) (-1) (by linarith [Real.two_le_pi]) (by linarith [Real.two_le_pi])

end
end GooFit
