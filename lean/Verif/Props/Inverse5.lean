import Verif.Model.Inverse5
import Mathlib.LinearAlgebra.Matrix.NonsingularInverse
import Mathlib.LinearAlgebra.Matrix.Adjugate
import Mathlib.Tactic.FinCases
import Mathlib.Tactic.NormNum
/-!
# C89: the closed-form inverse of a 5×5 matrix
-/
set_option autoImplicit false
namespace GooFit
variable {C : Type} [Field C]

/-- The matrices the function is specialised for: two entries are zero. -/
def Shape5 (M : Matrix (Fin 5) (Fin 5) C) : Prop := M 0 2 = 0 ∧ M 1 2 = 0

set_option maxHeartbeats 4000000 in
theorem inv5Den_eq (M : Matrix (Fin 5) (Fin 5) C) (h : Shape5 M) : inv5Den M = M.det := by
  obtain ⟨h1, h2⟩ := h
  simp [Matrix.det_succ_row_zero, Fin.sum_univ_succ, Fin.succAbove, inv5Den, h1, h2]
  ring

set_option maxHeartbeats 4000000 in
theorem inv5Num_eq (M : Matrix (Fin 5) (Fin 5) C) (h : Shape5 M) : inv5Num M = M.adjugate 0 0 := by
  obtain ⟨h1, h2⟩ := h
  rw [Matrix.adjugate_fin_succ_eq_det_submatrix]
  simp [Matrix.det_succ_row_zero, Fin.sum_univ_succ, Fin.succAbove, inv5Num, h2]
  ring

variable [DecidableEq C]

/-- **C89 (when there is a result).** For every matrix of the shape the function is written for there is a result exactly when the
matrix can be inverted. -/
theorem C89_when (M : Matrix (Fin 5) (Fin 5) C) (h : Shape5 M) : (∃ G, computeInverse5 M = some G) ↔ IsUnit M := by
  rw [Matrix.isUnit_iff_isUnit_det, isUnit_iff_ne_zero, ← inv5Den_eq M h]
  unfold computeInverse5
  constructor
  · rintro ⟨G, hG⟩ h0
    rw [if_pos h0] at hG
    exact absurd hG (by simp)
  · intro h0
    exact ⟨_, if_neg h0⟩

/-- **C89** (what is missing: all entries but the first, see `C89_violation_entries`). For every invertible matrix of the shape the
function is written for, the first entry of the result is the first entry of the inverse. -/
theorem C89_first_entry_partial (M : Matrix (Fin 5) (Fin 5) C) (h : Shape5 M) (hu : IsUnit M) :
    ∃ G, computeInverse5 M = some G ∧ G 0 0 = M⁻¹ 0 0 := by
  obtain ⟨G, hG⟩ := (C89_when M h).2 hu
  refine ⟨G, hG, ?_⟩
  unfold computeInverse5 at hG
  split_ifs at hG with h0
  simp only [Option.some.injEq] at hG
  rw [← hG, inv5Num_eq M h, inv5Den_eq M h, Matrix.inv_def, Matrix.smul_apply, smul_eq_mul, Ring.inverse_eq_inv', div_eq_inv_mul]

/-- **C89, violation.** For every matrix the other 24 entries repeat the first one. -/
theorem C89_violation_entries (M : Matrix (Fin 5) (Fin 5) C) (G : Fin 5 → Fin 5 → C) (hG : computeInverse5 M = some G) :
    ∀ i j, G i j = G 0 0 := by
  unfold computeInverse5 at hG
  split_ifs at hG
  simp only [Option.some.injEq] at hG
  intro i j
  rw [← hG]

/-- **C89, violation.** The result is never the inverse, whatever the matrix. -/
theorem C89_violation_never (M : Matrix (Fin 5) (Fin 5) C) (G : Fin 5 → Fin 5 → C) (hG : computeInverse5 M = some G) :
    Matrix.of G * M ≠ 1 ∧ M * Matrix.of G ≠ 1 := by
  have hc := C89_violation_entries M G hG
  have key : Matrix.of G * M ≠ 1 := by
    intro h
    have h1 := congrFun (congrFun h 0) 0
    have h2 := congrFun (congrFun h 1) 0
    simp only [Matrix.mul_apply, Matrix.of_apply, hc, Matrix.one_apply_eq] at h1 h2
    rw [h1] at h2
    simp at h2
  exact ⟨key, fun h => key (mul_eq_one_comm.1 h)⟩

/-- The unit matrix is of this shape and invertible; the result exists and is the matrix of ones. -/
example : Shape5 (1 : Matrix (Fin 5) (Fin 5) ℚ) ∧ IsUnit (1 : Matrix (Fin 5) (Fin 5) ℚ)
    ∧ ∃ G, computeInverse5 (1 : Matrix (Fin 5) (Fin 5) ℚ) = some G ∧ G 0 0 = 1 ∧ G 3 1 = 1 := by
  have hs : Shape5 (1 : Matrix (Fin 5) (Fin 5) ℚ) := ⟨by simp, by simp⟩
  obtain ⟨G, hG, h0⟩ := C89_first_entry_partial (1 : Matrix (Fin 5) (Fin 5) ℚ) hs isUnit_one
  have h1 : G 0 0 = 1 := by rw [h0]; simp
  exact ⟨hs, isUnit_one, G, hG, h1, (C89_violation_entries _ G hG 3 1).trans h1⟩

/-- A matrix of this shape that is not diagonal, with determinant 3. -/
example : ∃ G, computeInverse5 (!![2, 1, 0, 0, 0; 1, 2, 0, 0, 0; 5, 0, 1, 0, 7; 0, 0, 4, 1, 0; 0, 0, 0, 0, 1] : Matrix (Fin 5) (Fin 5) ℚ)
    = some G ∧ G 0 0 = 2 / 3 := by
  refine ⟨_, if_neg ?_, ?_⟩
  · decide +kernel
  · show inv5Num _ / inv5Den _ = (2 / 3 : ℚ)
    decide +kernel

end GooFit
