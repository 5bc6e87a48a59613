import Verif.Spec.SpinFactor
import Mathlib.Tactic.LinearCombination
import Mathlib.Tactic.FinCases
import Mathlib.Tactic.FieldSimp
/-!
# Lemmas for C53 and C54
-/
set_option autoImplicit false
namespace GooFit
open Spec

theorem LV.add_def (a b : LV ℝ) : a + b = ⟨a.x + b.x, a.y + b.y, a.z + b.z, a.e + b.e⟩ := rfl
theorem LV.sub_def (a b : LV ℝ) : a - b = ⟨a.x - b.x, a.y - b.y, a.z - b.z, a.e - b.e⟩ := rfl

theorem mink_eq_dotp (a b : LV ℝ) : a.mink b = dotp (comp a) (comp b) := by
  simp only [LV.mink, dotp, Fin.sum_univ_four, eta, comp, Matrix.cons_val_zero, Matrix.cons_val_one, Matrix.cons_val]
  ring

theorem mink_comm (a b : LV ℝ) : a.mink b = b.mink a := by simp only [LV.mink]; ring
theorem mink_add (a b c : LV ℝ) : a.mink (b + c) = a.mink b + a.mink c := by simp only [LV.mink, LV.add_def]; ring
theorem mink_sub (a b c : LV ℝ) : a.mink (b - c) = a.mink b - a.mink c := by simp only [LV.mink, LV.sub_def]; ring
theorem mink_smul (k : ℝ) (a b : LV ℝ) : a.mink (b.smul k) = k * a.mink b := by simp only [LV.mink, LV.smul]; ring

theorem sub_mink (a b c : LV ℝ) : (a - b).mink c = a.mink c - b.mink c := by simp only [LV.mink, LV.sub_def]; ring
theorem smul_mink (k : ℝ) (a b : LV ℝ) : (a.smul k).mink b = k * a.mink b := by simp only [LV.mink, LV.smul]; ring

theorem neg_sub_lv (a b : LV ℝ) : b - a = (a - b).smul (-1) := by
  ext <;> simp only [LV.smul, LV.sub_def] <;> ring

theorem ztSpin1_neg (a b p : LV ℝ) (m : ℝ) : ztSpin1 (b - a) p m = (ztSpin1 (a - b) p m).smul (-1) := by
  ext <;> simp only [ztSpin1, LV.smul, LV.sub_def, LV.mink] <;> ring

theorem lc4_smul3 (k : ℝ) (a b c d : LV ℝ) : leviCivita4 a b (c.smul k) d = k * leviCivita4 a b c d := by
  simp only [leviCivita4, LV.smul]; ring

/-! ### Frames -/

section
variable {L : Matrix (Fin 4) (Fin 4) ℝ}

theorem comp_act (v : LV ℝ) : comp (act L v) = L.mulVec (comp v) := by
  funext i
  fin_cases i <;> rfl

theorem act_add (a b : LV ℝ) : act L (a + b) = act L a + act L b := by
  ext <;> simp only [act, LV.add_def, comp, Fin.sum_univ_four, Matrix.cons_val_zero, Matrix.cons_val_one, Matrix.cons_val] <;> ring

theorem act_sub (a b : LV ℝ) : act L (a - b) = act L a - act L b := by
  ext <;> simp only [act, LV.sub_def, comp, Fin.sum_univ_four, Matrix.cons_val_zero, Matrix.cons_val_one, Matrix.cons_val] <;> ring

theorem act_smul (k : ℝ) (a : LV ℝ) : act L (a.smul k) = (act L a).smul k := by
  ext <;> simp only [act, LV.smul, comp, Fin.sum_univ_four, Matrix.cons_val_zero, Matrix.cons_val_one, Matrix.cons_val] <;> ring

theorem dotp_matrix (a b : Vec) : dotp a b = a ⬝ᵥ (Matrix.diagonal eta).mulVec b := by
  simp only [dotp, dotProduct, Matrix.mulVec_diagonal]
  exact Finset.sum_congr rfl fun i _ => by ring

theorem mink_act (h : IsLorentz L) (a b : LV ℝ) : (act L a).mink (act L b) = a.mink b := by
  rw [mink_eq_dotp, mink_eq_dotp, comp_act, comp_act, dotp_matrix, dotp_matrix, Matrix.mulVec_mulVec,
    Matrix.dotProduct_mulVec, ← Matrix.mulVec_transpose, Matrix.transpose_mul, Matrix.mulVec_mulVec]
  have : (Matrix.diagonal eta * L).transpose * L = Matrix.diagonal eta := by
    rw [Matrix.transpose_mul, Matrix.diagonal_transpose]
    exact h
  rw [← Matrix.transpose_mul, this]
  simp only [dotProduct, Matrix.mulVec_diagonal]
  exact Finset.sum_congr rfl fun i _ => by ring

theorem m_act (h : IsLorentz L) (a : LV ℝ) : (act L a).m = a.m := by
  simp only [LV.m, LV.mag2, mink_act h]

theorem mag2_act (h : IsLorentz L) (a : LV ℝ) : (act L a).mag2 = a.mag2 := mink_act h a a

theorem ztSpin1_act (h : IsLorentz L) (q p : LV ℝ) (m : ℝ) : ztSpin1 (act L q) (act L p) m = act L (ztSpin1 q p m) := by
  simp only [ztSpin1, mink_act h, act_sub, act_smul]

theorem spinSumV_act (h : IsLorentz L) (p v : LV ℝ) (m : ℝ) : spinSumV (act L p) m (act L v) = act L (spinSumV p m v) := by
  simp only [spinSumV, mink_act h, act_add, act_smul]

/-- The rank-2 tensor contracted with a vector. -/
theorem ztSpin2_contract (q p v : LV ℝ) (m : ℝ) : (ztSpin2 q p m).contract v
    = (ztSpin1 q p m).smul ((ztSpin1 q p m).mink v)
      - (v - p.smul (p.mink v / (m * m))).smul (1 / 3 * (ztSpin1 q p m).mag2) := by
  unfold ztSpin2
  generalize ztSpin1 q p m = t
  generalize hk : 1 / 3 * t.mag2 = k
  ext <;>
    simp only [hk, SMat.contract, SMat.outer, SMat.sub, SMat.mul, SMat.div, SMat.gmunu, LV.smul, LV.sub_def, LV.mink] <;> ring

theorem ztSpin2_act (h : IsLorentz L) (q p v : LV ℝ) (m : ℝ) :
    (ztSpin2 (act L q) (act L p) m).contract (act L v) = act L ((ztSpin2 q p m).contract v) := by
  rw [ztSpin2_contract, ztSpin2_contract, ztSpin1_act h]
  simp only [mink_act h, mag2_act h, act_sub, act_smul]

theorem lc4_det (a b c d : LV ℝ) : leviCivita4 a b c d = -eps (comp a) (comp b) (comp c) (comp d) := by
  unfold leviCivita4 eps
  simp only [Matrix.det_succ_row_zero, Fin.sum_univ_succ, comp, Matrix.of_apply, Matrix.submatrix_apply, Fin.succAbove,
    Matrix.cons_val_zero, Matrix.cons_val_one, Matrix.cons_val_succ, Matrix.det_unique, Fin.default_eq_zero, Fin.isValue]
  simp [Fin.succAbove, Fin.sum_univ_succ, Fin.lt_def]
  ring

theorem lc3_lc4 (a b c d : LV ℝ) : (leviCivita3 a b c).mink d = leviCivita4 a b c d := by
  unfold leviCivita3 leviCivita4 LV.mink
  dsimp only
  ring

theorem lc3_act (a b c d : LV ℝ) :
    (leviCivita3 (act L a) (act L b) (act L c)).mink (act L d) = L.det * (leviCivita3 a b c).mink d := by
  rw [lc3_lc4, lc3_lc4, lc4_det, lc4_det]
  have : (Matrix.of ![comp (act L a), comp (act L b), comp (act L c), comp (act L d)])
      = (Matrix.of ![comp a, comp b, comp c, comp d]) * L.transpose := by
    have row : ∀ (v : LV ℝ) (j : Fin 4), comp (act L v) j = ∑ k, comp v k * L j k := by
      intro v j
      rw [comp_act]
      show ∑ k, L j k * comp v k = _
      exact Finset.sum_congr rfl fun k _ => mul_comm (L j k) (comp v k)
    ext i j
    rw [Matrix.mul_apply]
    fin_cases i
    · exact row a j
    · exact row b j
    · exact row c j
    · exact row d j
  unfold eps
  rw [this, Matrix.det_mul, Matrix.det_transpose]
  ring

theorem lc3_act' (a b c d : LV ℝ) :
    (act L d).mink (leviCivita3 (act L a) (act L b) (act L c)) = L.det * d.mink (leviCivita3 a b c) := by
  rw [mink_comm, lc3_act, mink_comm]

theorem sandwich_eq (p lhs rhs : LV ℝ) (m : ℝ) :
    spinSumVSandwich p m lhs rhs = -lhs.mink rhs + lhs.mink p * (p.mink rhs / (m * m)) := by
  simp only [spinSumVSandwich, spinSumV, mink_add, mink_smul]
  ring

theorem LV.add_comm' (a b : LV ℝ) : a + b = b + a := by ext <;> simp only [LV.add_def] <;> ring
theorem LV.add_right (a b c : LV ℝ) : a + b + c = a + c + b := by ext <;> simp only [LV.add_def] <;> ring

theorem spinSumV_smul (p v : LV ℝ) (m k : ℝ) : spinSumV p m (v.smul k) = (spinSumV p m v).smul k := by
  ext <;> simp only [spinSumV, LV.smul, LV.add_def, LV.mink] <;> ring

theorem contract_smul (M : SMat) (v : LV ℝ) (k : ℝ) : M.contract (v.smul k) = (M.contract v).smul k := by
  ext <;> simp only [SMat.contract, LV.smul, LV.sub_def] <;> ring

theorem lc3_smul3 (a b c : LV ℝ) (k : ℝ) : leviCivita3 a b (c.smul k) = (leviCivita3 a b c).smul k := by
  ext <;> simp only [leviCivita3, LV.smul] <;> ring

theorem lc3_smul2 (a b c : LV ℝ) (k : ℝ) : leviCivita3 a (b.smul k) c = (leviCivita3 a b c).smul k := by
  ext <;> simp only [leviCivita3, LV.smul] <;> ring

theorem lc4_swap (a b c d : LV ℝ) : leviCivita4 a b d c = -leviCivita4 a b c d := by
  unfold leviCivita4; ring

theorem ztSpin2_neg (a b p : LV ℝ) (m : ℝ) : ztSpin2 (b - a) p m = ztSpin2 (a - b) p m := by
  unfold ztSpin2
  rw [ztSpin1_neg a b]
  generalize ztSpin1 (a - b) p m = t
  have : (t.smul (-1)).mag2 = t.mag2 := by simp only [LV.mag2, LV.smul, LV.mink]; ring
  dsimp only
  rw [this]
  have : SMat.outer (t.smul (-1)) = SMat.outer t := by
    simp only [SMat.outer, LV.smul]
    congr 1 <;> ext <;> dsimp only <;> ring
  rw [this]

theorem contract_symm (q p a b : LV ℝ) (m : ℝ) : a.mink ((ztSpin2 q p m).contract b) = b.mink ((ztSpin2 q p m).contract a) := by
  simp only [ztSpin2_contract, mink_sub, mink_smul]
  rw [mink_comm b a, mink_comm b (ztSpin1 q p m), mink_comm a (ztSpin1 q p m), mink_comm b p, mink_comm a p]
  ring

end
end GooFit
