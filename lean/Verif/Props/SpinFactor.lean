import Verif.Lemmas.SpinTensor
import Mathlib.Tactic.Abel
/-!
# C53 and C54: spin factors
-/
set_option autoImplicit false
namespace GooFit
open Spec

/-- **C53** A spin factor has the same value in every inertial frame: the same momenta seen from another frame give the same number,
with the sign of the reflection if there is one and the factor is one of the three that change sign. -/
theorem C53_frame {L : Matrix (Fin 4) (Fin 4) ℝ} (h : IsLorentz L) (k : SF4) (r : ℝ) (n1 n2 n3 n4 : Fin 4) (V : Fin 4 → LV ℝ) :
    spinFactorVal k r n1 n2 n3 n4 (fun i => act L (V i))
      = (if reflects k then L.det else 1) * spinFactorVal k r n1 n2 n3 n4 V := by
  cases k <;> simp only [spinFactorVal, reflects, if_true, Bool.false_eq_true, if_false, one_mul]
  case dtoPP1_PtoVP2 => simp only [dtoPP_PtoVP, ← act_add, ← act_sub, m_act h, ztSpin1_act h, mink_act h]
  case dtoV1V2_S => simp only [dtoVV_S, ← act_add, ← act_sub, mink_act h]
  case dtoV1V2_P =>
    simp only [dtoVV_P, ← act_add, ← act_sub, mink_act h, m_act h, ztSpin1_act h, lc3_act]
    ring
  case dtoV1V2_D => simp only [dtoVV_D, ← act_add, ← act_sub, mink_act h, m_act h, ztSpin1_act h, ztSpin2_act h]
  case dtoAP1_AtoVP2 => simp only [dtoAP_AtoVP, ← act_add, ← act_sub, mink_act h, m_act h, ztSpin1_act h, spinSumV_act h]
  case dtoAP1_AtoVP2Dwave =>
    simp only [dtoAP_AtoVP_D, ← act_add, ← act_sub, mink_act h, m_act h, ztSpin1_act h, ztSpin2_act h]
  case dtoVS => simp only [dtoVS, ← act_add, ← act_sub, mink_act h, m_act h, ztSpin1_act h]
  case dtoV1P1_V1toV2P2 =>
    simp only [dtoVP_VtoVP, ← act_add, ← act_sub, mink_act h, m_act h, ztSpin1_act h, spinSumV_act h, lc3_act]
  case dtoAP1_AtoSP2 => simp only [dtoAP_AtoSP, ← act_add, ← act_sub, mink_act h, m_act h, ztSpin1_act h]
  case dtoTP1_TtoVP2 =>
    simp only [dtoTP_TtoVP, ← act_add, ← act_sub, mink_act h, m_act h, ztSpin1_act h, spinSumV_act h, spinSumT, sandwich_eq,
      lc3_act, lc3_act']
    ring
  case ff12_34_L1 => simp only [ff1234L1, ← act_add, mag2_act h]
  case ff12_34_L2 => simp only [ff1234L2, ← act_add, mag2_act h]
  case ff123_4_L1 => simp only [ff1234'L1, ← act_add, mag2_act h]
  case ff123_4_L2 => simp only [ff1234'L2, ← act_add, mag2_act h]

/-- The decay of a tensor: what the code computes, and the amplitude. -/
theorem dtoTP_eq {P1 P2 P3 P4 : LV ℝ} (h1 : Massive P1) (h2 : Massive P2) (h3 : Massive P3) (h4 : Massive P4) :
    let pT := P2 + (P3 + P4)
    let pD := P1 + pT
    let tD := ztSpin1 (pT - P1) pD pD.m
    let t1T := ztSpin1 ((P3 + P4) - P2) pT pT.m
    let tmp := leviCivita3 t1T pT (spinSumV pT pT.m (ztSpin1 (P3 - P4) (P3 + P4) (P3 + P4).m))
    tensorAmp .dtoTP1_TtoVP2 (comp P1) (comp P2) (comp P3) (comp P4)
      = spinSumT pT pT.m tD tD tmp t1T + 1 / 3 * tD.mink tD / pD.mink pD * spinSumT pT pT.m pD pD tmp t1T := by
  intro pT pD tD t1T tmp
  have hV : Massive (P3 + P4) := h3.add h4
  have hT : Massive pT := h2.add hV
  have hD : Massive pD := h1.add hT
  have eT : comp P2 + comp P3 + comp P4 = comp pT := by simp only [pT, comp_add]; abel
  have eD : comp P1 + comp P2 + comp P3 + comp P4 = comp pD := by simp only [pD, pT, comp_add]; abel
  have eqT : comp P3 + comp P4 - comp P2 = comp (P3 + P4 - P2) := by simp only [comp_add, comp_sub]
  have eqD : comp P2 + comp P3 + comp P4 - comp P1 = comp (pT - P1) := by simp only [pT, comp_add, comp_sub]; abel
  have eV : comp P3 + comp P4 = comp (P3 + P4) := by simp only [comp_add]
  have eqV : comp P3 - comp P4 = comp (P3 - P4) := by simp only [comp_sub]
  unfold tensorAmp
  dsimp only
  rw [eqD, eqT, eqV, eT, eD, eV, ← orbital1_eq hT, ← orbital1_eq hV, contr1_proj1 hT, eps3_eq, contr4_orbital2 hT hD]
  have neg : ∀ a b x y : LV ℝ, spinSumT pT pT.m a b (x.smul (-1)) y = -spinSumT pT pT.m a b x y := by
    intro a b x y
    simp only [spinSumT, sandwich_eq, mink_smul]
    have : ∀ c : LV ℝ, (x.smul (-1)).mink c = -x.mink c := by
      intro c
      rw [mink_comm, mink_smul, mink_comm]
      ring
    simp only [this]
    ring
  rw [neg, neg]
  show -(-spinSumT pT pT.m tD tD tmp t1T + 1 / 3 * tD.mink tD / pD.mink pD * -spinSumT pT pT.m pD pD tmp t1T) = _
  ring

/-- **C54** (in part) Each spin factor is the covariant amplitude of the decay chain it is named after, for all momenta of massive
particles.  Missing: the decay of a tensor, which is not (`C54_violation_tensor_decay`). -/
theorem C54_tensor_amplitude_partial {k : SF4} (hk : k ≠ .dtoTP1_TtoVP2) (hff : isFormFactor k = false) (r : ℝ)
    (n1 n2 n3 n4 : Fin 4) {V : Fin 4 → LV ℝ} (hV : ∀ i, Massive (V i)) :
    spinFactorVal k r n1 n2 n3 n4 V = tensorAmp k (comp (V n1)) (comp (V n2)) (comp (V n3)) (comp (V n4)) := by
  have h1 := hV n1
  have h2 := hV n2
  have h3 := hV n3
  have h4 := hV n4
  have h12 := h1.add h2
  have h34 := h3.add h4
  have h34' := h34
  have h234 := h2.add h34
  have hD := h12.add h34
  unfold spinFactorVal tensorAmp
  generalize V n1 = P1 at *
  generalize V n2 = P2 at *
  generalize V n3 = P3 at *
  generalize V n4 = P4 at *
  have e12 : comp P1 + comp P2 = comp (P1 + P2) := by simp only [comp_add]
  have q12 : comp P1 - comp P2 = comp (P1 - P2) := by simp only [comp_sub]
  have e34 : comp P3 + comp P4 = comp (P3 + P4) := by simp only [comp_add]
  have q34 : comp P3 - comp P4 = comp (P3 - P4) := by simp only [comp_sub]
  have e234 : comp P2 + comp P3 + comp P4 = comp (P2 + (P3 + P4)) := by simp only [comp_add]; abel
  have q234 : comp P3 + comp P4 - comp P2 = comp (P3 + P4 - P2) := by simp only [comp_add, comp_sub]
  have q234' : comp P2 - comp P3 - comp P4 = comp (P2 - (P3 + P4)) := by simp only [comp_add, comp_sub]; abel
  have eD : comp P1 + comp P2 + comp P3 + comp P4 = comp (P1 + P2 + (P3 + P4)) := by simp only [comp_add]; abel
  have qD : comp P1 + comp P2 - comp P3 - comp P4 = comp (P1 + P2 - (P3 + P4)) := by simp only [comp_add, comp_sub]; abel
  have qD' : comp P2 + comp P3 + comp P4 - comp P1 = comp (P2 + (P3 + P4) - P1) := by simp only [comp_add, comp_sub]; abel
  have c234 : P3 + P4 + P2 = P2 + (P3 + P4) := by ext <;> simp only [LV.add_def] <;> ring
  have c234' : P2 + P3 + P4 = P2 + (P3 + P4) := by ext <;> simp only [LV.add_def] <;> ring
  have cD : P1 + (P2 + (P3 + P4)) = P1 + P2 + (P3 + P4) := by ext <;> simp only [LV.add_def] <;> ring
  have cD' : P2 + (P3 + P4) + P1 = P1 + P2 + (P3 + P4) := by ext <;> simp only [LV.add_def] <;> ring
  cases k <;> dsimp only
  case ff12_34_L1 => cases hff
  case ff12_34_L2 => cases hff
  case ff123_4_L1 => cases hff
  case ff123_4_L2 => cases hff
  case dtoTP1_TtoVP2 => exact absurd rfl hk
  case dtoPP1_PtoVP2 =>
    rw [q234, e234, q34, e34, ← orbital1_eq h234, ← orbital1_eq h34, ← mink_eq_dotp]
    simp only [dtoPP_PtoVP, c234]
  case dtoV1V2_S =>
    rw [q12, e12, q34, e34, ← orbital1_eq h12, ← orbital1_eq h34, ← mink_eq_dotp]
    have s12 : √((P1 + P2).mink (P1 + P2)) * √((P1 + P2).mink (P1 + P2)) = (P1 + P2).mink (P1 + P2) :=
      Real.mul_self_sqrt h12.pos.le
    have s34 : √((P3 + P4).mink (P3 + P4)) * √((P3 + P4).mink (P3 + P4)) = (P3 + P4).mink (P3 + P4) :=
      Real.mul_self_sqrt h34.pos.le
    have n12 := h12.pos.ne'
    have n34 := h34.pos.ne'
    simp only [dtoVV_S, ztSpin1, h12.m_sq, h34.m_sq]
    rw [mul_assoc (√((P1 + P2).mink (P1 + P2)) * √((P1 + P2).mink (P1 + P2))), s12, s34]
    clear s12 s34
    generalize P1 + P2 = p1 at *
    generalize P3 + P4 = p2 at *
    generalize P1 - P2 = q1 at *
    generalize P3 - P4 = q2 at *
    simp only [mink_sub, sub_mink, mink_smul, smul_mink, mink_comm q2 p2]
    field_simp
    ring
  case dtoV1V2_P =>
    rw [eD, qD, q12, e12, q34, e34, ← orbital1_eq h12, ← orbital1_eq h34, ← orbital1_eq hD]
    have n12 : ∀ m, ztSpin1 (P2 - P1) (P1 + P2) m = (ztSpin1 (P1 - P2) (P1 + P2) m).smul (-1) := fun m => ztSpin1_neg _ _ _ _
    have n34 : ∀ m, ztSpin1 (P4 - P3) (P3 + P4) m = (ztSpin1 (P3 - P4) (P3 + P4) m).smul (-1) := fun m => ztSpin1_neg _ _ _ _
    simp only [dtoVV_P]
    rw [n12, n34, mink_smul, lc3_lc4, lc4_smul3, lc4_det]
    show -(-1 * (-1 * -eps _ _ (comp (ztSpin1 (P1 - P2) (P1 + P2) (P1 + P2).m)) (comp (ztSpin1 (P3 - P4) (P3 + P4) (P3 + P4).m)))) = _
    ring
  case dtoV1V2_D =>
    rw [eD, qD, q12, e12, q34, e34, ← orbital1_eq h12, ← orbital1_eq h34, contr2_orbital2 hD]
    rfl
  case dtoAP1_AtoVP2 =>
    rw [qD', eD, q34, e234, e34, ← orbital1_eq hD, ← orbital1_eq h34, contr2_proj1 h234]
    simp only [dtoAP_AtoVP, cD]
  case dtoAP1_AtoVP2Dwave =>
    rw [q234', qD', eD, q34, e234, e34, ← orbital1_eq hD, ← orbital1_eq h34, contr2_orbital2 h234]
    simp only [dtoAP_AtoVP_D, cD]
  case dtoVS =>
    rw [eD, qD, q12, e12, ← orbital1_eq h12, ← orbital1_eq hD, ← mink_eq_dotp]
    rfl
  case dtoV1P1_V1toV2P2 =>
    rw [qD', q234, eD, q34, e234, e34, ← orbital1_eq h34, ← orbital1_eq h234, ← orbital1_eq hD, contr1_proj1 h234]
    simp only [dtoVP_VtoVP, c234', cD']
    rw [lc3_lc4, lc4_det]
  case dtoAP1_AtoSP2 =>
    rw [qD', q234, eD, e234, ← orbital1_eq hD, ← orbital1_eq h234, ← mink_eq_dotp]
    simp only [dtoAP_AtoSP, cD']

theorem ztSpin1_massive {p : LV ℝ} (hp : Massive p) (q : LV ℝ) : ztSpin1 q p p.m = q - p.smul (q.mink p / p.mink p) := by
  unfold ztSpin1
  rw [hp.m_sq]
  ext <;> simp only [LV.sub_def, LV.smul] <;> ring

theorem spinSumV_massive {p : LV ℝ} (hp : Massive p) (v : LV ℝ) : spinSumV p p.m v = v.smul (-1) + p.smul (p.mink v / p.mink p) := by
  unfold spinSumV
  rw [hp.m_sq]

theorem sandwich_massive {p : LV ℝ} (hp : Massive p) (a b : LV ℝ) :
    spinSumVSandwich p p.m a b = -a.mink b + a.mink p * (p.mink b / p.mink p) := by
  rw [sandwich_eq, hp.m_sq]

/-- Four momenta. -/
def tpVecs : Fin 4 → LV ℝ := ![⟨0, -1, -1, 2⟩, ⟨-1, -1, 0, 2⟩, ⟨1, 1, -1, 2⟩, ⟨0, 0, 0, 1⟩]

theorem tpVecs_massive (i : Fin 4) : Massive (tpVecs i) := by
  fin_cases i <;> refine ⟨?_, ?_⟩ <;> simp [tpVecs] <;> norm_num

/-- **C54** The factor for the decay of a tensor is not the amplitude: the part of the mother's tensor along its momentum is divided by
the mass of the tensor squared instead of the mother's (`src/PDFs/physics/SpinFactors.cu:560`). -/
theorem C54_violation_tensor_decay : ∃ V : Fin 4 → LV ℝ, (∀ i, Massive (V i)) ∧ ∀ r,
    spinFactorVal .dtoTP1_TtoVP2 r 0 1 2 3 V ≠ tensorAmp .dtoTP1_TtoVP2 (comp (V 0)) (comp (V 1)) (comp (V 2)) (comp (V 3)) := by
  refine ⟨tpVecs, tpVecs_massive, fun r => ?_⟩
  have hm := dtoTP_eq (tpVecs_massive 0) (tpVecs_massive 1) (tpVecs_massive 2) (tpVecs_massive 3)
  dsimp only at hm
  rw [hm]
  unfold spinFactorVal dtoTP_TtoVP
  dsimp only
  have e0 : tpVecs 0 = ⟨0, -1, -1, 2⟩ := rfl
  have e1 : tpVecs 1 = ⟨-1, -1, 0, 2⟩ := rfl
  have e2 : tpVecs 2 = ⟨1, 1, -1, 2⟩ := rfl
  have e3 : tpVecs 3 = ⟨0, 0, 0, 1⟩ := rfl
  have hV : Massive ⟨1, 1, -1, 3⟩ := ⟨by norm_num, by norm_num⟩
  have hT : Massive ⟨0, 0, -1, 5⟩ := ⟨by norm_num, by norm_num⟩
  have hD : Massive ⟨0, -1, -2, 7⟩ := ⟨by norm_num, by norm_num⟩
  have pV : tpVecs 2 + tpVecs 3 = ⟨1, 1, -1, 3⟩ := by rw [e2, e3, LV.add_def]; norm_num
  have qV : tpVecs 2 - tpVecs 3 = ⟨1, 1, -1, 1⟩ := by rw [e2, e3, LV.sub_def]; norm_num
  have pT : tpVecs 1 + (⟨1, 1, -1, 3⟩ : LV ℝ) = ⟨0, 0, -1, 5⟩ := by rw [e1, LV.add_def]; norm_num
  have qT : (⟨1, 1, -1, 3⟩ : LV ℝ) - tpVecs 1 = ⟨2, 2, -1, 1⟩ := by rw [e1, LV.sub_def]; norm_num
  have pD : tpVecs 0 + (⟨0, 0, -1, 5⟩ : LV ℝ) = ⟨0, -1, -2, 7⟩ := by rw [e0, LV.add_def]; norm_num
  have qD : (⟨0, 0, -1, 5⟩ : LV ℝ) - tpVecs 0 = ⟨0, 1, 0, 3⟩ := by rw [e0, LV.sub_def]; norm_num
  rw [pV, qV, pT, qT, pD, qD]
  have tV : ztSpin1 ⟨1, 1, -1, 1⟩ ⟨1, 1, -1, 3⟩ (LV.m ⟨1, 1, -1, 3⟩) = ⟨1, 1, -1, 1⟩ := by
    rw [ztSpin1_massive hV]; ext <;> norm_num [LV.sub_def, LV.smul, LV.mink]
  have tD : ztSpin1 ⟨0, 1, 0, 3⟩ ⟨0, -1, -2, 7⟩ (LV.m ⟨0, -1, -2, 7⟩) = ⟨0, 3 / 2, 1, -1 / 2⟩ := by
    rw [ztSpin1_massive hD]; ext <;> norm_num [LV.sub_def, LV.smul, LV.mink]
  have t1 : ztSpin1 ⟨2, 2, -1, 1⟩ ⟨0, 0, -1, 5⟩ (LV.m ⟨0, 0, -1, 5⟩) = ⟨2, 2, -5 / 6, 1 / 6⟩ := by
    rw [ztSpin1_massive hT]; ext <;> norm_num [LV.sub_def, LV.smul, LV.mink]
  have w : spinSumV ⟨0, 0, -1, 5⟩ (LV.m ⟨0, 0, -1, 5⟩) ⟨1, 1, -1, 1⟩ = ⟨-1, -1, 5 / 6, -1 / 6⟩ := by
    rw [spinSumV_massive hT]; ext <;> norm_num [LV.add_def, LV.smul, LV.mink]
  have tmp : leviCivita3 ⟨2, 2, -5 / 6, 1 / 6⟩ ⟨0, 0, -1, 5⟩ ⟨-1, -1, 5 / 6, -1 / 6⟩ = ⟨4, -4, 0, 0⟩ := by
    ext <;> norm_num [leviCivita3]
  rw [tV, tD, t1, w, tmp]
  simp only [spinSumT, sandwich_massive hT]
  norm_num [LV.mink]

/-- **C54** (in part) What the factor for the decay of a tensor is: the amplitude, and a term that would vanish if the tensor had the mass of
the mother. -/
theorem C54_tensor_decay_partial (r : ℝ) (n1 n2 n3 n4 : Fin 4) {V : Fin 4 → LV ℝ} (hV : ∀ i, Massive (V i)) :
    let a := comp (V n1)
    let b := comp (V n2)
    let c := comp (V n3)
    let d := comp (V n4)
    let pT := b + c + d
    let pD := a + b + c + d
    let lD := orbital1 (b + c + d - a) pD
    spinFactorVal .dtoTP1_TtoVP2 r n1 n2 n3 n4 V
      = tensorAmp .dtoTP1_TtoVP2 a b c d
        - 1 / 3 * dotp lD lD * (1 / dotp pT pT - 1 / dotp pD pD)
          * contr4 (proj2 pT) (fun μ ν => pD μ * pD ν) fun α β =>
            eps3 (orbital1 (c + d - b) pT) pT (contr1 (proj1 pT) (orbital1 (c - d) (c + d))) α * orbital1 (c + d - b) pT β := by
  intro a b c d pT pD lD
  have h34 := (hV n3).add (hV n4)
  have hT := (hV n2).add h34
  have hD := (hV n1).add hT
  have hm := dtoTP_eq (hV n1) (hV n2) (hV n3) (hV n4)
  dsimp only at hm
  rw [hm]
  have eT : pT = comp (V n2 + (V n3 + V n4)) := by simp only [pT, b, c, d, comp_add]; abel
  have eD : pD = comp (V n1 + (V n2 + (V n3 + V n4))) := by simp only [pD, a, b, c, d, comp_add]; abel
  have eqT : c + d - b = comp (V n3 + V n4 - V n2) := by simp only [b, c, d, comp_add, comp_sub]
  have eqD : b + c + d - a = comp (V n2 + (V n3 + V n4) - V n1) := by simp only [a, b, c, d, comp_add, comp_sub]; abel
  have eV : c + d = comp (V n3 + V n4) := by simp only [c, d, comp_add]
  have eqV : c - d = comp (V n3 - V n4) := by simp only [c, d, comp_sub]
  simp only [lD]
  rw [eqD, eqT, eqV, eT, eD, eV, ← orbital1_eq hT, ← orbital1_eq h34, ← orbital1_eq hD, contr1_proj1 hT, eps3_eq, ← spinSumT_eq hT,
    ← mink_eq_dotp, ← mink_eq_dotp, ← mink_eq_dotp]
  have neg : ∀ a b x y : LV ℝ, spinSumT (V n2 + (V n3 + V n4)) (V n2 + (V n3 + V n4)).m a b (x.smul (-1)) y
      = -spinSumT (V n2 + (V n3 + V n4)) (V n2 + (V n3 + V n4)).m a b x y := by
    intro a b x y
    simp only [spinSumT, sandwich_eq, mink_smul, smul_mink]
    ring
  rw [neg]
  unfold spinFactorVal dtoTP_TtoVP
  dsimp only
  ring

/-- **C54** Where two daughters of a vector change places the factor changes sign; where two daughters of a scalar do, it does not. -/
theorem C54_exchange_last_pair {k : SF4} (h1 : k ≠ .ff123_4_L1) (h2 : k ≠ .ff123_4_L2) (r : ℝ) (n1 n2 n3 n4 : Fin 4)
    (V : Fin 4 → LV ℝ) : spinFactorVal k r n1 n2 n4 n3 V = sign34 k * spinFactorVal k r n1 n2 n3 n4 V := by
  cases k <;> simp only [spinFactorVal, sign34, one_mul]
  case dtoPP1_PtoVP2 =>
    simp only [dtoPP_PtoVP, LV.add_comm' (V n4) (V n3), ztSpin1_neg (V n3) (V n4), mink_smul]
  case dtoV1V2_S =>
    simp only [dtoVV_S, LV.add_comm' (V n4) (V n3), neg_sub_lv (V n3) (V n4), mink_smul]
    ring
  case dtoV1V2_P =>
    simp only [dtoVV_P, LV.add_comm' (V n4) (V n3), ztSpin1_neg (V n4) (V n3), mink_smul]
    ring
  case dtoV1V2_D =>
    simp only [dtoVV_D, LV.add_comm' (V n4) (V n3), ztSpin1_neg (V n3) (V n4), contract_smul, mink_smul]
  case dtoAP1_AtoVP2 =>
    simp only [dtoAP_AtoVP, LV.add_comm' (V n4) (V n3), ztSpin1_neg (V n3) (V n4), spinSumV_smul, mink_smul]
    ring
  case dtoAP1_AtoVP2Dwave =>
    simp only [dtoAP_AtoVP_D, LV.add_comm' (V n4) (V n3), ztSpin1_neg (V n3) (V n4), contract_smul, mink_smul]
  case dtoVS => simp only [dtoVS, LV.add_comm' (V n4) (V n3)]
  case dtoV1P1_V1toV2P2 =>
    simp only [dtoVP_VtoVP, LV.add_right (V n2) (V n4) (V n3), LV.add_comm' (V n4) (V n3), ztSpin1_neg (V n3) (V n4), lc3_smul3,
      smul_mink]
  case dtoAP1_AtoSP2 => simp only [dtoAP_AtoSP, LV.add_comm' (V n4) (V n3)]
  case dtoTP1_TtoVP2 =>
    simp only [dtoTP_TtoVP, LV.add_comm' (V n4) (V n3), ztSpin1_neg (V n3) (V n4), spinSumV_smul, lc3_smul3, spinSumT,
      sandwich_eq, mink_smul, smul_mink]
    ring
  case ff12_34_L1 => simp only [ff1234L1, LV.add_comm' (V n4) (V n3), LV.add_right (V n1 + V n2) (V n4) (V n3)]
  case ff12_34_L2 => simp only [ff1234L2, LV.add_comm' (V n4) (V n3), LV.add_right (V n1 + V n2) (V n4) (V n3)]
  case ff123_4_L1 => exact absurd rfl h1
  case ff123_4_L2 => exact absurd rfl h2

/-- **C54** The same for the first pair, where there is one. -/
theorem C54_exchange_first_pair {k : SF4} (hk : k = .dtoV1V2_S ∨ k = .dtoV1V2_P ∨ k = .dtoV1V2_D ∨ k = .dtoVS) (r : ℝ)
    (n1 n2 n3 n4 : Fin 4) (V : Fin 4 → LV ℝ) : spinFactorVal k r n2 n1 n3 n4 V = -spinFactorVal k r n1 n2 n3 n4 V := by
  rcases hk with rfl | rfl | rfl | rfl <;> simp only [spinFactorVal]
  · simp only [dtoVV_S, LV.add_comm' (V n2) (V n1), neg_sub_lv (V n1) (V n2), smul_mink]
    ring
  · simp only [dtoVV_P, LV.add_comm' (V n2) (V n1), ztSpin1_neg (V n2) (V n1), lc3_smul3, smul_mink]
    ring
  · simp only [dtoVV_D, LV.add_comm' (V n2) (V n1), ztSpin1_neg (V n1) (V n2), smul_mink]
    ring
  · simp only [dtoVS, LV.add_comm' (V n2) (V n1), ztSpin1_neg (V n1) (V n2), mink_smul]
    ring

/-- **C54** Where the two vectors change places the factor is the same: two vectors of the same kind are bosons. -/
theorem C54_exchange_vectors {k : SF4} (hk : k = .dtoV1V2_S ∨ k = .dtoV1V2_P ∨ k = .dtoV1V2_D) (r : ℝ) (n1 n2 n3 n4 : Fin 4)
    (V : Fin 4 → LV ℝ) : spinFactorVal k r n3 n4 n1 n2 V = spinFactorVal k r n1 n2 n3 n4 V := by
  rcases hk with rfl | rfl | rfl <;> simp only [spinFactorVal]
  · simp only [dtoVV_S]
    generalize V n1 + V n2 = p1
    generalize V n3 + V n4 = p2
    generalize V n1 - V n2 = q1
    generalize V n3 - V n4 = q2
    rw [mink_comm q2 q1, mink_comm q2 p2, mink_comm p2 q1, mink_comm q2 p1, mink_comm p1 q1, mink_comm p2 p1]
    ring
  · simp only [dtoVV_P]
    rw [LV.add_comm' (V n3 + V n4) (V n1 + V n2), ztSpin1_neg (V n1 + V n2) (V n3 + V n4), lc3_smul2, smul_mink, lc3_lc4, lc3_lc4,
      lc4_swap]
    ring
  · simp only [dtoVV_D]
    rw [LV.add_comm' (V n3 + V n4) (V n1 + V n2), ztSpin2_neg (V n1 + V n2) (V n3 + V n4), contract_symm]

/-- The squared break-up momentum in the rest frame. -/
theorem ffQ2_rest {a b : LV ℝ} (hx : a.x + b.x = 0) (hy : a.y + b.y = 0) (hz : a.z + b.z = 0) (he : 0 < a.e + b.e) :
    ffQ2 (a + b).mag2 a.mag2 b.mag2 = psq b := by
  have x : a.x = -b.x := by linarith
  have y : a.y = -b.y := by linarith
  have z : a.z = -b.z := by linarith
  have hs : (a + b).mag2 = (a.e + b.e) ^ 2 := by
    simp only [LV.mag2, LV.mink, LV.add_def, hx, hy, hz]
    ring
  unfold ffQ2
  rw [hs]
  simp only [LV.mag2, LV.mink, psq, x, y, z]
  field_simp
  ring

/-- **C54** A form factor is the barrier factor of the momentum of the two parts of the decay, in the rest frame of the mother. -/
theorem C54_form_factor {k : SF4} (hff : isFormFactor k = true) (r : ℝ) (n1 n2 n3 n4 : Fin 4) {V : Fin 4 → LV ℝ}
    (he : 0 < (V n1).e + (V n2).e + (V n3).e + (V n4).e) (hx : (V n1).x + (V n2).x + (V n3).x + (V n4).x = 0)
    (hy : (V n1).y + (V n2).y + (V n3).y + (V n4).y = 0) (hz : (V n1).z + (V n2).z + (V n3).z + (V n4).z = 0) :
    spinFactorVal k r n1 n2 n3 n4 V = formFactor k r (V n1) (V n2) (V n3) (V n4) := by
  have q12 : ffQ2 (V n1 + V n2 + V n3 + V n4).mag2 (V n1 + V n2).mag2 (V n3 + V n4).mag2 = psq (V n1 + V n2) := by
    have e : V n1 + V n2 + V n3 + V n4 = (V n1 + V n2) + (V n3 + V n4) := by ext <;> simp only [LV.add_def] <;> ring
    rw [e, ffQ2_rest (by simp only [LV.add_def]; linarith) (by simp only [LV.add_def]; linarith)
      (by simp only [LV.add_def]; linarith) (by simp only [LV.add_def]; linarith)]
    simp only [psq, LV.add_def]
    have a : (V n3).x + (V n4).x = -((V n1).x + (V n2).x) := by linarith
    have b : (V n3).y + (V n4).y = -((V n1).y + (V n2).y) := by linarith
    have c : (V n3).z + (V n4).z = -((V n1).z + (V n2).z) := by linarith
    rw [a, b, c]
    ring
  have q4 : ffQ2 (V n1 + V n2 + V n3 + V n4).mag2 (V n1 + V n2 + V n3).mag2 (V n4).mag2 = psq (V n4) :=
    ffQ2_rest (by simp only [LV.add_def]; linarith) (by simp only [LV.add_def]; linarith)
      (by simp only [LV.add_def]; linarith) (by simp only [LV.add_def]; linarith)
  cases k <;> simp only [isFormFactor, Bool.false_eq_true] at hff <;> simp only [spinFactorVal, formFactor]
  · rw [ff1234L1, q12, one_div, Real.sqrt_inv, one_div]
    congr 2
    ring
  · rw [ff1234L2, q12, one_div, Real.sqrt_inv, one_div]
    congr 2
    ring
  · rw [ff1234'L1, q4, one_div, Real.sqrt_inv, one_div]
    congr 2
    ring
  · rw [ff1234'L2, q4, one_div, Real.sqrt_inv, one_div]
    congr 2
    ring

/-! ### Cases that meet the hypotheses -/

/-- A boost along x with velocity 3/5 keeps the metric, and is not the identity. -/
noncomputable def boost35 : Matrix (Fin 4) (Fin 4) ℝ := !![5 / 4, 0, 0, 3 / 4; 0, 1, 0, 0; 0, 0, 1, 0; 3 / 4, 0, 0, 5 / 4]

theorem boost35_lorentz : IsLorentz boost35 := by
  unfold IsLorentz boost35
  ext i j
  fin_cases i <;> fin_cases j <;> simp [Matrix.mul_apply, Matrix.diagonal, eta, Fin.sum_univ_four] <;> norm_num

/-- The reflection of space. -/
def reflection : Matrix (Fin 4) (Fin 4) ℝ := Matrix.diagonal eta

theorem reflection_lorentz : IsLorentz reflection := by
  unfold IsLorentz reflection
  ext i j
  fin_cases i <;> fin_cases j <;> norm_num [Matrix.mul_apply, Matrix.diagonal, eta, Fin.sum_univ_four]

theorem reflection_det : reflection.det = -1 := by
  unfold reflection
  rw [Matrix.det_diagonal]
  simp [Fin.prod_univ_four, eta]

example (k : SF4) (r : ℝ) : spinFactorVal k r 0 1 2 3 (fun i => act boost35 (tpVecs i))
    = (if reflects k then boost35.det else 1) * spinFactorVal k r 0 1 2 3 tpVecs := C53_frame boost35_lorentz k r 0 1 2 3 tpVecs

/-- **C53** A factor that reflects changes sign in the mirror. -/
theorem C53_mirror {k : SF4} (hk : reflects k = true) (r : ℝ) (n1 n2 n3 n4 : Fin 4) (V : Fin 4 → LV ℝ) :
    spinFactorVal k r n1 n2 n3 n4 (fun i => ⟨-(V i).x, -(V i).y, -(V i).z, (V i).e⟩) = -spinFactorVal k r n1 n2 n3 n4 V := by
  have h := C53_frame reflection_lorentz k r n1 n2 n3 n4 V
  rw [if_pos hk, reflection_det] at h
  have e : (fun i => act reflection (V i)) = fun i => (⟨-(V i).x, -(V i).y, -(V i).z, (V i).e⟩ : LV ℝ) := by
    funext i
    ext <;> simp [act, reflection, comp, Matrix.diagonal, eta, Fin.sum_univ_four]
  rw [e] at h
  rw [h]
  ring

/-- Momenta with a non-zero factor. -/
example (r : ℝ) : spinFactorVal .dtoVS r 0 1 2 3 tpVecs ≠ 0 := by
  have pV : tpVecs 0 + tpVecs 1 = ⟨-1, -2, -1, 4⟩ := by
    rw [show tpVecs 0 = ⟨0, -1, -1, 2⟩ from rfl, show tpVecs 1 = ⟨-1, -1, 0, 2⟩ from rfl, LV.add_def]; norm_num
  have pS : tpVecs 2 + tpVecs 3 = ⟨1, 1, -1, 3⟩ := by
    rw [show tpVecs 2 = ⟨1, 1, -1, 2⟩ from rfl, show tpVecs 3 = ⟨0, 0, 0, 1⟩ from rfl, LV.add_def]; norm_num
  have qV : tpVecs 0 - tpVecs 1 = ⟨1, 0, -1, 0⟩ := by
    rw [show tpVecs 0 = ⟨0, -1, -1, 2⟩ from rfl, show tpVecs 1 = ⟨-1, -1, 0, 2⟩ from rfl, LV.sub_def]; norm_num
  have pD : (⟨-1, -2, -1, 4⟩ : LV ℝ) + ⟨1, 1, -1, 3⟩ = ⟨0, -1, -2, 7⟩ := by rw [LV.add_def]; norm_num
  have qD : (⟨-1, -2, -1, 4⟩ : LV ℝ) - ⟨1, 1, -1, 3⟩ = ⟨-2, -3, 0, 1⟩ := by rw [LV.sub_def]; norm_num
  simp only [spinFactorVal, dtoVS]
  rw [pV, pS, qV, pD, qD, ztSpin1_massive (p := ⟨0, -1, -2, 7⟩) ⟨by norm_num, by norm_num⟩,
    ztSpin1_massive (p := ⟨-1, -2, -1, 4⟩) ⟨by norm_num, by norm_num⟩]
  norm_num [LV.mink, LV.sub_def, LV.smul]

/-- A mother at rest. -/
example (r : ℝ) : spinFactorVal .ff12_34_L1 r 0 1 2 3 ![⟨1, 0, 0, 2⟩, ⟨0, 1, 0, 2⟩, ⟨-1, 0, 1, 2⟩, ⟨0, -1, -1, 2⟩]
    = 1 / √(1 + r ^ 2 * 2) := by
  rw [C54_form_factor rfl r 0 1 2 3 (by simp; norm_num) (by simp) (by simp) (by simp)]
  simp [formFactor, psq, LV.add_def]
  norm_num

end GooFit
