import Verif.Lemmas.Resonance

/-!
# C57: resonances of three-body decays have the shape the textbooks give them

Relativistic Breit-Wigner: Zemach angular factor, barrier factors, running width.
-/

set_option autoImplicit false

namespace GooFit

open Spec

/-- The device globals for the decay `d` of a mother of mass `M`. -/
def decayCtx (d : ThreeBody) (M R Rm : ℝ) : DalitzCtx := ⟨M, d.m 0, d.m 1, d.m 2, R, Rm⟩

theorem ThreeBody_s_comm (d : ThreeBody) (i j : Fin 3) : d.s i j = d.s j i := by
  unfold ThreeBody.s; rw [add_comm (d.E i), add_comm (d.p i)]

theorem restframe_s (d : ThreeBody) (a b : Fin 3) (h : d.p a + d.p b = 0) :
    d.s a b = (energy (d.m a) (d.p a) + energy (d.m b) (d.p a)) ^ 2 := by
  have hb : d.p b = -d.p a := by rw [← add_eq_zero_iff_eq_neg, add_comm]; exact h
  unfold ThreeBody.s ThreeBody.E
  rw [h, Mom.sq_zero, sub_zero, hb]
  unfold energy
  rw [Mom.sq_neg']

theorem pairMassSq_d (d : ThreeBody) (cyc : Nat) (hc : cyc < 3) :
    pairMassSq cyc (d.s 0 1) (d.s 0 2) (d.s 1 2) = d.s (pairIdx cyc).1 (pairIdx cyc).2.1 := by
  rcases (by omega : cyc = 0 ∨ cyc = 1 ∨ cyc = 2) with h | h | h <;> subst h
  · rfl
  · exact ThreeBody_s_comm d 0 2
  · rfl

/-- **C57 (angular factor).**  In the rest frame of the pair the spin factor is
Zemach's angular distribution, for each of the three pairs and spins 0, 1, 2. -/
theorem C57_angular (d : ThreeBody) (cyc L : Nat) (hc : cyc < 3) (hL : L ≤ 2) (M : ℝ)
    (hM : M ^ 2 = d.M2)
    (hrest : d.p (pairIdx cyc).1 + d.p (pairIdx cyc).2.1 = 0)
    (hE : 0 < d.E (pairIdx cyc).1 + d.E (pairIdx cyc).2.1) :
    spinFactorDalitz L M (d.m 0) (d.m 1) (d.m 2) (d.s 0 1) (d.s 0 2) (d.s 1 2) cyc
      = zemach L (d.p (pairIdx cyc).1) (d.p (pairIdx cyc).2.2) := by
  rw [spinFactor_core L hL]
  have hneg : ∀ (m : ℝ) (p : Mom), energy m (-p) = energy m p := by
    intro m p; unfold energy; rw [Mom.sq_neg']
  -- the pair with explicit roles
  have key : ∀ a b c : Fin 3, d.p a + d.p b = 0 → 0 < d.E a + d.E b →
      d.M2 = (d.E a + d.E b + d.E c) ^ 2 - Mom.sq (d.p a + d.p b + d.p c) →
      spinCore L d.M2 (d.m a ^ 2) (d.m b ^ 2) (d.m c ^ 2) (d.s a b) (d.s a c) (d.s b c)
        = zemach L (d.p a) (d.p c) := by
    intro a b c h0 hpos hM2
    have hb : d.p b = -d.p a := by rw [← add_eq_zero_iff_eq_neg, add_comm]; exact h0
    have hEb : d.E b = energy (d.m b) (d.p a) := by unfold ThreeBody.E; rw [hb, hneg]
    rw [← spinCore_zemach L hL (d.m a) (d.m b) (d.m c) d.M2 (d.p a) (d.p c)
      (by rw [← hEb]; exact hpos) (by rw [hM2, h0, zero_add, ← hEb]; rfl)]
    rw [restframe_s d a b h0, ← hEb, ← hb]
    rfl
  rw [hM]
  rcases (by omega : cyc = 0 ∨ cyc = 1 ∨ cyc = 2) with h | h | h <;> subst h
  · exact key 0 1 2 hrest hE rfl
  · have := key 2 0 1 hrest hE (by
      unfold ThreeBody.M2
      rw [show d.E 2 + d.E 0 + d.E 1 = d.E 0 + d.E 1 + d.E 2 by ring,
        show d.p 2 + d.p 0 + d.p 1 = d.p 0 + d.p 1 + d.p 2 by ring])
    rw [ThreeBody_s_comm d 2 0, ThreeBody_s_comm d 2 1] at this
    exact this
  · have := key 1 2 0 hrest hE (by
      unfold ThreeBody.M2
      rw [show d.E 1 + d.E 2 + d.E 0 = d.E 0 + d.E 1 + d.E 2 by ring,
        show d.p 1 + d.p 2 + d.p 0 = d.p 0 + d.p 1 + d.p 2 by ring])
    rw [ThreeBody_s_comm d 1 0, ThreeBody_s_comm d 2 0] at this
    exact this

/-- **C57 (break-up momentum).**  For two particles with opposite momenta, the
two-body momentum computed from their invariant mass is that momentum. -/
theorem C57_momentum (m1 m2 : ℝ) (h1 : 0 ≤ m1) (h2 : 0 ≤ m2) (k : Mom)
    (hS : 0 < energy m1 k + energy m2 (-k)) :
    twoBodyCMmom ((energy m1 k + energy m2 (-k)) ^ 2) m1 m2 = √(Mom.sq k) := by
  have : energy m2 (-k) = energy m2 k := by unfold energy; rw [Mom.sq_neg']
  rw [this] at hS ⊢
  exact twoBodyCMmom_eq m1 m2 h1 h2 k hS

/-- **C57 (normalised barrier factors).**  For spin 1 and 2 the normalised form
factor is the ratio of Blatt-Weisskopf factors without threshold factor. -/
theorem C57_form_factor (L : Nat) (hL : L = 1 ∨ L = 2) (R q q0 : ℝ) :
    dampingFactorSquareNorm q0 L R / dampingFactorSquareNorm q L R
      = barrierNormSq L ((R * q0) ^ 2) ((R * q) ^ 2) ∧
    (R * q ≠ 0 → R * q0 ≠ 0 →
      barrierNormSq L ((R * q0) ^ 2) ((R * q) ^ 2)
        = barrierSq L ((R * q) ^ 2) / barrierSq L ((R * q0) ^ 2) * (q0 / q) ^ (2 * L)) := by
  constructor
  · rcases hL with h | h <;> subst h
    · unfold dampingFactorSquareNorm barrierNormSq
      dsimp only
      rw [if_neg (by norm_num), if_neg (by norm_num)]
      congr 1 <;> ring
    · unfold dampingFactorSquareNorm barrierNormSq
      dsimp only
      rw [if_pos rfl, if_pos rfl]
      congr 1 <;> ring
  · intro hq hq0
    have hR : R ≠ 0 := left_ne_zero_of_mul hq
    have e1 : q ≠ 0 := right_ne_zero_of_mul hq
    have e0 : q0 ≠ 0 := right_ne_zero_of_mul hq0
    have a1 : (1 + (R * q) ^ 2) ≠ 0 := by positivity
    have a0 : (1 + (R * q0) ^ 2) ≠ 0 := by positivity
    have b1 : (((R * q) ^ 2 - 3) ^ 2 + 9 * (R * q) ^ 2) ≠ 0 := by positivity
    have b0 : (((R * q0) ^ 2 - 3) ^ 2 + 9 * (R * q0) ^ 2) ≠ 0 := by positivity
    rcases hL with h | h <;> subst h
    · show (1 + (R * q0) ^ 2) / (1 + (R * q) ^ 2) = 2 * (R * q) ^ 2 / (1 + (R * q) ^ 2) /
        (2 * (R * q0) ^ 2 / (1 + (R * q0) ^ 2)) * (q0 / q) ^ 2
      field_simp
    · show (((R * q0) ^ 2 - 3) ^ 2 + 9 * (R * q0) ^ 2) / (((R * q) ^ 2 - 3) ^ 2 + 9 * (R * q) ^ 2)
        = 13 * ((R * q) ^ 2) ^ 2 / (((R * q) ^ 2 - 3) ^ 2 + 9 * (R * q) ^ 2)
          / (13 * ((R * q0) ^ 2) ^ 2 / (((R * q0) ^ 2 - 3) ^ 2 + 9 * (R * q0) ^ 2)) * (q0 / q) ^ 4
      generalize ((R * q) ^ 2 - 3) ^ 2 + 9 * (R * q) ^ 2 = X at *
      generalize ((R * q0) ^ 2 - 3) ^ 2 + 9 * (R * q0) ^ 2 = Y at *
      field_simp

/-- **C57, violation (form factors without normalisation).**  The
Blatt-Weisskopf factors are bounded by 2 and 13; the ones of the code grow
without bound with the momentum. -/
theorem C57_violation_form_factor :
    (∀ z : ℝ, 0 ≤ z → barrierSq 1 z ≤ 2 ∧ barrierSq 2 z ≤ 13) ∧
    ∀ bound : ℝ, ∃ q : ℝ, 0 < q ∧ bound < dampingFactorSquare q 1 1 ∧ bound < dampingFactorSquare q 2 1 := by
  constructor
  · intro z hz
    constructor
    · show 2 * z / (1 + z) ≤ 2
      rw [div_le_iff₀ (by linarith)]
      linarith
    · show 13 * z ^ 2 / ((z - 3) ^ 2 + 9 * z) ≤ 13
      rw [div_le_iff₀ (by nlinarith)]
      nlinarith
  · intro bound
    refine ⟨|bound| + 1, by positivity, ?_, ?_⟩
    · have := le_abs_self bound
      have h0 := abs_nonneg bound
      unfold dampingFactorSquare
      dsimp only
      rw [if_neg (by norm_num)]
      nlinarith
    · have := le_abs_self bound
      have h0 := abs_nonneg bound
      unfold dampingFactorSquare
      dsimp only
      rw [if_pos rfl]
      generalize |bound| = x at *
      have h1 : 0 ≤ 13 * (1 * 1 * (x + 1) * (x + 1)) / (1 * 1 * (x + 1) * (x + 1) - 3) ^ 2 := by positivity
      have h2 : x + 1 ≤ 9 * (1 * 1 * (x + 1) * (x + 1)) * (1 * 1 * (x + 1) * (x + 1)) := by
        have h3 : 1 ≤ x + 1 := by linarith
        have h4 : x + 1 ≤ (x + 1) * (x + 1) := by nlinarith
        have h5 : (x + 1) * (x + 1) ≤ (x + 1) * (x + 1) * ((x + 1) * (x + 1)) := by nlinarith
        nlinarith
      linarith

/-- One term of the amplitude as propagator, form factors and angular factor. -/
theorem rbwTerm_eq (c : DalitzCtx) (L cyc : Nat) (norm : Bool) (m0 Γ0 m12 m13 m23 : ℝ) :
    rbwTerm c L cyc norm m0 Γ0 m12 m13 m23 =
      breitWigner m0 (pairMassSq cyc m12 m13 m23)
        (runningWidth L m0 Γ0 (pairMassSq cyc m12 m13 m23)
          (twoBodyCMmom (pairMassSq cyc m12 m13 m23) (pairDaug1 c cyc) (pairDaug2 c cyc))
          (twoBodyCMmom (m0 * m0) (pairDaug1 c cyc) (pairDaug2 c cyc))
          (frFactorOf c L norm (twoBodyCMmom (m0 * m0) (pairDaug1 c cyc) (pairDaug2 c cyc))
            (twoBodyCMmom (pairMassSq cyc m12 m13 m23) (pairDaug1 c cyc) (pairDaug2 c cyc))))
      * (√(frFactorOf c L norm (twoBodyCMmom (m0 * m0) (pairDaug1 c cyc) (pairDaug2 c cyc))
            (twoBodyCMmom (pairMassSq cyc m12 m13 m23) (pairDaug1 c cyc) (pairDaug2 c cyc))) : ℝ)
      * (√(frFactorMotherOf c L norm (pairMassSq cyc m12 m13 m23) (m0 * m0) (pairBachelor c cyc)) : ℝ)
      * (spinFactorDalitz L c.mother c.d1 c.d2 c.d3 m12 m13 m23 cyc : ℝ) := by
  unfold rbwTerm
  dsimp only
  generalize pairMassSq cyc m12 m13 m23 = s
  generalize twoBodyCMmom s (pairDaug1 c cyc) (pairDaug2 c cyc) = q
  generalize twoBodyCMmom (m0 * m0) (pairDaug1 c cyc) (pairDaug2 c cyc) = q0
  generalize frFactorOf c L norm q0 q = fr
  congr 3
  have hB : m0 * m0 * Γ0 * (q / q0) ^ (2 * L + 1) * fr / √s = m0 * runningWidth L m0 Γ0 s q q0 fr := by
    unfold runningWidth; ring
  rw [hB, show m0 * m0 - s = m0 ^ 2 - s by ring]
  unfold breitWigner
  generalize m0 ^ 2 - s = A
  generalize m0 * runningWidth L m0 Γ0 s q q0 fr = B
  rw [one_div]
  apply Complex.ext
  · rw [Complex.inv_re]; simp [Complex.normSq_apply, div_eq_mul_inv]; left; norm_num
  · rw [Complex.inv_im]; simp [Complex.normSq_apply, div_eq_mul_inv]; left; norm_num

/-- **C57, partial (the amplitude).**  With normalised form factors (or spin 0):
in the rest frame of the pair, the Breit-Wigner amplitude is the propagator with
the running width of the PDG, times the barrier factor of the resonance, times
Zemach's angular factor, times the barrier factor of the mother taken at the
momentum `s / (2 M)`.  Missing: that momentum should be the bachelor's, see
`C57_violation_mother_momentum`; and the form without normalisation, see
`C57_rbw_unnormalised_partial` and `C57_violation_form_factor`.  `k0` is the break-up momentum at the nominal mass. -/
theorem C57_rbw_partial (d : ThreeBody) (cyc L : Nat) (hc : cyc < 3) (hL : L ≤ 2) (norm : Bool)
    (hn : norm = true ∨ L = 0) (M R Rm m0 Γ0 : ℝ) (hm : ∀ i, 0 ≤ d.m i) (hM : M ^ 2 = d.M2)
    (hrest : d.p (pairIdx cyc).1 + d.p (pairIdx cyc).2.1 = 0)
    (hE : 0 < d.E (pairIdx cyc).1 + d.E (pairIdx cyc).2.1)
    (hin : √(d.s (pairIdx cyc).1 (pairIdx cyc).2.1) + d.m (pairIdx cyc).2.2 < M)
    (hm0 : 0 < m0) (hin0 : m0 + d.m (pairIdx cyc).2.2 < M)
    (k0 : Mom) (hk0 : energy (d.m (pairIdx cyc).1) k0 + energy (d.m (pairIdx cyc).2.1) (-k0) = m0) :
    let s := d.s (pairIdx cyc).1 (pairIdx cyc).2.1
    let q := √(Mom.sq (d.p (pairIdx cyc).1))
    let q0 := √(Mom.sq k0)
    let F2 := barrierNormSq L ((R * q0) ^ 2) ((R * q) ^ 2)
    let FM2 := barrierNormSq L ((Rm * (m0 ^ 2 / (2 * M))) ^ 2) ((Rm * (s / (2 * M))) ^ 2)
    resRBW (decayCtx d M R Rm) L cyc norm false m0 Γ0 (d.s 0 1) (d.s 0 2) (d.s 1 2)
      = breitWigner m0 s (runningWidth L m0 Γ0 s q q0 F2) * (√F2 : ℝ) * (√FM2 : ℝ)
        * (zemach L (d.p (pairIdx cyc).1) (d.p (pairIdx cyc).2.2) : ℝ) := by
  intro s q q0 F2 FM2
  have hs := pairMassSq_d d cyc hc
  have ha := C57_angular d cyc L hc hL M hM hrest hE
  have hb : d.p (pairIdx cyc).2.1 = -d.p (pairIdx cyc).1 := by
    rw [← add_eq_zero_iff_eq_neg, add_comm]; exact hrest
  have hEb : d.E (pairIdx cyc).2.1 = energy (d.m (pairIdx cyc).2.1) (d.p (pairIdx cyc).1) := by
    unfold ThreeBody.E energy; rw [hb, Mom.sq_neg']
  have hE' : 0 < energy (d.m (pairIdx cyc).1) (d.p (pairIdx cyc).1)
      + energy (d.m (pairIdx cyc).2.1) (d.p (pairIdx cyc).1) := by rw [← hEb]; exact hE
  have hspos : 0 < s := by
    show 0 < d.s _ _
    rw [restframe_s d _ _ hrest]; positivity
  have hcomm : ∀ s a b : ℝ, twoBodyCMmom s a b = twoBodyCMmom s b a := by
    intro s a b; unfold twoBodyCMmom
    rw [add_comm a b, show (a - b) * (a - b) = (b - a) * (b - a) by ring]
  have hpair : ∀ s : ℝ, twoBodyCMmom s (pairDaug1 (decayCtx d M R Rm) cyc) (pairDaug2 (decayCtx d M R Rm) cyc)
      = twoBodyCMmom s (d.m (pairIdx cyc).1) (d.m (pairIdx cyc).2.1) := by
    intro t
    rcases (by omega : cyc = 0 ∨ cyc = 1 ∨ cyc = 2) with h | h | h <;> subst h
    · rfl
    · exact hcomm t (d.m 0) (d.m 2)
    · rfl
  have hq : twoBodyCMmom s (d.m (pairIdx cyc).1) (d.m (pairIdx cyc).2.1) = q := by
    show twoBodyCMmom (d.s _ _) _ _ = _
    rw [restframe_s d _ _ hrest]
    exact twoBodyCMmom_eq _ _ (hm _) (hm _) _ hE'
  have hq0 : twoBodyCMmom (m0 * m0) (d.m (pairIdx cyc).1) (d.m (pairIdx cyc).2.1) = q0 := by
    have := C57_momentum _ _ (hm (pairIdx cyc).1) (hm (pairIdx cyc).2.1) k0 (by rw [hk0]; exact hm0)
    rw [hk0] at this
    rw [← pow_two]; exact this
  have hbach : pairBachelor (decayCtx d M R Rm) cyc = d.m (pairIdx cyc).2.2 := by
    rcases (by omega : cyc = 0 ∨ cyc = 1 ∨ cyc = 2) with h | h | h <;> subst h <;> rfl
  have hF : frFactorOf (decayCtx d M R Rm) L norm q0 q = F2 := by
    unfold frFactorOf
    by_cases h0 : L = 0
    · subst h0; rfl
    · rw [if_pos (Ne.symm h0)]
      have hnt : norm = true := hn.resolve_right h0
      rw [hnt]
      exact (C57_form_factor L (by omega) R q q0).1
  have hFM : frFactorMotherOf (decayCtx d M R Rm) L norm s (m0 * m0) (d.m (pairIdx cyc).2.2) = FM2 := by
    unfold frFactorMotherOf
    by_cases h0 : L = 0
    · subst h0; rfl
    · rw [if_pos (Ne.symm h0)]
      have hnt : norm = true := hn.resolve_right h0
      rw [hnt]
      show dampingFactorSquareNorm (twoBodyCMMothermom (m0 * m0) M _) L Rm
        / dampingFactorSquareNorm (twoBodyCMMothermom s M _) L Rm = FM2
      rw [mothermom_eq s M _ hspos (hm _) hin,
        mothermom_eq (m0 * m0) M _ (by positivity) (hm _) (by rw [Real.sqrt_mul_self hm0.le]; exact hin0)]
      have := (C57_form_factor L (by omega) Rm (s / (2 * M)) (m0 ^ 2 / (2 * M))).1
      rw [← pow_two]
      exact this
  unfold resRBW
  simp only [Bool.false_eq_true, if_false]
  rw [plainBWGo, plainBWGo, zero_add, rbwTerm_eq, hs, hpair, hpair]
  change breitWigner m0 s (runningWidth L m0 Γ0 s (twoBodyCMmom s _ _) _ _) * _ * _ * _ = _
  rw [hbach]
  change breitWigner m0 s (runningWidth L m0 Γ0 s (twoBodyCMmom s _ _) (twoBodyCMmom (m0 * m0) _ _)
    (frFactorOf _ _ _ _ (twoBodyCMmom s _ _))) * (√(frFactorOf _ _ _ _ (twoBodyCMmom s _ _)) : ℝ)
    * (√(frFactorMotherOf _ _ _ s _ _) : ℝ) * _ = _
  rw [hq, hq0, hF, hFM]
  change _ * _ * _ * ((spinFactorDalitz L M (d.m 0) (d.m 1) (d.m 2) (d.s 0 1) (d.s 0 2) (d.s 1 2) cyc : ℝ) : ℂ) = _
  rw [ha]

/-- A decay of a mother of mass 2 into three massless daughters, in the rest
frame of the first two: the momenta are 1/2, 1/2 and 3/2. -/
noncomputable def lightDecay : ThreeBody :=
  ⟨fun _ => 0, ![![1 / 2, 0, 0], ![-1 / 2, 0, 0], ![0, 3 / 2, 0]]⟩

theorem lightDecay_E : lightDecay.E 0 = 1 / 2 ∧ lightDecay.E 1 = 1 / 2 ∧ lightDecay.E 2 = 3 / 2 := by
  refine ⟨?_, ?_, ?_⟩ <;> unfold ThreeBody.E energy
  · rw [show lightDecay.m 0 ^ 2 + Mom.sq (lightDecay.p 0) = (1 / 2) ^ 2 by
      simp [lightDecay, Mom.sq, Fin.sum_univ_three], Real.sqrt_sq (by norm_num)]
  · rw [show lightDecay.m 1 ^ 2 + Mom.sq (lightDecay.p 1) = (1 / 2) ^ 2 by
      simp [lightDecay, Mom.sq, Fin.sum_univ_three]; norm_num, Real.sqrt_sq (by norm_num)]
  · rw [show lightDecay.m 2 ^ 2 + Mom.sq (lightDecay.p 2) = (3 / 2) ^ 2 by
      simp [lightDecay, Mom.sq, Fin.sum_univ_three], Real.sqrt_sq (by norm_num)]

theorem lightDecay_rest : lightDecay.p 0 + lightDecay.p 1 = 0 := by
  funext i; fin_cases i <;> norm_num [lightDecay]

theorem lightDecay_s : lightDecay.s 0 1 = 1 := by
  unfold ThreeBody.s
  rw [lightDecay_rest, Mom.sq_zero, lightDecay_E.1, lightDecay_E.2.1]
  norm_num

theorem lightDecay_M : (2 : ℝ) ^ 2 = lightDecay.M2 := by
  unfold ThreeBody.M2
  rw [lightDecay_rest, zero_add, lightDecay_E.1, lightDecay_E.2.1, lightDecay_E.2.2,
    show Mom.sq (lightDecay.p 2) = (3 / 2) ^ 2 by simp [lightDecay, Mom.sq, Fin.sum_univ_three]]
  norm_num

/-- The hypotheses of `C57_rbw_partial` are met by `lightDecay` and a resonance of
mass 1. -/
example (L : Nat) (hL : L ≤ 2) := C57_rbw_partial lightDecay 0 L (by norm_num) hL true (Or.inl rfl) 2 1 1 1
  (1 / 10) (fun _ => le_rfl) lightDecay_M lightDecay_rest
  (by show 0 < lightDecay.E 0 + lightDecay.E 1; rw [lightDecay_E.1, lightDecay_E.2.1]; norm_num)
  (by show √(lightDecay.s 0 1) + 0 < 2; rw [lightDecay_s, Real.sqrt_one]; norm_num)
  one_pos (by show 1 + (0 : ℝ) < 2; norm_num) (lightDecay.p 0)
  (by
    have h1 := lightDecay_E.1
    have h2 := lightDecay_E.2.1
    have h3 : lightDecay.p 1 = -lightDecay.p 0 := by
      rw [← add_eq_zero_iff_eq_neg, add_comm]; exact lightDecay_rest
    unfold ThreeBody.E at h1 h2
    rw [h3] at h2
    show energy (lightDecay.m 0) _ + energy (lightDecay.m 1) _ = 1
    rw [h1, h2]; norm_num)

/-- **C57, partial (the amplitude, form factors without normalisation).**  For
spin 1 and 2 the amplitude has the same make-up, with the factor of the mother
taken at the bachelor's momentum `k` in the rest frame of the mother.  The factors
are not those of Blatt and Weisskopf (`C57_violation_form_factor`): the denominator
`1 + z` of spin 1 is missing, and that of spin 2 divides one term only. -/
theorem C57_rbw_unnormalised_partial (d : ThreeBody) (cyc L : Nat) (hc : cyc < 3) (hL : L = 1 ∨ L = 2)
    (M R Rm m0 Γ0 : ℝ) (hm : ∀ i, 0 ≤ d.m i) (hM : M ^ 2 = d.M2) (hM0 : 0 < M)
    (hrest : d.p (pairIdx cyc).1 + d.p (pairIdx cyc).2.1 = 0)
    (hE : 0 < d.E (pairIdx cyc).1 + d.E (pairIdx cyc).2.1) (hm0 : 0 < m0)
    (k0 : Mom) (hk0 : energy (d.m (pairIdx cyc).1) k0 + energy (d.m (pairIdx cyc).2.1) (-k0) = m0)
    (k : Mom) (hk : energy (√(d.s (pairIdx cyc).1 (pairIdx cyc).2.1)) (-k) + energy (d.m (pairIdx cyc).2.2) k = M) :
    let s := d.s (pairIdx cyc).1 (pairIdx cyc).2.1
    let q := √(Mom.sq (d.p (pairIdx cyc).1))
    let q0 := √(Mom.sq k0)
    let factor : ℝ → ℝ := fun z => if L = 1 then 2 * z else 13 * z / (z - 3) ^ 2 + 9 * z ^ 2
    let F2 := factor ((R * q) ^ 2)
    let FM2 := factor ((Rm * √(Mom.sq k)) ^ 2)
    resRBW (decayCtx d M R Rm) L cyc false false m0 Γ0 (d.s 0 1) (d.s 0 2) (d.s 1 2)
      = breitWigner m0 s (runningWidth L m0 Γ0 s q q0 F2) * (√F2 : ℝ) * (√FM2 : ℝ)
        * (zemach L (d.p (pairIdx cyc).1) (d.p (pairIdx cyc).2.2) : ℝ) := by
  intro s q q0 factor F2 FM2
  have hs := pairMassSq_d d cyc hc
  have ha := C57_angular d cyc L hc (by omega) M hM hrest hE
  have hb : d.p (pairIdx cyc).2.1 = -d.p (pairIdx cyc).1 := by
    rw [← add_eq_zero_iff_eq_neg, add_comm]; exact hrest
  have hEb : d.E (pairIdx cyc).2.1 = energy (d.m (pairIdx cyc).2.1) (d.p (pairIdx cyc).1) := by
    unfold ThreeBody.E energy; rw [hb, Mom.sq_neg']
  have hE' : 0 < energy (d.m (pairIdx cyc).1) (d.p (pairIdx cyc).1)
      + energy (d.m (pairIdx cyc).2.1) (d.p (pairIdx cyc).1) := by rw [← hEb]; exact hE
  have hcomm : ∀ s a b : ℝ, twoBodyCMmom s a b = twoBodyCMmom s b a := by
    intro s a b; unfold twoBodyCMmom
    rw [add_comm a b, show (a - b) * (a - b) = (b - a) * (b - a) by ring]
  have hpair : ∀ s : ℝ, twoBodyCMmom s (pairDaug1 (decayCtx d M R Rm) cyc) (pairDaug2 (decayCtx d M R Rm) cyc)
      = twoBodyCMmom s (d.m (pairIdx cyc).1) (d.m (pairIdx cyc).2.1) := by
    intro t
    rcases (by omega : cyc = 0 ∨ cyc = 1 ∨ cyc = 2) with h | h | h <;> subst h
    · rfl
    · exact hcomm t (d.m 0) (d.m 2)
    · rfl
  have hq : twoBodyCMmom s (d.m (pairIdx cyc).1) (d.m (pairIdx cyc).2.1) = q := by
    show twoBodyCMmom (d.s _ _) _ _ = _
    rw [restframe_s d _ _ hrest]
    exact twoBodyCMmom_eq _ _ (hm _) (hm _) _ hE'
  have hq0 : twoBodyCMmom (m0 * m0) (d.m (pairIdx cyc).1) (d.m (pairIdx cyc).2.1) = q0 := by
    have := C57_momentum _ _ (hm (pairIdx cyc).1) (hm (pairIdx cyc).2.1) k0 (by rw [hk0]; exact hm0)
    rw [hk0] at this
    rw [← pow_two]; exact this
  have hP : twoBodyCMmom (M * M) (√s) (d.m (pairIdx cyc).2.2) = √(Mom.sq k) := by
    have := C57_momentum (d.m (pairIdx cyc).2.2) (√s) (hm _) (Real.sqrt_nonneg _) k
      (by rw [add_comm, hk]; exact hM0)
    rw [add_comm, hk, hcomm] at this
    rw [← pow_two]; exact this
  have hbach : pairBachelor (decayCtx d M R Rm) cyc = d.m (pairIdx cyc).2.2 := by
    rcases (by omega : cyc = 0 ∨ cyc = 1 ∨ cyc = 2) with h | h | h <;> subst h <;> rfl
  have hL0 : (0 : Nat) ≠ L := by omega
  have hdamp : ∀ p r : ℝ, dampingFactorSquare p L r = factor ((r * p) ^ 2) := by
    intro p r
    unfold dampingFactorSquare
    rcases hL with h | h <;> subst h
    · show 2 * (r * r * p * p) = 2 * (r * p) ^ 2
      ring
    · show 13 * (r * r * p * p) / ((r * r * p * p) - 3) ^ 2 + 9 * (r * r * p * p) * (r * r * p * p)
        = 13 * (r * p) ^ 2 / ((r * p) ^ 2 - 3) ^ 2 + 9 * ((r * p) ^ 2) ^ 2
      rw [show r * r * p * p = (r * p) ^ 2 by ring]
      ring
  have hF : frFactorOf (decayCtx d M R Rm) L false q0 q = F2 := by
    unfold frFactorOf
    rw [if_pos hL0]
    exact hdamp q R
  have hFM : frFactorMotherOf (decayCtx d M R Rm) L false s (m0 * m0) (d.m (pairIdx cyc).2.2) = FM2 := by
    unfold frFactorMotherOf
    rw [if_pos hL0]
    show dampingFactorSquare (twoBodyCMmom (M * M) (√s) (d.m (pairIdx cyc).2.2)) L Rm = FM2
    rw [hP]
    exact hdamp _ Rm
  unfold resRBW
  simp only [Bool.false_eq_true, if_false]
  rw [plainBWGo, plainBWGo, zero_add, rbwTerm_eq, hs, hpair, hpair]
  change breitWigner m0 s (runningWidth L m0 Γ0 s (twoBodyCMmom s _ _) _ _) * _ * _ * _ = _
  rw [hbach]
  change breitWigner m0 s (runningWidth L m0 Γ0 s (twoBodyCMmom s _ _) (twoBodyCMmom (m0 * m0) _ _)
    (frFactorOf _ _ _ _ (twoBodyCMmom s _ _))) * (√(frFactorOf _ _ _ _ (twoBodyCMmom s _ _)) : ℝ)
    * (√(frFactorMotherOf _ _ _ s _ _) : ℝ) * _ = _
  rw [hq, hq0, hF, hFM]
  change _ * _ * _ * ((spinFactorDalitz L M (d.m 0) (d.m 1) (d.m 2) (d.s 0 1) (d.s 0 2) (d.s 1 2) cyc : ℝ) : ℂ) = _
  rw [ha]

/-- The hypotheses of `C57_rbw_unnormalised_partial` are met by `lightDecay`: in
the frame of the mother (mass 2) the bachelor has momentum 3/4. -/
example (L : Nat) (hL : L = 1 ∨ L = 2) := C57_rbw_unnormalised_partial lightDecay 0 L (by norm_num) hL 2 1 1 1
  (1 / 10) (fun _ => le_rfl) lightDecay_M two_pos lightDecay_rest
  (by show 0 < lightDecay.E 0 + lightDecay.E 1; rw [lightDecay_E.1, lightDecay_E.2.1]; norm_num)
  one_pos (lightDecay.p 0)
  (by
    have h1 := lightDecay_E.1
    have h2 := lightDecay_E.2.1
    have h3 : lightDecay.p 1 = -lightDecay.p 0 := by
      rw [← add_eq_zero_iff_eq_neg, add_comm]; exact lightDecay_rest
    unfold ThreeBody.E at h1 h2
    rw [h3] at h2
    show energy (lightDecay.m 0) _ + energy (lightDecay.m 1) _ = 1
    rw [h1, h2]; norm_num)
  ![3 / 4, 0, 0]
  (by
    show energy (√(lightDecay.s 0 1)) _ + energy (lightDecay.m 2) _ = 2
    rw [lightDecay_s, Real.sqrt_one, show lightDecay.m 2 = 0 from rfl]
    unfold energy
    rw [show (1 : ℝ) ^ 2 + Mom.sq (-![3 / 4, 0, 0]) = (5 / 4) ^ 2 by simp [Mom.sq, Fin.sum_univ_three]; norm_num,
      show (0 : ℝ) ^ 2 + Mom.sq ![3 / 4, 0, 0] = (3 / 4) ^ 2 by simp [Mom.sq, Fin.sum_univ_three],
      Real.sqrt_sq (by norm_num), Real.sqrt_sq (by norm_num)]
    norm_num)

/-- **C57, violation (momentum in the normalised factor of the mother).**  At
every point of phase space the momentum used is `s / (2 M)`, whatever the mass of
the bachelor; in the decay `lightDecay` it is 1/4 where the bachelor has momentum
3/2 in the frame of the resonance and 3/4 in the frame of the mother. -/
theorem C57_violation_mother_momentum :
    (∀ s M m3 : ℝ, 0 < s → 0 ≤ m3 → √s + m3 < M → twoBodyCMMothermom s M m3 = s / (2 * M)) ∧
    (2 : ℝ) ^ 2 = lightDecay.M2 ∧ lightDecay.p 0 + lightDecay.p 1 = 0 ∧
    twoBodyCMMothermom (lightDecay.s 0 1) 2 (lightDecay.m 2) = 1 / 4 ∧
    √(Mom.sq (lightDecay.p 2)) = 3 / 2 ∧
    twoBodyCMmom (2 * 2) (√(lightDecay.s 0 1)) (lightDecay.m 2) = 3 / 4 := by
  refine ⟨fun s M m3 h1 h2 h3 => mothermom_eq s M m3 h1 h2 h3, lightDecay_M, lightDecay_rest, ?_, ?_, ?_⟩
  · rw [lightDecay_s, show lightDecay.m 2 = 0 from rfl,
      mothermom_eq 1 2 0 one_pos le_rfl (by rw [Real.sqrt_one]; norm_num)]
    norm_num
  · rw [show Mom.sq (lightDecay.p 2) = (3 / 2) ^ 2 by simp [lightDecay, Mom.sq, Fin.sum_univ_three],
      Real.sqrt_sq (by norm_num)]
  · rw [lightDecay_s]
    unfold twoBodyCMmom
    have h4 : √(2 * 2 : ℝ) = 2 := Real.sqrt_mul_self (by norm_num)
    have h3 : √(1 - 1 / (2 * 2) : ℝ) * √(1 - 1 / (2 * 2) : ℝ) = 3 / 4 := by
      rw [Real.mul_self_sqrt (by norm_num)]; norm_num
    simp only [Real.sqrt_one, show lightDecay.m 2 = 0 from rfl, add_zero, sub_zero, mul_one]
    rw [if_pos (by norm_num), h4, mul_assoc, h3]
    norm_num

theorem dampingNorm_ne (L : Nat) (k r : ℝ) : dampingFactorSquareNorm k L r ≠ 0 := by
  unfold dampingFactorSquareNorm
  dsimp only
  have h0 : 0 ≤ r * r * k * k := by nlinarith [mul_self_nonneg (r * k)]
  generalize r * r * k * k = z at *
  split <;> positivity

theorem frFactor_self (c : DalitzCtx) (L : Nat) (k : ℝ) : frFactorOf c L true k k = 1 := by
  unfold frFactorOf
  split
  · rw [if_pos rfl, div_self (dampingNorm_ne _ _ _)]
  · rfl

theorem frFactorMother_self (c : DalitzCtx) (L : Nat) (s b : ℝ) : frFactorMotherOf c L true s s b = 1 := by
  unfold frFactorMotherOf
  split
  · rw [if_pos rfl, div_self (dampingNorm_ne _ _ _)]
  · rfl

/-- **C57 (at the pole).**  With normalised form factors, at the nominal mass the
amplitude is `i / (m0 Γ0)` times the angular factor. -/
theorem C57_pole (c : DalitzCtx) (cyc L : Nat) (m0 Γ0 m12 m13 m23 : ℝ) (hm0 : 0 < m0)
    (hs : pairMassSq cyc m12 m13 m23 = m0 ^ 2)
    (hq : twoBodyCMmom (m0 ^ 2) (pairDaug1 c cyc) (pairDaug2 c cyc) ≠ 0) :
    resRBW c L cyc true false m0 Γ0 m12 m13 m23
      = Complex.I / ((m0 * Γ0 : ℝ) : ℂ) * (spinFactorDalitz L c.mother c.d1 c.d2 c.d3 m12 m13 m23 cyc : ℝ) := by
  have hF := frFactor_self c L
  have hFM := frFactorMother_self c L (m0 ^ 2) (pairBachelor c cyc)
  unfold resRBW
  simp only [Bool.false_eq_true, if_false]
  rw [plainBWGo, plainBWGo, zero_add, rbwTerm_eq, hs, ← pow_two, hF, hFM]
  rw [Real.sqrt_one]
  congr 1
  have hw : runningWidth L m0 Γ0 (m0 ^ 2) (twoBodyCMmom (m0 ^ 2) (pairDaug1 c cyc) (pairDaug2 c cyc))
      (twoBodyCMmom (m0 ^ 2) (pairDaug1 c cyc) (pairDaug2 c cyc)) 1 = Γ0 := by
    unfold runningWidth
    rw [div_self hq, one_pow, Real.sqrt_sq hm0.le, div_self hm0.ne']
    ring
  rw [hw]
  unfold breitWigner
  rw [sub_self, Complex.ofReal_zero, zero_sub, Complex.ofReal_one, mul_one, mul_one]
  rw [one_div, neg_inv.symm, mul_inv, Complex.inv_I, div_eq_mul_inv]
  ring

/-! ## Relabelling and identical particles -/

theorem spinCore_swap (L : Nat) (hL : L ≤ 2) (M2 mA2 mB2 mC2 mAB mAC mBC : ℝ) :
    spinCore L M2 mB2 mA2 mC2 mAB mBC mAC = (-1) ^ L * spinCore L M2 mA2 mB2 mC2 mAB mAC mBC := by
  rcases (by omega : L = 0 ∨ L = 1 ∨ L = 2) with h | h | h <;> subst h
  · simp [spinCore]
  · rw [spinCore_one, spinCore_one]; ring
  · rw [spinCore_two, spinCore_two]; ring

theorem twoBodyCMmom_comm (s a b : ℝ) : twoBodyCMmom s a b = twoBodyCMmom s b a := by
  unfold twoBodyCMmom
  rw [add_comm a b, show (a - b) * (a - b) = (b - a) * (b - a) by ring]

/-- Terms with the same pair, daughters and bachelor, the daughters possibly in
the other order. -/
theorem rbwTerm_congr (c c' : DalitzCtx) (L : Nat) (cyc cyc' : Nat) (norm : Bool)
    (m0 Γ0 m12 m13 m23 m12' m13' m23' : ℝ) (sgn : ℝ)
    (hM : c'.mother = c.mother) (hR : c'.radius = c.radius) (hRm : c'.motherRadius = c.motherRadius)
    (hs : pairMassSq cyc' m12' m13' m23' = pairMassSq cyc m12 m13 m23)
    (hd : (pairDaug1 c' cyc' = pairDaug1 c cyc ∧ pairDaug2 c' cyc' = pairDaug2 c cyc) ∨
      (pairDaug1 c' cyc' = pairDaug2 c cyc ∧ pairDaug2 c' cyc' = pairDaug1 c cyc))
    (hb : pairBachelor c' cyc' = pairBachelor c cyc)
    (hsp : spinFactorDalitz L c'.mother c'.d1 c'.d2 c'.d3 m12' m13' m23' cyc'
      = sgn * spinFactorDalitz L c.mother c.d1 c.d2 c.d3 m12 m13 m23 cyc) :
    rbwTerm c' L cyc' norm m0 Γ0 m12' m13' m23'
      = (sgn : ℂ) * rbwTerm c L cyc norm m0 Γ0 m12 m13 m23 := by
  have hq : ∀ t, twoBodyCMmom t (pairDaug1 c' cyc') (pairDaug2 c' cyc')
      = twoBodyCMmom t (pairDaug1 c cyc) (pairDaug2 c cyc) := by
    intro t
    rcases hd with ⟨h1, h2⟩ | ⟨h1, h2⟩
    · rw [h1, h2]
    · rw [h1, h2, twoBodyCMmom_comm]
  rw [rbwTerm_eq, rbwTerm_eq, hs, hq, hq, hb, hsp]
  have hF : ∀ a b, frFactorOf c' L norm a b = frFactorOf c L norm a b := by
    intro a b; unfold frFactorOf; rw [hR]
  have hFM : ∀ a b e, frFactorMotherOf c' L norm a b e = frFactorMotherOf c L norm a b e := by
    intro a b e; unfold frFactorMotherOf; rw [hM, hRm]
  rw [hF, hFM]
  push_cast
  ring

/-- **C57 (names).**  Renumbering the daughters cyclically (new 1, 2, 3 = old 3,
1, 2) and naming the pair accordingly does not change the amplitude. -/
theorem C57_relabel (M m1 m2 m3 R Rm : ℝ) (L cyc : Nat) (hL : L ≤ 2) (hc : cyc < 3) (norm : Bool)
    (m0 Γ0 m12 m13 m23 : ℝ) :
    resRBW ⟨M, m3, m1, m2, R, Rm⟩ L ((cyc + 2) % 3) norm false m0 Γ0 m13 m23 m12
      = resRBW ⟨M, m1, m2, m3, R, Rm⟩ L cyc norm false m0 Γ0 m12 m13 m23 := by
  unfold resRBW
  simp only [Bool.false_eq_true, if_false]
  rw [plainBWGo, plainBWGo, plainBWGo, plainBWGo, zero_add, zero_add]
  have := rbwTerm_congr ⟨M, m1, m2, m3, R, Rm⟩ ⟨M, m3, m1, m2, R, Rm⟩ L cyc ((cyc + 2) % 3) norm m0 Γ0
    m12 m13 m23 m13 m23 m12 1 rfl rfl rfl ?_ ?_ ?_ ?_
  · rw [this]; simp
  all_goals rcases (by omega : cyc = 0 ∨ cyc = 1 ∨ cyc = 2) with h | h | h <;> subst h
  · rfl
  · rfl
  · rfl
  · exact Or.inl ⟨rfl, rfl⟩
  · exact Or.inr ⟨rfl, rfl⟩
  · exact Or.inr ⟨rfl, rfl⟩
  · rfl
  · rfl
  · rfl
  all_goals rw [spinFactor_core L hL, spinFactor_core L hL, one_mul]; rfl

/-- **C57 (identical particles, sign).**  The symmetrised amplitude for a pair of
identical daughters is multiplied by `(-1)^L` when they are exchanged. -/
theorem C57_exchange_partial (M a b R Rm : ℝ) (L : Nat) (hL : L ≤ 2) (norm : Bool) (m0 Γ0 m12 m13 m23 : ℝ) :
    resRBW ⟨M, a, b, b, R, Rm⟩ L 0 norm true m0 Γ0 m13 m12 m23
      = (-1) ^ L * resRBW ⟨M, a, b, b, R, Rm⟩ L 0 norm true m0 Γ0 m12 m13 m23 ∧
    resRBW ⟨M, b, b, a, R, Rm⟩ L 1 norm true m0 Γ0 m12 m23 m13
      = (-1) ^ L * resRBW ⟨M, b, b, a, R, Rm⟩ L 1 norm true m0 Γ0 m12 m13 m23 ∧
    resRBW ⟨M, b, a, b, R, Rm⟩ L 2 norm true m0 Γ0 m23 m13 m12
      = (-1) ^ L * resRBW ⟨M, b, a, b, R, Rm⟩ L 2 norm true m0 Γ0 m12 m13 m23 := by
  have hsum : ∀ (c : DalitzCtx) (cyc : Nat) (x y z : ℝ), resRBW c L cyc norm true m0 Γ0 x y z
      = rbwTerm c L cyc norm m0 Γ0 x y z + rbwTerm c L ((cyc + 1) % 3) norm m0 Γ0 x y z := by
    intro c cyc x y z
    unfold resRBW
    simp only [if_true]
    rw [plainBWGo, plainBWGo, plainBWGo, zero_add, if_pos (by norm_num)]
  have hm1 : (((-1) ^ L : ℝ) : ℂ) = (-1) ^ L := by push_cast; rfl
  simp only [hsum]
  refine ⟨?_, ?_, ?_⟩
  · have h1 := rbwTerm_congr ⟨M, a, b, b, R, Rm⟩ ⟨M, a, b, b, R, Rm⟩ L 0 1 norm m0 Γ0 m12 m13 m23 m13 m12 m23
      ((-1) ^ L) rfl rfl rfl rfl (Or.inl ⟨rfl, rfl⟩) rfl
      (by rw [spinFactor_core L hL, spinFactor_core L hL]; exact spinCore_swap L hL _ _ _ _ _ _ _)
    have h2 := rbwTerm_congr ⟨M, a, b, b, R, Rm⟩ ⟨M, a, b, b, R, Rm⟩ L 1 0 norm m0 Γ0 m12 m13 m23 m13 m12 m23
      ((-1) ^ L) rfl rfl rfl rfl (Or.inl ⟨rfl, rfl⟩) rfl
      (by rw [spinFactor_core L hL, spinFactor_core L hL]; exact spinCore_swap L hL _ _ _ _ _ _ _)
    rw [hm1] at h1 h2
    show rbwTerm _ _ 0 _ _ _ _ _ _ + rbwTerm _ _ 1 _ _ _ _ _ _ = _ * (_ + rbwTerm _ _ 1 _ _ _ _ _ _)
    rw [h1, h2]; ring
  · have h1 := rbwTerm_congr ⟨M, b, b, a, R, Rm⟩ ⟨M, b, b, a, R, Rm⟩ L 1 2 norm m0 Γ0 m12 m13 m23 m12 m23 m13
      ((-1) ^ L) rfl rfl rfl rfl (Or.inl ⟨rfl, rfl⟩) rfl
      (by rw [spinFactor_core L hL, spinFactor_core L hL]; exact spinCore_swap L hL _ _ _ _ _ _ _)
    have h2 := rbwTerm_congr ⟨M, b, b, a, R, Rm⟩ ⟨M, b, b, a, R, Rm⟩ L 2 1 norm m0 Γ0 m12 m13 m23 m12 m23 m13
      ((-1) ^ L) rfl rfl rfl rfl (Or.inl ⟨rfl, rfl⟩) rfl
      (by rw [spinFactor_core L hL, spinFactor_core L hL]; exact spinCore_swap L hL _ _ _ _ _ _ _)
    rw [hm1] at h1 h2
    show rbwTerm _ _ 1 _ _ _ _ _ _ + rbwTerm _ _ 2 _ _ _ _ _ _ = _ * (_ + rbwTerm _ _ 2 _ _ _ _ _ _)
    rw [h1, h2]; ring
  · have h1 := rbwTerm_congr ⟨M, b, a, b, R, Rm⟩ ⟨M, b, a, b, R, Rm⟩ L 2 0 norm m0 Γ0 m12 m13 m23 m23 m13 m12
      ((-1) ^ L) rfl rfl rfl rfl (Or.inr ⟨rfl, rfl⟩) rfl
      (by rw [spinFactor_core L hL, spinFactor_core L hL]; exact spinCore_swap L hL _ _ _ _ _ _ _)
    have h2 := rbwTerm_congr ⟨M, b, a, b, R, Rm⟩ ⟨M, b, a, b, R, Rm⟩ L 0 2 norm m0 Γ0 m12 m13 m23 m23 m13 m12
      ((-1) ^ L) rfl rfl rfl rfl (Or.inr ⟨rfl, rfl⟩) rfl
      (by rw [spinFactor_core L hL, spinFactor_core L hL]; exact spinCore_swap L hL _ _ _ _ _ _ _)
    rw [hm1] at h1 h2
    show rbwTerm _ _ 2 _ _ _ _ _ _ + rbwTerm _ _ 0 _ _ _ _ _ _ = _ * (_ + rbwTerm _ _ 0 _ _ _ _ _ _)
    rw [h1, h2]; ring

/-- **C57, violation (identical particles).**  For spin 1 the symmetrised amplitude
changes sign when the identical daughters are exchanged, and it is not zero: the
intensity of its sum with any symmetric amplitude is not symmetric. -/
theorem C57_violation_exchange :
    resRBW ⟨3 / 2, 0, 0, 0, 1, 1⟩ 1 0 true true 1 1 (1 / 4) 1 1
      ≠ resRBW ⟨3 / 2, 0, 0, 0, 1, 1⟩ 1 0 true true 1 1 1 (1 / 4) 1 ∧
    ∃ nr : ℂ, ‖nr + resRBW ⟨3 / 2, 0, 0, 0, 1, 1⟩ 1 0 true true 1 1 (1 / 4) 1 1‖
      ≠ ‖nr + resRBW ⟨3 / 2, 0, 0, 0, 1, 1⟩ 1 0 true true 1 1 1 (1 / 4) 1‖ := by
  have hx := (C57_exchange_partial (3 / 2) 0 0 1 1 1 (by norm_num) true 1 1 1 (1 / 4) 1).1
  have hne : resRBW ⟨3 / 2, 0, 0, 0, 1, 1⟩ 1 0 true true 1 1 1 (1 / 4) 1 ≠ 0 := by
    have hp := C57_pole ⟨3 / 2, 0, 0, 0, 1, 1⟩ 0 1 1 1 1 (1 / 4) 1 one_pos
      (by norm_num [pairMassSq]) (by norm_num [twoBodyCMmom, pairDaug1, pairDaug2])
    unfold resRBW at hp ⊢
    simp only [if_true, Bool.false_eq_true, if_false] at hp ⊢
    rw [plainBWGo, plainBWGo, zero_add] at hp
    rw [plainBWGo, plainBWGo, plainBWGo, zero_add, if_pos (by norm_num), hp, rbwTerm_eq _ _ (0 + 1)]
    have h0 : spinFactorDalitz 1 (3 / 2) 0 0 0 1 (1 / 4) 1 (0 + 1) = 0 := by
      norm_num [spinFactorDalitz]
    have h1 : spinFactorDalitz 1 (3 / 2) 0 0 0 1 (1 / 4) 1 0 = -3 / 4 := by
      norm_num [spinFactorDalitz]
    show _ + _ * ((spinFactorDalitz 1 (3 / 2) 0 0 0 1 (1 / 4) 1 (0 + 1) : ℝ) : ℂ) ≠ 0
    rw [h0]
    show Complex.I / _ * ((spinFactorDalitz 1 (3 / 2) 0 0 0 1 (1 / 4) 1 0 : ℝ) : ℂ) + _ ≠ 0
    rw [h1, Complex.ofReal_zero, mul_zero, add_zero]
    simp
  rw [hx]
  generalize resRBW ⟨3 / 2, 0, 0, 0, 1, 1⟩ 1 0 true true 1 1 1 (1 / 4) 1 = z at *
  constructor
  · intro h
    apply hne
    have : z + z = 0 := by
      rw [pow_one] at h
      linear_combination -h
    exact add_self_eq_zero.1 this
  · refine ⟨z, ?_⟩
    rw [show z + (-1) ^ 1 * z = 0 by ring, norm_zero, ← two_mul]
    simp [hne]

end GooFit
