import Verif.Spec.TimeComponent4
import Verif.Props.Component4
import Verif.Props.TimeFourBody
/-!
# C80: a time-dependent four-body PDF is the mixing rate of the decay its constructor calls describe
-/
set_option autoImplicit false
namespace GooFit
open Spec MeasureTheory

theorem ampUseBuild_some (junk : Nat → Nat → ℝ) (h : Nat → ℝ) (a : AmpUse) (b : TAmp LsObj SfObj Nat Nat)
    (hb : ampUseBuild junk h a = some b) :
    ampBuild junk h a.new = some b.amp ∧ b.tag = a.tag ∧ b.ar = a.new.ar ∧ b.ai = a.new.ai := by
  unfold ampUseBuild at hb
  cases hx : ampBuild junk h a.new with
  | none => rw [hx] at hb; simp at hb
  | some y => rw [hx] at hb; simp at hb; subst hb; exact ⟨rfl, rfl, rfl, rfl⟩

theorem use_nodup (junk : Nat → Nat → ℝ) (h : Nat → ℝ) (amps : List AmpUse) (built : List (TAmp LsObj SfObj Nat Nat))
    (hb : amps.mapM (ampUseBuild junk h) = some built) (hn : (amps.map AmpUse.tag).Nodup) : built.Nodup := by
  have hf := mapM_forall2 _ _ _ hb
  have : built.map TAmp.tag = amps.map AmpUse.tag := by
    refine List.ext_getElem (by simp [hf.length_eq]) fun i h1 h2 => ?_
    have hi : i < amps.length := by simpa using h2
    have hi' : i < built.length := by simpa using h1
    have hab := (List.forall₂_iff_get.1 hf).2 i hi hi'
    simp only [List.get_eq_getElem] at hab
    simp only [List.getElem_map]
    exact (ampUseBuild_some junk h _ _ hab).2.1
  rw [← this] at hn
  exact List.Nodup.of_map _ hn

theorem coherent_described (junk : Nat → Nat → ℝ) (h0 : Nat → ℝ) (d : Decay4) (amps : List AmpUse)
    (built : List (TAmp LsObj SfObj Nat Nat)) (hb : amps.mapM (ampUseBuild junk h0) = some built)
    (hs : ∀ a ∈ amps, ∀ c ∈ a.new.ls, ¬ IsSpline c) (m : T4 LsObj SfObj Nat Nat (Nat → ℝ) Ev4)
    (hv : m.value = fun h i => h i)
    (hl : m.lineShape = fun o h ev => (lsCalc [d.M, d.m1, d.m2, d.m3, d.m4] o h ev).getD 0)
    (hf : m.spinFactor = fun o ev => (sfCalc [d.M, d.m1, d.m2, d.m3, d.m4] o ev).getD 0) (h : Nat → ℝ) (ev : Ev4) :
    m.coherent h ev built = describedAmplitude d (amps.map AmpUse.new) h ev := by
  have hF := mapM_forall2 _ _ _ hb
  unfold T4.coherent describedAmplitude
  congr 1
  refine List.ext_getElem (by simp [hF.length_eq]) fun i h1 h2 => ?_
  have hi : i < amps.length := by simpa using h2
  have hi' : i < built.length := by simpa using h1
  have hab := (List.forall₂_iff_get.1 hF).2 i hi hi'
  simp only [List.get_eq_getElem] at hab
  obtain ⟨k0, _, k1, k2⟩ := ampUseBuild_some junk h0 _ _ hab
  obtain ⟨l1, l2, l3⟩ := ampBuild_some junk h0 _ _ k0
  simp only [List.getElem_map, T4.ampAt, hv, hl, hf]
  rw [l3, l2, k1, k2]
  have e1 : (built[i].amp.ls.map fun x => (lsCalc [d.M, d.m1, d.m2, d.m3, d.m4] x h ev).getD 0)
      = amps[i].new.ls.map fun c => (lineShape4 d c h ev).getD 0 := by
    refine List.ext_getElem (by simp [l1.length_eq]) fun k k1 k2 => ?_
    simp only [List.getElem_map]
    have hk : k < amps[i].new.ls.length := by simpa using k2
    have hk' : k < built[i].amp.ls.length := by simpa using k1
    have := (List.forall₂_iff_get.1 l1).2 k hk hk'
    simp only [List.get_eq_getElem] at this
    rw [C78_line_shape_partial junk h0 _ _ this (hs _ (List.getElem_mem hi) _ (List.getElem_mem hk)) d h ev]
  have e2 : ((amps[i].new.sf.map sfBuild).map fun x => (sfCalc [d.M, d.m1, d.m2, d.m3, d.m4] x ev).getD 0)
      = amps[i].new.sf.map fun s => (spinFactor4 d s ev).getD 0 := by
    rw [List.map_map]
    refine List.map_congr_left fun s _ => ?_
    simp only [Function.comp_apply, C78_spin_factor]
  rw [e1, e2]

theorem marks_honest_td (masses : List ℝ) (v : MixVars) (builtA builtB : List (TAmp LsObj SfObj Nat Nat))
    (eff : (Nat → ℝ) → Ev4 × ℝ × ℝ → ℝ) (res : (Nat → ℝ) → ResFn) (norm : (Nat → ℝ) → NormFn) (batches : List (NormBatch Ev4))
    (q : Option (Nat → ℝ)) (ops : List (T4.Op LsObj (Nat → ℝ) Ev4)) (hm : MarksFromTD q ops) :
    (timeFourBodyPdf masses v builtA builtB eff res norm batches).HonestFrom q ops := by
  induction ops generalizing q with
  | nil => trivial
  | cons op ops ih =>
    cases op with
    | setData d => exact ih q hm
    | force => exact ih q hm
    | eval c p =>
      refine ⟨fun p0 hq x hx => ?_, ih _ hm.2⟩
      funext ev
      exact congrArg (fun z => Option.getD z 0) (C78_depends masses x p p0 (hm.1 p0 hq x hx) ev)
    | generate d c p =>
      refine ⟨fun p0 hq x hx => ?_, ih _ hm.2⟩
      funext ev
      exact congrArg (fun z => Option.getD z 0) (C78_depends masses x p p0 (hm.1 p0 hq x hx) ev)

section
variable (junk : Nat → Nat → ℝ) (h0 : Nat → ℝ) (d : Decay4) (v : MixVars) (ampsA ampsB : List AmpUse)
  (builtA builtB : List (TAmp LsObj SfObj Nat Nat)) (eff : (Nat → ℝ) → Ev4 × ℝ × ℝ → ℝ) (res : (Nat → ℝ) → ResFn)
  (norm : (Nat → ℝ) → NormFn) (batches : List (NormBatch Ev4))

theorem decayA_described (hbA : ampsA.mapM (ampUseBuild junk h0) = some builtA)
    (hsA : ∀ a ∈ ampsA, ∀ c ∈ a.new.ls, ¬ IsSpline c) (h : Nat → ℝ) (ev : Ev4) :
    (timeFourBodyPdf [d.M, d.m1, d.m2, d.m3, d.m4] v builtA builtB eff res norm batches).decayA h ev
      = (h v.rate : ℂ) * describedAmplitude d (ampsA.map AmpUse.new) h ev := by
  unfold T4.decayA
  rw [← coherent_described junk h0 d ampsA builtA hbA hsA
    (timeFourBodyPdf [d.M, d.m1, d.m2, d.m3, d.m4] v builtA builtB eff res norm batches) rfl rfl rfl]
  rfl

theorem decayB_described (hbB : ampsB.mapM (ampUseBuild junk h0) = some builtB)
    (hsB : ∀ a ∈ ampsB, ∀ c ∈ a.new.ls, ¬ IsSpline c) (h : Nat → ℝ) (ev : Ev4) :
    (timeFourBodyPdf [d.M, d.m1, d.m2, d.m3, d.m4] v builtA builtB eff res norm batches).decayB h ev
      = describedAmplitude d (ampsB.map AmpUse.new) h ev := by
  unfold T4.decayB
  rw [← coherent_described junk h0 d ampsB builtB hbB hsB
    (timeFourBodyPdf [d.M, d.m1, d.m2, d.m3, d.m4] v builtA builtB eff res norm batches) rfl rfl rfl]
  rfl

/-- **C80 (any resolution)** (what is missing: spline line shapes).  The amplitudes of each list are distinct objects; one may be
in both lists.  After any history of data, evaluations, forced recomputations and generation in which the line shapes with
changed variables are marked, the value at an event is the efficiency times what the resolution makes of the two decay
amplitudes the constructor calls describe, at the present values of the variables. -/
theorem C80_value_partial (hbA : ampsA.mapM (ampUseBuild junk h0) = some builtA)
    (hbB : ampsB.mapM (ampUseBuild junk h0) = some builtB) (hsA : ∀ a ∈ ampsA, ∀ c ∈ a.new.ls, ¬ IsSpline c)
    (hsB : ∀ a ∈ ampsB, ∀ c ∈ a.new.ls, ¬ IsSpline c) (hA : (ampsA.map AmpUse.tag).Nodup) (hB : (ampsB.map AmpUse.tag).Nodup)
    (ops : List (T4.Op LsObj (Nat → ℝ) Ev4)) (c : LsObj → Bool) (h : Nat → ℝ) (hm : MarksFromTD none (ops ++ [.eval c h]))
    (e : Nat) :
    let m := timeFourBodyPdf [d.M, d.m1, d.m2, d.m3, d.m4] v builtA builtB eff res norm batches
    m.valueAt h (m.run (ops ++ [.eval c h])) e = ((T4.currentData [] ops)[e]?).map fun ev =>
      let a := (h v.rate : ℂ) * describedAmplitude d (ampsA.map AmpUse.new) h ev.1
      let b := describedAmplitude d (ampsB.map AmpUse.new) h ev.1
      eff h ev * res h (‖a‖ ^ 2 + ‖b‖ ^ 2) (‖a‖ ^ 2 - ‖b‖ ^ 2) (a * starRingEnd ℂ b).re (a * starRingEnd ℂ b).im
        (h v.tau) ev.2.1 (h v.x) (h v.y) ev.2.2 := by
  intro m
  rw [C67_value_partial m (use_nodup junk h0 _ _ hbA hA) (use_nodup junk h0 _ _ hbB hB) ops c h
    (marks_honest_td _ _ _ _ _ _ _ _ _ _ hm) e]
  congr 1
  funext ev
  rw [decayA_described junk h0 d v ampsA builtA builtB eff res norm batches hbA hsA h ev.1,
    decayB_described junk h0 d v ampsB builtA builtB eff res norm batches hbB hsB h ev.1]
  rfl

/-- **C80 (exact decay time)** (what is missing: spline line shapes).  With the resolution for exactly known decay times the
value is the efficiency times the mixing rate of the described decay. -/
theorem C80_rate_partial (hbA : ampsA.mapM (ampUseBuild junk h0) = some builtA)
    (hbB : ampsB.mapM (ampUseBuild junk h0) = some builtB) (hsA : ∀ a ∈ ampsA, ∀ c ∈ a.new.ls, ¬ IsSpline c)
    (hsB : ∀ a ∈ ampsB, ∀ c ∈ a.new.ls, ¬ IsSpline c) (hA : (ampsA.map AmpUse.tag).Nodup) (hB : (ampsB.map AmpUse.tag).Nodup)
    (ops : List (T4.Op LsObj (Nat → ℝ) Ev4)) (c : LsObj → Bool) (h : Nat → ℝ) (hm : MarksFromTD none (ops ++ [.eval c h]))
    (hres : res h = truthRes) (e : Nat) :
    let m := timeFourBodyPdf [d.M, d.m1, d.m2, d.m3, d.m4] v builtA builtB eff res norm batches
    m.valueAt h (m.run (ops ++ [.eval c h])) e = ((T4.currentData [] ops)[e]?).map fun ev =>
      eff h ev * describedRate d v (ampsA.map AmpUse.new) (ampsB.map AmpUse.new) h ev.1 ev.2.1 := by
  intro m
  rw [C67_rate_partial m (use_nodup junk h0 _ _ hbA hA) (use_nodup junk h0 _ _ hbB hB) ops c h
    (marks_honest_td _ _ _ _ _ _ _ _ _ _ hm) hres e]
  congr 1
  funext ev
  rw [decayA_described junk h0 d v ampsA builtA builtB eff res norm batches hbA hsA h ev.1,
    decayB_described junk h0 d v ampsB builtA builtB eff res norm batches hbB hsB h ev.1]
  rfl

/-- **C80 (normalisation)** (what is missing: spline line shapes; weights that are not whole numbers, see
`C68_violation_weights`).  As long as no events have been generated, the normalisation is the mean over the normalisation events
of the integral of the described rate over the decay time (plain events) and of the weighted rate (weighted events). -/
theorem C80_normalization_partial (hbA : ampsA.mapM (ampUseBuild junk h0) = some builtA)
    (hbB : ampsB.mapM (ampUseBuild junk h0) = some builtB) (hsA : ∀ a ∈ ampsA, ∀ c ∈ a.new.ls, ¬ IsSpline c)
    (hsB : ∀ a ∈ ampsB, ∀ c ∈ a.new.ls, ¬ IsSpline c) (hA : (ampsA.map AmpUse.tag).Nodup) (hB : (ampsB.map AmpUse.tag).Nodup)
    (ops : List (T4.Op LsObj (Nat → ℝ) Ev4)) (hg : T4.NoGenerate ops) (c : LsObj → Bool) (h : Nat → ℝ)
    (hm : MarksFromTD none (ops ++ [.eval c h])) (hres : res h = truthRes) (hnorm : norm h = truthNormalization)
    (hτ : 0 < h v.tau) (hy : |h v.y| < 1) (hw : ∀ b ∈ batches, WholeWeights b) :
    let m := timeFourBodyPdf [d.M, d.m1, d.m2, d.m3, d.m4] v builtA builtB eff res norm batches
    (m.normalize c h (m.run ops)).1
      = (batches.map (describedTotal (describedRate d v (ampsA.map AmpUse.new) (ampsB.map AmpUse.new) h))).sum
        / (batches.map batchWeight).sum := by
  intro m
  rw [C68_norm_partial m (use_nodup junk h0 _ _ hbA hA) (use_nodup junk h0 _ _ hbB hB) ops hg c h
    (marks_honest_td _ _ _ _ _ _ _ _ _ _ hm) hres hnorm hτ hy hw]
  have hrate : ∀ ev t, m.rateAt h ev t = describedRate d v (ampsA.map AmpUse.new) (ampsB.map AmpUse.new) h ev t := by
    intro ev t
    unfold T4.rateAt describedRate
    rw [decayA_described junk h0 d v ampsA builtA builtB eff res norm batches hbA hsA h ev,
      decayB_described junk h0 d v ampsB builtA builtB eff res norm batches hbB hsB h ev]
    rfl
  congr 2
  refine List.map_congr_left fun b _ => ?_
  cases b with
  | plain mc => simp only [T4.batchTotal, describedTotal, hrate]
  | weighted mc => simp only [T4.batchTotal, describedTotal, hrate]

end

/-- Two amplitudes, one of which is in both lists; data, a first evaluation, and a second one after the width has changed, at
which the line shape is marked: the hypotheses of `C80_value_partial` and `C80_rate_partial` hold. -/
example (junk : Nat → Nat → ℝ) (h0 h : Nat → ℝ) (data : List (Ev4 × ℝ × ℝ)) :
    ∃ builtA builtB, [⟨0, exAmp⟩, ⟨1, exAmp⟩].mapM (ampUseBuild junk h0) = some builtA
      ∧ [⟨1, exAmp⟩].mapM (ampUseBuild junk h0) = some builtB
      ∧ (∀ a ∈ [(⟨0, exAmp⟩ : AmpUse), ⟨1, exAmp⟩], ∀ c ∈ a.new.ls, ¬ IsSpline c)
      ∧ ([(⟨0, exAmp⟩ : AmpUse), ⟨1, exAmp⟩].map AmpUse.tag).Nodup
      ∧ MarksFromTD none ([.setData data, .eval (fun _ => true) h0] ++ [.eval (fun _ => true) h]) := by
  obtain ⟨o, ho⟩ : ∃ o, lsBuild junk h0 exRbw = some o := ⟨_, rfl⟩
  have hb : ampBuild junk h0 exAmp = some ⟨[o], exAmp.sf.map sfBuild, 1⟩ := by simp [exAmp, ampBuild, ho]
  refine ⟨[⟨0, exAmp.ar, exAmp.ai, [o], exAmp.sf.map sfBuild, 1⟩, ⟨1, exAmp.ar, exAmp.ai, [o], exAmp.sf.map sfBuild, 1⟩],
    [⟨1, exAmp.ar, exAmp.ai, [o], exAmp.sf.map sfBuild, 1⟩], ?_, ?_, ?_, by decide, ?_⟩
  · simp [ampUseBuild, hb]
  · simp [ampUseBuild, hb]
  · intro a ha c hc
    simp at ha
    rcases ha with rfl | rfl <;> rw [List.mem_singleton.1 hc] <;> exact id
  · exact ⟨fun _ h' => absurd h' (by simp), fun _ _ x hx => absurd hx (by simp), trivial⟩

/-- The hypotheses of `C80_normalization_partial` on variables and batches can be met. -/
example : ∃ (h : Nat → ℝ) (v : MixVars) (b : List (NormBatch Ev4)),
    0 < h v.tau ∧ |h v.y| < 1 ∧ b ≠ [] ∧ ∀ x ∈ b, WholeWeights x := by
  refine ⟨fun i => if i = 0 then 1 else 0, ⟨0, 1, 2, 3⟩, [.plain [⟨1, 1, 0, 0, 0⟩]], by simp, by simp, by simp, ?_⟩
  intro x hx
  rw [List.mem_singleton.1 hx]
  trivial

end GooFit
