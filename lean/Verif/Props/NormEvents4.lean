import Verif.Spec.NormEvents4
import Verif.Props.Momenta4
import Verif.Props.TimeComponent4
import Verif.Props.GenerateAccept
/-!
# C101: the events with which four-body PDFs are normalised
-/
set_option autoImplicit false
namespace GooFit
open Spec MeasureTheory

/-! ### Which events -/

theorem keepFlagged_eq {α : Type} (as : List α) (bs : List Bool) :
    keepFlagged as bs = ((as.zip bs).filter (·.2)).map (·.1) := by
  induction as generalizing bs with
  | nil => simp [keepFlagged]
  | cons a as ih =>
    cases bs with
    | nil => simp [keepFlagged]
    | cons b bs => cases b <;> simp [keepFlagged, ih]

theorem keepFlagged_length {α : Type} (as : List α) (bs : List Bool) (h : bs.length = as.length) :
    (keepFlagged as bs).length = bs.count true := by
  induction as generalizing bs with
  | nil => simp_all [keepFlagged]
  | cons a as ih =>
    cases bs with
    | nil => simp at h
    | cons b bs =>
      have := ih bs (by simpa using h)
      cases b <;> simp [keepFlagged, this]

theorem evaluateArray5_eq (n : Nat) (ps : List Gen4) (h : n ≤ ps.length) :
    evaluateArray5 n ps = (ps.take n).map Gen4.vars := by
  apply List.ext_getElem?
  intro k
  unfold evaluateArray5
  by_cases hk : k < n
  · have : k < ps.length := by omega
    simp [hk, this]
  · simp [hk]

theorem normBatch_eq (r : PhspRun) (h : r.flags.length = r.events.length) :
    normBatch r = .plain ((accepted r).map Gen4.vars) := by
  unfold normBatch PhspRun.nAcc
  have hl := keepFlagged_length r.events r.flags h
  rw [evaluateArray5_eq _ _ hl.ge, ← hl, List.take_length, keepFlagged_eq]
  rfl

/-! ### What they contribute -/

theorem variables_good {d : Decay4} {v : LV ℝ × LV ℝ × LV ℝ × LV ℝ} (hd : IsDecay d.M d.m1 d.m2 d.m3 d.m4 v) (h1 : 0 ≤ d.m1)
    (h2 : 0 ≤ d.m2) (h3 : 0 ≤ d.m3) (h4 : 0 ≤ d.m4) (hg : TwoPlanes v) (h : Nat → ℝ) :
    let x := dim5 v.1 v.2.1 v.2.2.1 v.2.2.2
    (∀ c : LsNew, lineShape4 d c h ⟨x.1, x.2.1, x.2.2.1, x.2.2.2.1, x.2.2.2.2⟩ = lineShapeOf c h (vecOf v))
    ∧ ∀ s : SfNew, spinFactor4 d s ⟨x.1, x.2.1, x.2.2.1, x.2.2.2.1, x.2.2.2.2⟩ = spinFactorOf s (vecOf v) := by
  obtain ⟨R, m12, m34, c12, c34, phi, hR, hi, hc1, hc2, hp1, hp2, hv, hx⟩ := decay_variables hd h1 h2 h3 h4 hg
  intro x
  have hx' : x = (m12, m34, c12, c34, phi) := hx
  rw [hx']
  dsimp only
  have hvec : vecOf (get4Vecs m12 m34 c12 c34 phi d.M d.m1 d.m2 d.m3 d.m4) = fun i => turn R (vecOf v i) := by
    rw [hv, vecOf_turn4]
  constructor
  · intro c
    obtain ⟨k1, k2⟩ := C52_masses_of_named_systems hi hc1.le hc2.le phi (args c).pair
    unfold lineShape4 lineShapeOf
    dsimp only
    cases hp : pairParts (args c).pair with
    | none => rw [k2 hp]; rfl
    | some ab =>
      obtain ⟨r, e0, e1, e2, e3⟩ := k1 ab.1 ab.2 hp
      rw [hvec, massSq_turn hR.1] at e1 e2 e3
      rw [e0]
      simp only [Option.bind_some, e1, e2, e3]
  · intro s
    rw [← spin_turn hR, ← hvec]
    rfl

theorem momentaOf_eq (g : Gen4) : vecOf (g.p1, g.p2, g.p3, g.p4) = momentaOf g := by
  funext i
  fin_cases i <;> rfl

section
variable (d : Decay4) (h1 : 0 ≤ d.m1) (h2 : 0 ≤ d.m2) (h3 : 0 ≤ d.m3) (h4 : 0 ≤ d.m4)
include h1 h2 h3 h4

theorem amplitude_of_momenta (amps : List AmpNew) (h : Nat → ℝ) (g : Gen4)
    (hd : IsDecay d.M d.m1 d.m2 d.m3 d.m4 (g.p1, g.p2, g.p3, g.p4)) (hg : TwoPlanes (g.p1, g.p2, g.p3, g.p4)) :
    describedAmplitude d amps h g.vars = momentaAmplitude amps h (momentaOf g) := by
  obtain ⟨k1, k2⟩ := variables_good hd h1 h2 h3 h4 hg h
  dsimp only at k1 k2
  rw [momentaOf_eq] at k1 k2
  unfold describedAmplitude momentaAmplitude Gen4.vars
  dsimp only
  simp only [k1, k2]

theorem intensity_of_momenta (amps : List AmpNew) (h : Nat → ℝ) (g : Gen4)
    (hd : IsDecay d.M d.m1 d.m2 d.m3 d.m4 (g.p1, g.p2, g.p3, g.p4)) (hg : TwoPlanes (g.p1, g.p2, g.p3, g.p4)) :
    described d amps h g.vars = intensityOf amps h (momentaOf g) := by
  have := C88_intensity hd h1 h2 h3 h4 hg amps h
  dsimp only at this
  rw [momentaOf_eq] at this
  exact this

end

/-- **C101 (the events).** The normalisation events of the time-dependent PDF are, batch by batch, the five variables of the
accepted ones of the generated events, in their order, and they are counted with their number. -/
theorem C101_events (phsp : Int → Nat → PhspRun) (hf : ∀ seed n, (phsp seed n).flags.length = (phsp seed n).events.length)
    (seeds : List Int) (n : Nat) :
    (buildBatches phsp seeds n).map NormBatch.points = seeds.map (fun seed => (accepted (phsp seed n)).map ev4Of)
    ∧ (buildBatches phsp seeds n).map NormBatch.sumInitWeights = seeds.map (fun seed => ((accepted (phsp seed n)).length : ℝ)) := by
  unfold buildBatches
  rw [List.map_map, List.map_map]
  constructor
  · refine List.map_congr_left fun seed _ => ?_
    rw [Function.comp_apply, normBatch_eq _ (hf seed n)]
    rfl
  · refine List.map_congr_left fun seed _ => ?_
    rw [Function.comp_apply, normBatch_eq _ (hf seed n)]
    simp [NormBatch.sumInitWeights]

/-- **C101 (time-dependent PDF)** (what is missing: spline line shapes, other resolutions, events with two momenta of a pair along
one line).  As long as no events have been generated with the PDF, its normalisation is the mean over the accepted phase-space
events of all seeds of the integral over the decay time of the rate of a decay into the momenta of the event. -/
theorem C101_time_partial (junk : Nat → Nat → ℝ) (h0 : Nat → ℝ) (d : Decay4) (h1 : 0 ≤ d.m1) (h2 : 0 ≤ d.m2) (h3 : 0 ≤ d.m3)
    (h4 : 0 ≤ d.m4) (v : MixVars) (ampsA ampsB : List AmpUse)
    (builtA builtB : List (TAmp LsObj SfObj Nat Nat)) (eff : (Nat → ℝ) → Ev4 × ℝ × ℝ → ℝ) (res : (Nat → ℝ) → ResFn)
    (norm : (Nat → ℝ) → NormFn) (hbA : ampsA.mapM (ampUseBuild junk h0) = some builtA)
    (hbB : ampsB.mapM (ampUseBuild junk h0) = some builtB) (hsA : ∀ a ∈ ampsA, ∀ c ∈ a.new.ls, ¬ IsSpline c)
    (hsB : ∀ a ∈ ampsB, ∀ c ∈ a.new.ls, ¬ IsSpline c) (hA : (ampsA.map AmpUse.tag).Nodup) (hB : (ampsB.map AmpUse.tag).Nodup)
    (phsp : Int → Nat → PhspRun) (hf : ∀ seed n, (phsp seed n).flags.length = (phsp seed n).events.length)
    (hd : ∀ seed n, GoodEvents d (phsp seed n).events) (seeds : List Int) (n : Nat)
    (ops : List (T4.Op LsObj (Nat → ℝ) Ev4)) (hg : T4.NoGenerate ops) (c : LsObj → Bool) (h : Nat → ℝ)
    (hm : MarksFromTD none (ops ++ [.eval c h])) (hres : res h = truthRes) (hnorm : norm h = truthNormalization)
    (hτ : 0 < h v.tau) (hy : |h v.y| < 1) :
    let m := timeFourBodyPdf [d.M, d.m1, d.m2, d.m3, d.m4] v builtA builtB eff res norm (buildBatches phsp seeds n)
    let evs := (seeds.map fun seed => accepted (phsp seed n)).flatten
    (m.normalize c h (m.run ops)).1
      = (evs.map fun g => ∫ t in Set.Ioi 0, momentaRate v (ampsA.map AmpUse.new) (ampsB.map AmpUse.new) h (momentaOf g) t).sum
        / (evs.length : ℝ) := by
  intro m evs
  have hb : buildBatches phsp seeds n = seeds.map fun seed => .plain ((accepted (phsp seed n)).map Gen4.vars) :=
    List.map_congr_left fun seed _ => normBatch_eq _ (hf seed n)
  have hr : ∀ seed, ∀ g ∈ accepted (phsp seed n), ∀ t,
      describedRate d v (ampsA.map AmpUse.new) (ampsB.map AmpUse.new) h g.vars t
        = momentaRate v (ampsA.map AmpUse.new) (ampsB.map AmpUse.new) h (momentaOf g) t := by
    intro seed g hg' t
    have hmem : g ∈ (phsp seed n).events := by
      unfold accepted at hg'
      obtain ⟨x, hx, rfl⟩ := List.mem_map.1 hg'
      exact (List.of_mem_zip (List.mem_filter.1 hx).1).1
    obtain ⟨k1, k2⟩ := hd seed n g hmem
    unfold describedRate momentaRate
    rw [amplitude_of_momenta d h1 h2 h3 h4 _ h g k1 k2, amplitude_of_momenta d h1 h2 h3 h4 _ h g k1 k2]
  have key := C80_normalization_partial junk h0 d v ampsA ampsB builtA builtB eff res norm (buildBatches phsp seeds n) hbA hbB hsA hsB
    hA hB ops hg c h hm hres hnorm hτ hy (by
      rw [hb]
      intro b hb'
      obtain ⟨_, _, rfl⟩ := List.mem_map.1 hb'
      trivial)
  dsimp only at key
  refine key.trans ?_
  rw [hb, List.map_map, List.map_map]
  congr 1
  · simp only [evs]
    clear hb key
    induction seeds with
    | nil => rfl
    | cons a l ih =>
      dsimp only at ih
      rw [List.map_cons, List.sum_cons, ih, List.map_cons, List.flatten_cons, List.map_append, List.sum_append]
      congr 1
      simp only [Function.comp_apply, describedTotal, List.map_map]
      congr 1
      refine List.map_congr_left fun g hg' => ?_
      simp only [Function.comp_apply, hr a g hg']
  · simp only [evs]
    clear hb key
    induction seeds with
    | nil => simp
    | cons a l ih =>
      dsimp only at ih
      rw [List.map_cons, List.sum_cons, ih, List.map_cons, List.flatten_cons, List.length_append]
      simp [Function.comp_apply, batchWeight]

/-! ### They represent the phase space -/

theorem keepFlagged_sum (F : Gen4 → ℝ) (as : List Gen4) (p : Fin as.length → Bool) :
    ((keepFlagged as (List.ofFn p)).map F).sum = ∑ k : Fin as.length, if p k then F as[k] else 0 := by
  induction as with
  | nil => simp [keepFlagged]
  | cons a as ih =>
    have e : List.ofFn p = p 0 :: List.ofFn fun k : Fin as.length => p k.succ := List.ofFn_succ
    have k := ih fun k => p k.succ
    rw [e]
    have hs := Fin.sum_univ_succ (fun k : Fin (as.length + 1) => if p k then F (a :: as)[k] else 0)
    refine Eq.trans ?_ hs.symm
    by_cases hp : p 0 = true
    · simp only [keepFlagged, hp]
      simpa using k
    · simp only [keepFlagged, hp]
      simpa using k

/-- **C101 (representative).** If the events are accepted with independent uniform numbers and a bound `W` of the weights, the
expected sum of any quantity over the normalisation events is the sum over all generated events with their phase-space weights,
divided by the bound.  (With the quantity 1: the expected number of normalisation events.) -/
theorem C101_representative (evs : List Gen4) (W : ℝ) (hW : 0 < W) (hw : ∀ g ∈ evs, 0 ≤ g.w ∧ g.w ≤ W) (f : Ev4 → ℝ) :
    ∫ U, ((normBatch (acceptBelow W evs U)).points.map f).sum ∂(uniforms evs.length)
      = (evs.map fun g => g.w * f (ev4Of g)).sum / W := by
  have hp : ∀ U : Fin evs.length → ℝ, ((normBatch (acceptBelow W evs U)).points.map f).sum
      = ∑ k : Fin evs.length, Set.indicator {U : Fin evs.length → ℝ | U k * W < evs[k].w} (fun _ => f (ev4Of evs[k])) U := by
    intro U
    rw [normBatch_eq _ (by simp [acceptBelow])]
    simp only [NormBatch.points, List.map_map]
    unfold accepted
    rw [← keepFlagged_eq]
    have := keepFlagged_sum (f ∘ Gen4.vars) evs (fun k => decide (U k * W < evs[k].w))
    refine this.trans (Finset.sum_congr rfl fun k _ => ?_)
    simp only [Set.indicator, Set.mem_ofPred_eq, decide_eq_true_eq, Function.comp_apply]
    rfl
  have hms : ∀ k : Fin evs.length, MeasurableSet {U : Fin evs.length → ℝ | U k * W < evs[k].w} := fun k =>
    measurableSet_lt (by fun_prop) (by fun_prop)
  simp only [hp]
  rw [integral_finsetSum]
  · have : (evs.map fun g => g.w * f (ev4Of g)).sum = ∑ k : Fin evs.length, evs[k].w * f (ev4Of evs[k]) := by
      rw [← List.sum_ofFn]
      congr 1
      exact (List.ofFn_getElem_eq_map evs _).symm
    rw [this, Finset.sum_div]
    refine Finset.sum_congr rfl fun k _ => ?_
    have hset : {U : Fin evs.length → ℝ | U k * W < evs[k].w} = Function.eval k ⁻¹' {u | u * W < evs[k].w} := rfl
    have hk := hw evs[k] (List.getElem_mem k.2)
    rw [integral_indicator_const _ (hms k), Measure.real, hset,
      (measurePreserving_eval (fun _ : Fin evs.length => uniform01) k).measure_preimage
        (measurableSet_lt (by fun_prop) (by fun_prop)).nullMeasurableSet, below_measure _ _ hk.1 hk.2 hW,
      ENNReal.toReal_ofReal (div_nonneg hk.1 hW.le), smul_eq_mul]
    ring
  · intro k _
    exact (integrable_const _).indicator (hms k)

/-! ### The time-independent PDF -/

/-- **C101 (time-independent PDF)** (what is missing: that these are the accepted events, see `C101_violation_flags`; spline line
shapes, events with two momenta of a pair along one line).  As long as no events have been generated with the PDF, its
normalisation is the mean intensity of the first of the generated events, as many as are accepted. -/
theorem C101_plain_partial (junk : Nat → Nat → ℝ) (h0 : Nat → ℝ) (d : Decay4) (h1 : 0 ≤ d.m1) (h2 : 0 ≤ d.m2) (h3 : 0 ≤ d.m3)
    (h4 : 0 ≤ d.m4) (amps : List AmpNew)
    (built : List (Amp4 LsObj SfObj)) (hb : amps.mapM (ampBuild junk h0) = some built)
    (hs : ∀ a ∈ amps, ∀ c ∈ a.ls, ¬ IsSpline c) (eff : (Nat → ℝ) → Ev4 → ℝ) (run : PhspRun)
    (hf : run.flags.length = run.events.length) (hd : GoodEvents d run.events)
    (ops : List (A4.Op LsObj (Nat → ℝ) Ev4)) (hg : ∀ op ∈ ops, ∀ d c p, op ≠ .generate d c p) (c : LsObj → Bool) (h : Nat → ℝ)
    (hm : MarksFrom none (ops ++ [.eval c h])) (s0 s : A4State ℝ Ev4)
    (hr : (fourBodyPdf [d.M, d.m1, d.m2, d.m3, d.m4] amps built eff (ampNormEvents run)).run Real.sqrt ops = some s0) (r : ℝ)
    (hn : (fourBodyPdf [d.M, d.m1, d.m2, d.m3, d.m4] amps built eff (ampNormEvents run)).normalize Real.sqrt c h s0 = some (r, s)) :
    r = ((run.events.take (accepted run).length).map fun g => intensityOf amps h (momentaOf g)).sum
      / ((accepted run).length : ℝ) := by
  have hl : (accepted run).length = run.nAcc := by
    unfold accepted PhspRun.nAcc
    rw [← keepFlagged_eq, keepFlagged_length _ _ hf]
  have hle : run.nAcc ≤ run.events.length := by
    rw [← hf]
    exact List.count_le_length
  rw [C78_normalization_partial junk h0 d amps built hb hs eff _ ops hg c h hm s0 s hr r hn, hl]
  unfold ampNormEvents
  rw [evaluateArray5_eq _ _ hle, List.map_map]
  congr 1
  · congr 1
    refine List.map_congr_left fun g hg' => ?_
    obtain ⟨k1, k2⟩ := hd g (List.mem_of_mem_take hg')
    exact intensity_of_momenta d h1 h2 h3 h4 amps h g k1 k2
  · rw [List.length_map, List.length_take, min_eq_left hle]

namespace DemoNorm

/-- Two decays of a particle of mass 20 into four of mass 4. -/
def g1 : Gen4 := ⟨⟨2, 2, 1, 5⟩, ⟨2, -2, -1, 5⟩, ⟨-2, 1, 2, 5⟩, ⟨-2, -1, -2, 5⟩, 1⟩
/-- In the second the second pair goes in the directions of the first. -/
def g2 : Gen4 := ⟨⟨2, 2, 1, 5⟩, ⟨2, -2, -1, 5⟩, ⟨-2, 2, 1, 5⟩, ⟨-2, -2, -1, 5⟩, 2⟩

/-- A decay into two vector particles without resonance. -/
noncomputable def amp : AmpNew := ⟨0, 1, [.one ⟨"one", 0, 0, .One, 1⟩ 2 3], [⟨"VV", .dtoV1V2_S, 0, 0, 1, 2, 3⟩], 1⟩

theorem good : GoodEvents ⟨20, 4, 4, 4, 4⟩ [g1, g2] := by
  intro g hg
  simp only [List.mem_cons, List.not_mem_nil, or_false] at hg
  rcases hg with rfl | rfl
  · constructor
    · constructor <;> norm_num [g1]
    · constructor <;> norm_num [g1, OneLine]
  · constructor
    · constructor <;> norm_num [g2]
    · constructor <;> norm_num [g2, OneLine]

theorem intensity_of_sf (h : Nat → ℝ) (V : Fin 4 → LV ℝ) :
    intensityOf [amp] h V = (h 0 ^ 2 + h 1 ^ 2) * dtoVV_S (V 0) (V 1) (V 2) (V 3) ^ 2 := by
  have h2 : (spinFactorOf ⟨"VV", .dtoV1V2_S, 0, 0, 1, 2, 3⟩ V).getD 0 = dtoVV_S (V 0) (V 1) (V 2) (V 3) := by
    simp [spinFactorOf, spinFactorVal]
  have h1 : (lineShapeOf (.one ⟨"one", 0, 0, .One, 1⟩ 2 3) h V).getD 0 = 1 := by
    simp [lineShapeOf, args, pairParts, lineShapeAt]
  unfold intensityOf amp
  simp only [List.map_cons, List.map_nil, h1, h2]
  simp [intensity4, amplitude4, part, toCx, Cx.norm, Cx.ofReal]
  ring

theorem add_mk (x y z e x' y' z' e' : ℝ) : (⟨x, y, z, e⟩ : LV ℝ) + ⟨x', y', z', e'⟩ = ⟨x + x', y + y', z + z', e + e'⟩ := rfl
theorem sub_mk (x y z e x' y' z' e' : ℝ) : (⟨x, y, z, e⟩ : LV ℝ) - ⟨x', y', z', e'⟩ = ⟨x - x', y - y', z - z', e - e'⟩ := rfl

theorem sf1 : dtoVV_S g1.p1 g1.p2 g1.p3 g1.p4 = -16 := by
  norm_num [dtoVV_S, g1, LV.mink, add_mk, sub_mk]

theorem sf2 : dtoVV_S g2.p1 g2.p2 g2.p3 g2.p4 = -20 := by
  norm_num [dtoVV_S, g2, LV.mink, add_mk, sub_mk]

/-- The events in the order they are generated; the second is accepted. -/
noncomputable def phspRun : PhspRun := ⟨[g1, g2], [false, true]⟩

end DemoNorm

/-- **C101 (violation).** The normalisation events of the time-independent PDF do not depend on which of the generated events are
accepted, but only on their number.  In a PDF with two generated events, of which the second is accepted, the normalisation is the
intensity of the first one and not that of the accepted one. -/
theorem C101_violation_flags :
    (∀ (evs : List Gen4) (fl fl' : List Bool), fl.count true = fl'.count true → ampNormEvents ⟨evs, fl⟩ = ampNormEvents ⟨evs, fl'⟩)
    ∧ ∃ (d : Decay4) (amps : List AmpNew) (run : PhspRun), GoodEvents d run.events ∧ run.flags.length = run.events.length
      ∧ (accepted run).length = 1
      ∧ ∀ (junk : Nat → Nat → ℝ) (h0 h : Nat → ℝ) (eff : (Nat → ℝ) → Ev4 → ℝ), h 0 = 1 → h 1 = 0 →
        ∃ built s0 s r, amps.mapM (ampBuild junk h0) = some built
          ∧ (fourBodyPdf [d.M, d.m1, d.m2, d.m3, d.m4] amps built eff (ampNormEvents run)).run Real.sqrt [] = some s0
          ∧ (fourBodyPdf [d.M, d.m1, d.m2, d.m3, d.m4] amps built eff (ampNormEvents run)).normalize Real.sqrt (fun _ => true) h s0
            = some (r, s)
          ∧ r = 256
          ∧ ((accepted run).map fun g => intensityOf amps h (momentaOf g)).sum / ((accepted run).length : ℝ) = 400 := by
  refine ⟨fun evs fl fl' e => by simp only [ampNormEvents, PhspRun.nAcc, e], ⟨20, 4, 4, 4, 4⟩, [DemoNorm.amp], DemoNorm.phspRun,
    DemoNorm.good, rfl, rfl, ?_⟩
  intro junk h0 h eff e0 e1
  obtain ⟨o, ho⟩ : ∃ o, lsBuild junk h0 (.one ⟨"one", 0, 0, .One, 1⟩ 2 3) = some o := ⟨_, rfl⟩
  have hb : [DemoNorm.amp].mapM (ampBuild junk h0) = some [⟨[o], DemoNorm.amp.sf.map sfBuild, 1⟩] := by
    simp [DemoNorm.amp, ampBuild, ho]
  have hle : (lineShapesOf [(⟨[o], DemoNorm.amp.sf.map sfBuild, 1⟩ : Amp4 LsObj SfObj)]).length ≤ 1 := by
    simp [lineShapesOf, addUnique]
  obtain ⟨s0, hs0⟩ := Option.ne_none_iff_exists'.1 (C49_no_overflow Real.sqrt
    (fourBodyPdf [20, 4, 4, 4, 4] [DemoNorm.amp] [⟨[o], DemoNorm.amp.sf.map sfBuild, 1⟩] eff (ampNormEvents DemoNorm.phspRun)) hle [])
  obtain ⟨rs, hrs⟩ : ∃ rs, (fourBodyPdf [20, 4, 4, 4, 4] [DemoNorm.amp] [⟨[o], DemoNorm.amp.sf.map sfBuild, 1⟩] eff
      (ampNormEvents DemoNorm.phspRun)).normalize Real.sqrt (fun _ => true) h s0 = some rs := by
    obtain ⟨s1, hs1⟩ := Option.ne_none_iff_exists'.1 (C49_no_overflow Real.sqrt
      (fourBodyPdf [20, 4, 4, 4, 4] [DemoNorm.amp] [⟨[o], DemoNorm.amp.sf.map sfBuild, 1⟩] eff (ampNormEvents DemoNorm.phspRun)) hle
      [.eval (fun _ => true) h])
    simp only [A4.run, List.foldlM_nil, List.foldlM_cons, A4.step] at hs0 hs1
    rw [Option.some.inj hs0] at hs1
    cases hx : A4.normalize Real.sqrt (fourBodyPdf [20, 4, 4, 4, 4] [DemoNorm.amp] [⟨[o], DemoNorm.amp.sf.map sfBuild, 1⟩] eff
        (ampNormEvents DemoNorm.phspRun)) (fun _ => true) h s0 with
    | none => rw [hx] at hs1; simp at hs1
    | some rs => exact ⟨rs, rfl⟩
  have hr := C101_plain_partial junk h0 ⟨20, 4, 4, 4, 4⟩ (by norm_num) (by norm_num) (by norm_num) (by norm_num) [DemoNorm.amp] _ hb
    (by intro a ha c hc; rw [List.mem_singleton.1 ha] at hc; rw [List.mem_singleton.1 hc]; exact id) eff DemoNorm.phspRun rfl
    DemoNorm.good [] (by simp) (fun _ => true) h ⟨fun _ h => absurd h (by simp), trivial⟩ s0 rs.2 hs0 rs.1 hrs
  refine ⟨_, s0, rs.2, rs.1, hb, hs0, hrs, ?_, ?_⟩
  · rw [hr]
    have : DemoNorm.phspRun.events.take (accepted DemoNorm.phspRun).length = [DemoNorm.g1] := rfl
    rw [this, show (accepted DemoNorm.phspRun).length = 1 from rfl]
    simp only [List.map_cons, List.map_nil, DemoNorm.intensity_of_sf, e0, e1]
    have : dtoVV_S (momentaOf DemoNorm.g1 0) (momentaOf DemoNorm.g1 1) (momentaOf DemoNorm.g1 2) (momentaOf DemoNorm.g1 3) = -16 :=
      DemoNorm.sf1
    rw [this]
    norm_num
  · have : accepted DemoNorm.phspRun = [DemoNorm.g2] := rfl
    rw [this]
    simp only [List.map_cons, List.map_nil, DemoNorm.intensity_of_sf, e0, e1]
    have : dtoVV_S (momentaOf DemoNorm.g2 0) (momentaOf DemoNorm.g2 1) (momentaOf DemoNorm.g2 2) (momentaOf DemoNorm.g2 3) = -20 :=
      DemoNorm.sf2
    rw [this]
    norm_num

/-- Two seeds: of the events of one the second is accepted, of those of the other both.  The hypotheses of `C101_events` and
`C101_time_partial` on the generated events hold, and there are three normalisation events. -/
example : let phsp : Int → Nat → PhspRun := fun seed _ => if seed = 0 then DemoNorm.phspRun else ⟨[DemoNorm.g1, DemoNorm.g2], [true, true]⟩
    (∀ seed n, (phsp seed n).flags.length = (phsp seed n).events.length)
    ∧ (∀ seed n, GoodEvents ⟨20, 4, 4, 4, 4⟩ (phsp seed n).events)
    ∧ ([0, 1].map fun seed => accepted (phsp seed 2)).flatten = [DemoNorm.g2, DemoNorm.g1, DemoNorm.g2] := by
  intro phsp
  refine ⟨fun seed n => ?_, fun seed n => ?_, rfl⟩
  · by_cases h : seed = 0 <;> simp [phsp, h, DemoNorm.phspRun]
  · by_cases h : seed = 0
    · simp only [phsp, h, if_true]
      exact DemoNorm.good
    · simp only [phsp, h, if_false]
      exact DemoNorm.good

/-- The remaining hypotheses of `C101_time_partial` hold for a PDF of two amplitudes at its first evaluation. -/
example (junk : Nat → Nat → ℝ) (h0 : Nat → ℝ) (data : List (Ev4 × ℝ × ℝ)) :
    ∃ (v : MixVars) (h : Nat → ℝ) (builtA builtB : List (TAmp LsObj SfObj Nat Nat)),
      [⟨0, DemoNorm.amp⟩].mapM (ampUseBuild junk h0) = some builtA ∧ [⟨1, DemoNorm.amp⟩].mapM (ampUseBuild junk h0) = some builtB
      ∧ (∀ a ∈ [(⟨0, DemoNorm.amp⟩ : AmpUse), ⟨1, DemoNorm.amp⟩], ∀ c ∈ a.new.ls, ¬ IsSpline c)
      ∧ T4.NoGenerate [(.setData data : T4.Op LsObj (Nat → ℝ) Ev4)]
      ∧ MarksFromTD none ([.setData data] ++ [.eval (fun _ => true) h]) ∧ 0 < h v.tau ∧ |h v.y| < 1 := by
  obtain ⟨o, ho⟩ : ∃ o, lsBuild junk h0 (.one ⟨"one", 0, 0, .One, 1⟩ 2 3) = some o := ⟨_, rfl⟩
  have hb : ampBuild junk h0 DemoNorm.amp = some ⟨[o], DemoNorm.amp.sf.map sfBuild, 1⟩ := by simp [DemoNorm.amp, ampBuild, ho]
  refine ⟨⟨0, 1, 2, 3⟩, fun i => if i = 0 then 1 else 0, [⟨0, DemoNorm.amp.ar, DemoNorm.amp.ai, [o], DemoNorm.amp.sf.map sfBuild, 1⟩],
    [⟨1, DemoNorm.amp.ar, DemoNorm.amp.ai, [o], DemoNorm.amp.sf.map sfBuild, 1⟩], ?_, ?_, ?_, ?_, ?_, by simp, by simp⟩
  · simp [ampUseBuild, hb]
  · simp [ampUseBuild, hb]
  · intro a ha c hc
    simp at ha
    rcases ha with rfl | rfl <;> rw [List.mem_singleton.1 hc] <;> exact id
  · simp [T4.NoGenerate]
  · exact ⟨fun _ h' => absurd h' (by simp), trivial⟩

/-- Two events of weights 1 and 2 with the bound 2: the expected number of normalisation events is 3/2. -/
example : ∫ U, ((normBatch (acceptBelow 2 [DemoNorm.g1, DemoNorm.g2] U)).points.map fun _ => (1 : ℝ)).sum ∂(uniforms 2) = 3 / 2 := by
  have := C101_representative [DemoNorm.g1, DemoNorm.g2] 2 (by norm_num) (by
    intro g hg
    simp only [List.mem_cons, List.not_mem_nil, or_false] at hg
    rcases hg with rfl | rfl <;> norm_num [DemoNorm.g1, DemoNorm.g2]) (fun _ => 1)
  refine this.trans ?_
  norm_num [DemoNorm.g1, DemoNorm.g2]

end GooFit
