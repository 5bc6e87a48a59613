import Verif.Props.Fit3
import Verif.Props.TimeDalitz3
/-!
# C97: a fit of a time-dependent three-body amplitude minimises its likelihood
-/
set_option autoImplicit false
namespace GooFit
open Spec FpOps
attribute [local instance] FpOps.ofField

section
variable {L : Lib ℝ}

/-- The sum of the metric over the events. -/
private theorem sumOfNll_eqT (D : T3) (s : T3State) (h : Nat → ℝ) (norm : ℝ) (data : List Ev7) (f : Ev7 → ℝ)
    (hent : s.entries = data.length) (hval : ∀ (k : Nat) ev, data[k]? = some ev → D.value s h k = some (f ev)) :
    D.sumOfNll s h norm = some ((data.map fun ev => if f ev * norm > 0 then -Real.log (f ev * norm) else 0).sum) := by
  unfold T3.sumOfNll
  rw [hent, mapM_to_map _ (fun k => match data[k]? with
    | some ev => if f ev * norm > 0 then -Real.log (f ev * norm) else 0
    | none => 0)]
  · rw [Option.map_some]
    congr 2
    apply List.ext_getElem (by simp)
    intro k h1 h2
    have hk : k < data.length := by simpa using h1
    simp [List.getElem?_eq_getElem hk]
  · intro k hk
    rw [List.mem_range] at hk
    rw [hval k data[k] (List.getElem?_eq_getElem hk), List.getElem?_eq_getElem hk]
    rfl

private theorem nllT_eq (d : DalitzCtx) (v : MixVars) (rs : List (ResUse ResNew)) (eff : (Nat → ℝ) → ℝ → ℝ → ℝ) (h : Nat → ℝ)
    (f : ℝ) (g : TdRange) (data : List Ev7) (hpos : 0 < timeTotal3 d v rs eff h f g) :
    (data.map fun ev => if timeDensity3 d v rs eff h ev.tag ev.m12 ev.m13 ev.time * (1 / timeTotal3 d v rs eff h f g) > 0
        then -Real.log (timeDensity3 d v rs eff h ev.tag ev.m12 ev.m13 ev.time * (1 / timeTotal3 d v rs eff h f g)) else 0).sum
      = timeNll3 d v rs eff h f g data := by
  unfold timeNll3
  rw [← sum_map_filter]
  congr 1
  apply List.map_congr_left
  intro ev _
  have h1 : timeDensity3 d v rs eff h ev.tag ev.m12 ev.m13 ev.time * (1 / timeTotal3 d v rs eff h f g) > 0
      ↔ 0 < timeDensity3 d v rs eff h ev.tag ev.m12 ev.m13 ev.time := by
    have : 0 < 1 / timeTotal3 d v rs eff h f g := by positivity
    exact mul_pos_iff_of_pos_right this
  rw [show timeDensity3 d v rs eff h ev.tag ev.m12 ev.m13 ev.time * (1 / timeTotal3 d v rs eff h f g)
    = timeDensity3 d v rs eff h ev.tag ev.m12 ev.m13 ev.time / timeTotal3 d v rs eff h f g by ring] at h1 ⊢
  by_cases hc : 0 < timeDensity3 d v rs eff h ev.tag ev.m12 ev.m13 ev.time
  · rw [if_pos (h1.mpr hc), if_pos (by simpa using hc)]
  · rw [if_neg fun hh => hc (h1.mp hh), if_neg (by simpa using hc)]

/-- **C97, the parameters.**  Everything the described density depends on is fitted: it is the same, at every point, time and
flavour, whenever the parameters of the PDF, which are those the minimiser is told of, have the same values. -/
theorem C97_parameters (d : DalitzCtx) (table : Nat → ℝ) (v : MixVars) (rs : List (ResUse ResNew)) (built : List (ResUse ResObj))
    (hb : resBuildAll rs = some built) (hs : ∀ r ∈ rs, ¬ IsSplineRes r.res) (eff : (Nat → ℝ) → ℝ → ℝ → ℝ)
    (heff : ∀ h h', eff h = eff h') (leaf : ResObj → L.Leaf) (resolution efficiency : Pdf L) (h h' : Nat → ℝ)
    (hv : ∀ i ∈ ((t3Pdf d table v built eff).tree leaf resolution efficiency).getParameters, h i = h' i) :
    timeDensity3 d v rs eff h = timeDensity3 d v rs eff h' := by
  have hown : ∀ i ∈ (t3Pdf d table v built eff).params, h i = h' i := by
    intro i hi
    apply hv
    unfold Pdf.getParameters T3.tree
    rw [mem_gather_own]
    exact Or.inl hi
  have hmix : ∀ i ∈ [v.tau, v.x, v.y, v.dx, v.dy], h i = h' i := by
    intro i hi
    apply hown
    unfold T3.params
    rw [List.mem_append]
    exact Or.inl hi
  have hmem : ∀ r ∈ built, h r.ar = h' r.ar ∧ h r.ai = h' r.ai ∧ ∀ i ∈ r.res.params, h i = h' i := by
    intro r hr
    have own : ∀ i ∈ [r.ar, r.ai], h i = h' i := by
      intro i hi
      apply hown
      unfold T3.params
      rw [List.mem_append]
      exact Or.inr (List.mem_flatMap.mpr ⟨r, hr, hi⟩)
    refine ⟨own _ (by simp), own _ (by simp), ?_⟩
    intro i hi
    apply hv
    unfold Pdf.getParameters T3.tree
    rw [mem_gather_own]
    right
    obtain ⟨k, hk⟩ := List.getElem?_of_mem hr
    refine ⟨.mk ⟨k + 1, .leaf (leaf r.res), r.res.params, r.res.consts, [], 1⟩ [], ?_, hi⟩
    rw [List.mem_append, List.mem_map]
    left
    refine ⟨(r, k), ?_, rfl⟩
    rw [List.mem_zipIdx_iff_getElem?]
    exact hk
  have ht : ∀ x y, amplitude3 d rs h x y = amplitude3 d rs h' x y := by
    intro x y
    rw [← t3_amplitude d table v rs built hb hs eff h, ← t3_amplitude d table v rs built hb hs eff h']
    congr 1
    apply List.map_congr_left
    intro r hr
    obtain ⟨q1, q2, q3⟩ := hmem r hr
    rw [q1, q2, t3_depends _ r.res h h' q3]
  funext q x y t
  unfold timeDensity3
  rw [ht, ht, heff h h', hmix v.tau (by simp), hmix v.x (by simp), hmix v.y (by simp), hmix v.dx (by simp), hmix v.dy (by simp)]

/-- The state of the amplitude at one call of the FCN, after any number of earlier ones. -/
theorem one_stateT (d : DalitzCtx) (hd : GoodMasses d) (table : Nat → ℝ) (w : MixVars) (rs : List (ResUse ResNew))
    (built : List (ResUse ResObj)) (hb : resBuildAll rs = some built) (hs : ∀ r ∈ rs, ¬ IsSplineRes r.res)
    (h16 : rs.length ≤ 16) (eff : (Nat → ℝ) → ℝ → ℝ → ℝ) (heff : ∀ h h', eff h = eff h')
    (t : Pdf L) (s : T3State) (hn : ∀ g, s.normRange = some g → g = s.grid) (hw : s.mistag.value = 0)
    (data : List Ev7) (hdata : Tagged data)
    (give : List T3Op) (hgive : GivesData7 data give) (h g : Pars ℝ) (evs : List ((ResObj → Bool) × (Nat → ℝ))) (s' : T3State)
    (hgi : Indexed t.getParameters g) (hgb : ∀ i ∈ t.getParameters, (g i).blind = 0)
    (hgo : ∀ i, i ∉ t.getParameters → (g i).value = (h i).value)
    (hrun' : (t3Pdf d table w built eff).run s (give ++ evs.map fun e => .eval e.1 e.2) = some s') (hm : MarksFrom3 none evs)
    (hlast : ∀ h0, (evs.getLast?.map (·.2)) = some h0 → ∀ i, (g i).value = h0 i)
    (v : List ℝ) (hlen : t.getParameters.length ≤ v.length)
    (hdec : Decays w (valuesAt t.getParameters v fun i => (h i).value)) :
    ∃ g' s3', fcnAt t v g = some g' ∧
      (fun i => (g' i).value) = valuesAt t.getParameters v (fun i => (h i).value) ∧
      (t3Pdf d table w built eff).normalize s' (t3Marks g') (valuesAt t.getParameters v fun i => (h i).value)
        = some (s3', timeTotal3 d w rs eff (valuesAt t.getParameters v fun i => (h i).value) s.fraction s.grid) ∧
      s3'.entries = data.length ∧ s3'.data = data ∧
      (∀ (k : Nat) ev, data[k]? = some ev → (t3Pdf d table w built eff).value s3' (valuesAt t.getParameters v fun i => (h i).value) k
        = some (timeDensity3 d w rs eff (valuesAt t.getParameters v fun i => (h i).value) ev.tag ev.m12 ev.m13 ev.time))
      ∧ Indexed t.getParameters g' ∧ (∀ i ∈ t.getParameters, (g' i).blind = 0)
      ∧ (∀ i, i ∉ t.getParameters → (g' i).value = (h i).value)
      ∧ ∃ evs', (t3Pdf d table w built eff).run s (give ++ evs'.map fun e => .eval e.1 e.2) = some s3' ∧ MarksFrom3 none evs'
        ∧ (∀ h0, (evs'.getLast?.map (·.2)) = some h0 → ∀ i, (g' i).value = h0 i) := by
  set D := t3Pdf d table w built eff with hD
  set hv := valuesAt t.getParameters v fun i => (h i).value with hhv
  obtain ⟨g', hfcn, hgi', hgb', hgv, hgm⟩ := call_values t v g hgi hgb hlen
  have hat : (fun i => (g' i).value) = hv := by
    rw [hgv]
    funext i
    show (if _ then _ else (g i).value) = (if _ then _ else (h i).value)
    split_ifs with hi
    · rfl
    · exact hgo i hi
  have hm' : MarksFrom3 none (evs ++ [(t3Marks g', hv)]) := by
    refine marks_snoc _ evs none hm ?_
    intro h0 hh0 o ho i hi
    rw [Option.or_none] at hh0
    rw [← hlast h0 hh0 i, ← hgm o.params ho i hi]
    exact (congrFun hat i).symm
  have hl16 : D.res.length ≤ 16 := by have := built_length rs built hb; simp only [hD, t3Pdf]; omega
  obtain ⟨s1, hr1, hno, e2, hi⟩ := program_runT D hl16 s hn data give hgive (some (eff hv)) evs (t3Marks g') hv hm'
    (fun e he x _ => (heff _ _).trans (Option.some.inj he))
  have e1 : s1 = s' := Option.some.inj (hr1.symm.trans hrun')
  subst e1
  have hnorm := inv_normT d hd table w rs built hb hs eff _ data s.grid s.mistag hw s.fraction hv hdec hi
  refine ⟨g', D.refresh s1 (t3Marks g') hv, hfcn, hat, by rw [hno, hnorm], hi.entries_eq, hi.data_eq,
    fun k ev hev => inv_valueT d hd table w rs built hb hs h16 eff _ data hdata _ _ _ _ hv hi k ev hev,
    hgi', hgb', ?_, evs ++ [(t3Marks g', hv)], e2, hm', ?_⟩
  · intro i hi
    rw [congrFun hgv i]
    unfold valuesAt
    rw [if_neg hi]
    exact hgo i hi
  · intro h0 hh0 i
    rw [List.getLast?_concat] at hh0
    rw [← Option.some.inj hh0]
    exact congrFun hat i

/-- One call of the FCN, after any number of earlier ones. -/
private theorem one_callT (d : DalitzCtx) (hd : GoodMasses d) (table : Nat → ℝ) (w : MixVars) (rs : List (ResUse ResNew))
    (built : List (ResUse ResObj)) (hb : resBuildAll rs = some built) (hs : ∀ r ∈ rs, ¬ IsSplineRes r.res)
    (h16 : rs.length ≤ 16) (eff : (Nat → ℝ) → ℝ → ℝ → ℝ) (heff : ∀ h h', eff h = eff h')
    (t : Pdf L) (s : T3State) (hn : ∀ g, s.normRange = some g → g = s.grid) (hw : s.mistag.value = 0)
    (data : List Ev7) (hdata : Tagged data)
    (give : List T3Op) (hgive : GivesData7 data give) (h g : Pars ℝ) (evs : List ((ResObj → Bool) × (Nat → ℝ))) (s' : T3State)
    (hgi : Indexed t.getParameters g) (hgb : ∀ i ∈ t.getParameters, (g i).blind = 0)
    (hgo : ∀ i, i ∉ t.getParameters → (g i).value = (h i).value)
    (hrun' : (t3Pdf d table w built eff).run s (give ++ evs.map fun e => .eval e.1 e.2) = some s') (hm : MarksFrom3 none evs)
    (hlast : ∀ h0, (evs.getLast?.map (·.2)) = some h0 → ∀ i, (g i).value = h0 i)
    (v : List ℝ) (hlen : t.getParameters.length ≤ v.length)
    (hdec : Decays w (valuesAt t.getParameters v fun i => (h i).value))
    (htot : 0 < timeTotal3 d w rs eff (valuesAt t.getParameters v fun i => (h i).value) s.fraction s.grid) :
    ∃ g' s3', fcnAt t v g = some g' ∧
      (t3Pdf d table w built eff).calculateNLL s' g'
        = (if timeNll3 d w rs eff (valuesAt t.getParameters v fun i => (h i).value) s.fraction s.grid data = 0 then .aborted
            else .done (timeNll3 d w rs eff (valuesAt t.getParameters v fun i => (h i).value) s.fraction s.grid data, s3'))
      ∧ Indexed t.getParameters g' ∧ (∀ i ∈ t.getParameters, (g' i).blind = 0)
      ∧ (∀ i, i ∉ t.getParameters → (g' i).value = (h i).value)
      ∧ ∃ evs', (t3Pdf d table w built eff).run s (give ++ evs'.map fun e => .eval e.1 e.2) = some s3' ∧ MarksFrom3 none evs'
        ∧ (∀ h0, (evs'.getLast?.map (·.2)) = some h0 → ∀ i, (g' i).value = h0 i) := by
  obtain ⟨g', s3', hfcn, hat, hnorm, hent, -, hval, rest⟩ := one_stateT d hd table w rs built hb hs h16 eff heff t s hn hw data hdata
    give hgive h g evs s' hgi hgb hgo hrun' hm hlast v hlen hdec
  refine ⟨g', s3', hfcn, ?_, rest⟩
  unfold T3.calculateNLL
  rw [hat, hnorm]
  dsimp only
  rw [if_neg (not_le.mpr (by positivity)),
    sumOfNll_eqT _ s3' _ _ data (fun ev => timeDensity3 d w rs eff (valuesAt t.getParameters v fun i => (h i).value) ev.tag ev.m12
      ev.m13 ev.time) hent hval,
    nllT_eq d w rs eff _ _ _ _ htot]

/-- **C97** (what is missing: other resolutions than the perfect one, wrong tags, splines, more than 16 resonances, efficiencies with
parameters and blinded parameters; limits changed after the first evaluation, `C97_violation_grid`; the code aborts when the
likelihood is exactly one).  In every fit of a time-dependent three-body amplitude, whatever has been done before with the PDF, the
fit manager and the variables: once the PDF has been given its data, every value the minimiser gets is minus the logarithm of the
likelihood of the data under the described rate of a mixing meson, normalised over all times, both flavours and the grid, with the
parameters at the values the minimiser has asked for. -/
theorem C97_likelihood_partial (d : DalitzCtx) (hd : GoodMasses d) (table : Nat → ℝ) (w : MixVars) (rs : List (ResUse ResNew))
    (built : List (ResUse ResObj)) (hb : resBuildAll rs = some built) (hs : ∀ r ∈ rs, ¬ IsSplineRes r.res)
    (h16 : rs.length ≤ 16) (eff : (Nat → ℝ) → ℝ → ℝ → ℝ) (heff : ∀ h h', eff h = eff h')
    (leaf : ResObj → L.Leaf) (resolution efficiency : Pdf L)
    (before : List (MnOp ℝ)) (h₀ h : Pars ℝ) :
    let D := t3Pdf d table w built eff
    let t := D.tree leaf resolution efficiency
    mnRun t h₀ before = some h → (∀ i ∈ t.getParameters, (h i).blind = 0) →
    ∀ (s : T3State) (_ : ∀ g, s.normRange = some g → g = s.grid) (_ : s.mistag.value = 0) (data : List Ev7) (_ : Tagged data)
      (give : List T3Op) (_ : GivesData7 data give) (calls : List (List ℝ)),
    let at_ := fun v => valuesAt t.getParameters v fun i => (h i).value
    (∀ v ∈ calls, t.getParameters.length ≤ v.length ∧ Decays w (at_ v) ∧ 0 < timeTotal3 d w rs eff (at_ v) s.fraction s.grid
      ∧ timeNll3 d w rs eff (at_ v) s.fraction s.grid data ≠ 0) →
    ∃ s1 h2 s2, D.run s give = some s1 ∧
      D.fcnAll t calls h s1 = .done (calls.map fun v => timeNll3 d w rs eff (at_ v) s.fraction s.grid data, h2, s2) := by
  intro D t hrun hblind s hn hw data hdata give hgive calls at_ hcalls
  have hix : Indexed t.getParameters h := (mnRun_indexed t h₀ h before hrun).1
  have hs1 := give_runT D s data give hgive
  refine ⟨withDataT s data, ?_⟩
  have key : ∀ (calls : List (List ℝ)) (evs : List ((ResObj → Bool) × (Nat → ℝ))) (g : Pars ℝ) (s' : T3State),
      (∀ v ∈ calls, t.getParameters.length ≤ v.length ∧ Decays w (at_ v) ∧ 0 < timeTotal3 d w rs eff (at_ v) s.fraction s.grid
        ∧ timeNll3 d w rs eff (at_ v) s.fraction s.grid data ≠ 0) →
      Indexed t.getParameters g → (∀ i ∈ t.getParameters, (g i).blind = 0) →
      (∀ i, i ∉ t.getParameters → (g i).value = (h i).value) →
      D.run s (give ++ evs.map fun e => .eval e.1 e.2) = some s' → MarksFrom3 none evs →
      (∀ h0, (evs.getLast?.map (·.2)) = some h0 → ∀ i, (g i).value = h0 i) →
      ∃ h2 s2, D.fcnAll t calls g s' = .done (calls.map fun v => timeNll3 d w rs eff (at_ v) s.fraction s.grid data, h2, s2) := by
    intro calls
    induction calls with
    | nil => intro evs g s' _ _ _ _ _ _ _; exact ⟨g, s', rfl⟩
    | cons v calls ih =>
      intro evs g s' hc hgi hgb hgo hrun' hm hlast
      obtain ⟨hlen, hdec, htot, hnz⟩ := hc v (by simp)
      obtain ⟨g', s3', hfcn, hnll, hgi', hgb', hgo', evs', e2, hm', hlast'⟩ := one_callT d hd table w rs built hb hs h16 eff heff t s
        hn hw data hdata give hgive h g evs s' hgi hgb hgo hrun' hm hlast v hlen hdec htot
      obtain ⟨h2, s2, hrest⟩ := ih evs' g' s3' (fun w hw => hc w (by simp [hw])) hgi' hgb' hgo' e2 hm' hlast'
      refine ⟨h2, s2, ?_⟩
      rw [if_neg hnz] at hnll
      unfold T3.fcnAll T3.fcn
      rw [hfcn]
      dsimp only
      rw [show D.calculateNLL s' g' = _ from hnll]
      simp only [Ran.andThen, hrest, List.map_cons]
      rfl
  obtain ⟨h2, s2, hk⟩ := key calls [] h _ hcalls hix hblind (fun _ _ => rfl) (by simpa using hs1) trivial (by simp)
  exact ⟨h2, s2, hs1, hk⟩

/-! ### A concrete case -/

namespace DemoFitT3
open DemoT3

theorem nll_plain (a τ f : ℝ) (ha : a ≠ 0) (hτ : 0 < τ) :
    timeNll3 Demo3.decay mix Demo3.rs DemoT3.eff (vals a τ) f DemoT3.grid [⟨2, 1, 4, 4, 0, 0, 1⟩, ⟨2, 1, 0, 0, 1, 0, -1⟩]
      = 2 / τ + Real.log (4 * τ) := by
  unfold timeNll3
  rw [total_plain a τ f hτ]
  simp only [density_plain]
  have h0 : Demo3.pdf.inside 0 0 = false := Demo3.outside_low _ _ (by norm_num)
  have hp : 0 < 2 * a ^ 2 * Real.exp (-(2 / τ)) := by positivity
  simp only [List.filter_cons, List.filter_nil, Demo3.inside_centre, h0, if_true, Bool.false_eq_true, if_false, hp, decide_true,
    lt_irrefl, decide_false, List.map_cons, List.map_nil, List.sum_cons, List.sum_nil, add_zero]
  have e : 2 * a ^ 2 * Real.exp (-(2 / τ)) / (8 * a ^ 2 * τ) = Real.exp (-(2 / τ)) / (4 * τ) := by
    field_simp
    ring
  rw [e, Real.log_div (Real.exp_ne_zero _) (by positivity), Real.log_exp]
  ring

/-- Variables with different names: the coefficient, the lifetime and the mixing. -/
def vars (i : Nat) : ParVar ℝ :=
  ⟨if i = 0 then "re" else if i = 1 then "im" else if i = 2 then "tau" else if i = 3 then "x" else if i = 4 then "y"
    else if i = 5 then "dx" else "dy", if i < 7 then 1 else 0, 1, 0, 0, 0, false, false, -1⟩

end DemoFitT3
open DemoFitT3 DemoT3

/-- A fit of the lifetime to two events, one of them outside the decay region; the minimiser tries lifetimes 2 and 1. -/
example (L : Lib ℝ) (l : L.Leaf) :
    let D := DemoT3.pdf
    let t := D.tree (L := L) (fun _ => l) (.mk ⟨8, .leaf l, [], [], [], 1⟩ []) (.mk ⟨9, .leaf l, [], [], [], 1⟩ [])
    ∃ h, mnRun t DemoFitT3.vars [] = some h ∧ ∃ s1 h2 s2,
      D.run (t3Init DemoT3.grid ⟨0, 0, 1⟩) [.setData [⟨2, 1, 4, 4, 0, 0, 1⟩, ⟨2, 1, 0, 0, 1, 0, -1⟩], .setDataSize 2 7] = some s1 ∧
      D.fcnAll t [[2, 0, 0, 0, 0, 1, 0], [1, 0, 0, 0, 0, 3, 0]] h s1
        = .done ([1 + Real.log 8, 2 + Real.log 4], h2, s2) := by
  intro D t
  have hp : t.getParameters = [2, 3, 4, 5, 6, 0, 1] := rfl
  obtain ⟨h, hh, hb⟩ : ∃ h, mnRun t DemoFitT3.vars [] = some h
      ∧ ∀ i, (h i).blind = 0 ∧ (h i).value = (DemoFitT3.vars i).value := by
    refine ⟨_, rfl, ?_⟩
    intro i
    match i with
    | 0 => exact ⟨rfl, rfl⟩
    | 1 => exact ⟨rfl, rfl⟩
    | 2 => exact ⟨rfl, rfl⟩
    | 3 => exact ⟨rfl, rfl⟩
    | 4 => exact ⟨rfl, rfl⟩
    | 5 => exact ⟨rfl, rfl⟩
    | 6 => exact ⟨rfl, rfl⟩
    | _ + 7 => exact ⟨rfl, rfl⟩
  refine ⟨h, hh, ?_⟩
  have hv : ∀ a τ : ℝ, valuesAt t.getParameters [τ, 0, 0, 0, 0, a, 0] (fun i => (h i).value) = vals a τ := by
    intro a τ
    funext i
    unfold valuesAt
    rw [hp]
    match i with
    | 0 => simp [vals]
    | 1 => simp [vals]
    | 2 => simp [vals]
    | 3 => simp [vals]
    | 4 => simp [vals]
    | 5 => simp [vals]
    | 6 => simp [vals]
    | i + 7 =>
      rw [if_neg (by simp)]
      show (h (i + 7)).value = _
      rw [(hb (i + 7)).2]
      simp [vals, DemoFitT3.vars]
  have e1 : ∀ f, timeNll3 Demo3.decay mix Demo3.rs DemoT3.eff (vals 1 2) f DemoT3.grid
      [⟨2, 1, 4, 4, 0, 0, 1⟩, ⟨2, 1, 0, 0, 1, 0, -1⟩] = 1 + Real.log 8 := by
    intro f
    rw [nll_plain 1 2 f (by norm_num) (by norm_num)]
    norm_num
  have e2 : ∀ f, timeNll3 Demo3.decay mix Demo3.rs DemoT3.eff (vals 3 1) f DemoT3.grid
      [⟨2, 1, 4, 4, 0, 0, 1⟩, ⟨2, 1, 0, 0, 1, 0, -1⟩] = 2 + Real.log 4 := by
    intro f
    rw [nll_plain 3 1 f (by norm_num) (by norm_num)]
    norm_num
  have l1 : 0 < Real.log 8 := Real.log_pos (by norm_num)
  have l2 : 0 < Real.log 4 := Real.log_pos (by norm_num)
  have hyp : ∀ a τ : ℝ, a ≠ 0 → 0 < τ →
      timeNll3 Demo3.decay mix Demo3.rs DemoT3.eff (vals a τ) (1 / 2) DemoT3.grid
        [⟨2, 1, 4, 4, 0, 0, 1⟩, ⟨2, 1, 0, 0, 1, 0, -1⟩] ≠ 0 →
      Decays mix (valuesAt t.getParameters [τ, 0, 0, 0, 0, a, 0] fun i => (h i).value)
      ∧ 0 < timeTotal3 Demo3.decay mix Demo3.rs DemoT3.eff (valuesAt t.getParameters [τ, 0, 0, 0, 0, a, 0] fun i => (h i).value)
        (1 / 2) DemoT3.grid
      ∧ timeNll3 Demo3.decay mix Demo3.rs DemoT3.eff (valuesAt t.getParameters [τ, 0, 0, 0, 0, a, 0] fun i => (h i).value)
        (1 / 2) DemoT3.grid [⟨2, 1, 4, 4, 0, 0, 1⟩, ⟨2, 1, 0, 0, 1, 0, -1⟩] ≠ 0 := by
    intro a τ ha hτ hz
    rw [hv]
    refine ⟨decays a τ hτ, ?_, hz⟩
    rw [total_plain a τ _ hτ]
    positivity
  obtain ⟨s1, h2, s2, q1, q2⟩ := C97_likelihood_partial Demo3.decay Demo3.good (fun _ => 0) mix Demo3.rs Demo3.built Demo3.built_eq
    (by intro r hr; simp [Demo3.rs] at hr; subst hr; exact id) (by decide) DemoT3.eff (fun _ _ => rfl) (fun _ => l)
    (.mk ⟨8, .leaf l, [], [], [], 1⟩ []) (.mk ⟨9, .leaf l, [], [], [], 1⟩ []) [] DemoFitT3.vars h hh (fun i _ => (hb i).1)
    (t3Init DemoT3.grid ⟨0, 0, 1⟩) (range_ok _ rfl) rfl _ tagged _ .own [[2, 0, 0, 0, 0, 1, 0], [1, 0, 0, 0, 0, 3, 0]] (by
      intro v hvm
      simp only [List.mem_cons, List.not_mem_nil, or_false] at hvm
      rcases hvm with rfl | rfl
      · exact ⟨le_of_eq rfl, hyp 1 2 (by norm_num) (by norm_num) (by rw [e1]; linarith)⟩
      · exact ⟨le_of_eq rfl, hyp 3 1 (by norm_num) (by norm_num) (by rw [e2]; linarith)⟩)
  refine ⟨s1, h2, s2, q1, q2.trans ?_⟩
  show Ran.done ([timeNll3 Demo3.decay mix Demo3.rs DemoT3.eff
      (valuesAt t.getParameters [2, 0, 0, 0, 0, 1, 0] fun i => (h i).value) (1 / 2) DemoT3.grid _,
    timeNll3 Demo3.decay mix Demo3.rs DemoT3.eff
      (valuesAt t.getParameters [1, 0, 0, 0, 0, 3, 0] fun i => (h i).value) (1 / 2) DemoT3.grid _], h2, s2) = _
  rw [hv, hv, e1, e2]

/-- The density of this case depends on the seven parameters only. -/
example (L : Lib ℝ) (l : L.Leaf) (h h' : Nat → ℝ) (hh : ∀ i < 7, h i = h' i) :
    timeDensity3 Demo3.decay mix Demo3.rs DemoT3.eff h = timeDensity3 Demo3.decay mix Demo3.rs DemoT3.eff h' := by
  refine C97_parameters Demo3.decay (fun _ => 0) mix Demo3.rs Demo3.built Demo3.built_eq
    (by intro r hr; simp [Demo3.rs] at hr; subst hr; exact id) DemoT3.eff (fun _ _ => rfl) (fun _ => l)
    (.mk ⟨8, .leaf l, [], [], [], 1⟩ []) (.mk ⟨9, .leaf l, [], [], [], 1⟩ []) h h' ?_
  intro i hi
  have : i ∈ [2, 3, 4, 5, 6, 0, 1] := hi
  simp only [List.mem_cons, List.not_mem_nil, or_false] at this
  exact hh i (by omega)

end
end GooFit
