import Verif.Model.Fit3
import Verif.Spec.Fit3
import Verif.Props.Dalitz3
import Verif.Lemmas.Minuit
/-!
# C93: a fit of a three-body amplitude minimises its likelihood
-/
set_option autoImplicit false
namespace GooFit
open Spec FpOps
attribute [local instance] FpOps.ofField

section
variable {L : Lib ℝ}

/-- What a call of the FCN does to the variables. -/
theorem call_values (t : Pdf L) (v : List ℝ) (h : Pars ℝ) (hix : Indexed t.getParameters h)
    (hblind : ∀ i ∈ t.getParameters, (h i).blind = 0) (hlen : t.getParameters.length ≤ v.length) :
    ∃ h', fcnAt t v h = some h' ∧ Indexed t.getParameters h' ∧ (∀ i ∈ t.getParameters, (h' i).blind = 0)
      ∧ (fun i => (h' i).value) = valuesAt t.getParameters v (fun i => (h i).value)
      ∧ (∀ ps : List Nat, (ps.any fun i => (h' i).changed) = false → ∀ i ∈ ps, (h' i).value = (h i).value) := by
  obtain ⟨h', hr⟩ := fromMinuitVector_some t v false h hix hlen
  obtain ⟨q1, q2⟩ := fromMinuitVector_spec t v false h h' hix hr
  obtain ⟨n1, n2, n3⟩ := fromMinuitVector_indexed t v false h h' hix hr
  refine ⟨h', hr, hix.congr n1 n2, fun i hi => by rw [n3, hblind i hi], ?_, ?_⟩
  · funext i
    unfold valuesAt
    by_cases hi : i ∈ t.getParameters
    · rw [if_pos hi]
      have hk : t.getParameters[t.getParameters.idxOf i]? = some i := by
        rw [List.getElem?_eq_getElem (List.idxOf_lt_length_iff.mpr hi)]
        simp
      obtain ⟨x, hx, he⟩ := q1 _ i hk
      rw [List.getD_eq_getElem?_getD, hx, he]
      show x - (h i).blind = x
      rw [hblind i hi, sub_zero]
    · rw [if_neg hi, q2 i hi]
  · intro ps ho i hio
    by_cases hi : i ∈ t.getParameters
    · obtain ⟨k, hk⟩ := List.getElem?_of_mem hi
      obtain ⟨x, -, he⟩ := q1 k i hk
      have hc : (h' i).changed = false := by
        rw [List.any_eq_false] at ho
        simpa using ho i hio
      rw [he] at hc ⊢
      have hx : (h i).value = x := by simpa using hc
      show x - (h i).blind = (h i).value
      rw [hblind i hi, sub_zero, hx]
    · rw [q2 i hi]

theorem mapM_to_map {α β : Type} (f : α → Option β) (g : α → β) (l : List α) (h : ∀ a ∈ l, f a = some (g a)) :
    l.mapM f = some (l.map g) := by
  induction l with
  | nil => rfl
  | cons a l ih =>
    rw [List.mapM_cons, h a (by simp), ih fun b hb => h b (by simp [hb])]
    rfl

/-- The sum of the metric over the events. -/
private theorem sumOfNll_eq (D : D3) (s : D3State) (h : Nat → ℝ) (norm : ℝ) (data : List Ev3) (f : Ev3 → ℝ)
    (hent : s.entries = data.length) (hval : ∀ (k : Nat) ev, data[k]? = some ev → D.value s h k = some (f ev)) :
    D.sumOfNll s h norm = some ((data.map fun ev => if f ev * norm > 0 then -Real.log (f ev * norm) else 0).sum) := by
  unfold D3.sumOfNll
  rw [hent, mapM_to_map _ (fun k => match data[k]? with
    | some ev => if f ev * norm > 0 then -Real.log (f ev * norm) else 0
    | none => 0)]
  · rw [Option.map_some]
    congr 2
    apply List.ext_getElem (by simp)
    intro k h1 h2
    have hk : k < data.length := by simpa using h1
    simp [List.getElem?_eq_getElem hk]
  · intro k hk
    rw [List.mem_range] at hk
    rw [hval k data[k] (List.getElem?_eq_getElem hk), List.getElem?_eq_getElem hk]
    rfl

private theorem nll3_eq (d : DalitzCtx) (rs : List (ResUse ResNew)) (eff : (Nat → ℝ) → ℝ → ℝ → ℝ) (h : Nat → ℝ)
    (g : NormRange ℝ) (data : List Ev3) (hpos : 0 < total3 d rs eff h g) :
    (data.map fun ev => if density3 d rs eff h ev.m12 ev.m13 * (1 / total3 d rs eff h g) > 0
        then -Real.log (density3 d rs eff h ev.m12 ev.m13 * (1 / total3 d rs eff h g)) else 0).sum
      = nll3 d rs eff h g data := by
  unfold nll3
  rw [← sum_map_filter]
  congr 1
  apply List.map_congr_left
  intro ev _
  have h1 : density3 d rs eff h ev.m12 ev.m13 * (1 / total3 d rs eff h g) > 0 ↔ 0 < density3 d rs eff h ev.m12 ev.m13 := by
    have : 0 < 1 / total3 d rs eff h g := by positivity
    exact mul_pos_iff_of_pos_right this
  rw [show density3 d rs eff h ev.m12 ev.m13 * (1 / total3 d rs eff h g)
    = density3 d rs eff h ev.m12 ev.m13 / total3 d rs eff h g by ring] at h1 ⊢
  by_cases hc : 0 < density3 d rs eff h ev.m12 ev.m13
  · rw [if_pos (h1.mpr hc), if_pos (by simpa using hc)]
  · rw [if_neg fun hh => hc (h1.mp hh), if_neg (by simpa using hc)]

theorem marks_snoc (e : (ResObj → Bool) × (Nat → ℝ)) : ∀ (es : List ((ResObj → Bool) × (Nat → ℝ))) (q : Option (Nat → ℝ)),
    MarksFrom3 q es → (∀ h0, (es.getLast?.map (·.2)).or q = some h0 → ∀ o : ResObj, e.1 o = false → ∀ v ∈ o.params, e.2 v = h0 v) →
    MarksFrom3 q (es ++ [e])
  | [], q, _, h2 => ⟨by simpa using h2, trivial⟩
  | a :: es, q, h1, h2 => by
    refine ⟨h1.1, marks_snoc e es (some a.2) h1.2 ?_⟩
    intro h0 hh
    apply h2 h0
    cases es with
    | nil => simpa using hh
    | cons b es =>
      rw [List.getLast?_cons_cons]
      cases hl : (b :: es).getLast? with
      | none => simp at hl
      | some c => rw [hl] at hh; simpa using hh

theorem mem_gather_own (own : Node L → List Nat) (n : Node L) (cs : List (Pdf L)) (y : Nat) :
    y ∈ gather own (.mk n cs) ↔ y ∈ own n ∨ ∃ t ∈ cs, y ∈ gather own t := by
  rw [gather, mem_gatherList own cs (own n) y]
  have : ∀ cs : List (Pdf L), y ∈ Pdf.flatList own cs ↔ ∃ t ∈ cs, y ∈ gather own t := by
    intro cs
    induction cs with
    | nil => simp [Pdf.flatList]
    | cons t ts ih =>
      rw [Pdf.flatList, List.mem_append, ih, ← mem_gather own t]
      simp
  rw [this]

/-- **C93, the parameters.**  Everything the described density depends on is fitted: it is the same whenever the parameters of the
PDF, which are those the minimiser is told of, have the same values. -/
theorem C93_parameters (d : DalitzCtx) (table : Nat → ℝ) (rs : List (ResUse ResNew)) (built : List (ResUse ResObj))
    (hb : resBuildAll rs = some built) (hs : ∀ r ∈ rs, ¬ IsSplineRes r.res) (eff : (Nat → ℝ) → ℝ → ℝ → ℝ)
    (heff : ∀ h h', eff h = eff h') (leaf : ResObj → L.Leaf) (efficiency : Pdf L) (h h' : Nat → ℝ)
    (hv : ∀ i ∈ ((d3Pdf d table built eff).tree leaf efficiency).getParameters, h i = h' i) :
    density3 d rs eff h = density3 d rs eff h' := by
  have hmem : ∀ r ∈ built, h r.ar = h' r.ar ∧ h r.ai = h' r.ai ∧ ∀ i ∈ r.res.params, h i = h' i := by
    intro r hr
    have own : ∀ i ∈ [r.ar, r.ai], h i = h' i := by
      intro i hi
      apply hv
      unfold Pdf.getParameters D3.tree
      rw [mem_gather_own]
      left
      exact List.mem_flatMap.mpr ⟨r, hr, hi⟩
    refine ⟨own _ (by simp), own _ (by simp), ?_⟩
    intro i hi
    apply hv
    unfold Pdf.getParameters D3.tree
    rw [mem_gather_own]
    right
    obtain ⟨k, hk⟩ := List.getElem?_of_mem hr
    refine ⟨.mk ⟨k + 1, .leaf (leaf r.res), r.res.params, r.res.consts, [], 1⟩ [], ?_, hi⟩
    rw [List.mem_append, List.mem_map]
    left
    refine ⟨(r, k), ?_, rfl⟩
    rw [List.mem_zipIdx_iff_getElem?]
    exact hk
  have ht : ∀ x y, terms3 d rs h x y = terms3 d rs h' x y := by
    intro x y
    rw [← d3_terms d table rs built hb hs eff h, ← d3_terms d table rs built hb hs eff h']
    unfold termsAt d3Terms
    rw [List.map_map, List.map_map]
    apply List.map_congr_left
    intro r hr
    obtain ⟨q1, q2, q3⟩ := hmem r hr
    simp only [Function.comp]
    rw [q1, q2, C81_depends _ r.res h h' q3]
  funext x y
  unfold density3
  rw [ht, heff h h']

/-- The caches in one call of the FCN on a tree `t` of which the amplitude is a part, after any number of earlier calls. -/
theorem one_state (d : DalitzCtx) (hd : GoodMasses d) (table : Nat → ℝ) (rs : List (ResUse ResNew))
    (built : List (ResUse ResObj)) (hb : resBuildAll rs = some built) (hs : ∀ r ∈ rs, ¬ IsSplineRes r.res)
    (h16 : rs.length ≤ 16) (eff : (Nat → ℝ) → ℝ → ℝ → ℝ) (heff : ∀ h h', eff h = eff h')
    (t : Pdf L) (s : D3State) (hbins : s.grid.nb12 = s.grid.nb13) (hpos : 0 < s.grid.nb12) (data : List Ev3) (hnum : Numbered data)
    (give : List D3Op) (hgive : GivesData data give) (h g : Pars ℝ) (evs : List ((ResObj → Bool) × (Nat → ℝ))) (s' : D3State)
    (hgi : Indexed t.getParameters g) (hgb : ∀ i ∈ t.getParameters, (g i).blind = 0)
    (hgo : ∀ i, i ∉ t.getParameters → (g i).value = (h i).value)
    (hrun' : (d3Pdf d table built eff).run s (give ++ evs.map fun e => .eval e.1 e.2) = some s') (hm : MarksFrom3 none evs)
    (hlast : ∀ h0, (evs.getLast?.map (·.2)) = some h0 → ∀ i, (g i).value = h0 i)
    (v : List ℝ) (hlen : t.getParameters.length ≤ v.length) :
    ∃ g' s3', fcnAt t v g = some g' ∧
      (fun i => (g' i).value) = valuesAt t.getParameters v (fun i => (h i).value) ∧
      (d3Pdf d table built eff).normalize s' (marksOf g') (valuesAt t.getParameters v fun i => (h i).value)
        = some (s3', total3 d rs eff (valuesAt t.getParameters v fun i => (h i).value) s.grid) ∧
      s3'.entries = data.length ∧
      (∀ (k : Nat) ev, data[k]? = some ev → (d3Pdf d table built eff).value s3' (valuesAt t.getParameters v fun i => (h i).value) k
        = some (density3 d rs eff (valuesAt t.getParameters v fun i => (h i).value) ev.m12 ev.m13))
      ∧ Indexed t.getParameters g' ∧ (∀ i ∈ t.getParameters, (g' i).blind = 0)
      ∧ (∀ i, i ∉ t.getParameters → (g' i).value = (h i).value)
      ∧ ∃ evs', (d3Pdf d table built eff).run s (give ++ evs'.map fun e => .eval e.1 e.2) = some s3' ∧ MarksFrom3 none evs'
        ∧ (∀ h0, (evs'.getLast?.map (·.2)) = some h0 → ∀ i, (g' i).value = h0 i) := by
  set D := d3Pdf d table built eff with hD
  set hv := valuesAt t.getParameters v fun i => (h i).value with hhv
  obtain ⟨g', hfcn, hgi', hgb', hgv, hgm⟩ := call_values t v g hgi hgb hlen
  have hat : (fun i => (g' i).value) = hv := by
    rw [hgv]
    funext i
    show (if _ then _ else (g i).value) = (if _ then _ else (h i).value)
    split_ifs with hi
    · rfl
    · exact hgo i hi
  have hm' : MarksFrom3 none (evs ++ [(marksOf g', hv)]) := by
    refine marks_snoc _ evs none hm ?_
    intro h0 hh0 o ho i hi
    rw [Option.or_none] at hh0
    rw [← hlast h0 hh0 i, ← hgm o.params ho i hi]
    exact (congrFun hat i).symm
  obtain ⟨s1', s2', hn1, hn2⟩ := C81_normalization_partial d hd table rs built hb hs h16 eff s hbins hpos data give hgive evs
    (marksOf g') hv hm' (fun e _ => heff _ _)
  have e1 : s1' = s' := Option.some.inj (hn1.symm.trans hrun')
  subst e1
  obtain ⟨s3', hv1, hv2⟩ := C81_value_partial d hd table rs built hb hs h16 eff s data give hgive hnum evs (marksOf g') hv hm'
  have e2 : D.run s (give ++ (evs ++ [(marksOf g', hv)]).map fun e => .eval e.1 e.2) = some s2' := by
    rw [List.map_append, ← List.append_assoc, run_append3, hrun']
    show (D.step s1' (.eval (marksOf g') hv)).bind _ = _
    rw [show D.step s1' (.eval (marksOf g') hv) = (D.normalize s1' (marksOf g') hv).map (·.1) from rfl,
      show D.normalize s1' (marksOf g') hv = _ from hn2]
    rfl
  have e3 : s3' = s2' := Option.some.inj (hv1.symm.trans e2)
  subst e3
  have hent : s3'.entries = data.length := by
    have hl16 : D.res.length ≤ 16 := by have := built_length rs built hb; simp only [hD, d3Pdf]; omega
    obtain ⟨s4, -, -, -, hr4, hi4, -⟩ := program_run D hl16 s data give hgive none evs (marksOf g') hv hm'
      (fun e he => absurd he (by simp))
    have e4 : D.refresh s4 (marksOf g') hv = s3' := Option.some.inj (hr4.symm.trans e2)
    rw [← e4]
    exact hi4.entries_eq
  refine ⟨g', s3', hfcn, hat, hn2, hent, hv2, hgi', hgb', ?_, evs ++ [(marksOf g', hv)], e2, hm', ?_⟩
  · intro i hi
    rw [congrFun hgv i]
    unfold valuesAt
    rw [if_neg hi]
    exact hgo i hi
  · intro h0 hh0 i
    rw [List.getLast?_concat] at hh0
    rw [← Option.some.inj hh0]
    exact congrFun hat i

/-- One call of the FCN, after any number of earlier ones. -/
private theorem one_call (d : DalitzCtx) (hd : GoodMasses d) (table : Nat → ℝ) (rs : List (ResUse ResNew))
    (built : List (ResUse ResObj)) (hb : resBuildAll rs = some built) (hs : ∀ r ∈ rs, ¬ IsSplineRes r.res)
    (h16 : rs.length ≤ 16) (eff : (Nat → ℝ) → ℝ → ℝ → ℝ) (heff : ∀ h h', eff h = eff h')
    (t : Pdf L) (s : D3State) (hbins : s.grid.nb12 = s.grid.nb13) (hpos : 0 < s.grid.nb12) (data : List Ev3) (hnum : Numbered data)
    (give : List D3Op) (hgive : GivesData data give) (h g : Pars ℝ) (evs : List ((ResObj → Bool) × (Nat → ℝ))) (s' : D3State)
    (hgi : Indexed t.getParameters g) (hgb : ∀ i ∈ t.getParameters, (g i).blind = 0)
    (hgo : ∀ i, i ∉ t.getParameters → (g i).value = (h i).value)
    (hrun' : (d3Pdf d table built eff).run s (give ++ evs.map fun e => .eval e.1 e.2) = some s') (hm : MarksFrom3 none evs)
    (hlast : ∀ h0, (evs.getLast?.map (·.2)) = some h0 → ∀ i, (g i).value = h0 i)
    (v : List ℝ) (hlen : t.getParameters.length ≤ v.length)
    (htot : 0 < total3 d rs eff (valuesAt t.getParameters v fun i => (h i).value) s.grid) :
    ∃ g' s3', fcnAt t v g = some g' ∧
      (d3Pdf d table built eff).calculateNLL s' g'
        = (if nll3 d rs eff (valuesAt t.getParameters v fun i => (h i).value) s.grid data = 0 then .aborted
            else .done (nll3 d rs eff (valuesAt t.getParameters v fun i => (h i).value) s.grid data, s3'))
      ∧ Indexed t.getParameters g' ∧ (∀ i ∈ t.getParameters, (g' i).blind = 0)
      ∧ (∀ i, i ∉ t.getParameters → (g' i).value = (h i).value)
      ∧ ∃ evs', (d3Pdf d table built eff).run s (give ++ evs'.map fun e => .eval e.1 e.2) = some s3' ∧ MarksFrom3 none evs'
        ∧ (∀ h0, (evs'.getLast?.map (·.2)) = some h0 → ∀ i, (g' i).value = h0 i) := by
  obtain ⟨g', s3', hfcn, hat, hn2, hent, hv2, hrest⟩ := one_state d hd table rs built hb hs h16 eff heff t s hbins hpos data hnum
    give hgive h g evs s' hgi hgb hgo hrun' hm hlast v hlen
  refine ⟨g', s3', hfcn, ?_, hrest⟩
  unfold D3.calculateNLL
  rw [hat, hn2]
  dsimp only
  rw [if_neg (not_le.mpr (by positivity)),
    sumOfNll_eq _ s3' _ _ data (fun ev => density3 d rs eff _ ev.m12 ev.m13) hent hv2, nll3_eq d rs eff _ _ _ htot]

/-- **C93** (what is missing: splines, more than 16 resonances, different numbers of bins, efficiencies with parameters and blinded
parameters, as in C81 and C30; the code aborts when the likelihood is exactly one).  In every fit of a three-body amplitude, whatever
has been done before with the PDF, the fit manager and the variables: once the PDF has been given its data, every value the
minimiser gets is minus the logarithm of the likelihood of the data under the density the user has described, normalised on the
grid, with the parameters at the values the minimiser has asked for. -/
theorem C93_likelihood_partial (d : DalitzCtx) (hd : GoodMasses d) (table : Nat → ℝ) (rs : List (ResUse ResNew))
    (built : List (ResUse ResObj)) (hb : resBuildAll rs = some built) (hs : ∀ r ∈ rs, ¬ IsSplineRes r.res)
    (h16 : rs.length ≤ 16) (eff : (Nat → ℝ) → ℝ → ℝ → ℝ) (heff : ∀ h h', eff h = eff h')
    (leaf : ResObj → L.Leaf) (efficiency : Pdf L)
    (before : List (MnOp ℝ)) (h₀ h : Pars ℝ) :
    let D := d3Pdf d table built eff
    let t := D.tree leaf efficiency
    mnRun t h₀ before = some h → (∀ i ∈ t.getParameters, (h i).blind = 0) →
    ∀ (s : D3State) (_ : s.grid.nb12 = s.grid.nb13) (_ : 0 < s.grid.nb12) (data : List Ev3) (_ : Numbered data)
      (give : List D3Op) (_ : GivesData data give) (calls : List (List ℝ)),
    let at_ := fun v => valuesAt t.getParameters v fun i => (h i).value
    (∀ v ∈ calls, t.getParameters.length ≤ v.length ∧ 0 < total3 d rs eff (at_ v) s.grid ∧ nll3 d rs eff (at_ v) s.grid data ≠ 0) →
    ∃ s1 h2 s2, D.run s give = some s1 ∧
      D.fcnAll t calls h s1 = .done (calls.map fun v => nll3 d rs eff (at_ v) s.grid data, h2, s2) := by
  intro D t hrun hblind s hbins hpos data hnum give hgive calls at_ hcalls
  have hix : Indexed t.getParameters h := (mnRun_indexed t h₀ h before hrun).1
  obtain ⟨s1, hs1⟩ : ∃ s1, D.run s give = some s1 := by
    cases hgive <;> exact ⟨_, rfl⟩
  refine ⟨s1, ?_⟩
  -- the state after some calls
  have key : ∀ (calls : List (List ℝ)) (evs : List ((ResObj → Bool) × (Nat → ℝ))) (g : Pars ℝ) (s' : D3State),
      (∀ v ∈ calls, t.getParameters.length ≤ v.length ∧ 0 < total3 d rs eff (at_ v) s.grid ∧ nll3 d rs eff (at_ v) s.grid data ≠ 0) →
      Indexed t.getParameters g → (∀ i ∈ t.getParameters, (g i).blind = 0) →
      (∀ i, i ∉ t.getParameters → (g i).value = (h i).value) →
      D.run s (give ++ evs.map fun e => .eval e.1 e.2) = some s' → MarksFrom3 none evs →
      (∀ h0, (evs.getLast?.map (·.2)) = some h0 → ∀ i, (g i).value = h0 i) →
      ∃ h2 s2, D.fcnAll t calls g s' = .done (calls.map fun v => nll3 d rs eff (at_ v) s.grid data, h2, s2) := by
    intro calls
    induction calls with
    | nil => intro evs g s' _ _ _ _ _ _ _; exact ⟨g, s', rfl⟩
    | cons v calls ih =>
      intro evs g s' hc hgi hgb hgo hrun' hm hlast
      obtain ⟨hlen, htot, hnz⟩ := hc v (by simp)
      obtain ⟨g', s3', hfcn, hnll, hgi', hgb', hgo', evs', e2, hm', hlast'⟩ := one_call d hd table rs built hb hs h16 eff heff t s
        hbins hpos data hnum give hgive h g evs s' hgi hgb hgo hrun' hm hlast v hlen htot
      obtain ⟨h2, s2, hrest⟩ := ih evs' g' s3' (fun w hw => hc w (by simp [hw])) hgi' hgb' hgo' e2 hm' hlast'
      refine ⟨h2, s2, ?_⟩
      rw [if_neg hnz] at hnll
      unfold D3.fcnAll D3.fcn
      rw [hfcn]
      dsimp only
      rw [show D.calculateNLL s' g' = _ from hnll]
      simp only [Ran.andThen, hrest, List.map_cons]
      rfl
  obtain ⟨h2, s2, hk⟩ := key calls [] h s1 hcalls hix hblind (fun _ _ => rfl) (by simpa using hs1) trivial (by simp)
  exact ⟨h2, s2, hs1, hk⟩

/-- **C93, violation (no event counts).**  When the sum is zero, for instance because there are no events, because all of them
lie outside the decay region, or because the likelihood is exactly one, the first call does not return: the program aborts. -/
theorem C93_violation_zero (d : DalitzCtx) (hd : GoodMasses d) (table : Nat → ℝ) (rs : List (ResUse ResNew))
    (built : List (ResUse ResObj)) (hb : resBuildAll rs = some built) (hs : ∀ r ∈ rs, ¬ IsSplineRes r.res)
    (h16 : rs.length ≤ 16) (eff : (Nat → ℝ) → ℝ → ℝ → ℝ) (heff : ∀ h h', eff h = eff h')
    (leaf : ResObj → L.Leaf) (efficiency : Pdf L)
    (before : List (MnOp ℝ)) (h₀ h : Pars ℝ) :
    let D := d3Pdf d table built eff
    let t := D.tree leaf efficiency
    mnRun t h₀ before = some h → (∀ i ∈ t.getParameters, (h i).blind = 0) →
    ∀ (s : D3State) (_ : s.grid.nb12 = s.grid.nb13) (_ : 0 < s.grid.nb12) (data : List Ev3) (_ : Numbered data)
      (give : List D3Op) (_ : GivesData data give) (v : List ℝ),
    let at_ := valuesAt t.getParameters v fun i => (h i).value
    t.getParameters.length ≤ v.length → 0 < total3 d rs eff at_ s.grid →
    (∀ ev ∈ data, ¬ CanDecay d.mother d.d1 d.d2 d.d3 ev.m12 ev.m13) ∨ nll3 d rs eff at_ s.grid data = 0 →
    ∃ s1, D.run s give = some s1 ∧ D.fcn t v h s1 = .aborted := by
  intro D t hrun hblind s hbins hpos data hnum give hgive v at_ hlen htot hz
  have hix : Indexed t.getParameters h := (mnRun_indexed t h₀ h before hrun).1
  obtain ⟨s1, hs1⟩ : ∃ s1, D.run s give = some s1 := by
    cases hgive <;> exact ⟨_, rfl⟩
  obtain ⟨g', s3', hfcn, hnll, -⟩ := one_call d hd table rs built hb hs h16 eff heff t s
    hbins hpos data hnum give hgive h h [] s1 hix hblind (fun _ _ => rfl) (by simpa using hs1) trivial (by simp) v hlen htot
  refine ⟨s1, hs1, ?_⟩
  have hz' : nll3 d rs eff at_ s.grid data = 0 := by
    rcases hz with hz | hz
    · unfold nll3
      rw [List.filter_eq_nil_iff.mpr]
      · rfl
      · intro ev hev
        unfold density3
        rw [if_neg (hz ev hev)]
        simp
    · exact hz
  rw [if_pos hz'] at hnll
  unfold D3.fcn
  rw [hfcn]
  dsimp only
  rw [show D.calculateNLL s1 g' = _ from hnll]
  rfl

/-! ### A concrete case -/

namespace DemoFit3

/-- No efficiency. -/
def eff (_ : Nat → ℝ) (_ _ : ℝ) : ℝ := 1

theorem density_eq (h : Nat → ℝ) (x y : ℝ) : density3 Demo3.decay Demo3.rs eff h x y
    = if Demo3.pdf.inside x y then h 0 ^ 2 + h 1 ^ 2 else 0 := by
  classical
  rw [d3_inside Demo3.pdf Demo3.good]
  unfold density3
  simp only [decide_eq_true_eq]
  congr 1
  simp [intensity, terms3, Demo3.rs, resonanceAt, toCx, eff]

theorem total_eq (h : Nat → ℝ) : total3 Demo3.decay Demo3.rs eff h Demo3.demoGrid = (h 0 ^ 2 + h 1 ^ 2) * 4 := by
  have hm : Spec.midpoint (3 : ℝ) 5 1 0 = 4 := by unfold Spec.midpoint; norm_num
  unfold total3 gridIntegral2 Demo3.demoGrid
  simp only [Finset.sum_range_one, hm, density_eq, Demo3.inside_centre, if_true]
  norm_num
  ring

theorem nll_eq (h : Nat → ℝ) (hp : 0 < h 0 ^ 2 + h 1 ^ 2) :
    nll3 Demo3.decay Demo3.rs eff h Demo3.demoGrid [⟨4, 4, 0⟩, ⟨0, 0, 1⟩] = Real.log 4 := by
  unfold nll3
  rw [total_eq]
  simp only [density_eq]
  have h0 : Demo3.pdf.inside 0 0 = false := Demo3.outside_low _ _ (by norm_num)
  simp only [List.filter_cons, List.filter_nil, Demo3.inside_centre, h0, if_true, Bool.false_eq_true, if_false, hp, decide_true,
    lt_irrefl, decide_false, List.map_cons, List.map_nil, List.sum_cons, List.sum_nil, add_zero]
  rw [← Real.log_inv]
  congr 1
  field_simp

/-- Variables with different names. -/
def vars (i : Nat) : ParVar ℝ := ⟨if i = 0 then "re" else "im", 1, 1, 0, 0, 0, false, false, -1⟩

end DemoFit3
open DemoFit3

/-- A fit of a complex coefficient to two events, one of them outside the decay region; three calls. -/
example (L : Lib ℝ) (l : L.Leaf) (s : D3State) (hg : s.grid = Demo3.demoGrid) :
    let D := d3Pdf Demo3.decay (fun _ => 0) Demo3.built DemoFit3.eff
    let t := D.tree (L := L) (fun _ => l) (.mk ⟨9, .leaf l, [], [], [], 1⟩ [])
    ∃ h, mnRun t vars [] = some h ∧ ∃ s1 h2 s2, D.run s [.setData [⟨4, 4, 0⟩, ⟨0, 0, 1⟩], .setDataSize 2] = some s1 ∧
      D.fcnAll t [[1, 0], [2, 3], [1, 0]] h s1 = .done ([Real.log 4, Real.log 4, Real.log 4], h2, s2) := by
  intro D t
  have hp : t.getParameters = [0, 1] := rfl
  obtain ⟨h, hh, hb⟩ : ∃ h, mnRun t vars [] = some h ∧ ∀ i, (h i).blind = 0 := by
    refine ⟨_, rfl, ?_⟩
    intro i
    match i with
    | 0 => rfl
    | 1 => rfl
    | _ + 2 => rfl
  refine ⟨h, hh, ?_⟩
  have hv : ∀ v ∈ [[1, 0], [2, 3], [1, (0 : ℝ)]], 0 < valuesAt t.getParameters v (fun i => (h i).value) 0 ^ 2
      + valuesAt t.getParameters v (fun i => (h i).value) 1 ^ 2 := by
    intro v hv
    simp only [List.mem_cons, List.not_mem_nil, or_false] at hv
    rw [hp]
    rcases hv with rfl | rfl | rfl <;> norm_num [valuesAt, List.idxOf_cons]
  have hlog : Real.log 4 ≠ 0 := (Real.log_pos (by norm_num)).ne'
  obtain ⟨s1, h2, s2, q1, q2⟩ := C93_likelihood_partial Demo3.decay Demo3.good (fun _ => 0) Demo3.rs Demo3.built Demo3.built_eq
    (by intro r hr; simp [Demo3.rs] at hr; subst hr; exact id) (by decide) DemoFit3.eff (fun _ _ => rfl) (fun _ => l)
    (.mk ⟨9, .leaf l, [], [], [], 1⟩ []) [] vars h hh (fun i _ => hb i) s (by rw [hg]; rfl) (by rw [hg]; decide)
    [⟨4, 4, 0⟩, ⟨0, 0, 1⟩] (by
      intro k ev h
      match k, h with
      | 0, h => simp at h; subst h; norm_num
      | 1, h => simp at h; subst h; norm_num) _ .own [[1, 0], [2, 3], [1, 0]] (by
      intro v hvm
      refine ⟨?_, ?_, ?_⟩
      · show 2 ≤ v.length
        simp only [List.mem_cons, List.not_mem_nil, or_false] at hvm
        rcases hvm with rfl | rfl | rfl <;> simp
      · rw [hg, total_eq]
        have := hv v hvm
        exact mul_pos this (by norm_num)
      · rw [hg, nll_eq _ (hv v hvm)]
        exact hlog)
  refine ⟨s1, h2, s2, q1, q2.trans ?_⟩
  congr 2
  rw [hg]
  simp only [List.map_cons, List.map_nil]
  rw [nll_eq _ (hv _ (by simp)), nll_eq _ (hv _ (by simp))]

/-- The coefficients of the non-resonant term are the two parameters. -/
example (L : Lib ℝ) (l : L.Leaf) (h h' : Nat → ℝ) (h0 : h 0 = h' 0) (h1 : h 1 = h' 1) :
    density3 Demo3.decay Demo3.rs DemoFit3.eff h = density3 Demo3.decay Demo3.rs DemoFit3.eff h' := by
  refine C93_parameters Demo3.decay (fun _ => 0) Demo3.rs Demo3.built Demo3.built_eq
    (by intro r hr; simp [Demo3.rs] at hr; subst hr; exact id) DemoFit3.eff (fun _ _ => rfl) (fun _ => l)
    (.mk ⟨9, .leaf l, [], [], [], 1⟩ []) h h' ?_
  intro i hi
  have : i ∈ [0, 1] := hi
  simp only [List.mem_cons, List.not_mem_nil, or_false] at this
  rcases this with rfl | rfl
  · exact h0
  · exact h1

end
end GooFit
