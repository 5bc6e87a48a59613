import Verif.Spec.Wrapped3
import Verif.Props.Mix3
import Verif.Props.FitTime3
/-!
# C106: a fit of sums and products around a three-body amplitude minimises the likelihood of their density
-/
set_option autoImplicit false
namespace GooFit
open Spec FpOps
attribute [local instance] FpOps.ofField

/-! ### The device functions -/

theorem weightedLoop_eq (n : Nat) (ws raws norms : List ℝ) (hl : ws.length = n ∨ ws.length + 1 = n) (hr : raws.length = n)
    (hn : norms.length = n) :
    weightedLoop (!decide (ws.length < n)) ws raws norms
      = (List.zipWith (· * ·) (shares n ws) (List.zipWith (· * ·) raws norms)).sum := by
  set qs := List.zipWith (· * ·) raws norms with hqs
  have hql : qs.length = n := by simp [hqs, hr, hn]
  have hq : ∀ i, i < n → qs.getD i 0 = raws.getD i 0 * norms.getD i 0 := by
    intro i hi
    have h1 : i < raws.length := hr.symm ▸ hi
    have h2 : i < norms.length := hn.symm ▸ hi
    have h3 : i < qs.length := hql.symm ▸ hi
    rw [List.getD_eq_getElem?_getD, List.getElem?_eq_getElem h3, List.getD_eq_getElem?_getD, List.getElem?_eq_getElem h1,
      List.getD_eq_getElem?_getD, List.getElem?_eq_getElem h2]
    simp [hqs]
  have e1 : ((List.range ws.length).map fun i => ws.getD i 0 * raws.getD i 0 * norms.getD i 0)
      = (List.range ws.length).map fun i => ws.getD i 0 * qs.getD i 0 := by
    apply List.map_congr_left
    intro i hi
    have hi' := List.mem_range.mp hi
    rw [hq i (by omega), mul_assoc]
  unfold weightedLoop
  dsimp only
  rw [e1]
  unfold shares
  rcases hl with hl | hl
  · rw [if_pos (by simp [hl]), if_pos hl, zip_div, sum_range_getD _ _ (by omega)]
  · rw [if_neg (by simp; omega), if_neg (by omega), zip_rest _ _ _ (by omega), hq _ (by omega), mul_assoc]

theorem wGather_append (ret : List Nat) : ∀ obs : List Nat, ∃ more, wGather ret obs = ret ++ more := by
  intro obs
  induction obs generalizing ret with
  | nil => exact ⟨[], by simp [wGather]⟩
  | cons o obs ih =>
    by_cases ho : o ∈ ret
    · obtain ⟨m, hm⟩ := ih ret
      exact ⟨m, by unfold wGather at hm ⊢; rw [List.foldl_cons, if_pos ho, hm]⟩
    · obtain ⟨m, hm⟩ := ih (ret ++ [o])
      exact ⟨o :: m, by unfold wGather at hm ⊢; rw [List.foldl_cons, if_neg ho, hm]; simp⟩

theorem wGather_all (ret : List Nat) : ∀ lists : List (List Nat), ∃ more, lists.foldl wGather ret = ret ++ more := by
  intro lists
  induction lists generalizing ret with
  | nil => exact ⟨[], by simp⟩
  | cons l lists ih =>
    obtain ⟨m, hm⟩ := wGather_append ret l
    obtain ⟨m', hm'⟩ := ih (ret ++ m)
    exact ⟨m ++ m', by rw [List.foldl_cons, hm, hm', List.append_assoc]⟩

theorem wGather_nodup (ret : List Nat) : ∀ obs : List Nat, (ret ++ obs).Nodup → wGather ret obs = ret ++ obs := by
  intro obs
  induction obs generalizing ret with
  | nil => intro _; simp [wGather]
  | cons o obs ih =>
    intro h
    have ho : o ∉ ret := fun hm => (List.nodup_append.mp h).2.2 o hm o (by simp) rfl
    have := ih (ret ++ [o]) (by simpa using h)
    unfold wGather at this ⊢
    rw [List.foldl_cons, if_neg ho, this]
    simp

/-- The weights of an event are read from the columns the user has given, if they are all different. -/
theorem evt_weights {A : Type} (own : List Nat) (pre post : List (WPart A)) (inner : Wrap A) (columns : List Nat)
    (hn : columns.Nodup) (row : Nat → ℝ) :
    ((List.range columns.length).map fun i => row (((Wrap.evt pre inner post columns).observables own).getD i 0))
      = columns.map row := by
  obtain ⟨m, hm⟩ := wGather_all (wGather [] columns) (pre.map (·.obs) ++ [inner.observables own] ++ post.map (·.obs))
  rw [wGather_nodup [] columns (by simpa using hn), List.nil_append] at hm
  have hobs : (Wrap.evt pre inner post columns).observables own = columns ++ m := by
    unfold Wrap.observables
    rw [wGather_nodup [] columns (by simpa using hn), List.nil_append]
    exact hm
  rw [hobs]
  apply List.ext_getElem (by simp)
  intro i h1 h2
  have hi : i < columns.length := by simpa using h2
  simp [List.getElem?_append_left hi, List.getElem?_eq_getElem hi]

private theorem zip_parts {A : Type} (h : Nat → ℝ) (row : WRow A) (pre post : List (WPart A)) (x y : ℝ) :
    List.zipWith (· * ·) (pre.map (fun o => o.raw (o.params.map h) row) ++ [x] ++ post.map (fun o => o.raw (o.params.map h) row))
      (pre.map (fun o => o.norm (o.params.map h)) ++ [y] ++ post.map (fun o => o.norm (o.params.map h)))
      = pre.map (partDensity h row) ++ [x * y] ++ post.map (partDensity h row) := by
  rw [List.zipWith_append (by simp), List.zipWith_append (by simp), List.zipWith_map, List.zipWith_self, List.zipWith_map,
    List.zipWith_self]
  rfl

private theorem foldl_prod (l : List ℝ) : ∀ c : ℝ, l.foldl (fun ret curr => ret * curr) c = c * l.prod := by
  induction l with
  | nil => intro c; simp
  | cons a l ih => intro c; rw [List.foldl_cons, ih, List.prod_cons, mul_assoc]

theorem wrap_sizes {n m : Nat} (h : (!(m != n && m + 1 != n)) = true) : m = n ∨ m + 1 = n := by
  simp only [Bool.not_eq_true', Bool.and_eq_false_iff, bne_eq_false_iff_eq] at h
  exact h

/-- **C106, the density.**  The value of the whole PDF at an event, times its normalisation, is the density composed of those of its
parts, for every way of putting sums, sums with weights in the events, and products around an amplitude. -/
theorem C106_density {A : Type} (own : List Nat) (h : Nat → ℝ) (total a : ℝ) (row : WRow A) (p : A → ℝ) (hp : p row.1 = a / total)
    (W : Wrap A) (hacc : W.accepted = true) (hd : DistinctWeights W) :
    W.device own h total row a * W.norm total = composed h p row W := by
  induction W with
  | amp =>
    show a * (1 / total) = p row.1
    rw [hp]
    ring
  | add pre inner post ws ih =>
    unfold Wrap.accepted at hacc
    rw [Bool.and_eq_true] at hacc
    have hi := ih hacc.2 hd
    unfold Wrap.device composed
    rw [show Wrap.norm total (Wrap.add pre inner post ws) = 1 from rfl, mul_one]
    have hl := wrap_sizes hacc.1
    have := weightedLoop_eq (pre.length + 1 + post.length) (ws.map h)
      (pre.map (fun o => o.raw (o.params.map h) row) ++ [inner.device own h total row a]
        ++ post.map (fun o => o.raw (o.params.map h) row))
      (pre.map (fun o => o.norm (o.params.map h)) ++ [inner.norm total] ++ post.map (fun o => o.norm (o.params.map h)))
      (by simpa using hl) (by simp; omega) (by simp; omega)
    rw [List.length_map] at this
    rw [this, zip_parts, hi]
  | evt pre inner post columns ih =>
    unfold Wrap.accepted at hacc
    rw [Bool.and_eq_true] at hacc
    have hi := ih hacc.2 hd.2
    unfold Wrap.device composed
    rw [show Wrap.norm total (Wrap.evt pre inner post columns) = 1 from rfl, mul_one]
    dsimp only
    rw [evt_weights own pre post inner columns hd.1 row.2]
    have hl := wrap_sizes hacc.1
    have := weightedLoop_eq (pre.length + 1 + post.length) (columns.map row.2)
      (pre.map (fun o => o.raw (o.params.map h) row) ++ [inner.device own h total row a]
        ++ post.map (fun o => o.raw (o.params.map h) row))
      (pre.map (fun o => o.norm (o.params.map h)) ++ [inner.norm total] ++ post.map (fun o => o.norm (o.params.map h)))
      (by simpa using hl) (by simp; omega) (by simp; omega)
    rw [List.length_map] at this
    rw [this, zip_parts, hi]
  | prod pre inner post ih =>
    have hi := ih hacc hd
    unfold Wrap.device composed
    rw [show Wrap.norm total (Wrap.prod pre inner post) = 1 from rfl, mul_one, foldl_prod, one_mul, zip_parts, hi]
    simp [mul_assoc]

/-! ### The fit -/

section
variable {L : Lib ℝ} {A S : Type}

private theorem wrap_sum (W : Wrap A) (O : WrapAmp A S) (s : WrapState S) (h : Nat → ℝ) (total : ℝ) (rows : List (WRow A))
    (q : WRow A → ℝ) (hent : s.entries = rows.length)
    (hval : ∀ (k : Nat) row, rows[k]? = some row → ∃ x, W.value O s h total k = some x ∧ x * W.norm total = q row) :
    ((List.range s.entries).mapM fun k => (W.value O s h total k).bind fun raw =>
      MetricKind.nll.apply Real.log s.entries raw (fun _ => none) (W.norm total)).map List.sum = some (nllRows q rows) := by
  rw [hent, mapM_to_map _ (fun k => match rows[k]? with
    | some row => if q row > 0 then -Real.log (q row) else 0
    | none => 0)]
  · rw [Option.map_some]
    unfold nllRows
    rw [← sum_map_filter]
    congr 2
    apply List.ext_getElem (by simp)
    intro k h1 h2
    have hk : k < rows.length := by simpa using h1
    simp [List.getElem?_eq_getElem hk]
  · intro k hk
    rw [List.mem_range] at hk
    obtain ⟨x, hx, hq⟩ := hval k rows[k] (List.getElem?_eq_getElem hk)
    rw [hx, List.getElem?_eq_getElem hk, Option.bind_some]
    dsimp only
    rw [← hq]
    rfl

private theorem wrap_yields (W : Wrap A) (hacc : W.accepted = true) (h : Nat → ℝ) (n : Nat) (nll : ℝ) (s : WrapState S)
    (hs : s.events = n) (g : Pars ℝ) (hg : (fun i => (g i).value) = h) :
    W.finish s g nll = .done (nll + wYieldTerm h n W, s) := by
  cases W with
  | add pre inner post ws =>
    unfold Wrap.accepted at hacc
    rw [Bool.and_eq_true] at hacc
    unfold Wrap.finish
    dsimp only [Wrap.yields, wYieldTerm]
    unfold yieldTerm
    rw [List.length_map]
    rcases wrap_sizes hacc.1 with hl | hl
    · have hc : ¬ ws.length < pre.length + 1 + post.length := by omega
      rw [if_neg hc, if_pos hl]
      dsimp only
      rw [hg, hs]
    · have hc : ws.length < pre.length + 1 + post.length := by omega
      rw [if_pos hc, if_neg (by omega), add_zero]
  | amp => simp [Wrap.finish, Wrap.yields, wYieldTerm]
  | evt => simp [Wrap.finish, Wrap.yields, wYieldTerm]
  | prod => simp [Wrap.finish, Wrap.yields, wYieldTerm]

/-- The fit, from what one call does to the amplitude. -/
theorem wrap_fit (W : Wrap A) (O : WrapAmp A S) (t : Pdf L) (rows : List (WRow A)) (Good : List ℝ → Prop) (P : S → Pars ℝ → Prop)
    (at_ : List ℝ → Nat → ℝ) (p : (Nat → ℝ) → A → ℝ) (tot : (Nat → ℝ) → ℝ)
    (hacc : W.accepted = true) (hsep : W.separately O.own = true) (hdist : DistinctWeights W)
    (step : ∀ s g v, P s g → Good v → ∃ g' s', fcnAt t v g = some g' ∧ (fun i => (g' i).value) = at_ v ∧
      O.normalize s g' = some (s', tot (at_ v)) ∧ O.data s' = rows.map (·.1) ∧
      (∀ (k : Nat) ev, (rows.map (·.1))[k]? = some ev → O.value s' (at_ v) k = some (p (at_ v) ev)) ∧ P s' g') :
    ∀ (calls : List (List ℝ)) (s : S) (g : Pars ℝ), P s g →
    (∀ v ∈ calls, Good v ∧ 0 < tot (at_ v) ∧
      nllRows (fun row => composed (at_ v) (fun a => p (at_ v) a / tot (at_ v)) row W) rows ≠ 0) →
    ∃ g' s', W.fcnAll O t calls g ⟨s, rows.map (·.2), rows.length, rows.length⟩ = .done (calls.map fun v =>
      nllRows (fun row => composed (at_ v) (fun a => p (at_ v) a / tot (at_ v)) row W) rows + wYieldTerm (at_ v) rows.length W,
      g', s') := by
  intro calls
  induction calls with
  | nil => intro s g _ _; exact ⟨g, _, rfl⟩
  | cons v calls ih =>
    intro s g hP hc
    obtain ⟨hgood, htot, hnz⟩ := hc v (by simp)
    obtain ⟨g', s', hfcn, hat, hnorm, hdata, hval, hP'⟩ := step s g v hP hgood
    obtain ⟨g2, s2, hrest⟩ := ih s' g' hP' (fun w hw => hc w (by simp [hw]))
    refine ⟨g2, s2, ?_⟩
    set st : WrapState S := ⟨s', rows.map (·.2), rows.length, rows.length⟩ with hst
    have hN : W.normalize O ⟨s, rows.map (·.2), rows.length, rows.length⟩ g' = some (st, tot (at_ v)) := by
      unfold Wrap.normalize
      rw [if_pos hsep, hnorm]
      rfl
    have hpos : ¬ W.norm (tot (at_ v)) ≤ 0 := by
      cases W with
      | amp => exact not_le.mpr (by show 0 < 1 / tot (at_ v); positivity)
      | add => exact not_le.mpr one_pos
      | evt => exact not_le.mpr one_pos
      | prod => exact not_le.mpr one_pos
    have hsum := wrap_sum W O st (at_ v) (tot (at_ v)) rows
      (fun row => composed (at_ v) (fun a => p (at_ v) a / tot (at_ v)) row W) rfl (by
        intro k row hk
        have hk1 : (rows.map (·.1))[k]? = some row.1 := by rw [List.getElem?_map, hk]; rfl
        refine ⟨W.device O.own (at_ v) (tot (at_ v)) row (p (at_ v) row.1), ?_, ?_⟩
        · unfold Wrap.value
          rw [hst]
          dsimp only
          rw [hdata, hk1, Option.bind_some, List.getElem?_map, hk, Option.map_some, Option.bind_some, hval k row.1 hk1]
          rfl
        · exact C106_density O.own (at_ v) (tot (at_ v)) (p (at_ v) row.1) row _ rfl W hacc hdist)
    have hnll : W.calculateNLL O ⟨s, rows.map (·.2), rows.length, rows.length⟩ g'
        = .done (nllRows (fun row => composed (at_ v) (fun a => p (at_ v) a / tot (at_ v)) row W) rows
            + wYieldTerm (at_ v) rows.length W, st) := by
      unfold Wrap.calculateNLL
      rw [hN]
      dsimp only
      rw [if_neg hpos, hat, hsum]
      dsimp only
      rw [if_neg hnz]
      exact wrap_yields W hacc (at_ v) rows.length _ st rfl g' hat
    unfold Wrap.fcnAll Wrap.fcn
    rw [hfcn]
    dsimp only
    rw [hnll]
    simp only [Ran.andThen, hrest, List.map_cons]

/-- **C106** (what is missing: as in C97 other resolutions than the perfect one, wrong tags, splines, more than 16 resonances,
efficiencies with parameters and blinded parameters; products that are normalised numerically, common normalisations, and PDFs among
the others that keep a state of their own; weights of an event that are the same observable, `C106_violation_weights`; the code aborts
when the sum is exactly zero).  In every fit of sums, sums with weights in the events and products, one inside the other, around a
time-dependent three-body amplitude, whatever has been done before with the PDFs, the fit manager and the variables: once the whole
has been given the data, and the amplitude their number and the number of columns, every value the minimiser gets is minus the
logarithm of the likelihood of the data under the density composed of the normalised rate of the decay and the densities of the other
parts, with all parameters at the values the minimiser has asked for; if the whole is a sum of yields it includes their term. -/
theorem C106_time_likelihood_partial (d : DalitzCtx) (hd : GoodMasses d) (table : Nat → ℝ) (w : MixVars) (rs : List (ResUse ResNew))
    (built : List (ResUse ResObj)) (hb : resBuildAll rs = some built) (hs : ∀ r ∈ rs, ¬ IsSplineRes r.res)
    (h16 : rs.length ≤ 16) (eff : (Nat → ℝ) → ℝ → ℝ → ℝ) (heff : ∀ h h', eff h = eff h')
    (leaf : ResObj → L.Leaf) (part : WPart Ev7 → L.Leaf) (resolution efficiency : Pdf L)
    (W : Wrap Ev7) (before : List (MnOp ℝ)) (h₀ h : Pars ℝ) :
    let D := t3Pdf d table w built eff
    let t := W.tree (D.tree leaf resolution efficiency) part
    W.accepted = true → W.separately D.obj.own = true → DistinctWeights W →
    mnRun t h₀ before = some h → (∀ i ∈ t.getParameters, (h i).blind = 0) →
    ∀ (s : WrapState T3State) (_ : ∀ g, s.amp.normRange = some g → g = s.amp.grid) (_ : s.amp.mistag.value = 0)
      (rows : List (WRow Ev7)) (_ : Tagged (rows.map (·.1)))
      (give : List (WrapOp Ev7)) (_ : GivesRows rows (W.observables D.obj.own).length give) (calls : List (List ℝ)),
    let at_ := fun v => valuesAt t.getParameters v fun i => (h i).value
    let rate := fun v (ev : Ev7) => timeDensity3 d w rs eff (at_ v) ev.tag ev.m12 ev.m13 ev.time
      / timeTotal3 d w rs eff (at_ v) s.amp.fraction s.amp.grid
    let density := fun v row => composed (at_ v) (rate v) row W
    (∀ v ∈ calls, t.getParameters.length ≤ v.length ∧ Decays w (at_ v)
      ∧ 0 < timeTotal3 d w rs eff (at_ v) s.amp.fraction s.amp.grid ∧ YieldsOK (at_ v) rows W ∧ nllRows (density v) rows ≠ 0) →
    ∃ s1 h2 s2, W.run D.obj s give = some s1 ∧
      W.fcnAll D.obj t calls h s1 = .done (calls.map fun v =>
        nllRows (density v) rows + wYieldTerm (at_ v) rows.length W, h2, s2) := by
  intro D t hacc hsep hdist hrun hblind s hn hw rows htag give hgive calls at_ rate density hcalls
  have hix : Indexed t.getParameters h := (mnRun_indexed t h₀ h before hrun).1
  have hgiven : ∃ ops, GivesData7 (rows.map (·.1)) ops ∧
      W.run D.obj s give = some ⟨withDataT s.amp (rows.map (·.1)), rows.map (·.2), rows.length, rows.length⟩ := by
    cases hgive
    · refine ⟨_, .parent, ?_⟩
      simp [Wrap.run, Wrap.step, T3.obj, T3.step, withDataT]
    · refine ⟨_, .parentFirst, ?_⟩
      simp [Wrap.run, Wrap.step, T3.obj, T3.step, withDataT]
  obtain ⟨ops, hops, hgive1⟩ := hgiven
  have key := wrap_fit W D.obj t rows (fun v => t.getParameters.length ≤ v.length ∧ Decays w (at_ v))
    (fun a g => ∃ evs : List ((ResObj → Bool) × (Nat → ℝ)), Indexed t.getParameters g ∧ (∀ i ∈ t.getParameters, (g i).blind = 0) ∧
      (∀ i, i ∉ t.getParameters → (g i).value = (h i).value) ∧
      D.run s.amp (ops ++ evs.map fun e => .eval e.1 e.2) = some a ∧ MarksFrom3 none evs ∧
      (∀ h0, (evs.getLast?.map (·.2)) = some h0 → ∀ i, (g i).value = h0 i)) at_
    (fun h ev => timeDensity3 d w rs eff h ev.tag ev.m12 ev.m13 ev.time)
    (fun h => timeTotal3 d w rs eff h s.amp.fraction s.amp.grid) hacc hsep hdist (by
      rintro a g v ⟨evs, hgi, hgb, hgo, hrun', hm, hlast⟩ ⟨hlen, hdec⟩
      obtain ⟨g', a', hfcn, hat, hnorm, -, hdata, hval, hgi', hgb', hgo', evs', e2, hm', hlast'⟩ := one_stateT d hd table w rs built hb
        hs h16 eff heff t s.amp hn hw (rows.map (·.1)) htag ops hops h g evs a hgi hgb hgo hrun' hm hlast v hlen hdec
      refine ⟨g', a', hfcn, hat, ?_, hdata, hval, evs', hgi', hgb', hgo', e2, hm', hlast'⟩
      show D.normalize a (t3Marks g') (fun i => (g' i).value) = _
      rw [hat]
      exact hnorm)
    calls (withDataT s.amp (rows.map (·.1))) h
    ⟨[], hix, hblind, fun _ _ => rfl, by simpa using give_runT D s.amp _ ops hops, trivial, by simp⟩
    (fun v hv => ⟨⟨(hcalls v hv).1, (hcalls v hv).2.1⟩, (hcalls v hv).2.2.1, (hcalls v hv).2.2.2.2⟩)
  obtain ⟨h2, s2, hk⟩ := key
  exact ⟨_, h2, s2, hgive1, hk⟩

/-- **C106** for a three-body amplitude without time (what is missing: as in C93 splines, more than 16 resonances, different numbers
of bins, efficiencies with parameters and blinded parameters; and as above). -/
theorem C106_likelihood_partial (d : DalitzCtx) (hd : GoodMasses d) (table : Nat → ℝ) (rs : List (ResUse ResNew))
    (built : List (ResUse ResObj)) (hb : resBuildAll rs = some built) (hs : ∀ r ∈ rs, ¬ IsSplineRes r.res)
    (h16 : rs.length ≤ 16) (eff : (Nat → ℝ) → ℝ → ℝ → ℝ) (heff : ∀ h h', eff h = eff h')
    (leaf : ResObj → L.Leaf) (part : WPart Ev3 → L.Leaf) (efficiency : Pdf L)
    (W : Wrap Ev3) (before : List (MnOp ℝ)) (h₀ h : Pars ℝ) :
    let D := d3Pdf d table built eff
    let t := W.tree (D.tree leaf efficiency) part
    W.accepted = true → W.separately D.obj.own = true → DistinctWeights W →
    mnRun t h₀ before = some h → (∀ i ∈ t.getParameters, (h i).blind = 0) →
    ∀ (s : WrapState D3State) (_ : s.amp.grid.nb12 = s.amp.grid.nb13) (_ : 0 < s.amp.grid.nb12)
      (rows : List (WRow Ev3)) (_ : Numbered (rows.map (·.1)))
      (give : List (WrapOp Ev3)) (_ : GivesRows rows (W.observables D.obj.own).length give) (calls : List (List ℝ)),
    let at_ := fun v => valuesAt t.getParameters v fun i => (h i).value
    let rate := fun v (ev : Ev3) => density3 d rs eff (at_ v) ev.m12 ev.m13 / total3 d rs eff (at_ v) s.amp.grid
    let density := fun v row => composed (at_ v) (rate v) row W
    (∀ v ∈ calls, t.getParameters.length ≤ v.length
      ∧ 0 < total3 d rs eff (at_ v) s.amp.grid ∧ YieldsOK (at_ v) rows W ∧ nllRows (density v) rows ≠ 0) →
    ∃ s1 h2 s2, W.run D.obj s give = some s1 ∧
      W.fcnAll D.obj t calls h s1 = .done (calls.map fun v =>
        nllRows (density v) rows + wYieldTerm (at_ v) rows.length W, h2, s2) := by
  intro D t hacc hsep hdist hrun hblind s hbins hpos rows hnum give hgive calls at_ rate density hcalls
  have hix : Indexed t.getParameters h := (mnRun_indexed t h₀ h before hrun).1
  have hgiven : ∃ ops a, GivesData (rows.map (·.1)) ops ∧ D.run s.amp ops = some a ∧
      W.run D.obj s give = some ⟨a, rows.map (·.2), rows.length, rows.length⟩ := by
    cases hgive
    · refine ⟨_, _, .parent, rfl, ?_⟩
      simp [Wrap.run, Wrap.step, D3.obj, D3.step]
    · refine ⟨_, _, .parentFirst, rfl, ?_⟩
      simp [Wrap.run, Wrap.step, D3.obj, D3.step]
  obtain ⟨ops, a0, hops, hops1, hgive1⟩ := hgiven
  have key := wrap_fit W D.obj t rows (fun v => t.getParameters.length ≤ v.length)
    (fun a g => ∃ evs : List ((ResObj → Bool) × (Nat → ℝ)), Indexed t.getParameters g ∧ (∀ i ∈ t.getParameters, (g i).blind = 0) ∧
      (∀ i, i ∉ t.getParameters → (g i).value = (h i).value) ∧
      D.run s.amp (ops ++ evs.map fun e => .eval e.1 e.2) = some a ∧ MarksFrom3 none evs ∧
      (∀ h0, (evs.getLast?.map (·.2)) = some h0 → ∀ i, (g i).value = h0 i)) at_
    (fun h ev => density3 d rs eff h ev.m12 ev.m13)
    (fun h => total3 d rs eff h s.amp.grid) hacc hsep hdist (by
      rintro a g v ⟨evs, hgi, hgb, hgo, hrun', hm, hlast⟩ hlen
      obtain ⟨g', a', hfcn, hat, hnorm, -, hval, hgi', hgb', hgo', evs', e2, hm', hlast'⟩ := one_state d hd table rs built hb
        hs h16 eff heff t s.amp hbins hpos (rows.map (·.1)) hnum ops hops h g evs a hgi hgb hgo hrun' hm hlast v hlen
      refine ⟨g', a', hfcn, hat, ?_, data_given D s.amp a' _ ops hops evs' e2, hval, evs', hgi', hgb', hgo', e2, hm', hlast'⟩
      show D.normalize a (marksOf g') (fun i => (g' i).value) = _
      rw [hat]
      exact hnorm)
    calls a0 h
    ⟨[], hix, hblind, fun _ _ => rfl, by simpa using hops1, trivial, by simp⟩
    (fun v hv => ⟨(hcalls v hv).1, (hcalls v hv).2.1, (hcalls v hv).2.2.2⟩)
  obtain ⟨h2, s2, hk⟩ := key
  exact ⟨_, h2, s2, hgive1, hk⟩

private theorem composed_congr (W : Wrap A) (h h' : Nat → ℝ) (p p' : A → ℝ) (hp : p = p') (row : WRow A) (amp : Pdf L)
    (part : WPart A → L.Leaf) (hv : ∀ i ∈ (W.tree amp part).getParameters, h i = h' i) :
    composed h p row W = composed h' p' row W := by
  subst hp
  have parts : ∀ (k : Fn L) (ws os : List Nat) (pre post : List (WPart A)) (x : Pdf L),
      (∀ i ∈ (Pdf.mk ⟨0, k, ws, [], os, 1⟩ (pre.map (fun o => .mk ⟨0, .leaf (part o), o.params, [], o.obs, 1⟩ []) ++ [x]
        ++ post.map (fun o => .mk ⟨0, .leaf (part o), o.params, [], o.obs, 1⟩ []))).getParameters, h i = h' i) →
      ws.map h = ws.map h' ∧ pre.map (partDensity h row) = pre.map (partDensity h' row)
        ∧ post.map (partDensity h row) = post.map (partDensity h' row) ∧ ∀ i ∈ x.getParameters, h i = h' i := by
    intro k ws os pre post x hall
    have hmem : ∀ o ∈ pre ++ post, ∀ i ∈ o.params, h i = h' i := by
      intro o ho i hi
      apply hall
      unfold Pdf.getParameters
      rw [mem_gather_own]
      refine Or.inr ⟨.mk ⟨0, .leaf (part o), o.params, [], o.obs, 1⟩ [], ?_, hi⟩
      rw [List.mem_append] at ho
      simp only [List.mem_append, List.mem_map, List.mem_singleton]
      rcases ho with ho | ho
      · exact Or.inl (Or.inl ⟨o, ho, rfl⟩)
      · exact Or.inr ⟨o, ho, rfl⟩
    have hpart : ∀ o ∈ pre ++ post, partDensity h row o = partDensity h' row o := by
      intro o ho
      unfold partDensity
      rw [List.map_congr_left (hmem o ho)]
    refine ⟨?_, ?_, ?_, ?_⟩
    · apply List.map_congr_left
      intro i hi
      apply hall
      unfold Pdf.getParameters
      rw [mem_gather_own]
      exact Or.inl hi
    · exact List.map_congr_left fun o ho => hpart o (by simp [ho])
    · exact List.map_congr_left fun o ho => hpart o (by simp [ho])
    · intro i hi
      apply hall
      unfold Pdf.getParameters
      rw [mem_gather_own]
      exact Or.inr ⟨x, by simp, hi⟩
  induction W with
  | amp => rfl
  | add pre inner post ws ih =>
    obtain ⟨h1, h2, h3, h4⟩ := parts _ _ _ pre post _ hv
    unfold composed
    rw [h1, h2, h3, ih h4]
  | evt pre inner post columns ih =>
    obtain ⟨-, h2, h3, h4⟩ := parts _ _ _ pre post _ hv
    unfold composed
    rw [h2, h3, ih h4]
  | prod pre inner post ih =>
    obtain ⟨-, h2, h3, h4⟩ := parts _ _ _ pre post _ hv
    unfold composed
    rw [h2, h3, ih h4]

private theorem amp_parameters (W : Wrap A) (amp : Pdf L) (part : WPart A → L.Leaf) (i : Nat) (hi : i ∈ amp.getParameters) :
    i ∈ (W.tree amp part).getParameters := by
  induction W with
  | amp => exact hi
  | add pre inner post ws ih =>
    unfold Pdf.getParameters Wrap.tree
    rw [mem_gather_own]
    exact Or.inr ⟨_, by simp, ih⟩
  | evt pre inner post ws ih =>
    unfold Pdf.getParameters Wrap.tree
    rw [mem_gather_own]
    exact Or.inr ⟨_, by simp, ih⟩
  | prod pre inner post ih =>
    unfold Pdf.getParameters Wrap.tree
    rw [mem_gather_own]
    exact Or.inr ⟨_, by simp, ih⟩

/-- **C106, parameters.**  The composed density depends only on the parameters the minimiser gets. -/
theorem C106_parameters (d : DalitzCtx) (table : Nat → ℝ) (w : MixVars) (rs : List (ResUse ResNew)) (built : List (ResUse ResObj))
    (hb : resBuildAll rs = some built) (hs : ∀ r ∈ rs, ¬ IsSplineRes r.res) (eff : (Nat → ℝ) → ℝ → ℝ → ℝ)
    (heff : ∀ h h', eff h = eff h') (leaf : ResObj → L.Leaf) (part : WPart Ev7 → L.Leaf) (resolution efficiency : Pdf L)
    (W : Wrap Ev7) (f : ℝ) (g : TdRange) (h h' : Nat → ℝ)
    (hv : ∀ i ∈ (W.tree ((t3Pdf d table w built eff).tree leaf resolution efficiency) part).getParameters, h i = h' i)
    (row : WRow Ev7) :
    composed h (fun ev => timeDensity3 d w rs eff h ev.tag ev.m12 ev.m13 ev.time / timeTotal3 d w rs eff h f g) row W
      = composed h' (fun ev => timeDensity3 d w rs eff h' ev.tag ev.m12 ev.m13 ev.time / timeTotal3 d w rs eff h' f g) row W := by
  have hd : timeDensity3 d w rs eff h = timeDensity3 d w rs eff h' :=
    C97_parameters d table w rs built hb hs eff heff leaf resolution efficiency h h'
      (fun i hi => hv i (amp_parameters W _ part i hi))
  refine composed_congr W h h' _ _ ?_ row _ part hv
  unfold timeTotal3
  rw [hd]

end

/-- **C106, violation (weights).**  When two weights of an event are the same observable, the second is registered once only, and the
weight of the second component is read from the first observable of the components: here the density is 7/4 and not 3/2. -/
theorem C106_violation_weights :
    let flat : WPart Ev7 := ⟨[], [9], fun _ _ => 1, fun _ => 1⟩
    let W : Wrap Ev7 := .evt [flat] .amp [] [8, 8]
    let row : WRow Ev7 := (⟨0, 0, 0, 0, 0, 0, 0⟩, fun i => if i = 8 then 1 else 3)
    W.accepted = true ∧ W.device (List.range 7) (fun _ => 0) 1 row 2 * W.norm 1 = 7 / 4
      ∧ composed (fun _ => 0) (fun _ => 2) row W = 3 / 2 := by
  intro flat W row
  have ho : W.observables (List.range 7) = [8, 9, 0, 1, 2, 3, 4, 5, 6] := by decide
  refine ⟨by decide, ?_, ?_⟩
  · show W.device (List.range 7) (fun _ => 0) 1 row 2 * 1 = 7 / 4
    have : W.device (List.range 7) (fun _ => 0) 1 row 2
        = weightedLoop (!decide (2 < 2)) ((List.range 2).map fun i => row.2 ((W.observables (List.range 7)).getD i 0)) [1, 2] [1, 1 / 1] := rfl
    rw [this, ho]
    norm_num [weightedLoop, row, List.range_succ]
  · norm_num [composed, W, row, shares, partDensity, flat]

/-! ### Concrete cases -/

/-- A fit manager can be made when the names are different; values and blinding stay. -/
theorem start_fit {L : Lib ℝ} (t : Pdf L) (h₀ : Pars ℝ) (hn : (t.getParameters.map fun i => (h₀ i).name).Nodup) :
    ∃ h, mnRun t h₀ [] = some h ∧ ∀ i, (h i).blind = (h₀ i).blind ∧ (h i).value = (h₀ i).value := by
  obtain ⟨r, hr⟩ := (paramsLoop_spec t.getParameters [] h₀).2 (by simp) hn
  obtain ⟨-, -, -, c4, c5⟩ := (paramsLoop_spec t.getParameters [] h₀).1 r.1 r.2 hr
  refine ⟨t.getParameters.foldl (fun h i => h.modify i fun v => { v with changed := true }) r.2, ?_, ?_⟩
  · unfold mnRun paramsCtor
    rw [hr]
    rfl
  · intro i
    rw [markChanged_spec]
    by_cases hi : i ∈ t.getParameters
    · obtain ⟨k, hk⟩ := List.getElem?_of_mem hi
      rw [if_pos hi, c4 k i hk]
      exact ⟨rfl, rfl⟩
    · rw [if_neg hi, c5 i hi]
      exact ⟨rfl, rfl⟩

namespace DemoWrap
open DemoT3

/-- A distribution of the time error. -/
noncomputable def errors : WPart Ev7 := ⟨[], [1], fun _ row => row.1.sigma, fun _ => 1 / 2⟩
/-- A constant background with one parameter. -/
noncomputable def flat : WPart Ev7 := ⟨[7], [2, 3], fun ps _ => ps.getD 0 0, fun ps => 1 / (4 * ps.getD 0 0)⟩
/-- The signal, multiplied with the distribution of the time error, and the background, with weights in the events. -/
noncomputable def whole : Wrap Ev7 := .evt [] (.prod [] .amp [errors]) [flat] [8, 9]
/-- Two events, one of them outside the decay region, with weights 3 and 1, and 1 and 1. -/
noncomputable def rows : List (WRow Ev7) :=
  [(⟨2, 1, 4, 4, 0, 0, 1⟩, fun i => if i = 8 then 3 else 1), (⟨2, 1, 0, 0, 1, 0, -1⟩, fun _ => 1)]

/-- Variables with different names: the coefficient, the lifetime, the mixing and the background. -/
def vars (i : Nat) : ParVar ℝ :=
  ⟨if i = 0 then "re" else if i = 1 then "im" else if i = 2 then "tau" else if i = 3 then "x" else if i = 4 then "y"
    else if i = 5 then "dx" else if i = 6 then "dy" else "bg", 0, 1, 0, 0, 0, false, false, -1⟩

/-- Coefficient `a`, lifetime `τ`, no mixing, background `b`. -/
def at8 (a τ b : ℝ) (i : Nat) : ℝ := if i = 7 then b else vals a τ i

theorem density_b (a τ b q x y t : ℝ) : timeDensity3 Demo3.decay mix Demo3.rs DemoT3.eff (at8 a τ b) q x y t
    = timeDensity3 Demo3.decay mix Demo3.rs DemoT3.eff (vals a τ) q x y t := by
  have : timeDensity3 Demo3.decay mix Demo3.rs DemoT3.eff (at8 a τ b) = timeDensity3 Demo3.decay mix Demo3.rs DemoT3.eff (vals a τ) := by
    funext q x y t
    unfold timeDensity3
    rw [amp, amp, amp, amp]
    rfl
  rw [this]

theorem total_b (a τ b f : ℝ) (g : TdRange) : timeTotal3 Demo3.decay mix Demo3.rs DemoT3.eff (at8 a τ b) f g
    = timeTotal3 Demo3.decay mix Demo3.rs DemoT3.eff (vals a τ) f g := by
  unfold timeTotal3
  simp only [density_b]

theorem values (a τ b f : ℝ) (ha : a ≠ 0) (hτ : 0 < τ) (hb : b ≠ 0) :
    let p := fun ev : Ev7 => timeDensity3 Demo3.decay mix Demo3.rs DemoT3.eff (at8 a τ b) ev.tag ev.m12 ev.m13 ev.time
      / timeTotal3 Demo3.decay mix Demo3.rs DemoT3.eff (at8 a τ b) f DemoT3.grid
    composed (at8 a τ b) p (⟨2, 1, 4, 4, 0, 0, 1⟩, fun i => if i = 8 then 3 else 1) whole
        = 3 / 4 * (Real.exp (-(2 / τ)) / (8 * τ)) + 1 / 16
      ∧ composed (at8 a τ b) p (⟨2, 1, 0, 0, 1, 0, -1⟩, fun _ => 1) whole = 1 / 8 := by
  intro p
  have h0 : Demo3.pdf.inside 0 0 = false := Demo3.outside_low _ _ (by norm_num)
  have p1 : p ⟨2, 1, 4, 4, 0, 0, 1⟩ = Real.exp (-(2 / τ)) / (4 * τ) := by
    show timeDensity3 _ _ _ _ _ _ _ _ _ / _ = _
    rw [density_b, total_b, total_plain a τ f hτ, density_plain, Demo3.inside_centre, if_pos rfl]
    field_simp
    ring
  have p2 : p ⟨2, 1, 0, 0, 1, 0, -1⟩ = 0 := by
    show timeDensity3 _ _ _ _ _ _ _ _ _ / _ = _
    rw [density_b, density_plain, h0]
    simp
  have hf : ∀ row : WRow Ev7, partDensity (at8 a τ b) row flat = 1 / 4 := by
    intro row
    show b * (1 / (4 * b)) = 1 / 4
    field_simp
  have he : ∀ (ev : Ev7) (c : Nat → ℝ), partDensity (at8 a τ b) (ev, c) errors = ev.sigma * (1 / 2) := fun _ _ => rfl
  constructor
  · simp only [composed, whole, shares, List.map_cons, List.map_nil, hf, he, p1, List.length_cons, List.length_nil]
    norm_num
    ring
  · simp only [composed, whole, shares, List.map_cons, List.map_nil, hf, he, p2, List.length_cons, List.length_nil]
    norm_num

end DemoWrap
open DemoWrap

/-- A fit of the signal with its time error and a background, with weights in the events. -/
example (L : Lib ℝ) (l : L.Leaf) (cols : List (Nat → ℝ)) (n m : Nat) :
    let D := DemoT3.pdf
    let t := whole.tree (D.tree (L := L) (fun _ => l) (.mk ⟨8, .leaf l, [], [], [], 1⟩ []) (.mk ⟨9, .leaf l, [], [], [], 1⟩ [])) fun _ => l
    ∃ h, mnRun t DemoWrap.vars [] = some h ∧ ∃ s1 h2 s2,
      whole.run D.obj ⟨t3Init DemoT3.grid ⟨0, 0, 1⟩, cols, n, m⟩ [.setData rows, .setDataSize 2 9] = some s1 ∧
      whole.fcnAll D.obj t [[2, 0, 0, 0, 0, 1, 0, 1], [1, 0, 0, 0, 0, 3, 0, 5]] h s1
        = .done ([-Real.log (3 / 4 * (Real.exp (-(2 / 2)) / (8 * 2)) + 1 / 16) + -Real.log (1 / 8),
            -Real.log (3 / 4 * (Real.exp (-(2 / 1)) / (8 * 1)) + 1 / 16) + -Real.log (1 / 8)], h2, s2) := by
  intro D t
  have ha : gather Node.params (D.tree (L := L) (fun _ => l) (.mk ⟨8, .leaf l, [], [], [], 1⟩ [])
      (.mk ⟨9, .leaf l, [], [], [], 1⟩ [])) = [2, 3, 4, 5, 6, 0, 1] := rfl
  have hp : t.getParameters = [2, 3, 4, 5, 6, 0, 1, 7] := by
    unfold Pdf.getParameters
    simp only [t, whole, Wrap.tree, errors, flat, List.map_nil, List.map_cons, List.nil_append, List.cons_append, gather, gatherList, ha]
    rfl
  obtain ⟨h, hh, hb⟩ := start_fit t DemoWrap.vars (by rw [hp]; decide)
  refine ⟨h, hh, ?_⟩
  have hlen : ∀ a b c d e f g i : ℝ, t.getParameters.length ≤ [a, b, c, d, e, f, g, i].length := by
    intros
    rw [hp]
    simp
  have hv : ∀ a τ b : ℝ, valuesAt t.getParameters [τ, 0, 0, 0, 0, a, 0, b] (fun i => (h i).value) = at8 a τ b := by
    intro a τ b
    funext i
    unfold valuesAt
    rw [hp]
    match i with
    | 0 => simp [at8, DemoT3.vals]
    | 1 => simp [at8, DemoT3.vals]
    | 2 => simp [at8, DemoT3.vals]
    | 3 => simp [at8, DemoT3.vals]
    | 4 => simp [at8, DemoT3.vals]
    | 5 => simp [at8, DemoT3.vals]
    | 6 => simp [at8, DemoT3.vals]
    | 7 => simp [at8]
    | i + 8 =>
      rw [if_neg (by simp)]
      show (h (i + 8)).value = _
      rw [(hb (i + 8)).2]
      simp [at8, DemoT3.vals, DemoWrap.vars]
  have hnll : ∀ a τ b : ℝ, a ≠ 0 → 0 < τ → b ≠ 0 → nllRows (fun row => composed (at8 a τ b) (fun ev : Ev7 =>
      timeDensity3 Demo3.decay DemoT3.mix Demo3.rs DemoT3.eff (at8 a τ b) ev.tag ev.m12 ev.m13 ev.time
      / timeTotal3 Demo3.decay DemoT3.mix Demo3.rs DemoT3.eff (at8 a τ b) (1 / 2) DemoT3.grid) row whole) rows
      = -Real.log (3 / 4 * (Real.exp (-(2 / τ)) / (8 * τ)) + 1 / 16) + -Real.log (1 / 8) := by
    intro a τ b ha hτ hb
    obtain ⟨e1, e2⟩ := values a τ b (1 / 2) ha hτ hb
    have h1 : 0 < 3 / 4 * (Real.exp (-(2 / τ)) / (8 * τ)) + 1 / 16 := by positivity
    unfold nllRows rows
    simp only [List.filter_cons, List.filter_nil, e1, e2, h1, decide_true, if_true]
    norm_num [e1, e2]
  have hpos : ∀ τ : ℝ, 1 ≤ τ → -Real.log (3 / 4 * (Real.exp (-(2 / τ)) / (8 * τ)) + 1 / 16) + -Real.log (1 / 8) ≠ 0 := by
    intro τ hτ
    have he : Real.exp (-(2 / τ)) ≤ 1 := Real.exp_le_one_iff.mpr (neg_nonpos.mpr (by positivity))
    have h1 : Real.exp (-(2 / τ)) / (8 * τ) ≤ 1 / 8 := by
      rw [div_le_div_iff₀ (by positivity) (by norm_num)]
      nlinarith
    have h0 : 0 < Real.exp (-(2 / τ)) / (8 * τ) := by positivity
    have l1 : Real.log (3 / 4 * (Real.exp (-(2 / τ)) / (8 * τ)) + 1 / 16) < 0 := Real.log_neg (by linarith) (by linarith)
    have l2 : Real.log (1 / 8 : ℝ) < 0 := Real.log_neg (by norm_num) (by norm_num)
    linarith
  have hyp : ∀ a τ b : ℝ, a ≠ 0 → 1 ≤ τ → b ≠ 0 → ∀ hv' : Nat → ℝ, hv' = at8 a τ b →
      Decays DemoT3.mix hv' ∧ 0 < timeTotal3 Demo3.decay DemoT3.mix Demo3.rs DemoT3.eff hv' (1 / 2) DemoT3.grid
      ∧ YieldsOK hv' rows whole ∧ nllRows (fun row => composed hv' (fun ev : Ev7 =>
      timeDensity3 Demo3.decay DemoT3.mix Demo3.rs DemoT3.eff hv' ev.tag ev.m12 ev.m13 ev.time
      / timeTotal3 Demo3.decay DemoT3.mix Demo3.rs DemoT3.eff hv' (1 / 2) DemoT3.grid) row whole) rows ≠ 0 := by
    rintro a τ b ha hτ hb hv' rfl
    have hτ0 : 0 < τ := by linarith
    refine ⟨DemoT3.decays a τ hτ0, ?_, ?_, ?_⟩
    · rw [total_b, DemoT3.total_plain a τ _ hτ0]
      positivity
    · refine ⟨?_, trivial⟩
      intro _ row hrow
      simp only [rows, List.mem_cons, List.not_mem_nil, or_false] at hrow
      rcases hrow with rfl | rfl <;> norm_num
    · rw [hnll a τ b ha hτ0 hb]
      exact hpos τ hτ
  obtain ⟨s1, h2, s2, q1, q2⟩ := C106_time_likelihood_partial Demo3.decay Demo3.good (fun _ => 0) DemoT3.mix Demo3.rs Demo3.built
    Demo3.built_eq (by intro r hr; simp [Demo3.rs] at hr; subst hr; exact id) (by decide) DemoT3.eff (fun _ _ => rfl) (fun _ => l)
    (fun _ => l) (.mk ⟨8, .leaf l, [], [], [], 1⟩ []) (.mk ⟨9, .leaf l, [], [], [], 1⟩ []) whole [] DemoWrap.vars h
    rfl rfl ⟨by decide, trivial⟩ hh (fun i _ => (hb i).1.trans rfl)
    ⟨t3Init DemoT3.grid ⟨0, 0, 1⟩, cols, n, m⟩ (DemoT3.range_ok _ rfl) rfl rows DemoT3.tagged _ .dataFirst
    [[2, 0, 0, 0, 0, 1, 0, 1], [1, 0, 0, 0, 0, 3, 0, 5]] (by
      intro v hvm
      simp only [List.mem_cons, List.not_mem_nil, or_false] at hvm
      rcases hvm with rfl | rfl
      · exact ⟨hlen _ _ _ _ _ _ _ _, hyp 1 2 1 (by norm_num) (by norm_num) (by norm_num) _ (hv 1 2 1)⟩
      · exact ⟨hlen _ _ _ _ _ _ _ _, hyp 3 1 5 (by norm_num) (by norm_num) (by norm_num) _ (hv 3 1 5)⟩)
  refine ⟨s1, h2, s2, q1, q2.trans ?_⟩
  have two : ∀ (f : List ℝ → ℝ) (a b : List ℝ), [a, b].map f = [f a, f b] := fun _ _ _ => rfl
  rw [two]
  have e1 := hnll 1 2 1 (by norm_num) (by norm_num) (by norm_num)
  have e2 := hnll 3 1 5 (by norm_num) (by norm_num) (by norm_num)
  rw [← hv] at e1 e2
  rw [← e1, ← e2]
  show Ran.done ([_ + 0, _ + 0], h2, s2) = _
  rw [add_zero, add_zero]
  rfl

/-- The density of that case depends on its eight parameters only. -/
example (L : Lib ℝ) (l : L.Leaf) (h h' : Nat → ℝ) (hh : ∀ i < 8, h i = h' i) (row : WRow Ev7) :
    composed h (fun ev => timeDensity3 Demo3.decay DemoT3.mix Demo3.rs DemoT3.eff h ev.tag ev.m12 ev.m13 ev.time
        / timeTotal3 Demo3.decay DemoT3.mix Demo3.rs DemoT3.eff h 0 DemoT3.grid) row whole
      = composed h' (fun ev => timeDensity3 Demo3.decay DemoT3.mix Demo3.rs DemoT3.eff h' ev.tag ev.m12 ev.m13 ev.time
        / timeTotal3 Demo3.decay DemoT3.mix Demo3.rs DemoT3.eff h' 0 DemoT3.grid) row whole := by
  refine C106_parameters (L := L) Demo3.decay (fun _ => 0) DemoT3.mix Demo3.rs Demo3.built Demo3.built_eq
    (by intro r hr; simp [Demo3.rs] at hr; subst hr; exact id) DemoT3.eff (fun _ _ => rfl) (fun _ => l) (fun _ => l)
    (.mk ⟨8, .leaf l, [], [], [], 1⟩ []) (.mk ⟨9, .leaf l, [], [], [], 1⟩ []) whole 0 DemoT3.grid h h' ?_ row
  intro i hi
  have ha : gather Node.params (DemoT3.pdf.tree (L := L) (fun _ => l) (.mk ⟨8, .leaf l, [], [], [], 1⟩ [])
      (.mk ⟨9, .leaf l, [], [], [], 1⟩ [])) = [2, 3, 4, 5, 6, 0, 1] := rfl
  unfold Pdf.getParameters at hi
  simp only [whole, Wrap.tree, errors, DemoWrap.flat, List.map_nil, List.map_cons, List.nil_append, List.cons_append, gather,
    gatherList] at hi
  rw [show gather Node.params ((t3Pdf Demo3.decay (fun _ => 0) DemoT3.mix Demo3.built DemoT3.eff).tree (L := L) (fun _ => l)
    (.mk ⟨8, .leaf l, [], [], [], 1⟩ []) (.mk ⟨9, .leaf l, [], [], [], 1⟩ [])) = [2, 3, 4, 5, 6, 0, 1] from ha] at hi
  have : i ∈ [2, 3, 4, 5, 6, 0, 1, 7] := hi
  simp only [List.mem_cons, List.not_mem_nil, or_false] at this
  exact hh i (by omega)

namespace DemoWrap3

/-- A distribution of `m12`, normalised from 3 to 5. -/
noncomputable def flat12 : WPart Ev3 := ⟨[], [0], fun _ _ => 1, fun _ => 1 / 2⟩
/-- The decay times the distribution of `m12`. -/
noncomputable def whole : Wrap Ev3 := .prod [] .amp [flat12]

theorem composed_at (h : Nat → ℝ) (p : Ev3 → ℝ) (row : WRow Ev3) : composed h p row whole = p row.1 * (1 / 2) := by
  simp [composed, whole, partDensity, flat12]

end DemoWrap3

/-- **C106, violation (product).**  A product of a three-body amplitude and a PDF of one of its observables is not normalised: the
amplitude asks for separate normalisations, and the product follows, although the two share an observable.  Here both are normalised
to one, and the product has the integral 1/2. -/
theorem C106_violation_product (h : Nat → ℝ) (ha : 0 < h 0 ^ 2 + h 1 ^ 2) :
    let p := fun ev : Ev3 => density3 Demo3.decay Demo3.rs DemoFit3.eff h ev.m12 ev.m13
      / total3 Demo3.decay Demo3.rs DemoFit3.eff h Demo3.demoGrid
    DemoWrap3.whole.accepted = true ∧ DemoWrap3.whole.separately (List.range 3) = true
      ∧ overGrid Demo3.demoGrid (fun x y => p ⟨x, y, 0⟩) = 1
      ∧ (5 - 3) * partDensity h ((⟨4, 4, 0⟩, fun _ => 0) : WRow Ev3) DemoWrap3.flat12 = 1
      ∧ overGrid Demo3.demoGrid (fun x y => composed h p (⟨x, y, 0⟩, fun _ => 0) DemoWrap3.whole) = 1 / 2 := by
  intro p
  have hone : overGrid Demo3.demoGrid (fun x y => p ⟨x, y, 0⟩) = 1 := by
    have e : (fun x y => p ⟨x, y, 0⟩) = fun x y =>
        (total3 Demo3.decay Demo3.rs DemoFit3.eff h Demo3.demoGrid)⁻¹ * density3 Demo3.decay Demo3.rs DemoFit3.eff h x y := by
      funext x y
      show _ / _ = _
      rw [div_eq_mul_inv, mul_comm]
    have ht : total3 Demo3.decay Demo3.rs DemoFit3.eff h Demo3.demoGrid = (h 0 ^ 2 + h 1 ^ 2) * 4 := DemoFit3.total_eq h
    rw [e, overGrid_mul, DemoMix3.over_amp, ht]
    field_simp
  refine ⟨rfl, rfl, hone, ?_, ?_⟩
  · norm_num [partDensity, DemoWrap3.flat12]
  · have e : (fun x y => composed h p (⟨x, y, 0⟩, fun _ => 0) DemoWrap3.whole) = fun x y => (1 / 2) * p ⟨x, y, 0⟩ := by
      funext x y
      rw [DemoWrap3.composed_at, mul_comm]
    rw [e, overGrid_mul, hone, mul_one]

/-- A fit of the decay with that distribution of `m12`: one event. -/
example (L : Lib ℝ) (l : L.Leaf) (s : WrapState D3State) (hg : s.amp.grid = Demo3.demoGrid) :
    let D := d3Pdf Demo3.decay (fun _ => 0) Demo3.built DemoFit3.eff
    let t := DemoWrap3.whole.tree (D.tree (L := L) (fun _ => l) (.mk ⟨9, .leaf l, [], [], [], 1⟩ [])) fun _ => l
    ∃ h, mnRun t DemoMix3.vars [] = some h ∧ ∃ s1 h2 s2,
      DemoWrap3.whole.run D.obj s [.setDataSize 1 3, .setData [(⟨4, 4, 0⟩, fun _ => 0)]] = some s1 ∧
      DemoWrap3.whole.fcnAll D.obj t [[1, 0], [2, 3]] h s1 = .done ([-Real.log (1 / 8), -Real.log (1 / 8)], h2, s2) := by
  intro D t
  have ha : gather Node.params (D.tree (L := L) (fun _ => l) (.mk ⟨9, .leaf l, [], [], [], 1⟩ [])) = [0, 1] := rfl
  have hp : t.getParameters = [0, 1] := by
    unfold Pdf.getParameters
    simp only [t, DemoWrap3.whole, Wrap.tree, DemoWrap3.flat12, List.map_nil, List.map_cons, List.nil_append, List.cons_append,
      gather, gatherList, ha]
    rfl
  obtain ⟨h, hh, hb⟩ := start_fit t DemoMix3.vars (by rw [hp]; decide)
  refine ⟨h, hh, ?_⟩
  have v0 : ∀ a b : ℝ, valuesAt t.getParameters [a, b] (fun i => (h i).value) 0 = a := by
    intros; rw [hp]; norm_num [valuesAt, List.idxOf_cons]
  have v1 : ∀ a b : ℝ, valuesAt t.getParameters [a, b] (fun i => (h i).value) 1 = b := by
    intros; rw [hp]; norm_num [valuesAt, List.idxOf_cons]
  have hlen : ∀ a b : ℝ, t.getParameters.length ≤ [a, b].length := by
    intros; rw [hp]; simp
  have hnll : ∀ g : Nat → ℝ, 0 < g 0 ^ 2 + g 1 ^ 2 → nllRows (fun row => composed g (fun ev : Ev3 =>
      density3 Demo3.decay Demo3.rs DemoFit3.eff g ev.m12 ev.m13 / total3 Demo3.decay Demo3.rs DemoFit3.eff g s.amp.grid) row
      DemoWrap3.whole) [((⟨4, 4, 0⟩, fun _ => 0) : WRow Ev3)] = -Real.log (1 / 8) := by
    intro g hpos
    have h4 : density3 Demo3.decay Demo3.rs DemoFit3.eff g 4 4 = g 0 ^ 2 + g 1 ^ 2 := by
      rw [DemoFit3.density_eq, Demo3.inside_centre, if_pos rfl]
    have ht : total3 Demo3.decay Demo3.rs DemoFit3.eff g Demo3.demoGrid = (g 0 ^ 2 + g 1 ^ 2) * 4 := DemoFit3.total_eq g
    have e : (g 0 ^ 2 + g 1 ^ 2) / ((g 0 ^ 2 + g 1 ^ 2) * 4) * (1 / 2) = 1 / 8 := by
      field_simp
      norm_num
    unfold nllRows
    simp only [DemoWrap3.composed_at, hg, ht, List.filter_cons, List.filter_nil, h4, e]
    norm_num [h4, e]
  have hneg : -Real.log (1 / 8 : ℝ) ≠ 0 := by
    have : Real.log (1 / 8 : ℝ) < 0 := Real.log_neg (by norm_num) (by norm_num)
    linarith
  have hyp : ∀ a b : ℝ, a ≠ 0 → ∀ g : Nat → ℝ, g = valuesAt t.getParameters [a, b] (fun i => (h i).value) →
      0 < total3 Demo3.decay Demo3.rs DemoFit3.eff g s.amp.grid
      ∧ YieldsOK g [((⟨4, 4, 0⟩, fun _ => 0) : WRow Ev3)] DemoWrap3.whole ∧ nllRows (fun row => composed g (fun ev : Ev3 =>
      density3 Demo3.decay Demo3.rs DemoFit3.eff g ev.m12 ev.m13 / total3 Demo3.decay Demo3.rs DemoFit3.eff g s.amp.grid) row
      DemoWrap3.whole) [((⟨4, 4, 0⟩, fun _ => 0) : WRow Ev3)] ≠ 0 := by
    rintro a b hab g rfl
    have hpos : 0 < (valuesAt t.getParameters [a, b] (fun i => (h i).value)) 0 ^ 2
        + (valuesAt t.getParameters [a, b] (fun i => (h i).value)) 1 ^ 2 := by
      rw [v0, v1]
      positivity
    refine ⟨?_, trivial, ?_⟩
    · rw [hg]
      have ht : total3 Demo3.decay Demo3.rs DemoFit3.eff (valuesAt t.getParameters [a, b] fun i => (h i).value) Demo3.demoGrid
        = _ := DemoFit3.total_eq _
      rw [ht]
      positivity
    · rw [hnll _ hpos]
      exact hneg
  obtain ⟨s1, h2, s2, q1, q2⟩ := C106_likelihood_partial Demo3.decay Demo3.good (fun _ => 0) Demo3.rs Demo3.built
    Demo3.built_eq (by intro r hr; simp [Demo3.rs] at hr; subst hr; exact id) (by decide) DemoFit3.eff (fun _ _ => rfl) (fun _ => l)
    (fun _ => l) (.mk ⟨9, .leaf l, [], [], [], 1⟩ []) DemoWrap3.whole [] DemoMix3.vars h
    rfl rfl trivial hh (fun i _ => (hb i).1.trans rfl) s (by rw [hg]; rfl) (by rw [hg]; decide)
    [(⟨4, 4, 0⟩, fun _ => 0)] (by
      intro k ev hk
      match k, hk with
      | 0, hk => simp at hk; subst hk; norm_num) _ .sizeFirst
    [[1, 0], [2, 3]] (by
      intro v hvm
      simp only [List.mem_cons, List.not_mem_nil, or_false] at hvm
      rcases hvm with rfl | rfl
      · exact ⟨hlen _ _, hyp 1 0 (by norm_num) _ rfl⟩
      · exact ⟨hlen _ _, hyp 2 3 (by norm_num) _ rfl⟩)
  refine ⟨s1, h2, s2, q1, q2.trans ?_⟩
  have two : ∀ (f : List ℝ → ℝ) (a b : List ℝ), [a, b].map f = [f a, f b] := fun _ _ _ => rfl
  rw [two]
  have e1 := hnll (valuesAt t.getParameters [1, 0] fun i => (h i).value) (by rw [v0, v1]; norm_num)
  have e2 := hnll (valuesAt t.getParameters [2, 3] fun i => (h i).value) (by rw [v0, v1]; norm_num)
  exact congrArg (fun l => Ran.done (l, h2, s2)) (congrArg₂ (fun a b => [a, b]) ((add_zero _).trans e1) ((add_zero _).trans e2))

end GooFit
