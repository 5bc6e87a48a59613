import Verif.Spec.TimeDalitz3
import Verif.Spec.Fit3
import Verif.Props.Fit3
import Verif.Props.TimeDalitz
/-!
# C97: a time-dependent three-body amplitude PDF is the one its user has described; its fit minimises the likelihood
-/
set_option autoImplicit false
namespace GooFit
open Spec FpOps MeasureTheory
attribute [local instance] FpOps.ofField

/-- The PDF as constructed from what the user says. -/
noncomputable def t3Pdf (d : DalitzCtx) (table : Nat → ℝ) (v : MixVars) (built : List (ResUse ResObj))
    (eff : (Nat → ℝ) → ℝ → ℝ → ℝ) : T3 := ⟨d, table, v.tau, v.x, v.y, v.dx, v.dy, built, eff⟩

/-! ### Parameters -/

theorem t3_pars (D : T3) (h : Nat → ℝ) : D.pars h = ⟨h D.tau, h D.xmixing, h D.ymixing, h D.deltax, h D.deltay⟩ := rfl

theorem t3_coef (D : T3) (h : Nat → ℝ) (i : Nat) (r : ResUse ResObj) (hr : D.res[i]? = some r) :
    D.coef h i = ⟨h r.ar, h r.ai⟩ := by
  have key : ∀ (l : List (ResUse ResObj)) (i : Nat), l[i]? = some r →
      ((l.flatMap fun r => [r.ar, r.ai]).map h).getD (2 * i) 0 = h r.ar
        ∧ ((l.flatMap fun r => [r.ar, r.ai]).map h).getD (2 * i + 1) 0 = h r.ai := by
    intro l
    induction l with
    | nil => intro i hi; simp at hi
    | cons a l ih =>
      intro i hi
      cases i with
      | zero => simp at hi; subst hi; exact ⟨rfl, rfl⟩
      | succ i =>
        have := ih i (by simpa using hi)
        rw [show 2 * (i + 1) = 2 * i + 1 + 1 by ring]
        simpa using this
  obtain ⟨h1, h2⟩ := key D.res i hr
  unfold T3.coef T3.params
  rw [List.map_append, show 2 * i + 6 = 2 * i + 1 + 5 by ring]
  have shift : ∀ (l : List ℝ) (j : Nat), (([D.tau, D.xmixing, D.ymixing, D.deltax, D.deltay].map h) ++ l).getD (j + 5) 0
      = l.getD j 0 := fun l j => rfl
  rw [shift, shift, h1, h2]

theorem t3_depends (D : T3) (o : ResObj) (h h' : Nat → ℝ) (hv : ∀ v ∈ o.params, h v = h' v) : D.resAt h o = D.resAt h' o := by
  funext m12 m13
  unfold T3.resAt
  rw [List.map_congr_left hv]

theorem t3_wave_depends (D : T3) (o : ResObj) (h h' : Nat → ℝ) (hv : ∀ v ∈ o.params, h v = h' v) (x y : ℝ) :
    D.wave h o x y = D.wave h' o x y := by
  unfold T3.wave
  rw [t3_depends D o h h' hv]

/-! ### The array of the events -/

theorem rows_get (l : List Ev7) (k j : Nat) (hj : j < 7) :
    (l.flatMap Ev7.row)[k * 7 + j]? = (l[k]?).bind fun ev => ev.row[j]? := by
  induction l generalizing k with
  | nil => simp
  | cons a l ih =>
    rw [List.flatMap_cons]
    have hl : a.row.length = 7 := rfl
    cases k with
    | zero => rw [List.getElem?_append_left (by omega)]; simp
    | succ k =>
      rw [List.getElem?_append_right (by omega), hl, show (k + 1) * 7 + j - 7 = k * 7 + j by omega, ih]
      rfl

theorem point_eq (s : T3State) (hs : s.evtSize = 7) (k : Nat) :
    s.point k = (s.data[k]?).map fun ev => (ev.m12, ev.m13) := by
  unfold T3State.point
  rw [hs]
  simp only [rows_get _ k 2 (by decide), rows_get _ k 3 (by decide)]
  cases s.data[k]? <;> rfl

/-! ### Evaluations -/

/-- What is stored after an evaluation with the values `h0`. -/
structure InvT (D : T3) (data : List Ev7) (g : TdRange) (w : TdMistag) (f : ℝ) (E : Option (ℝ → ℝ → ℝ)) (q : Option (Nat → ℝ))
    (s : T3State) : Prop where
  data_eq : s.data = data
  entries_eq : s.entries = data.length
  size_eq : s.evtSize = 7
  alloc_eq : s.alloc = some data.length
  grid_eq : s.grid = g
  range_eq : s.range = g
  mistag_eq : s.mistag = w
  fraction_eq : s.fraction = f
  start : q = none → s.force = true
  forced : ∀ h0, q = some h0 → s.force = false
  waves : ∀ h0, q = some h0 → ∀ (i : Nat) r (k : Nat) ev, D.res[i]? = some r → data[k]? = some ev →
    s.waves i k = D.wave h0 r.res ev.m12 ev.m13
  ints : ∀ h0 e, q = some h0 → E = some e → ∀ (i j : Nat) r r', D.res[i]? = some r → D.res[j]? = some r' →
    s.integrals i j = tdIntegral D.inside (D.resAt h0 r.res) (D.resAt h0 r'.res) e g

theorem eval_invT (D : T3) (h16 : D.res.length ≤ 16) (data : List Ev7) (g : TdRange) (w : TdMistag) (f : ℝ)
    (E : Option (ℝ → ℝ → ℝ)) (q : Option (Nat → ℝ)) (s : T3State) (hi : InvT D data g w f E q s) (marks : ResObj → Bool)
    (h : Nat → ℝ) (hm : ∀ h0, q = some h0 → ∀ o : ResObj, marks o = false → ∀ v ∈ o.params, h v = h0 v)
    (hE : ∀ e, E = some e → D.eff h = e) :
    D.normalize s marks h = some (D.refresh s marks h, tdNormalize truthNormalization (D.pars h) f w g
        (tdCoherent D.res.length (D.coef h) (D.refresh s marks h).integrals))
      ∧ InvT D data g w f E (some h) (D.refresh s marks h) := by
  have hpt : ∀ (k : Nat) ev, data[k]? = some ev → s.point k = some (ev.m12, ev.m13) := by
    intro k ev hev
    rw [point_eq s hi.size_eq, hi.data_eq, hev]
    rfl
  have hout : (List.range D.res.length).any (fun i => D.redo s marks i && s.outside i) = false := by
    rw [List.any_eq_false]
    intro i hir
    have : i < D.res.length := List.mem_range.mp hir
    have hlt : ¬ 16 ≤ i := by omega
    have hread : (List.range s.entries).any (fun k => (s.point k).isNone) = false := by
      rw [List.any_eq_false]
      intro k hk
      rw [List.mem_range, hi.entries_eq] at hk
      rw [hpt k data[k] (List.getElem?_eq_getElem hk)]
      simp
    unfold T3State.outside
    rw [hread]
    simp [hi.entries_eq, hi.alloc_eq, hlt]
  refine ⟨?_, ?_⟩
  · unfold T3.normalize
    rw [hout, ← hi.grid_eq, ← hi.mistag_eq, ← hi.fraction_eq]
    rfl
  · have key : ∀ (i : Nat) (r : ResUse ResObj), D.res[i]? = some r → D.redo s marks i = false →
        ∃ h0, q = some h0 ∧ ∀ v ∈ r.res.params, h v = h0 v := by
      intro i r hr hred
      simp only [T3.redo, hr, Option.map_some, Option.getD_some, Bool.or_eq_false_iff] at hred
      cases q with
      | none => exact absurd (hi.start rfl) (by simp [hred.1])
      | some h0 => exact ⟨h0, rfl, hm h0 rfl r.res hred.2⟩
    refine ⟨hi.data_eq, hi.entries_eq, hi.size_eq, hi.alloc_eq, hi.grid_eq, hi.range_eq, hi.mistag_eq, hi.fraction_eq,
      fun h => absurd h (by simp), fun _ _ => rfl, ?_, ?_⟩
    · intro h0 hh0 i r k ev hr hev
      have e0 : h = h0 := by simpa using hh0
      subst e0
      have hk : k < data.length := (List.getElem?_eq_some_iff.mp hev).1
      simp only [T3.refresh, hr, hpt k ev hev, hi.entries_eq, hk, decide_true, Bool.and_true]
      split_ifs with hred
      · rfl
      · obtain ⟨h0, hq, hv⟩ := key i r hr (by simpa using hred)
        rw [hi.waves h0 hq i r k ev hr hev, t3_wave_depends D r.res h h0 hv]
    · intro h0 e hh0 hE' i j r r' hr hr'
      have e0 : h = h0 := by simpa using hh0
      subst e0
      simp only [T3.refresh, hr, hr', hi.grid_eq, hi.range_eq]
      split_ifs with hred
      · simp only [Bool.and_eq_true, Bool.not_eq_true'] at hred
        obtain ⟨h0, hq, hv⟩ := key i r hr hred.1
        obtain ⟨h0', hq', hv'⟩ := key j r' hr' hred.2
        have e1 : h0' = h0 := by rw [hq] at hq'; simpa using hq'.symm
        subst e1
        rw [hi.ints h0' e hq hE' i j r r' hr hr', t3_depends D r.res h h0' hv, t3_depends D r'.res h h0' hv']
      · rw [hE e hE']
        rfl

theorem evals_invT (D : T3) (h16 : D.res.length ≤ 16) (data : List Ev7) (g : TdRange) (w : TdMistag) (f : ℝ)
    (E : Option (ℝ → ℝ → ℝ)) (es : List ((ResObj → Bool) × (Nat → ℝ))) :
    ∀ (q : Option (Nat → ℝ)) (s : T3State), InvT D data g w f E q s → MarksFrom3 q es →
      (∀ e, E = some e → ∀ x ∈ es, D.eff x.2 = e) →
      ∃ s', D.run s (es.map fun e => .eval e.1 e.2) = some s' ∧ InvT D data g w f E ((es.getLast?.map (·.2)).or q) s' := by
  induction es with
  | nil => intro q s hi _ _; exact ⟨s, rfl, by simpa using hi⟩
  | cons e es ih =>
    intro q s hi hm hE
    obtain ⟨hn, hi'⟩ := eval_invT D h16 data g w f E q s hi e.1 e.2 hm.1 (fun x hx => hE x hx e (by simp))
    obtain ⟨s', hr, hi''⟩ := ih (some e.2) _ hi' hm.2 (fun x hx y hy => hE x hx y (by simp [hy]))
    refine ⟨s', ?_, ?_⟩
    · simp only [List.map_cons, T3.run, T3.step, hn, Option.map_some, Option.bind_some]
      exact hr
    · cases es with
      | nil => simpa using hi''
      | cons a l =>
        rw [List.getLast?_cons_cons]
        rw [List.getLast?_eq_some_getLast (List.cons_ne_nil a l)] at hi'' ⊢
        simpa using hi''

theorem run_appendT (D : T3) (a b : List T3Op) : ∀ s, D.run s (a ++ b) = (D.run s a).bind fun s => D.run s b := by
  induction a with
  | nil => intro s; rfl
  | cons op a ih =>
    intro s
    simp only [List.cons_append, T3.run]
    cases D.step s op with
    | none => rfl
    | some s1 => exact ih s1

/-- The state in which the PDF has been given new data and their number. -/
noncomputable def withDataT (s : T3State) (data : List Ev7) : T3State :=
  { s with data := data, entries := data.length, evtSize := 7, alloc := some data.length, waves := fun _ _ => (0, 0),
           force := true }

theorem withDataT_inv (D : T3) (s : T3State) (hn : ∀ g, s.normRange = some g → g = s.grid) (data : List Ev7)
    (E : Option (ℝ → ℝ → ℝ)) : InvT D data s.grid s.mistag s.fraction E none (withDataT s data) := by
  refine ⟨rfl, rfl, rfl, rfl, rfl, ?_, rfl, rfl, fun _ => rfl, fun _ h => absurd h (by simp), fun _ h => absurd h (by simp),
    fun _ _ h => absurd h (by simp)⟩
  show s.normRange.getD s.grid = s.grid
  cases hs : s.normRange with
  | none => rfl
  | some g => exact hn g hs

theorem give_runT (D : T3) (s : T3State) (data : List Ev7) (give : List T3Op) (hg : GivesData7 data give) :
    D.run s give = some (withDataT s data) := by
  cases hg <;> simp [T3.run, T3.step, withDataT]

/-- The states around the last evaluation. -/
theorem program_runT (D : T3) (h16 : D.res.length ≤ 16) (s : T3State) (hn : ∀ g, s.normRange = some g → g = s.grid)
    (data : List Ev7) (give : List T3Op) (hgive : GivesData7 data give) (E : Option (ℝ → ℝ → ℝ))
    (evs : List ((ResObj → Bool) × (Nat → ℝ))) (marks : ResObj → Bool) (h : Nat → ℝ)
    (hm : MarksFrom3 none (evs ++ [(marks, h)])) (hE : ∀ e, E = some e → ∀ x ∈ evs ++ [(marks, h)], D.eff x.2 = e) :
    ∃ s1, D.run s (give ++ evs.map fun e => .eval e.1 e.2) = some s1
      ∧ D.normalize s1 marks h = some (D.refresh s1 marks h, tdNormalize truthNormalization (D.pars h) s.fraction s.mistag s.grid
        (tdCoherent D.res.length (D.coef h) (D.refresh s1 marks h).integrals))
      ∧ D.run s (give ++ (evs ++ [(marks, h)]).map fun e => .eval e.1 e.2) = some (D.refresh s1 marks h)
      ∧ InvT D data s.grid s.mistag s.fraction E (some h) (D.refresh s1 marks h) := by
  obtain ⟨hm1, hm2⟩ := marks_append evs (marks, h) none hm
  obtain ⟨s1, hr, hi⟩ := evals_invT D h16 data s.grid s.mistag s.fraction E evs none _ (withDataT_inv D s hn data E) hm1
    (fun e he x hx => hE e he x (by simp [hx]))
  obtain ⟨hno, hi'⟩ := eval_invT D h16 data s.grid s.mistag s.fraction E _ s1 hi marks h (fun h0 hh => hm2 h0 hh)
    (fun e he => hE e he (marks, h) (by simp))
  have hrun : D.run s (give ++ evs.map fun e => .eval e.1 e.2) = some s1 := by
    rw [run_appendT, give_runT D s data give hgive]
    exact hr
  refine ⟨s1, hrun, hno, ?_, hi'⟩
  rw [List.map_append, ← List.append_assoc, run_appendT, hrun]
  simp [T3.run, T3.step, hno]

/-! ### The described density -/

theorem t3_resAt (d : DalitzCtx) (table : Nat → ℝ) (v : MixVars) (built : List (ResUse ResObj)) (eff : (Nat → ℝ) → ℝ → ℝ → ℝ)
    (c : ResNew) (o : ResObj) (hb : resBuild c = some o) (hs : ¬ IsSplineRes c) (h : Nat → ℝ) (m12 m13 : ℝ) :
    (t3Pdf d table v built eff).resAt h o m12 m13
      = (resonanceAt d c h m12 m13 (d.mother ^ 2 + d.d1 ^ 2 + d.d2 ^ 2 + d.d3 ^ 2 - (m12 + m13))).getD 0 := by
  have e : d.mother ^ 2 + d.d1 ^ 2 + d.d2 ^ 2 + d.d3 ^ 2 - (m12 + m13)
      = d.mother * d.mother + d.d1 * d.d1 + d.d2 * d.d2 + d.d3 * d.d3 - m12 - m13 := by ring
  rw [e, ← C81_function_partial d table c o hb hs h]
  rfl

/-- The sum over the built resonances is the described amplitude. -/
theorem t3_amplitude (d : DalitzCtx) (table : Nat → ℝ) (v : MixVars) (rs : List (ResUse ResNew)) (built : List (ResUse ResObj))
    (hb : resBuildAll rs = some built) (hs : ∀ r ∈ rs, ¬ IsSplineRes r.res) (eff : (Nat → ℝ) → ℝ → ℝ → ℝ) (h : Nat → ℝ)
    (x y : ℝ) :
    (built.map fun r => (⟨h r.ar, h r.ai⟩ : ℂ) * (t3Pdf d table v built eff).resAt h r.res x y).sum = amplitude3 d rs h x y := by
  unfold amplitude3
  congr 1
  have hl := built_length rs built hb
  apply List.ext_getElem
  · simpa using hl
  · intro i h1 h2
    have hi : i < rs.length := by simpa using h2
    obtain ⟨o, ho, hg⟩ := built_get rs built hb i hi
    have hi' : i < built.length := by omega
    have hg' : built[i] = ⟨rs[i].ar, rs[i].ai, o⟩ := by
      rw [List.getElem?_eq_getElem hi'] at hg; exact Option.some.inj hg
    simp only [List.getElem_map]
    rw [hg', t3_resAt d table v built eff rs[i].res o ho (hs _ (List.getElem_mem hi)) h x y]

open Classical in
theorem t3_inside (D : T3) (hd : GoodMasses D.decay) (x y : ℝ) :
    D.inside x y = decide (CanDecay D.decay.mother D.decay.d1 D.decay.d2 D.decay.d3 x y) := by
  obtain ⟨h1, h2, h3, h4, h5, h6⟩ := hd
  have := C48_dalitz_region x y D.decay.mother D.decay.d1 D.decay.d2 D.decay.d3 (Or.inr h6) h1 h2 h3 h4 h5
  unfold T3.inside
  rw [Bool.eq_iff_iff, this]
  simp

theorem truncInt_one : truncInt 1 = 1 := by exact_mod_cast truncInt_cast 1
theorem truncInt_neg_one : truncInt (-1) = -1 := by exact_mod_cast truncInt_cast (-1)
theorem truncInt_zero : truncInt 0 = 0 := by exact_mod_cast truncInt_cast 0

theorem tdRate_eq (p : TdPars) (a b : ℂ) (ev : Ev7) (hq : ev.tag = 1 ∨ ev.tag = -1 ∨ ev.tag = 0) (hw : ev.mistag = 0) :
    tdRate truthRes p a b ev = decayRate a b p.tau (p.x0 + ev.tag * p.deltax) (p.y0 + ev.tag * p.deltay) ev.time := by
  unfold tdRate truthRes
  dsimp only
  rw [hw, if_neg (lt_irrefl _), C62_rate]
  rcases hq with h | h | h <;> rw [h]
  · rw [truncInt_one, tdMixing_eq p 1 (by norm_num)]; norm_num
  · rw [truncInt_neg_one, tdMixing_eq p (-1) (by norm_num)]; norm_num
  · rw [truncInt_zero, tdMixing_eq p 0 (by norm_num)]; norm_num

theorem inv_valueT (d : DalitzCtx) (hd : GoodMasses d) (table : Nat → ℝ) (v : MixVars) (rs : List (ResUse ResNew))
    (built : List (ResUse ResObj)) (hb : resBuildAll rs = some built) (hs : ∀ r ∈ rs, ¬ IsSplineRes r.res)
    (h16 : rs.length ≤ 16) (eff : (Nat → ℝ) → ℝ → ℝ → ℝ) (s' : T3State) (data : List Ev7) (hdata : Tagged data)
    (g : TdRange) (w : TdMistag) (f : ℝ) (E : Option (ℝ → ℝ → ℝ)) (h : Nat → ℝ)
    (hi : InvT (t3Pdf d table v built eff) data g w f E (some h) s') (k : Nat) (ev : Ev7) (hev : data[k]? = some ev) :
    (t3Pdf d table v built eff).value s' h k = some (timeDensity3 d v rs eff h ev.tag ev.m12 ev.m13 ev.time) := by
  classical
  set D := t3Pdf d table v built eff with hD
  have hlen : D.res.length ≤ 16 := by have := built_length rs built hb; simp only [hD, t3Pdf]; omega
  obtain ⟨hnum, htag, hmis⟩ := hdata k ev hev
  have hk : k < data.length := (List.getElem?_eq_some_iff.mp hev).1
  unfold T3.value timeDensity3
  rw [hi.data_eq, hev]
  simp only [Option.bind_some]
  have hins : D.inside ev.m12 ev.m13 = decide (CanDecay d.mother d.d1 d.d2 d.d3 ev.m12 ev.m13) := t3_inside D hd _ _
  cases hin : D.inside ev.m12 ev.m13 with
  | false =>
    have hc : ¬ CanDecay d.mother d.d1 d.d2 d.d3 ev.m12 ev.m13 := by simpa [hin] using hins
    rw [if_neg hc]
    simp
  | true =>
    have hc : CanDecay d.mother d.d1 d.d2 d.d3 ev.m12 ev.m13 := by simpa [hin] using hins.symm
    rw [if_pos hc]
    have hfl : ⌊(0.5 : ℝ) + ev.num⌋ = (k : ℤ) := by
      obtain ⟨a, b⟩ := hnum
      rw [Int.floor_eq_iff]
      push_cast
      constructor <;> linarith
    rw [hfl, hi.alloc_eq]
    have hno : ¬ (D.res ≠ [] ∧ (16 < D.res.length ∨ (k : ℤ) < 0 ∨ (((some data.length).getD 0 : Nat) : ℤ) ≤ (k : ℤ))) := by
      simp only [Option.getD_some]
      omega
    simp only [Bool.not_true, Bool.false_eq_true, if_false, if_neg hno, Int.toNat_natCast]
    rw [range_map_eq D.res (fun i => (s'.waves i k).1 * D.coef h i) (fun r => (⟨h r.ar, h r.ai⟩ : ℂ) * D.resAt h r.res ev.m12 ev.m13),
      range_map_eq D.res (fun i => (s'.waves i k).2 * D.coef h i) (fun r => (⟨h r.ar, h r.ai⟩ : ℂ) * D.resAt h r.res ev.m13 ev.m12)]
    · rw [show D.res = built from rfl, t3_amplitude d table v rs built hb hs eff h ev.m12 ev.m13,
        t3_amplitude d table v rs built hb hs eff h ev.m13 ev.m12, tdRate_eq _ _ _ _ htag hmis]
      rfl
    · intro i r hr
      rw [t3_coef D h i r hr, hi.waves h rfl i r k ev hr hev]
      unfold T3.wave
      rw [hin]
      exact mul_comm _ _
    · intro i r hr
      rw [t3_coef D h i r hr, hi.waves h rfl i r k ev hr hev]
      unfold T3.wave
      rw [hin]
      exact mul_comm _ _

/-- **C97 (value)** (what is missing: splines, see C56; more than 16 resonances; wrong tags, see `C64_violation_mistag`; other
resolutions; rows given with another length, see `C97_violation_event_size`).  Whatever has been done with the PDF before: after it
has been given data, their number and the length of a row, and after any number of evaluations with changing values of the variables,
its value at every event is the density the user has described, at the values of the last evaluation. -/
theorem C97_value_partial (d : DalitzCtx) (hd : GoodMasses d) (table : Nat → ℝ) (v : MixVars) (rs : List (ResUse ResNew))
    (built : List (ResUse ResObj)) (hb : resBuildAll rs = some built) (hs : ∀ r ∈ rs, ¬ IsSplineRes r.res)
    (h16 : rs.length ≤ 16) (eff : (Nat → ℝ) → ℝ → ℝ → ℝ) (s : T3State) (hn : ∀ g, s.normRange = some g → g = s.grid)
    (data : List Ev7) (give : List T3Op) (hgive : GivesData7 data give) (hdata : Tagged data)
    (evs : List ((ResObj → Bool) × (Nat → ℝ))) (marks : ResObj → Bool) (h : Nat → ℝ)
    (hm : MarksFrom3 none (evs ++ [(marks, h)])) :
    ∃ s', (t3Pdf d table v built eff).run s (give ++ (evs ++ [(marks, h)]).map fun e => .eval e.1 e.2) = some s'
      ∧ ∀ (k : Nat) ev, data[k]? = some ev →
        (t3Pdf d table v built eff).value s' h k = some (timeDensity3 d v rs eff h ev.tag ev.m12 ev.m13 ev.time) := by
  have hlen : (t3Pdf d table v built eff).res.length ≤ 16 := by have := built_length rs built hb; simp only [t3Pdf]; omega
  obtain ⟨s1, -, -, hr, hi⟩ := program_runT _ hlen s hn data give hgive none evs marks h hm (fun e he => absurd he (by simp))
  exact ⟨_, hr, fun k ev hev => inv_valueT d hd table v rs built hb hs h16 eff _ data hdata _ _ _ _ h hi k ev hev⟩

/-! ### The normalisation -/

theorem tdNormalize_zero (N : NormFn) (p : TdPars) (f : ℝ) (w : TdMistag) (hw : w.value = 0) (r : TdRange) (t : Three) :
    tdNormalize N p f w r t = tdNormalize N p f ⟨0, 0, 0⟩ r t := by
  have h0 : (⟨0, 0, 0⟩ : TdMistag).inRange := Or.inl rfl
  unfold tdNormalize
  simp only [hw, if_pos h0]
  split <;> ring

theorem tdGridSum_eq (F : ℝ → ℝ → ℝ) (r : TdRange) :
    (∑ g ∈ Finset.range (r.nb12 * r.nb13), F (r.point g).1 (r.point g).2)
        * ((r.hi12 - r.lo12) / r.nb12 * ((r.hi13 - r.lo13) / r.nb13))
      = gridIntegral2 F r.lo12 r.hi12 r.nb12 r.lo13 r.hi13 r.nb13 := by
  have h := C64_grid (P := Unit) ⟨0, fun _ _ _ _ => 0, fun _ _ => true, fun _ _ => 1, r⟩ (fun a b => (F a b : ℂ))
  unfold Spec.gridSum at h
  simp only [if_true, Complex.ofReal_one, one_mul] at h
  have h' : (∑ g ∈ Finset.range (r.nb12 * r.nb13), F (r.point g).1 (r.point g).2)
      = ∑ j ∈ Finset.range r.nb13, ∑ i ∈ Finset.range r.nb12,
        F (equalBinCentre r.lo12 r.hi12 r.nb12 i) (equalBinCentre r.lo13 r.hi13 r.nb13 j) := by
    exact_mod_cast h
  rw [h']
  have hc : ∀ lo hi n i, equalBinCentre lo hi n i = Spec.midpoint lo hi n i := fun lo hi n i => by
    unfold equalBinCentre Spec.midpoint; ring
  unfold gridIntegral2
  rw [Finset.sum_mul]
  refine Finset.sum_congr rfl fun j _ => ?_
  rw [Finset.sum_mul]
  refine Finset.sum_congr rfl fun i _ => ?_
  rw [hc, hc]
  ring

theorem inv_normT (d : DalitzCtx) (hd : GoodMasses d) (table : Nat → ℝ) (v : MixVars) (rs : List (ResUse ResNew))
    (built : List (ResUse ResObj)) (hb : resBuildAll rs = some built) (hs : ∀ r ∈ rs, ¬ IsSplineRes r.res)
    (eff : (Nat → ℝ) → ℝ → ℝ → ℝ) (s' : T3State) (data : List Ev7) (g : TdRange) (w : TdMistag) (hw : w.value = 0) (f : ℝ)
    (h : Nat → ℝ) (hp : Decays v h)
    (hi : InvT (t3Pdf d table v built eff) data g w f (some (eff h)) (some h) s') :
    tdNormalize truthNormalization ((t3Pdf d table v built eff).pars h) f w g
        (tdCoherent (t3Pdf d table v built eff).res.length ((t3Pdf d table v built eff).coef h) s'.integrals)
      = timeTotal3 d v rs eff h f g := by
  classical
  set D := t3Pdf d table v built eff with hD
  let m : TdModel Unit := ⟨D.res.length, fun _ i x y => ((D.res[i]?).map fun r => D.resAt h r.res x y).getD 0, D.inside, D.eff h, g⟩
  have hcoh : tdCoherent D.res.length (D.coef h) s'.integrals = tdCoherent m.n (D.coef h) (m.compute ()) := by
    unfold tdCoherent
    refine Finset.sum_congr rfl fun i hir => Finset.sum_congr rfl fun j hjr => ?_
    have hi' : i < D.res.length := Finset.mem_range.mp hir
    have hj' : j < D.res.length := Finset.mem_range.mp hjr
    rw [hi.ints h (eff h) rfl rfl i j D.res[i] D.res[j] (List.getElem?_eq_getElem hi') (List.getElem?_eq_getElem hj')]
    have : m.compute () i j = tdIntegral D.inside (D.resAt h D.res[i].res) (D.resAt h D.res[j].res) (eff h) g := by
      unfold TdModel.compute
      show tdIntegral _ (fun x y => ((D.res[i]?).map fun r => D.resAt h r.res x y).getD 0)
        (fun x y => ((D.res[j]?).map fun r => D.resAt h r.res x y).getD 0) _ _ = _
      rw [List.getElem?_eq_getElem hi', List.getElem?_eq_getElem hj']
      rfl
    rw [this]
  rw [hcoh, tdNormalize_zero _ _ _ _ hw]
  have hN := C64_norm_partial m (D.coef h) () (D.pars h) f 0 0 ⟨0, 0, 0⟩ hp.1 hp.2.1 hp.2.2 le_rfl (Or.inl rfl)
  rw [hN]
  unfold timeTotal3
  rw [← tdGridSum_eq]
  congr 1
  refine Finset.sum_congr rfl fun k _ => ?_
  show f * (∫ t in Set.Ioi 0, tdValue truthRes D.inside (D.pars h) ((List.range D.res.length).map fun i => (D.coef h i, m.resonance () i))
      (eff h) [t, 0, (g.point k).1, (g.point k).2, 0, 0, 1])
    + (1 - f) * (∫ t in Set.Ioi 0, tdValue truthRes D.inside (D.pars h) ((List.range D.res.length).map fun i => (D.coef h i, m.resonance () i))
      (eff h) [t, 0, (g.point k).1, (g.point k).2, 0, 0, -1]) = _
  have hterms : (List.range D.res.length).map (fun i => (D.coef h i, m.resonance () i))
      = built.map fun r => ((⟨h r.ar, h r.ai⟩ : ℂ), D.resAt h r.res) := by
    refine range_map_eq D.res _ _ ?_
    intro i r hr
    refine Prod.ext (t3_coef D h i r hr) ?_
    funext x y
    show ((D.res[i]?).map fun r => D.resAt h r.res x y).getD 0 = _
    rw [hr]
    rfl
  have hamp : ∀ x y, decayAmplitude (built.map fun r => ((⟨h r.ar, h r.ai⟩ : ℂ), D.resAt h r.res)) x y = amplitude3 d rs h x y := by
    intro x y
    rw [← t3_amplitude d table v rs built hb hs eff h]
    unfold decayAmplitude
    rw [List.map_map]
    rfl
  have hval : ∀ (q : ℤ) (_ : q = 1 ∨ q = -1 ∨ q = 0) (x y t : ℝ), tdValue truthRes D.inside (D.pars h)
      (built.map fun r => ((⟨h r.ar, h r.ai⟩ : ℂ), D.resAt h r.res)) (eff h) [t, 0, x, y, 0, 0, (q : ℝ)]
      = timeDensity3 d v rs eff h q x y t := by
    intro q hq x y t
    unfold timeDensity3
    have hins : D.inside x y = decide (CanDecay d.mother d.d1 d.d2 d.d3 x y) := t3_inside D hd _ _
    cases hin : D.inside x y with
    | false =>
      have hc : ¬ CanDecay d.mother d.d1 d.d2 d.d3 x y := by simpa [hin] using hins
      rw [if_neg hc, C64_outside _ _ _ _ _ _ _ _ _ _ _ _ hin]
    | true =>
      have hc : CanDecay d.mother d.d1 d.d2 d.d3 x y := by simpa [hin] using hins.symm
      rw [if_pos hc, tdValue_eq _ _ _ _ _ _ _ _ _ _ _ hq hin, if_neg (lt_irrefl _), hamp, hamp]
      exact mul_comm _ _
  have h1 := hval 1 (by norm_num)
  have h2 := hval (-1) (by norm_num)
  push_cast at h1 h2
  rw [hterms]
  simp only [h1, h2]

/-- **C97 (normalisation)** (what is missing: as for the value; an efficiency that changes between the evaluations; a grid changed
after the first evaluation, see `C97_violation_grid`).  What the last of the evaluations returns is the described density,
integrated over the time, averaged over the flavours with the given fraction, and integrated over the grid, at the present values
of the variables. -/
theorem C97_normalization_partial (d : DalitzCtx) (hd : GoodMasses d) (table : Nat → ℝ) (v : MixVars) (rs : List (ResUse ResNew))
    (built : List (ResUse ResObj)) (hb : resBuildAll rs = some built) (hs : ∀ r ∈ rs, ¬ IsSplineRes r.res)
    (h16 : rs.length ≤ 16) (eff : (Nat → ℝ) → ℝ → ℝ → ℝ) (s : T3State) (hn : ∀ g, s.normRange = some g → g = s.grid)
    (hw : s.mistag.value = 0) (data : List Ev7) (give : List T3Op) (hgive : GivesData7 data give)
    (evs : List ((ResObj → Bool) × (Nat → ℝ))) (marks : ResObj → Bool) (h : Nat → ℝ)
    (hm : MarksFrom3 none (evs ++ [(marks, h)])) (heff : ∀ e ∈ evs, eff e.2 = eff h) (hp : Decays v h) :
    ∃ s1 s', (t3Pdf d table v built eff).run s (give ++ evs.map fun e => .eval e.1 e.2) = some s1
      ∧ (t3Pdf d table v built eff).normalize s1 marks h = some (s', timeTotal3 d v rs eff h s.fraction s.grid) := by
  set D := t3Pdf d table v built eff with hD
  have hlen : D.res.length ≤ 16 := by have := built_length rs built hb; simp only [hD, t3Pdf]; omega
  obtain ⟨s1, hr, hno, -, hi⟩ := program_runT D hlen s hn data give hgive (some (eff h)) evs marks h hm (by
    intro e he x hx
    simp only [List.mem_append, List.mem_singleton] at hx
    have e1 : eff h = e := by simpa using he
    rcases hx with hx | rfl
    · rw [← e1]; exact heff x hx
    · exact e1)
  refine ⟨s1, D.refresh s1 marks h, hr, ?_⟩
  rw [hno, hD, inv_normT d hd table v rs built hb hs eff _ data s.grid s.mistag hw s.fraction h hp hi]

/-! ### A concrete case -/

namespace DemoT3
/-- The variables of the mixing. -/
def mix : MixVars := ⟨2, 3, 4, 5, 6⟩
/-- No efficiency. -/
def eff (_ : Nat → ℝ) (_ _ : ℝ) : ℝ := 1
/-- The decay of `Demo3` with a non-resonant term with coefficient `h 0 + i h 1`. -/
noncomputable def pdf : T3 := t3Pdf Demo3.decay (fun _ => 0) mix Demo3.built eff
/-- One bin around the point of the decay. -/
def grid : TdRange := ⟨3, 5, 1, 3, 5, 1⟩
/-- Coefficient `a`, lifetime `τ`, no mixing. -/
def vals (a τ : ℝ) (i : Nat) : ℝ := if i = 0 then a else if i = 2 then τ else 0

theorem amp (h : Nat → ℝ) (x y : ℝ) : amplitude3 Demo3.decay Demo3.rs h x y = ⟨h 0, h 1⟩ := by
  simp [amplitude3, Demo3.rs, resonanceAt]

theorem rate_plain (A : ℂ) (τ t : ℝ) : decayRate A A τ 0 0 t = 2 * Complex.normSq A * Real.exp (-(t / τ)) := by
  unfold decayRate timeAmplitude eigen1 eigen2
  rw [← mul_add, Complex.sq_norm, Complex.normSq_mul, mul_assoc]
  congr 2
  have e : (Complex.exp (-((1 + ((0 : ℝ) : ℂ)) / 2 + ((0 : ℝ) : ℂ) / 2 * Complex.I) * ((t : ℂ) / τ))
      + Complex.exp (-((1 - ((0 : ℝ) : ℂ)) / 2 - ((0 : ℝ) : ℂ) / 2 * Complex.I) * ((t : ℂ) / τ))) / 2
      + (Complex.exp (-((1 + ((0 : ℝ) : ℂ)) / 2 + ((0 : ℝ) : ℂ) / 2 * Complex.I) * ((t : ℂ) / τ))
      - Complex.exp (-((1 - ((0 : ℝ) : ℂ)) / 2 - ((0 : ℝ) : ℂ) / 2 * Complex.I) * ((t : ℂ) / τ))) / 2
      = ((Real.exp (-(t / τ) / 2) : ℝ) : ℂ) := by
    push_cast
    ring_nf
  rw [e, Complex.normSq_ofReal, ← Real.exp_add]
  congr 1
  ring

theorem density_plain (a τ q : ℝ) (x y t : ℝ) : timeDensity3 Demo3.decay mix Demo3.rs eff (vals a τ) q x y t
    = if Demo3.pdf.inside x y then 2 * a ^ 2 * Real.exp (-(t / τ)) else 0 := by
  classical
  rw [d3_inside Demo3.pdf Demo3.good]
  unfold timeDensity3
  simp only [decide_eq_true_eq]
  congr 1
  rw [amp, amp]
  have h1 : vals a τ mix.x + q * vals a τ mix.dx = 0 := by simp [vals, mix]
  have h2 : vals a τ mix.y + q * vals a τ mix.dy = 0 := by simp [vals, mix]
  have h3 : vals a τ mix.tau = τ := by simp [vals, mix]
  rw [h1, h2, h3, rate_plain]
  simp [vals, eff, Complex.normSq_apply]
  ring

theorem decays (a τ : ℝ) (hτ : 0 < τ) : Decays mix (vals a τ) := by
  refine ⟨by simpa [vals, mix] using hτ, ?_, ?_⟩ <;> simp [vals, mix]

theorem total_plain (a τ f : ℝ) (hτ : 0 < τ) : timeTotal3 Demo3.decay mix Demo3.rs eff (vals a τ) f grid = 8 * a ^ 2 * τ := by
  have hm : Spec.midpoint (3 : ℝ) 5 1 0 = 4 := by unfold Spec.midpoint; norm_num
  have hint : ∫ t in Set.Ioi (0 : ℝ), 2 * a ^ 2 * Real.exp (-(t / τ)) = 2 * a ^ 2 * τ := by
    have h := rate_total (⟨a, 0⟩ : ℂ) (⟨a, 0⟩ : ℂ) τ 0 0 hτ (by simp)
    simp only [rate_plain] at h
    have hn : Complex.normSq (⟨a, 0⟩ : ℂ) = a ^ 2 := by simp [Complex.normSq_apply, sq]
    rw [hn] at h
    rw [h]
    simp [truthNormalization]
    ring
  unfold timeTotal3 gridIntegral2 grid
  simp only [Finset.sum_range_one, hm, density_plain, Demo3.inside_centre, if_true, hint]
  norm_num
  ring

theorem range_ok (s : T3State) (hs : s = t3Init grid ⟨0, 0, 1⟩) : ∀ g, s.normRange = some g → g = s.grid := by
  intro g hg
  rw [hs] at hg
  simp [t3Init] at hg
end DemoT3
open DemoT3

/-- Every resonance with a parameter is recomputed. -/
def DemoT3.all (o : ResObj) : Bool := !o.params.isEmpty

theorem DemoT3.marks2 (h1 h2 : Nat → ℝ) : MarksFrom3 none ([(all, h1)] ++ [(all, h2)]) := by
  refine ⟨fun _ h => absurd h (by simp), ?_, trivial⟩
  intro h0 _ o ho v hv
  have : o.params = [] := by simpa [all] using ho
  rw [this] at hv
  simp at hv

theorem DemoT3.tagged : Tagged [⟨2, 1, 4, 4, 0, 0, 1⟩, ⟨2, 1, 0, 0, 1, 0, -1⟩] := by
  intro k ev h
  match k, h with
  | 0, h => simp at h; subst h; norm_num
  | 1, h => simp at h; subst h; norm_num

/-- Two evaluations with different lifetimes; the second event lies outside. -/
example : ∃ s', pdf.run (t3Init grid ⟨0, 0, 1⟩)
      [.setData [⟨2, 1, 4, 4, 0, 0, 1⟩, ⟨2, 1, 0, 0, 1, 0, -1⟩], .setDataSize 2 7, .eval all (vals 1 1),
        .eval all (vals 3 5)] = some s'
    ∧ pdf.value s' (vals 3 5) 0 = some (18 * Real.exp (-(2 / 5))) ∧ pdf.value s' (vals 3 5) 1 = some 0 := by
  obtain ⟨s', h1, h2⟩ := C97_value_partial Demo3.decay Demo3.good (fun _ => 0) mix Demo3.rs Demo3.built Demo3.built_eq
    (by intro r hr; simp [Demo3.rs] at hr; subst hr; exact id) (by decide) DemoT3.eff (t3Init grid ⟨0, 0, 1⟩) (range_ok _ rfl)
    [⟨2, 1, 4, 4, 0, 0, 1⟩, ⟨2, 1, 0, 0, 1, 0, -1⟩] _ .own tagged [(all, vals 1 1)] all (vals 3 5) (marks2 _ _)
  refine ⟨s', h1, (h2 0 _ rfl).trans ?_, (h2 1 _ rfl).trans ?_⟩
  · rw [density_plain, if_pos Demo3.inside_centre]
    norm_num
  · rw [density_plain, Demo3.outside_low _ _ (by norm_num)]
    rfl

/-- What the second of two evaluations returns. -/
example : ∃ s1 s', pdf.run (t3Init grid ⟨0, 0, 1⟩) [.setDataSize 2 7,
      .parentData [⟨2, 1, 4, 4, 0, 0, 1⟩, ⟨2, 1, 0, 0, 1, 0, -1⟩], .eval all (vals 1 1)] = some s1
    ∧ pdf.normalize s1 all (vals 3 5) = some (s', 360) := by
  obtain ⟨s1, s', h1, h2⟩ := C97_normalization_partial Demo3.decay Demo3.good (fun _ => 0) mix Demo3.rs Demo3.built Demo3.built_eq
    (by intro r hr; simp [Demo3.rs] at hr; subst hr; exact id) (by decide) DemoT3.eff (t3Init grid ⟨0, 0, 1⟩) (range_ok _ rfl) rfl
    [⟨2, 1, 4, 4, 0, 0, 1⟩, ⟨2, 1, 0, 0, 1, 0, -1⟩] _ .parentFirst [(all, vals 1 1)] all (vals 3 5) (marks2 _ _) (fun _ _ => rfl)
    (decays 3 5 (by norm_num))
  refine ⟨s1, s', h1, h2.trans ?_⟩
  rw [show (t3Init grid ⟨0, 0, 1⟩).grid = grid from rfl, total_plain 3 5 _ (by norm_num)]
  norm_num

/-- The waves and the integral after the first evaluation of the PDF with one resonance. -/
theorem DemoT3.first (s : T3State) (hf : s.force = true) (h : Nat → ℝ) (n : Nat) (ha : s.alloc = some n) (he : s.entries ≤ n)
    (hp : ∀ k < s.entries, ∃ x, s.point k = some x) :
    ∃ v, pdf.normalize s all h = some (pdf.refresh s all h, v)
      ∧ v = tdNormalize truthNormalization (pdf.pars h) s.fraction s.mistag s.grid
        (tdCoherent 1 (pdf.coef h) fun _ _ => ∑ g ∈ Finset.range (s.grid.nb12 * s.grid.nb13),
          tdIntegrator Demo3.pdf.inside (fun _ _ => 1) (fun _ _ => 1) (fun _ _ => 1) s.range g)
      ∧ ∀ (k : Nat) x, k < s.entries → s.point k = some x →
        (pdf.refresh s all h).waves 0 k = if Demo3.pdf.inside x.1 x.2 then (1, 1) else (0, 0) := by
  have hr : pdf.redo s all 0 = true := by unfold T3.redo; rw [hf]; rfl
  have hout : (List.range pdf.res.length).any (fun i => pdf.redo s all i && s.outside i) = false := by
    rw [List.any_eq_false]
    intro i hir
    have : i < 1 := List.mem_range.mp hir
    have hread : (List.range s.entries).any (fun k => (s.point k).isNone) = false := by
      rw [List.any_eq_false]
      intro k hk
      obtain ⟨x, hx⟩ := hp k (List.mem_range.mp hk)
      rw [hx]
      simp
    unfold T3State.outside
    rw [hread, ha]
    have h1 : ¬ 16 ≤ i := by omega
    have h2 : ¬ n < s.entries := by omega
    simp [h1, h2]
  refine ⟨tdNormalize truthNormalization (pdf.pars h) s.fraction s.mistag s.grid
      (tdCoherent pdf.res.length (pdf.coef h) (pdf.refresh s all h).integrals), ?_, ?_, ?_⟩
  · unfold T3.normalize
    rw [hout]
    rfl
  · congr 1
    unfold tdCoherent
    have e : pdf.res.length = 1 := rfl
    rw [e]
    have hint : (pdf.refresh s all h).integrals 0 0 = ∑ g ∈ Finset.range (s.grid.nb12 * s.grid.nb13),
        tdIntegrator Demo3.pdf.inside (fun _ _ => 1) (fun _ _ => 1) (fun _ _ => 1) s.range g := by
      have hres : pdf.res[0]? = some ⟨0, 1, ⟨[], [], .NONRES⟩⟩ := rfl
      simp only [T3.refresh, hres, hr]
      rfl
    simp only [Finset.sum_range_one, hint]
  · intro k x hk hx
    have hres : pdf.res[0]? = some ⟨0, 1, ⟨[], [], .NONRES⟩⟩ := rfl
    simp only [T3.refresh, hres, hx, hr, hk, decide_true, Bool.and_self, if_true]
    show (if !Demo3.pdf.inside x.1 x.2 then ((0 : ℂ), (0 : ℂ)) else (1, 1)) = _
    cases Demo3.pdf.inside x.1 x.2 <;> rfl

/-- **C97, violation (the length of a row).**  `setDataSize` without a second argument sets the length of a row to five, but the PDF
has seven observables, whatever the user says: the resonances are then evaluated at other columns.  Two equal events: the value at
the second is zero. -/
theorem C97_violation_event_size (s : T3State) : ∃ s', pdf.run s
      [.setData [⟨2, 1, 4, 4, 0, 0, 1⟩, ⟨2, 1, 4, 4, 1, 0, 1⟩], .setDataSize 2 5, .eval all (vals 1 1)] = some s'
    ∧ pdf.value s' (vals 1 1) 1 = some 0
    ∧ timeDensity3 Demo3.decay mix Demo3.rs eff (vals 1 1) 1 4 4 2 = 2 * Real.exp (-2) := by
  set s1 : T3State :=
    { s with
      data := [⟨2, 1, 4, 4, 0, 0, 1⟩, ⟨2, 1, 4, 4, 1, 0, 1⟩]
      evtSize := 5
      entries := 2
      alloc := some 2
      waves := fun _ _ => (0, 0)
      force := true } with hs1
  have p0 : s1.point 0 = some (4, 4) := rfl
  have p1 : s1.point 1 = some (2, 1) := rfl
  obtain ⟨v, h1, -, h3⟩ := first s1 rfl (vals 1 1) 2 rfl le_rfl (by
    intro k hk
    match k, hk with
    | 0, _ => exact ⟨_, p0⟩
    | 1, _ => exact ⟨_, p1⟩)
  refine ⟨pdf.refresh s1 all (vals 1 1), ?_, ?_, ?_⟩
  · have hd : pdf.run s [.setData [⟨2, 1, 4, 4, 0, 0, 1⟩, ⟨2, 1, 4, 4, 1, 0, 1⟩], .setDataSize 2 5] = some s1 := by
      simp [T3.run, T3.step, hs1]
    have := run_appendT pdf [.setData [⟨2, 1, 4, 4, 0, 0, 1⟩, ⟨2, 1, 4, 4, 1, 0, 1⟩], .setDataSize 2 5] [.eval all (vals 1 1)] s
    rw [hd] at this
    refine this.trans ?_
    simp [T3.run, T3.step, h1]
  · have hw := h3 1 (2, 1) (show 1 < 2 from Nat.lt_succ_self 1) p1
    rw [if_neg (by rw [Demo3.outside_low _ _ (by norm_num)]; simp)] at hw
    have hin : pdf.inside 4 4 = true := Demo3.inside_centre
    have hfl : ⌊(0.5 : ℝ) + 1⌋ = ((1 : Nat) : ℤ) := by rw [Int.floor_eq_iff]; norm_num
    have hev : (pdf.refresh s1 all (vals 1 1)).data[1]? = some ⟨2, 1, 4, 4, 1, 0, 1⟩ := rfl
    have hal : (pdf.refresh s1 all (vals 1 1)).alloc = some 2 := rfl
    unfold T3.value
    rw [hev]
    simp only [Option.bind_some, hin, hfl, hal, Int.toNat_natCast]
    have e : pdf.res.length = 1 := rfl
    rw [e]
    simp only [List.range_one, List.map_cons, List.map_nil, hw]
    simp [tdRate, truthRes, truthResolution]
  · rw [density_plain, if_pos Demo3.inside_centre]
    norm_num

/-- **C97, violation (grid).**  The limits of the observables are copied at the first evaluation only.  When they are changed later
and new data are given, so that everything is computed again, the points of the grid are still the old ones. -/
theorem C97_violation_grid (data : List Ev7) : ∃ s1 s2 v, pdf.run (t3Init grid ⟨0, 0, 1⟩)
      [.setData data, .setDataSize data.length 7, .eval all (vals 1 1), .setGrid ⟨0, 2, 1, 0, 2, 1⟩, .setData data,
        .setDataSize data.length 7] = some s1
    ∧ pdf.normalize s1 all (vals 1 1) = some (s2, v) ∧ v = 8
    ∧ timeTotal3 Demo3.decay mix Demo3.rs eff (vals 1 1) (1 / 2) ⟨0, 2, 1, 0, 2, 1⟩ = 0 := by
  have hpt : ∀ s : T3State, s.evtSize = 7 → s.data = data → ∀ k < data.length, ∃ x, s.point k = some x := by
    intro s h1 h2 k hk
    rw [point_eq s h1, h2, List.getElem?_eq_getElem hk]
    exact ⟨_, rfl⟩
  set s0 := withDataT (t3Init grid ⟨0, 0, 1⟩) data with hs0
  obtain ⟨v, h1, -, -⟩ := first s0 rfl (vals 1 1) data.length rfl le_rfl (hpt s0 rfl rfl)
  set s1 := withDataT { pdf.refresh s0 all (vals 1 1) with grid := ⟨0, 2, 1, 0, 2, 1⟩ } data with hs1
  obtain ⟨v2, h2, hv, -⟩ := first s1 rfl (vals 1 1) data.length rfl le_rfl (hpt s1 rfl rfl)
  refine ⟨s1, _, v2, ?_, h2, ?_, ?_⟩
  · have a0 : pdf.run (t3Init grid ⟨0, 0, 1⟩) [.setData data, .setDataSize data.length 7] = some s0 := give_runT pdf _ data _ .own
    have a1 : pdf.run (t3Init grid ⟨0, 0, 1⟩) ([.setData data, .setDataSize data.length 7] ++ [.eval all (vals 1 1),
        .setGrid ⟨0, 2, 1, 0, 2, 1⟩]) = some { pdf.refresh s0 all (vals 1 1) with grid := ⟨0, 2, 1, 0, 2, 1⟩ } := by
      rw [run_appendT, a0]
      simp [T3.run, T3.step, h1]
    have a2 := run_appendT pdf ([.setData data, .setDataSize data.length 7] ++ [.eval all (vals 1 1),
      .setGrid ⟨0, 2, 1, 0, 2, 1⟩]) [.setData data, .setDataSize data.length 7] (t3Init grid ⟨0, 0, 1⟩)
    rw [a1] at a2
    exact a2.trans (give_runT pdf _ data _ .own)
  · have hr : s1.range = grid := rfl
    have hg : s1.grid = ⟨0, 2, 1, 0, 2, 1⟩ := rfl
    have hf : s1.fraction = 1 / 2 := rfl
    have hm : s1.mistag = ⟨0, 0, 1⟩ := rfl
    have hc : pdf.coef (vals 1 1) 0 = 1 := by
      rw [t3_coef pdf (vals 1 1) 0 ⟨0, 1, ⟨[], [], .NONRES⟩⟩ rfl]
      simp [vals]
      rfl
    have hp : pdf.pars (vals 1 1) = ⟨1, 0, 0, 0, 0⟩ := by
      rw [t3_pars]
      simp [pdf, t3Pdf, mix, vals]
    have hpt : grid.point 0 = (4, 4) := by unfold TdRange.point grid; norm_num
    rw [hv, hr, hg, hf, hm, hp, tdNormalize_zero _ _ _ _ rfl]
    unfold tdCoherent
    simp only [Finset.sum_range_one, hc, mul_one, tdIntegrator, tdCalcIntegrals, hpt, Demo3.inside_centre]
    unfold tdNormalize
    simp [truthNormalization]
    norm_num
  · have hm : Spec.midpoint (0 : ℝ) 2 1 0 = 1 := by unfold Spec.midpoint; norm_num
    unfold timeTotal3 gridIntegral2
    simp only [Finset.sum_range_one, hm, density_plain, Demo3.outside_low (1 : ℝ) 1 (by norm_num)]
    simp

end GooFit
