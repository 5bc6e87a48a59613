import Verif.Spec.Dalitz3
import Verif.Props.Component4
import Verif.Props.Amp3Body
import Verif.Props.Region
/-!
# C81: a three-body amplitude PDF is the one its user has described, at the present values of the variables
-/
set_option autoImplicit false
namespace GooFit
open Spec

/-! ### The resonances -/

@[simp] theorem toB_boolC (b : Bool) : toB (boolC b) = b := by cases b <;> simp [toB, boolC]

theorem pairSq_eq (pair : Nat) (m12 m13 m23 : ℝ) :
    (if pair = 0 then m12 else if pair = 1 then m13 else m23) = pairSq pair m12 m13 m23 := by
  match pair with
  | 0 => rfl
  | 1 => rfl
  | n + 2 => simp [pairSq]

theorem kmatrix_device (ctx : DalitzCtx) (table : Nat → ℝ) (p : List ℝ) (hl : ¬ p.length < 59) (pair : Nat) (m12 m13 m23 : ℝ) :
    resDevice ctx table .kMatrix_res p [(pair : ℝ)] m12 m13 m23
      = kMatrixAmp (readKParams p) (pairSq pair m12 m13 m23) := by
  rw [← pairSq_eq]
  unfold resDevice kMatrixResonance
  simp only [List.getElem?_cons_zero, bind, Option.bind, toU_natCast, if_neg hl]

theorem kmatrix_value (d : KModel) (s : ℝ) [Decidable (LeadingMinors (d.T mPiPlus (kRho mPiPlus mKPlus mEta mEtap s) s) 5)] :
    kMatrixAmp (readKParams (kArgs d)) s
      = if LeadingMinors (d.T mPiPlus (kRho mPiPlus mKPlus mEta mEtap s) s) 5
        then some (d.amplitude mPiPlus (kRho mPiPlus mKPlus mEta mEtap s) s) else none := by
  split_ifs with hm
  · exact (C55_amplitude _ _).1 hm
  · exact (C55_amplitude _ _).2 hm

theorem kmatrix_res (ctx : DalitzCtx) (table : Nat → ℝ) (h : Nat → ℝ) (sA0 sA s0prod s0scatt : Nat)
    (betaR betaI fprodR fprodI fscat poles : List Nat) (L pair : Nat) (m12 m13 m23 : ℝ) :
    resDevice ctx table .kMatrix_res (([sA0, sA, s0prod, s0scatt]
        ++ (List.range 5).map (fun i => fscat.getD i 0)
        ++ (List.range 5).flatMap (fun i => [betaR.getD i 0, betaI.getD i 0])
        ++ (List.range 5).flatMap (fun i => [fprodR.getD i 0, fprodI.getD i 0])
        ++ (List.range 30).map (fun i => poles.getD i 0)).map h) [(pair : ℝ)] m12 m13 m23
      = resonanceAt ctx (.kMatrix sA0 sA s0prod s0scatt betaR betaI fprodR fprodI fscat poles L pair) h m12 m13 m23 := by
  classical
  rw [kmatrix_device _ _ _ (by simp), kmatrix_params, kmatrix_value]
  unfold resonanceAt
  congr

/-- **C81 (the function)** (what is missing: the spline, see C56).  What the device function of a constructed resonance computes
from its parameters and constants is the function of its class applied to the arguments of the constructor call, at the values
the variables have now, whatever they were at construction. -/
theorem C81_function_partial (ctx : DalitzCtx) (table : Nat → ℝ) (c : ResNew) (o : ResObj) (hb : resBuild c = some o)
    (hs : ¬ IsSplineRes c) (h : Nat → ℝ) (m12 m13 m23 : ℝ) :
    resDevice ctx table o.fn (o.params.map h) o.consts m12 m13 m23 = resonanceAt ctx c h m12 m13 m23 := by
  cases c with
  | spline => exact absurd trivial hs
  | kMatrix sA0 sA s0prod s0scatt betaR betaI fprodR fprodI fscat poles L pair =>
    rw [resBuild] at hb
    split_ifs at hb
    have hb' := Option.some.inj hb
    rw [← hb']
    exact kmatrix_res ctx table h _ _ _ _ _ _ _ _ _ _ L pair m12 m13 m23
  | nonRes => have hb' := Option.some.inj hb; rw [← hb']; rfl
  | rbw mass width sp cyc norm sym =>
    have hb' := Option.some.inj hb
    rw [← hb']
    cases sym <;> simp [resDevice, resonanceAt]
  | gs => have hb' := Option.some.inj hb; rw [← hb']; simp [resDevice, resonanceAt]; rfl
  | lass => have hb' := Option.some.inj hb; rw [← hb']; simp [resDevice, resonanceAt]
  | flatte => have hb' := Option.some.inj hb; rw [← hb']; simp [resDevice, resonanceAt]
  | gauss => have hb' := Option.some.inj hb; rw [← hb']; simp [resDevice, resonanceAt]
  | rhoOmega => have hb' := Option.some.inj hb; rw [← hb']; simp [resDevice, resonanceAt]; rfl

/-- **C81 (what a resonance depends on).** A resonance depends on the variables it has registered only: it need not be
recomputed while these keep their values. -/
theorem C81_depends (D : D3) (o : ResObj) (h h' : Nat → ℝ) (hv : ∀ v ∈ o.params, h v = h' v) : D.resAt h o = D.resAt h' o := by
  funext m12 m13
  unfold D3.resAt
  rw [List.map_congr_left hv]

/-! ### Evaluations -/

/-- What is stored after an evaluation with the values `h0`. -/
structure Inv3 (D : D3) (data : List Ev3) (g : NormRange ℝ) (E : Option (ℝ → ℝ → ℝ)) (q : Option (Nat → ℝ)) (s : D3State) :
    Prop where
  data_eq : s.data = data
  entries_eq : s.entries = data.length
  alloc_eq : s.alloc = some data.length
  grid_eq : s.grid = g
  start : q = none → s.force = true
  forced : ∀ h0, q = some h0 → s.force = false
  waves : ∀ h0, q = some h0 → ∀ (i : Nat) r (k : Nat) ev, D.res[i]? = some r → data[k]? = some ev →
    s.waves i k = D.wave h0 r.res ev.m12 ev.m13
  ints : ∀ h0 e, q = some h0 → E = some e → ∀ (i j : Nat) r r', D.res[i]? = some r → D.res[j]? = some r' →
    s.integrals i j = integralOf D.inside (D.resAt h0 r.res) (D.resAt h0 r'.res) e g

theorem wave_depends (D : D3) (o : ResObj) (h h' : Nat → ℝ) (hv : ∀ v ∈ o.params, h v = h' v) (x y : ℝ) :
    D.wave h o x y = D.wave h' o x y := by
  unfold D3.wave
  rw [C81_depends D o h h' hv]

theorem eval_inv (D : D3) (h16 : D.res.length ≤ 16) (data : List Ev3) (g : NormRange ℝ) (E : Option (ℝ → ℝ → ℝ))
    (q : Option (Nat → ℝ)) (s : D3State) (hi : Inv3 D data g E q s) (marks : ResObj → Bool) (h : Nat → ℝ)
    (hm : ∀ h0, q = some h0 → ∀ o : ResObj, marks o = false → ∀ v ∈ o.params, h v = h0 v)
    (hE : ∀ e, E = some e → D.eff h = e) :
    ∃ v, D.normalize s marks h = some (D.refresh s marks h, v) ∧ Inv3 D data g E (some h) (D.refresh s marks h)
      ∧ v = (((List.range D.res.length).map fun i => ((List.range D.res.length).map fun j =>
          D.coef h i * (D.coef h j).conj * (D.refresh s marks h).integrals i j).sum).sum).re * (g.binSize12 * g.binSize13) := by
  have hout : (List.range D.res.length).any (fun i => D.redo s marks i && s.outside i) = false := by
    rw [List.any_eq_false]
    intro i hir
    have : i < D.res.length := List.mem_range.mp hir
    have hlt : ¬ 16 ≤ i := by omega
    simp [D3State.outside, hi.data_eq, hi.entries_eq, hi.alloc_eq, hlt]
  refine ⟨_, ?_, ?_, rfl⟩
  · unfold D3.normalize
    rw [hout, ← hi.grid_eq]
    rfl
  · have key : ∀ (i : Nat) (r : ResUse ResObj), D.res[i]? = some r → D.redo s marks i = false →
        ∃ h0, q = some h0 ∧ ∀ v ∈ r.res.params, h v = h0 v := by
      intro i r hr hred
      simp only [D3.redo, hr, Option.map_some, Option.getD_some, Bool.or_eq_false_iff] at hred
      cases q with
      | none => exact absurd (hi.start rfl) (by simp [hred.1])
      | some h0 => exact ⟨h0, rfl, hm h0 rfl r.res hred.2⟩
    refine ⟨hi.data_eq, hi.entries_eq, hi.alloc_eq, hi.grid_eq, fun h => absurd h (by simp), fun _ _ => rfl, ?_, ?_⟩
    · intro h0 hh0 i r k ev hr hev
      have e0 : h = h0 := by simpa using hh0
      subst e0
      have hk : k < data.length := (List.getElem?_eq_some_iff.mp hev).1
      simp only [D3.refresh, hr, hi.data_eq, hev, hi.entries_eq, hk, decide_true, Bool.and_true]
      split_ifs with hred
      · rfl
      · obtain ⟨h0, hq, hv⟩ := key i r hr (by simpa using hred)
        rw [hi.waves h0 hq i r k ev hr hev, wave_depends D r.res h h0 hv]
    · intro h0 e hh0 hE' i j r r' hr hr'
      have e0 : h = h0 := by simpa using hh0
      subst e0
      simp only [D3.refresh, hr, hr', hi.grid_eq]
      split_ifs with hred
      · simp only [Bool.and_eq_true, Bool.not_eq_true'] at hred
        obtain ⟨h0, hq, hv⟩ := key i r hr hred.1
        obtain ⟨h0', hq', hv'⟩ := key j r' hr' hred.2
        have e1 : h0' = h0 := by rw [hq] at hq'; simpa using hq'.symm
        subst e1
        rw [hi.ints h0' e hq hE' i j r r' hr hr', C81_depends D r.res h h0' hv, C81_depends D r'.res h h0' hv']
      · rw [hE e hE']

theorem evals_inv (D : D3) (h16 : D.res.length ≤ 16) (data : List Ev3) (g : NormRange ℝ) (E : Option (ℝ → ℝ → ℝ))
    (es : List ((ResObj → Bool) × (Nat → ℝ))) :
    ∀ (q : Option (Nat → ℝ)) (s : D3State), Inv3 D data g E q s → MarksFrom3 q es →
      (∀ e, E = some e → ∀ x ∈ es, D.eff x.2 = e) →
      ∃ s' q', D.run s (es.map fun e => .eval e.1 e.2) = some s' ∧ Inv3 D data g E q' s' ∧ (es.getLast?.map (·.2)).or q = q' := by
  induction es with
  | nil => intro q s hi _ _; exact ⟨s, q, rfl, hi, by simp⟩
  | cons e es ih =>
    intro q s hi hm hE
    obtain ⟨v, hn, hi', -⟩ := eval_inv D h16 data g E q s hi e.1 e.2 hm.1 (fun x hx => hE x hx e (by simp))
    obtain ⟨s', q', hr, hi'', hq⟩ := ih (some e.2) _ hi' hm.2 (fun x hx y hy => hE x hx y (by simp [hy]))
    refine ⟨s', q', ?_, hi'', ?_⟩
    · simp only [List.map_cons, D3.run, D3.step, hn, Option.map_some, Option.bind_some]
      exact hr
    · rw [← hq]
      cases es with
      | nil => simp
      | cons a l => rw [List.getLast?_cons_cons, List.getLast?_eq_some_getLast (List.cons_ne_nil a l)]; simp

theorem run_append3 (D : D3) (a b : List D3Op) : ∀ s, D.run s (a ++ b) = (D.run s a).bind fun s => D.run s b := by
  induction a with
  | nil => intro s; rfl
  | cons op a ih =>
    intro s
    simp only [List.cons_append, D3.run]
    cases D.step s op with
    | none => rfl
    | some s1 => exact ih s1

/-- The state in which the PDF has been given new data and their number. -/
noncomputable def withData (s : D3State) (data : List Ev3) : D3State :=
  { s with data := data, entries := data.length, alloc := some data.length, waves := fun _ _ => 0, force := true }

theorem withData_inv (D : D3) (s : D3State) (data : List Ev3) (E : Option (ℝ → ℝ → ℝ)) :
    Inv3 D data s.grid E none (withData s data) :=
  ⟨rfl, rfl, rfl, rfl, fun _ => rfl, fun _ h => absurd h (by simp), fun _ h => absurd h (by simp), fun _ _ h => absurd h (by simp)⟩

theorem give_run (D : D3) (s : D3State) (data : List Ev3) (give : List D3Op) (hg : GivesData data give) :
    D.run s give = some (withData s data) := by
  cases hg <;> rfl

/-- The program of the theorems: new data, their number, evaluations. -/
def program (give : List D3Op) (evs : List ((ResObj → Bool) × (Nat → ℝ))) : List D3Op :=
  give ++ evs.map fun e => .eval e.1 e.2

theorem marks_append (es : List ((ResObj → Bool) × (Nat → ℝ))) (e : (ResObj → Bool) × (Nat → ℝ)) :
    ∀ q, MarksFrom3 q (es ++ [e]) → MarksFrom3 q es ∧
      ∀ h0, (es.getLast?.map (·.2)).or q = some h0 → ∀ o : ResObj, e.1 o = false → ∀ v ∈ o.params, e.2 v = h0 v := by
  induction es with
  | nil => intro q h; exact ⟨trivial, by simpa using h.1⟩
  | cons a l ih =>
    intro q h
    obtain ⟨h1, h2⟩ := ih (some a.2) h.2
    refine ⟨⟨h.1, h1⟩, ?_⟩
    cases l with
    | nil => simpa using h2
    | cons b m =>
      rw [List.getLast?_cons_cons]
      rw [List.getLast?_eq_some_getLast (List.cons_ne_nil b m)] at h2 ⊢
      simpa using h2

/-- The states around the last evaluation. -/
theorem program_run (D : D3) (h16 : D.res.length ≤ 16) (s : D3State) (data : List Ev3)
   
    (give : List D3Op) (hgive : GivesData data give) (E : Option (ℝ → ℝ → ℝ)) (evs : List ((ResObj → Bool) × (Nat → ℝ))) (marks : ResObj → Bool) (h : Nat → ℝ)
    (hm : MarksFrom3 none (evs ++ [(marks, h)])) (hE : ∀ e, E = some e → ∀ x ∈ evs ++ [(marks, h)], D.eff x.2 = e) :
    ∃ s1 v, D.run s (program give evs) = some s1 ∧ D.normalize s1 marks h = some (D.refresh s1 marks h, v)
      ∧ D.run s (program give (evs ++ [(marks, h)])) = some (D.refresh s1 marks h)
      ∧ Inv3 D data s.grid E (some h) (D.refresh s1 marks h)
      ∧ v = (((List.range D.res.length).map fun i => ((List.range D.res.length).map fun j =>
          D.coef h i * (D.coef h j).conj * (D.refresh s1 marks h).integrals i j).sum).sum).re
            * (s.grid.binSize12 * s.grid.binSize13) := by
  obtain ⟨hm1, hm2⟩ := marks_append evs (marks, h) none hm
  obtain ⟨s1, q, hr, hi, hq⟩ := evals_inv D h16 data s.grid E evs none _ (withData_inv D s data E) hm1
    (fun e he x hx => hE e he x (by simp [hx]))
  obtain ⟨v, hn, hi', hv⟩ := eval_inv D h16 data s.grid E q s1 hi marks h (fun h0 hh => hm2 h0 (hq.trans hh))
    (fun e he => hE e he (marks, h) (by simp))
  have hrun : D.run s (program give evs) = some s1 := by
    unfold program
    rw [run_append3, give_run D s data give hgive]
    exact hr
  refine ⟨s1, v, hrun, hn, ?_, hi', hv⟩
  have : program give (evs ++ [(marks, h)]) = program give evs ++ [.eval marks h] := by simp [program]
  rw [this, run_append3, hrun]
  simp [D3.run, D3.step, hn]

/-! ### The described density -/

theorem built_length (rs : List (ResUse ResNew)) (built : List (ResUse ResObj)) (hb : resBuildAll rs = some built) :
    built.length = rs.length := by
  unfold resBuildAll at hb
  exact (List.Forall₂.length_eq (mapM_forall2 _ rs built hb)).symm

theorem built_get (rs : List (ResUse ResNew)) (built : List (ResUse ResObj)) (hb : resBuildAll rs = some built) (i : Nat)
    (hi : i < rs.length) :
    ∃ o, resBuild rs[i].res = some o ∧ built[i]? = some ⟨rs[i].ar, rs[i].ai, o⟩ := by
  have hl := built_length rs built hb
  have h := List.forall₂_iff_get.mp (mapM_forall2 _ rs built hb)
  have h2 := h.2 i hi (by omega)
  simp only [List.get_eq_getElem] at h2
  cases ho : resBuild rs[i].res with
  | none => rw [ho] at h2; simp at h2
  | some o =>
    rw [ho] at h2
    simp only [Option.map_some, Option.some.injEq] at h2
    exact ⟨o, rfl, by rw [List.getElem?_eq_getElem (by omega : i < built.length), h2]⟩

theorem d3_coef (D : D3) (h : Nat → ℝ) (i : Nat) (r : ResUse ResObj) (hr : D.res[i]? = some r) :
    D.coef h i = ⟨h r.ar, h r.ai⟩ := by
  have key : ∀ (l : List (ResUse ResObj)) (i : Nat), l[i]? = some r →
      ((l.flatMap fun r => [r.ar, r.ai]).map h).getD (2 * i) 0 = h r.ar
        ∧ ((l.flatMap fun r => [r.ar, r.ai]).map h).getD (2 * i + 1) 0 = h r.ai := by
    intro l
    induction l with
    | nil => intro i hi; simp at hi
    | cons a l ih =>
      intro i hi
      cases i with
      | zero => simp at hi; subst hi; exact ⟨rfl, rfl⟩
      | succ i =>
        have := ih i (by simpa using hi)
        rw [show 2 * (i + 1) = 2 * i + 1 + 1 by ring]
        simpa using this
  obtain ⟨h1, h2⟩ := key D.res i hr
  unfold D3.coef D3.params
  rw [h1, h2]

theorem range_map_eq {α β : Type} (l : List α) (f : Nat → β) (g : α → β)
    (h : ∀ (i : Nat) a, l[i]? = some a → f i = g a) : (List.range l.length).map f = l.map g := by
  apply List.ext_getElem
  · simp
  · intro i h1 h2
    have hi : i < l.length := by simpa using h1
    simp only [List.getElem_map, List.getElem_range]
    exact h i l[i] (List.getElem?_eq_getElem hi)

/-- The resonances of the PDF as the terms of `Verif.Model.Amp3Body`. -/
noncomputable def d3Terms (D : D3) (h : Nat → ℝ) : List (AmpTerm ℝ) :=
  D.res.map fun r => (⟨h r.ar, h r.ai⟩, D.resAt h r.res)

/-- The PDF as constructed from what the user says. -/
noncomputable def d3Pdf (d : DalitzCtx) (table : Nat → ℝ) (built : List (ResUse ResObj)) (eff : (Nat → ℝ) → ℝ → ℝ → ℝ) : D3 :=
  ⟨d, table, built, eff⟩

theorem d3_resAt (d : DalitzCtx) (table : Nat → ℝ) (built : List (ResUse ResObj)) (eff : (Nat → ℝ) → ℝ → ℝ → ℝ) (c : ResNew)
    (o : ResObj) (hb : resBuild c = some o) (hs : ¬ IsSplineRes c) (h : Nat → ℝ) (m12 m13 : ℝ) :
    (d3Pdf d table built eff).resAt h o m12 m13
      = toCx ((resonanceAt d c h m12 m13 (d.mother ^ 2 + d.d1 ^ 2 + d.d2 ^ 2 + d.d3 ^ 2 - (m12 + m13))).getD 0) := by
  have e : d.mother ^ 2 + d.d1 ^ 2 + d.d2 ^ 2 + d.d3 ^ 2 - (m12 + m13)
      = d.mother * d.mother + d.d1 * d.d1 + d.d2 * d.d2 + d.d3 * d.d3 - m12 - m13 := by ring
  rw [e, ← C81_function_partial d table c o hb hs h]
  rfl

theorem d3_terms (d : DalitzCtx) (table : Nat → ℝ) (rs : List (ResUse ResNew)) (built : List (ResUse ResObj))
    (hb : resBuildAll rs = some built) (hs : ∀ r ∈ rs, ¬ IsSplineRes r.res) (eff : (Nat → ℝ) → ℝ → ℝ → ℝ) (h : Nat → ℝ)
    (x y : ℝ) : termsAt (d3Terms (d3Pdf d table built eff) h) x y = terms3 d rs h x y := by
  unfold termsAt d3Terms terms3
  rw [List.map_map]
  have hl := built_length rs built hb
  apply List.ext_getElem
  · simpa [d3Pdf] using hl
  · intro i h1 h2
    have hi : i < rs.length := by simpa using h2
    obtain ⟨o, ho, hg⟩ := built_get rs built hb i hi
    have hi' : i < built.length := by omega
    have hg' : built[i] = ⟨rs[i].ar, rs[i].ai, o⟩ := by
      rw [List.getElem?_eq_getElem hi'] at hg; exact Option.some.inj hg
    simp only [List.getElem_map, Function.comp]
    have e : (d3Pdf d table built eff).res[i]'(by simpa [d3Pdf] using hi') = ⟨rs[i].ar, rs[i].ai, o⟩ := hg'
    rw [e]
    rw [d3_resAt d table built eff rs[i].res o ho (hs _ (List.getElem_mem hi)) h x y]

open Classical in
theorem d3_inside (D : D3) (hd : GoodMasses D.decay) (x y : ℝ) :
    D.inside x y = decide (CanDecay D.decay.mother D.decay.d1 D.decay.d2 D.decay.d3 x y) := by
  obtain ⟨h1, h2, h3, h4, h5, h6⟩ := hd
  have := C48_dalitz_region x y D.decay.mother D.decay.d1 D.decay.d2 D.decay.d3 (Or.inr h6) h1 h2 h3 h4 h5
  unfold D3.inside
  rw [Bool.eq_iff_iff, this]
  simp

theorem d3_coherent (d : DalitzCtx) (hd : GoodMasses d) (table : Nat → ℝ) (rs : List (ResUse ResNew))
    (built : List (ResUse ResObj)) (hb : resBuildAll rs = some built) (hs : ∀ r ∈ rs, ¬ IsSplineRes r.res)
    (eff : (Nat → ℝ) → ℝ → ℝ → ℝ) (h : Nat → ℝ) (x y : ℝ) :
    coherent (d3Pdf d table built eff).inside (d3Terms (d3Pdf d table built eff) h) (eff h) x y = density3 d rs eff h x y := by
  classical
  unfold coherent density3
  rw [d3_terms d table rs built hb hs, d3_inside (d3Pdf d table built eff) hd]
  simp only [decide_eq_true_eq]
  rfl

/-! ### The theorems -/

theorem inv_value (d : DalitzCtx) (hd : GoodMasses d) (table : Nat → ℝ) (rs : List (ResUse ResNew))
    (built : List (ResUse ResObj)) (hb : resBuildAll rs = some built) (hs : ∀ r ∈ rs, ¬ IsSplineRes r.res)
    (h16 : rs.length ≤ 16) (eff : (Nat → ℝ) → ℝ → ℝ → ℝ) (s' : D3State) (data : List Ev3) (hnum : Numbered data)
    (g : NormRange ℝ) (E : Option (ℝ → ℝ → ℝ)) (h : Nat → ℝ) (hi : Inv3 (d3Pdf d table built eff) data g E (some h) s')
    (k : Nat) (ev : Ev3) (hev : data[k]? = some ev) :
    (d3Pdf d table built eff).value s' h k = some (density3 d rs eff h ev.m12 ev.m13) := by
  set D := d3Pdf d table built eff with hD
  have hlen : D.res.length ≤ 16 := by have := built_length rs built hb; simp only [hD, d3Pdf]; omega
  rw [← d3_coherent d hd table rs built hb hs eff h, ← hD, ← ampValue_eq]
  have hk : k < data.length := (List.getElem?_eq_some_iff.mp hev).1
  unfold D3.value ampValue
  rw [hi.data_eq, hev]
  simp only [Option.bind_some]
  cases hin : D.inside ev.m12 ev.m13 with
  | false => simp
  | true =>
    have hfl : ⌊(0.5 : ℝ) + ev.num⌋ = (k : ℤ) := by
      obtain ⟨a, b⟩ := hnum k ev hev
      rw [Int.floor_eq_iff]
      push_cast
      constructor <;> linarith
    rw [hfl, hi.alloc_eq]
    have hno : ¬ (D.res ≠ [] ∧ (16 < D.res.length ∨ (k : ℤ) < 0 ∨ (((some data.length).getD 0 : Nat) : ℤ) ≤ (k : ℤ))) := by
      simp only [Option.getD_some]
      omega
    simp only [Bool.not_true, Bool.false_eq_true, if_false, if_true, if_neg hno, Int.toNat_natCast]
    rw [range_map_eq D.res _ (fun r => (⟨h r.ar, h r.ai⟩ : Cx ℝ) * D.resAt h r.res ev.m12 ev.m13)]
    · unfold d3Terms
      rw [List.map_map]
      rfl
    · intro i r hr'
      rw [d3_coef D h i r hr', hi.waves h rfl i r k ev hr' hev]
      unfold D3.wave
      rw [hin]
      rfl

/-- **C81 (value)** (what is missing: splines, see C56; more than 16 resonances, see `C81_violation_many`; events whose number is
not their position, see `C81_violation_number`; several amplitude PDFs, see C70).  Whatever has been done with the PDF before:
after it has been given data and their number, and after any number of evaluations with changing values of the variables, its
value at every event is the density the user has described, at the values of the last evaluation. -/
theorem C81_value_partial (d : DalitzCtx) (hd : GoodMasses d) (table : Nat → ℝ) (rs : List (ResUse ResNew))
    (built : List (ResUse ResObj)) (hb : resBuildAll rs = some built) (hs : ∀ r ∈ rs, ¬ IsSplineRes r.res)
    (h16 : rs.length ≤ 16) (eff : (Nat → ℝ) → ℝ → ℝ → ℝ) (s : D3State) (data : List Ev3)
    (give : List D3Op) (hgive : GivesData data give) (hnum : Numbered data)
    (evs : List ((ResObj → Bool) × (Nat → ℝ))) (marks : ResObj → Bool) (h : Nat → ℝ)
    (hm : MarksFrom3 none (evs ++ [(marks, h)])) :
    ∃ s', (d3Pdf d table built eff).run s (give
        ++ (evs ++ [(marks, h)]).map fun e => .eval e.1 e.2) = some s'
      ∧ ∀ (k : Nat) ev, data[k]? = some ev →
        (d3Pdf d table built eff).value s' h k = some (density3 d rs eff h ev.m12 ev.m13) := by
  have hlen : (d3Pdf d table built eff).res.length ≤ 16 := by have := built_length rs built hb; simp only [d3Pdf]; omega
  obtain ⟨s1, v, -, -, hr, hi, -⟩ := program_run _ hlen s data give hgive none evs marks h hm (fun e he => absurd he (by simp))
  exact ⟨_, hr, fun k ev hev => inv_value d hd table rs built hb hs h16 eff _ data hnum _ _ h hi k ev hev⟩

/-- **C81 (normalisation)** (what is missing: as for the value; different numbers of bins, see `C41_violation_bins`; an
efficiency that changes between the evaluations, see `C81_violation_efficiency`; a new grid after the data, see
`C81_violation_grid`).  What the last of the evaluations returns is the midpoint integral, on the present grid, of the density the
user has described. -/
theorem C81_normalization_partial (d : DalitzCtx) (hd : GoodMasses d) (table : Nat → ℝ) (rs : List (ResUse ResNew))
    (built : List (ResUse ResObj)) (hb : resBuildAll rs = some built) (hs : ∀ r ∈ rs, ¬ IsSplineRes r.res)
    (h16 : rs.length ≤ 16) (eff : (Nat → ℝ) → ℝ → ℝ → ℝ) (s : D3State) (hbins : s.grid.nb12 = s.grid.nb13)
    (hpos : 0 < s.grid.nb12) (data : List Ev3)
    (give : List D3Op) (hgive : GivesData data give)
    (evs : List ((ResObj → Bool) × (Nat → ℝ))) (marks : ResObj → Bool) (h : Nat → ℝ)
    (hm : MarksFrom3 none (evs ++ [(marks, h)])) (heff : ∀ e ∈ evs, eff e.2 = eff h) :
    ∃ s1 s', (d3Pdf d table built eff).run s (give
        ++ evs.map fun e => .eval e.1 e.2) = some s1
      ∧ (d3Pdf d table built eff).normalize s1 marks h = some (s', gridIntegral2 (density3 d rs eff h)
          s.grid.lo12 s.grid.hi12 s.grid.nb12 s.grid.lo13 s.grid.hi13 s.grid.nb13) := by
  set D := d3Pdf d table built eff with hD
  have hlen : D.res.length ≤ 16 := by have := built_length rs built hb; simp only [hD, d3Pdf]; omega
  obtain ⟨s1, v, hr, hn, -, hi, hv⟩ := program_run D hlen s data give hgive (some (eff h)) evs marks h hm (by
    intro e he x hx
    simp only [List.mem_append, List.mem_singleton] at hx
    have e1 : eff h = e := by simpa using he
    rcases hx with hx | rfl
    · rw [← e1]; exact heff x hx
    · exact e1)
  refine ⟨s1, D.refresh s1 marks h, hr, ?_⟩
  rw [hn]
  have hval : v = gridIntegral2 (density3 d rs eff h) s.grid.lo12 s.grid.hi12 s.grid.nb12 s.grid.lo13 s.grid.hi13
      s.grid.nb13 := by
    have e1 : density3 d rs eff h = coherent D.inside (d3Terms D h) (eff h) := by
      funext x y
      rw [hD, d3_coherent d hd table rs built hb hs eff h]
    rw [e1, ← C41_normalize_partial _ _ _ _ hbins hpos, hv]
    unfold ampNormalize sumIntegral d3Terms
    congr 3
    rw [List.map_map]
    refine range_map_eq D.res _ _ ?_
    intro i r hir
    simp only [Function.comp, List.map_map]
    congr 1
    refine range_map_eq D.res _ _ ?_
    intro j r' hjr
    simp only [Function.comp]
    rw [d3_coef D h i r hir, d3_coef D h j r' hjr, hi.ints h (eff h) rfl rfl i j r r' hir hjr]
  rw [hval]

/-! ### Fit fractions -/

theorem sum_range_list {α R : Type} [AddCommMonoid R] (l : List α) (f : Nat → R) (g : α → R)
    (h : ∀ (k : Nat) a, l[k]? = some a → f k = g a) : ∑ k ∈ Finset.range l.length, f k = (l.map g).sum := by
  rw [← range_map_eq l f g h, Finset.sum_range, ← List.sum_ofFn]
  congr 1
  apply List.ext_getElem <;> simp

theorem sum_map_filter {α R : Type} [AddCommMonoid R] (l : List α) (p : α → Bool) (g : α → R) :
    (l.map fun a => if p a then g a else 0).sum = ((l.filter p).map g).sum := by
  induction l with
  | nil => rfl
  | cons a l ih =>
    by_cases ha : p a = true
    · simp [ha, ih]
    · simp [ha, ih]

/-- **C81 (fit fractions)** (what is missing: as for the value).  After the evaluations, `fit_fractions` gives for each pair of
resonances the share of their product in the intensity the user has described, summed over the data. -/
theorem C81_fractions_partial (d : DalitzCtx) (hd : GoodMasses d) (table : Nat → ℝ) (rs : List (ResUse ResNew))
    (built : List (ResUse ResObj)) (hb : resBuildAll rs = some built) (hs : ∀ r ∈ rs, ¬ IsSplineRes r.res)
    (h16 : rs.length ≤ 16) (eff : (Nat → ℝ) → ℝ → ℝ → ℝ) (s : D3State) (data : List Ev3)
    (give : List D3Op) (hgive : GivesData data give) (hne : data ≠ [])
    (evs : List ((ResObj → Bool) × (Nat → ℝ))) (marks : ResObj → Bool) (h : Nat → ℝ)
    (hm : MarksFrom3 none (evs ++ [(marks, h)])) (i j : Nat) (hi : i < rs.length) (hj : j < rs.length) :
    ∃ s' ff, (d3Pdf d table built eff).run s (give
        ++ (evs ++ [(marks, h)]).map fun e => .eval e.1 e.2) = some s'
      ∧ (d3Pdf d table built eff).fractions s' h = some ff
      ∧ ff[i]?.bind (·[j]?) = some (fraction3 d rs h data i j) := by
  classical
  set D := d3Pdf d table built eff with hD
  have hbl := built_length rs built hb
  have hlen : D.res.length ≤ 16 := by simp only [hD, d3Pdf]; omega
  obtain ⟨s1, v, -, -, hr, hinv, -⟩ := program_run D hlen s data give hgive none evs marks h hm (fun e he => absurd he (by simp))
  set s' := D.refresh s1 marks h
  set L : List (Cx ℝ × List (Cx ℝ)) :=
    D.res.map fun r => ((⟨h r.ar, h r.ai⟩ : Cx ℝ), data.map fun ev => D.wave h r.res ev.m12 ev.m13) with hL
  have hfr : D.fractions s' h = some (fitFractions L data.length) := by
    unfold D3.fractions
    rw [hinv.alloc_eq, Option.map_some]
    congr 2
    refine range_map_eq D.res _ _ ?_
    intro i r hir
    rw [hir]
    congr 1
    exact range_map_eq data _ _ fun k ev hev => hinv.waves h rfl i r k ev hir hev
  refine ⟨s', _, hr, hfr, ?_⟩
  have hLl : L.length = rs.length := by rw [hL, List.length_map]; exact hbl
  have hn : 0 < data.length := List.length_pos_iff.mpr hne
  rw [C41_fit_fractions L data.length hn (by
    intro p hp
    rw [hL, List.mem_map] at hp
    obtain ⟨r, -, rfl⟩ := hp
    simp) i j (by omega) (by omega)]
  congr 1
  -- the terms
  have hterm : ∀ (k : Nat) ev, data[k]? = some ev → ∀ (i : Nat) (hi : i < L.length),
      L[i].1 * L[i].2.getD k 0 = if decide (CanDecay d.mother d.d1 d.d2 d.d3 ev.m12 ev.m13)
        then ((terms3 d rs h ev.m12 ev.m13).getD i (0, 0)).1 * ((terms3 d rs h ev.m12 ev.m13).getD i (0, 0)).2 else 0 := by
    intro k ev hev i hi
    have hir : i < D.res.length := by rw [hL, List.length_map] at hi; exact hi
    have e1 : L[i] = ((⟨h D.res[i].ar, h D.res[i].ai⟩ : Cx ℝ), data.map fun ev => D.wave h D.res[i].res ev.m12 ev.m13) := by
      simp [hL]
    have e2 : (terms3 d rs h ev.m12 ev.m13).getD i (0, 0) = (⟨h D.res[i].ar, h D.res[i].ai⟩, D.resAt h D.res[i].res ev.m12 ev.m13) := by
      rw [← d3_terms d table rs built hb hs eff h, ← hD]
      unfold termsAt d3Terms
      rw [List.map_map, List.getD_eq_getElem?_getD, List.getElem?_map, List.getElem?_eq_getElem hir]
      rfl
    rw [e1, e2]
    have e3 : (data.map fun ev => D.wave h D.res[i].res ev.m12 ev.m13).getD k 0 = D.wave h D.res[i].res ev.m12 ev.m13 := by
      rw [List.getD_eq_getElem?_getD, List.getElem?_map, hev]
      rfl
    simp only [e3]
    unfold D3.wave
    rw [d3_inside D hd]
    by_cases hc : CanDecay d.mother d.d1 d.d2 d.d3 ev.m12 ev.m13
    · have : CanDecay D.decay.mother D.decay.d1 D.decay.d2 D.decay.d3 ev.m12 ev.m13 := hc
      simp [this, hc]
    · have : ¬ CanDecay D.decay.mother D.decay.d1 D.decay.d2 D.decay.d3 ev.m12 ev.m13 := hc
      simp [this, hc]
  have hint : ∀ (k : Nat) ev, data[k]? = some ev → intensity (termsOf L k)
      = if decide (CanDecay d.mother d.d1 d.d2 d.d3 ev.m12 ev.m13) then intensity (terms3 d rs h ev.m12 ev.m13) else 0 := by
    intro k ev hev
    rw [← Cx.norm_eq]
    have e1 : ((termsOf L k).map fun t : Cx ℝ × Cx ℝ => t.1 * t.2)
        = if decide (CanDecay d.mother d.d1 d.d2 d.d3 ev.m12 ev.m13)
          then (terms3 d rs h ev.m12 ev.m13).map (fun t : Cx ℝ × Cx ℝ => t.1 * t.2)
          else (terms3 d rs h ev.m12 ev.m13).map fun _ => 0 := by
      apply List.ext_getElem
      · split_ifs <;> simp [termsOf, terms3, hLl]
      · intro i h1 h2
        have hi : i < L.length := by simpa [termsOf] using h1
        have hi2 : i < (terms3 d rs h ev.m12 ev.m13).length := by simp [terms3]; omega
        have ht := hterm k ev hev i hi
        simp only [termsOf, List.getElem_map]
        rw [ht]
        rw [List.getD_eq_getElem _ _ hi2]
        split_ifs <;> simp
    rw [e1]
    split_ifs
    · rw [Cx.norm_eq]
    · simp [Cx.norm]
  unfold fraction3
  simp only
  congr 1
  · rw [sum_range_list data _ (fun ev => if decide (CanDecay d.mother d.d1 d.d2 d.d3 ev.m12 ev.m13) then
        (((terms3 d rs h ev.m12 ev.m13).getD i (0, 0)).1 * ((terms3 d rs h ev.m12 ev.m13).getD i (0, 0)).2
          * (((terms3 d rs h ev.m12 ev.m13).getD j (0, 0)).1 * ((terms3 d rs h ev.m12 ev.m13).getD j (0, 0)).2).conj).re else 0)]
    · exact sum_map_filter data _ _
    · intro k ev hev
      rw [hterm k ev hev i (by omega), hterm k ev hev j (by omega)]
      split_ifs <;> simp
  · rw [sum_range_list data _ _ hint]
    exact sum_map_filter data _ _

/-- A concrete case: a relativistic Breit-Wigner of spin 1, symmetrised, a Gounaris-Sakurai resonance and a non-resonant term, for
`D → 3 π`, two events, three evaluations of which the second changes the mass of the Breit-Wigner only and the third nothing. -/
example : let rs : List (ResUse ResNew) := [⟨0, 1, .rbw 2 3 1 0 true true⟩, ⟨4, 5, .gs 6 7 1 1 true false⟩, ⟨8, 9, .nonRes⟩]
    let h0 : Nat → ℝ := fun v => (v : ℝ) / 10
    let h1 : Nat → ℝ := fun v => if v = 2 then 0.77 else (v : ℝ) / 10
    (∃ built, resBuildAll rs = some built ∧ built.length = 3) ∧ (∀ r ∈ rs, ¬ IsSplineRes r.res) ∧ rs.length ≤ 16
      ∧ GoodMasses ⟨1.87, 0.14, 0.14, 0.14, 1.5, 5⟩ ∧ Numbered [⟨1, 1, 0⟩, ⟨2, 0.5, 1⟩]
      ∧ MarksFrom3 none ([(fun _ => false, h0), (fun o => o.params.contains 2, h1)] ++ [(fun _ => false, h1)]) := by
  intro rs h0 h1
  refine ⟨⟨_, rfl, rfl⟩, ?_, by decide, by norm_num [GoodMasses], ?_, ?_⟩
  · intro r hr
    simp only [rs, List.mem_cons, List.not_mem_nil, or_false] at hr
    rcases hr with rfl | rfl | rfl <;> exact id
  · intro k ev h
    match k, h with
    | 0, h => simp at h; subst h; norm_num
    | 1, h => simp at h; subst h; norm_num
  · refine ⟨fun _ h => absurd h (by simp), ?_, ?_, trivial⟩
    · intro hh e o ho v hv
      have e' : h0 = hh := Option.some.inj e
      subst e'
      have hv2 : v ≠ 2 := by
        rintro rfl
        have : o.params.contains 2 = false := ho
        simp [hv] at this
      simp [h0, h1, hv2]
    · intro hh e o ho v hv
      have e' : h1 = hh := Option.some.inj e
      subst e'
      rfl

/-! ### Violations -/

/-- **C81, violation (many resonances).**  A decay with more than 16 resonances has no evaluation: the 17th is written outside
the array of the cached waves. -/
theorem C81_violation_many (d : DalitzCtx) (table : Nat → ℝ) (rs : List (ResUse ResNew)) (built : List (ResUse ResObj))
    (hb : resBuildAll rs = some built) (h17 : 16 < rs.length) (eff : (Nat → ℝ) → ℝ → ℝ → ℝ) (s : D3State) (data : List Ev3)
    (marks : ResObj → Bool) (h : Nat → ℝ) :
    (d3Pdf d table built eff).run s [.setData data, .setDataSize data.length, .eval marks h] = none := by
  have hl := built_length rs built hb
  have : (d3Pdf d table built eff).normalize (withData s data) marks h = none := by
    unfold D3.normalize
    rw [if_pos]
    rw [List.any_eq_true]
    refine ⟨16, List.mem_range.mpr (by simp only [d3Pdf]; omega), ?_⟩
    simp [D3.redo, withData, D3State.outside]
  simp only [D3.run, D3.step, Option.bind_some]
  show ((Option.map (fun x => x.1) ((d3Pdf d table built eff).normalize (withData s data) marks h)).bind fun s => some s) = none
  rw [this]
  rfl

namespace Demo3
/-- Three daughters of mass 1 and a mother of mass 3: at rest. -/
def decay : DalitzCtx := ⟨3, 1, 1, 1, 1, 1⟩
/-- A non-resonant term with coefficient `h 0 + i h 1`. -/
def rs : List (ResUse ResNew) := [⟨0, 1, .nonRes⟩]
/-- What is built from it. -/
def built : List (ResUse ResObj) := [⟨0, 1, ⟨[], [], .NONRES⟩⟩]
/-- A constant efficiency with a parameter. -/
def eff (h : Nat → ℝ) (_ _ : ℝ) : ℝ := h 2
/-- The PDF. -/
noncomputable def pdf : D3 := d3Pdf decay (fun _ => 0) built eff
/-- One bin around the point of the decay. -/
def demoGrid : NormRange ℝ := ⟨3, 5, 1, 3, 5, 1⟩
/-- Values. -/
def h0 (v : Nat) : ℝ := if v = 1 then 0 else 1
/-- Another efficiency. -/
def h1 (v : Nat) : ℝ := if v = 1 then 0 else if v = 2 then 5 else 1
/-- Every resonance that uses variable 2 has a changed variable. -/
def changed2 (o : ResObj) : Bool := o.params.contains 2

theorem built_eq : resBuildAll rs = some built := rfl
theorem good : GoodMasses decay := by norm_num [GoodMasses, decay]
theorem inside_centre : pdf.inside 4 4 = true := by
  classical
  rw [d3_inside pdf good]
  have : CanDecay 3 1 1 1 4 4 := by
    refine ⟨0, 0, 0, by simp, ?_, ?_, ?_⟩ <;> norm_num [energy, Mom.sq]
  exact decide_eq_true this
theorem outside_low (y : ℝ) (x : ℝ) (hx : x < 4) : pdf.inside x y = false := by
  classical
  rw [d3_inside pdf good]
  refine decide_eq_false ?_
  intro h
  have := (C48_bounds x y 3 1 1 1 (by norm_num) (by norm_num) (by norm_num) (by norm_num) h).1
  norm_num at this
  linarith
theorem resAt_one (h : Nat → ℝ) (x y : ℝ) : pdf.resAt h ⟨[], [], .NONRES⟩ x y = 1 := rfl

/-- The integral after an evaluation. -/
theorem integral_centre (e : ℝ → ℝ → ℝ) (h : Nat → ℝ) :
    integralOf pdf.inside (pdf.resAt h ⟨[], [], .NONRES⟩) (pdf.resAt h ⟨[], [], .NONRES⟩) e demoGrid = Cx.ofReal (e 4 4) := by
  have hp : demoGrid.point 0 = (4, 4) := by unfold NormRange.point demoGrid; norm_num
  unfold integralOf integratorAt calcIntegrals
  have : demoGrid.nb12 * demoGrid.nb13 = 1 := rfl
  rw [this]
  simp only [List.range_one, List.map_cons, List.map_nil, List.sum_cons, List.sum_nil, hp, inside_centre, if_true, resAt_one]
  ext <;> simp

theorem described_centre (h : Nat → ℝ) (x y : ℝ) : density3 decay rs eff h x y
    = if pdf.inside x y then (h 0 ^ 2 + h 1 ^ 2) * h 2 else 0 := by
  classical
  rw [d3_inside pdf good]
  unfold density3
  simp only [decide_eq_true_eq]
  congr 1
  simp [intensity, terms3, rs, resonanceAt, toCx, eff]

theorem described_grid (h : Nat → ℝ) :
    gridIntegral2 (density3 decay rs eff h) demoGrid.lo12 demoGrid.hi12 demoGrid.nb12 demoGrid.lo13 demoGrid.hi13 demoGrid.nb13
      = (h 0 ^ 2 + h 1 ^ 2) * h 2 * 4 := by
  have hm : Spec.midpoint (3 : ℝ) 5 1 0 = 4 := by unfold Spec.midpoint; norm_num
  unfold gridIntegral2 demoGrid
  simp only [Finset.sum_range_one, hm, described_centre, inside_centre, if_true]
  norm_num
  ring

/-- The state after one evaluation with everything to be computed. -/
theorem after_first (s : D3State) (hg : s.grid = demoGrid) (data : List Ev3) (marks : ResObj → Bool) :
    ∃ s1, pdf.run s [.setData data, .setDataSize data.length, .eval marks h0] = some s1 ∧ s1.force = false
      ∧ s1.integrals 0 0 = 1 ∧ s1.grid = demoGrid ∧ s1.alloc = some data.length ∧ s1.data = data
      ∧ ∀ (k : Nat) ev, data[k]? = some ev → s1.waves 0 k = if pdf.inside ev.m12 ev.m13 then 1 else 0 := by
  obtain ⟨s1, v, -, -, hr, hi, -⟩ := program_run pdf (by decide) s data _ .own (some (eff h0)) [] marks h0
    ⟨fun _ h => absurd h (by simp), trivial⟩ (by
      intro e he x hx
      simp only [List.nil_append, List.mem_singleton] at hx
      subst hx
      exact Option.some.inj he)
  refine ⟨_, hr, hi.forced h0 rfl, ?_, hi.grid_eq.trans hg, hi.alloc_eq, hi.data_eq, ?_⟩
  · rw [hi.ints h0 (eff h0) rfl rfl 0 0 ⟨0, 1, ⟨[], [], .NONRES⟩⟩ ⟨0, 1, ⟨[], [], .NONRES⟩⟩ rfl rfl, hg, integral_centre]
    simp [eff, h0]
    rfl
  · intro k ev hev
    rw [hi.waves h0 rfl 0 ⟨0, 1, ⟨[], [], .NONRES⟩⟩ k ev rfl hev]
    unfold D3.wave
    rw [resAt_one]
    cases pdf.inside ev.m12 ev.m13 <;> rfl

/-- An evaluation that finds nothing changed. -/
theorem second (s1 : D3State) (hf : s1.force = false) (hi : s1.integrals 0 0 = 1) (h : Nat → ℝ) (hh : h 0 = 1) (hh' : h 1 = 0) :
    pdf.normalize s1 changed2 h = some ({ s1 with force := false }, s1.grid.binSize12 * s1.grid.binSize13) := by
  have hredo : ∀ i, pdf.redo s1 changed2 i = false := by
    intro i
    unfold D3.redo
    rw [hf]
    match i with
    | 0 => rfl
    | i + 1 => rfl
  have href : pdf.refresh s1 changed2 h = { s1 with force := false } := by
    unfold D3.refresh
    simp only [hredo, Bool.false_and, Bool.not_false, Bool.and_self, if_true, Bool.false_eq_true, if_false]
    congr 1
    · funext i k
      split <;> rfl
    · funext i k
      split <;> rfl
  unfold D3.normalize
  simp only [hredo, Bool.false_and, href]
  have hlen : pdf.res.length = 1 := rfl
  have hc : pdf.coef h 0 = 1 := by
    rw [d3_coef pdf h 0 ⟨0, 1, ⟨[], [], .NONRES⟩⟩ rfl, hh, hh']
    rfl
  rw [hlen]
  simp only [List.range_one, List.any_cons, List.any_nil, Bool.or_self, Bool.false_eq_true, if_false, List.map_cons, List.map_nil,
    List.sum_cons, List.sum_nil, hc, hi]
  simp

end Demo3
open Demo3

/-- **C81, violation (efficiency).**  When a parameter of the efficiency takes a new value (and no resonance has changed) the next
evaluation returns the integral with the old efficiency. -/
theorem C81_violation_efficiency (s : D3State) (hg : s.grid = demoGrid) (data : List Ev3) :
    MarksFrom3 none [(changed2, h0), (changed2, h1)] ∧
    ∃ s1 s2 v, pdf.run s [.setData data, .setDataSize data.length, .eval changed2 h0] = some s1
      ∧ pdf.normalize s1 changed2 h1 = some (s2, v)
      ∧ v ≠ gridIntegral2 (density3 decay rs eff h1) demoGrid.lo12 demoGrid.hi12 demoGrid.nb12 demoGrid.lo13 demoGrid.hi13 demoGrid.nb13 := by
  refine ⟨⟨fun _ h => absurd h (by simp), ?_, trivial⟩, ?_⟩
  · intro hh e o ho v hv
    have e' : h0 = hh := Option.some.inj e
    subst e'
    have hv2 : v ≠ 2 := by
      rintro rfl
      have : o.params.contains 2 = false := ho
      simp [hv] at this
    simp [h0, h1, hv2]
  · obtain ⟨s1, hr, hf, hi, hg1, -, -, -⟩ := after_first s hg data changed2
    refine ⟨s1, _, _, hr, second s1 hf hi h1 rfl rfl, ?_⟩
    rw [described_grid, hg1]
    norm_num [NormRange.binSize12, NormRange.binSize13, demoGrid, h1]

/-- **C81, violation (grid).**  When the limits of the observables are changed after an evaluation, the next one returns the old
sum times the new bin size. -/
theorem C81_violation_grid (s : D3State) (hg : s.grid = demoGrid) (data : List Ev3) :
    ∃ s1 s2 v, pdf.run s [.setData data, .setDataSize data.length, .eval changed2 h0, .setGrid ⟨0, 1, 1, 0, 1, 1⟩] = some s1
      ∧ pdf.normalize s1 changed2 h0 = some (s2, v) ∧ v = 1
      ∧ gridIntegral2 (density3 decay rs eff h0) 0 1 1 0 1 1 = 0 := by
  obtain ⟨s1, hr, hf, hi, hg1, -, -, -⟩ := after_first s hg data changed2
  refine ⟨{ s1 with grid := ⟨0, 1, 1, 0, 1, 1⟩ }, _, _, ?_,
    second { s1 with grid := ⟨0, 1, 1, 0, 1, 1⟩ } hf hi h0 rfl rfl, ?_, ?_⟩
  · have := run_append3 pdf [.setData data, .setDataSize data.length, .eval changed2 h0] [.setGrid ⟨0, 1, 1, 0, 1, 1⟩] s
    rw [hr] at this
    exact this
  · norm_num [NormRange.binSize12, NormRange.binSize13]
  · unfold gridIntegral2
    simp only [Finset.sum_range_one, described_centre]
    rw [outside_low _ _ (by unfold Spec.midpoint; norm_num)]
    simp

/-- **C81, violation (event numbers).**  The value at an event is that of the event its number names: with the numbers of two
events exchanged, an event in the middle of the decay region has the value 0. -/
theorem C81_violation_number (s : D3State) (hg : s.grid = demoGrid) :
    ∃ s1, pdf.run s [.setData [⟨4, 4, 1⟩, ⟨0, 0, 0⟩], .setDataSize 2, .eval changed2 h0] = some s1
      ∧ pdf.value s1 h0 0 = some 0 ∧ density3 decay rs eff h0 4 4 = 1 := by
  obtain ⟨s1, hr, hf, hi, hg1, ha, hdat, hw⟩ := after_first s hg [⟨4, 4, 1⟩, ⟨0, 0, 0⟩] changed2
  have hd : s1.data = [⟨4, 4, 1⟩, ⟨0, 0, 0⟩] := hdat
  refine ⟨s1, hr, ?_, ?_⟩
  · have hw0 := hw 1 ⟨0, 0, 0⟩ rfl
    rw [outside_low _ _ (by norm_num)] at hw0
    have hfl : ⌊(0.5 : ℝ) + 1⌋ = 1 := by rw [Int.floor_eq_iff]; norm_num
    unfold D3.value
    simp only [hd, List.getElem?_cons_zero, Option.bind_some, inside_centre, hfl, ha]
    have hlen : pdf.res.length = 1 := rfl
    simp [hlen, hw0, Cx.norm]
  · rw [described_centre, inside_centre]
    norm_num [h0]

/-- **C81, violation (new data).**  `setData` alone is not enough: the waves of the old events are used for the new ones. -/
theorem C81_violation_data (s : D3State) (hg : s.grid = demoGrid) :
    ∃ s1, pdf.run s [.setData [⟨0, 0, 0⟩], .setDataSize 1, .eval changed2 h0, .setData [⟨4, 4, 0⟩], .eval changed2 h0]
        = some s1
      ∧ pdf.value s1 h0 0 = some 0 ∧ density3 decay rs eff h0 4 4 = 1 := by
  obtain ⟨s1, hr, hf, hi, hg1, ha, hdat, hw⟩ := after_first s hg [⟨0, 0, 0⟩] changed2
  refine ⟨{ s1 with data := [⟨4, 4, 0⟩], entries := 1, force := false }, ?_, ?_, ?_⟩
  · have := run_append3 pdf [.setData [⟨0, 0, 0⟩], .setDataSize 1, .eval changed2 h0]
      [.setData [⟨4, 4, 0⟩], .eval changed2 h0] s
    refine this.trans ?_
    have hr' : pdf.run s [.setData [⟨0, 0, 0⟩], .setDataSize 1, .eval changed2 h0] = some s1 := hr
    rw [hr']
    have h2 := second { s1 with data := [⟨4, 4, 0⟩], entries := 1 } hf hi h0 rfl rfl
    simp only [Option.bind_some, D3.run, D3.step, List.length_singleton, h2, Option.map_some]
  · have hw0 := hw 0 ⟨0, 0, 0⟩ rfl
    rw [outside_low _ _ (by norm_num)] at hw0
    have hfl : ⌊(0.5 : ℝ) + 0⌋ = 0 := by rw [Int.floor_eq_iff]; norm_num
    unfold D3.value
    simp only [List.getElem?_cons_zero, Option.bind_some, inside_centre, hfl, ha]
    have hlen : pdf.res.length = 1 := rfl
    simp [hlen, hw0, Cx.norm]
  · rw [described_centre, inside_centre]
    norm_num [h0]

end GooFit
