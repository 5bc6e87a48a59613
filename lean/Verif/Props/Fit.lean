import Verif.Lemmas.Fit
import Verif.Props.Tree
import Mathlib.Analysis.SpecialFunctions.Log.Basic
import Mathlib.Data.Rat.Floor
/-!
# Properties of the event sum: C19, C20, C21, C22, C23

`Sess` is the state of one PDF object; `Sess.runAll ops` a history of calls on it.
-/
set_option autoImplicit false
namespace GooFit
open Spec
variable {K : Type}

/-! ### C20 -/

/-- **C20, partial.** After any history of calls, if the fit control fits the kind of the dataset given
to the last `setData`, then the event sum runs over exactly the entries of that dataset, and its
`i`-th evaluation finds, for every observable, the value of entry `i` at that observable's position;
for binned data the metric finds the bin's content, and its error or volume.  Missing: nothing makes
the control fit the data, see the violations. -/
theorem C20_addressing_partial (obs : List Nat) (hnd : obs.Nodup) (idx₀ : Nat → Int)
    (ops : List (FitOp K)) (d : Data K) :
    let s := (Sess.fresh obs idx₀).runAll ops
    s.data = some d → Matches s.ctl d →
    s.numEntries = entries d ∧
    ∀ i < entries d,
      (∀ o ∈ obs, at_ (s.eventAt s.eventSize i) (s.idx o) = some (coord d i o)) ∧
      match d with
      | .unbinned .. => True
      | .binned _ _ content error volume =>
        s.tailAt s.eventSize i 0 = some (content i) ∧
        (s.tailAt s.eventSize i 1 = some (error i) ∨ s.tailAt s.eventSize i 1 = some (volume i)) := by
  intro s hd hm
  have hok : s.Ok := Sess.Ok.runAll ops _ (Sess.Ok.fresh obs idx₀)
  have hobs : s.obs = obs := runAll_obs ops _
  have hnd' : s.obs.Nodup := by rw [hobs]; exact hnd
  have hn := hok.numbered hnd' hd
  refine ⟨hok.entries d hd, fun i hi => ⟨?_, ?_⟩⟩
  · intro o ho
    rw [← hobs] at ho
    obtain ⟨k, hk, rfl⟩ := List.getElem_of_mem ho
    unfold at_
    rw [hn k hk, if_pos (by omega), Int.toNat_natCast]
    exact hok.slot hnd' hd hm i k hi hk
  · cases d with
    | unbinned num v => trivial
    | binned num c a e v =>
      obtain ⟨b, hb⟩ := hok.built _ hd
      obtain ⟨h1, h2⟩ := Sess.tail_of_binned hn hb hm i hi
      refine ⟨h1, ?_⟩
      cases b
      · exact Or.inr h2
      · exact Or.inl h2

/-- When the control fits the data: always right after `setData` of binned data ... -/
theorem C20_binned_matches_partial (s : Sess K) (num : Nat) (c : Nat → Nat → K) (a e v : Nat → K) :
    Matches (s.setData (some (.binned num c a e v))).ctl (Data.binned num c a e v) := by
  show (if s.ctl.binnedFit then s.ctl else Control.binnedNll).binnedFit = true
  split
  · assumption
  · rfl

/-- ... and after `setData` of unbinned data in every history that has neither given binned data nor
installed a binned control before. -/
theorem C20_unbinned_matches_partial (obs : List Nat) (idx₀ : Nat → Int) (ops : List (FitOp K))
    (hops : ∀ o ∈ ops, match o with
      | .setData (some d) => d.isBinned = false
      | .setFitControl c => c.binnedFit = false
      | _ => True)
    (num : Nat) (v : Nat → Nat → K) :
    let s := ((Sess.fresh obs idx₀).runAll ops).setData (some (.unbinned num v))
    Matches s.ctl (Data.unbinned num v) := by
  intro s
  -- neither control nor data ever become binned
  have key : ∀ (ops : List (FitOp K)) (s : Sess K),
      (∀ o ∈ ops, match o with
        | .setData (some d) => d.isBinned = false
        | .setFitControl c => c.binnedFit = false
        | _ => True) →
      s.ctl.binnedFit = false → (∀ d, s.data = some d → d.isBinned = false) →
      (s.runAll ops).ctl.binnedFit = false := by
    intro ops
    induction ops with
    | nil => intro s _ h _; exact h
    | cons o ops ih =>
      intro s hall hc hd
      have hset : ∀ (d : Option (Data K)) (s : Sess K), (∀ d', d = some d' → d'.isBinned = false) →
          s.ctl.binnedFit = false → (s.setData d).ctl.binnedFit = false := by
        intro d s hd' hc'
        rcases d with _ | (⟨n, w⟩ | ⟨n, c, a, e, w⟩)
        · exact hc'
        · exact hc'
        · exact absurd (hd' _ rfl) (by simp [Data.isBinned])
      refine ih (o.run s) (fun o' ho' => hall o' (by simp [ho'])) ?_ ?_
      · cases o with
        | setData d =>
          have := hall (.setData d) (by simp)
          refine hset d s ?_ hc
          intro d' hd'; subst hd'; exact this
        | setFitControl c => exact hall (.setFitControl c) (by simp)
        | query q =>
          cases q with
          | getValue f p =>
            refine hset _ _ ?_ (hset _ _ (fun d' h => by simp at h; subst h; rfl) ?_)
            · exact hd
            · cases f <;> rfl
          | evaluateAtPoints n g =>
            refine hset _ _ ?_ (hset _ _ (fun d' h => by simp at h; subst h; rfl) rfl)
            exact hd
          | compProbs => exact hc
          | normalize => exact hc
      · intro d' hd'
        cases o with
        | setData d =>
          have h1 := hall (.setData d) (by simp)
          have h2 : (s.setData d).data = d := setData_data d s
          have h3 : d = some d' := h2.symm.trans hd'
          subst h3; exact h1
        | setFitControl c => exact hd d' hd'
        | query q =>
          cases q with
          | getValue f p =>
            have h2 : (s.getValue f p).data = s.data := setData_data _ _
            exact hd d' (h2.symm.trans hd')
          | evaluateAtPoints n g =>
            have h2 : (s.evaluateAtPoints n g).data = s.data := setData_data _ _
            exact hd d' (h2.symm.trans hd')
          | compProbs => exact hd d' hd'
          | normalize => exact hd d' hd'
  exact key ops _ hops rfl (by intro d h; simp [Sess.fresh] at h)

namespace Demo
/-- One bin: centre 5, content 3, error 2, volume 1/2. -/
def oneBin : Data ℚ := .binned 1 (fun _ _ => 5) (fun _ => 3) (fun _ => 2) (fun _ => 1/2)
/-- Two bins with contents 3 and 4. -/
def twoBins : Data ℚ :=
  .binned 2 (fun i _ => 5 + i) (fun i => 3 + i) (fun _ => 2) (fun _ => 1/2)
/-- Two events. -/
def twoEvents : Data ℚ := .unbinned 2 (fun i _ => 10 + i)
/-- A PDF of observable 7, not used before. -/
def sess : Sess ℚ := Sess.fresh [7] (fun _ => -1)
end Demo

/-- The hypotheses of C20 are met by a history with both kinds of data and queries in between. -/
example : let s := Demo.sess.runAll [.setData (some Demo.twoEvents), .query (.getValue .prob fun _ _ => 1),
      .setFitControl .binnedChisq, .setData (some Demo.twoBins), .query .compProbs]
    s.ctl = .binnedChisq ∧ s.eventSize = -3 ∧ s.eventAt s.eventSize 1 0 = some 6 ∧
    s.tailAt s.eventSize 1 0 = some 4 := by
  refine ⟨rfl, rfl, ?_, ?_⟩ <;> decide +kernel

/-- **C20 (violated by the code).** Unbinned data given after binned data: the binned control stays
installed (`src/PDFs/PdfBase.cu:344-346` has no counterpart of 444-445), the event sum steps by three
numbers per event through an array holding one number per event, and reads past its end. -/
theorem C20_violation_unbinned_after_binned :
    let s := Demo.sess.runAll [.setData (some Demo.oneBin), .setData (some Demo.twoEvents)]
    s.eventAt s.eventSize 1 0 = none ∧
    s.reduce (fun x => x) (fun e => e 0) 1 = none := by
  constructor <;> decide +kernel

/-- **C20 (violated by the code).** `evaluate_with_metric` always steps by the number of observables
(`src/PDFs/GooPdf.cu:116`): with binned data, `getCompProbsAtDataPoints` evaluates entry 1 at the
content (3) of bin 0 instead of at the centre (6) of bin 1. -/
theorem C20_violation_evaluate_binned :
    let s := (Demo.sess.runAll [.setData (some Demo.twoBins)]).setFitControl .prob
    s.evaluate (fun x => x) (fun e => e 0) 1 = some [5, 3] := by
  decide +kernel

/-- **C20 (violated by the code).** After `setData(nullptr)` the number of entries is kept
(`src/PDFs/PdfBase.cu:348-350`), so the event sum still runs over entries of a freed array. -/
theorem C20_violation_null_data :
    let s := Demo.sess.runAll [.setData (some Demo.twoEvents), .setData none]
    s.numEntries = 2 ∧ s.array = none ∧ s.reduce (fun x => x) (fun e => e 0) 1 = none := by
  refine ⟨rfl, rfl, ?_⟩
  decide +kernel

/-! ### C19 -/

theorem getValue_unbinned (s : Sess K) (f : EvalFunc) (p : Nat → Nat → K) (num : Nat)
    (v : Nat → Nat → K) :
    (s.setData (some (.unbinned num v))).getValue f p =
      (s.setData (some (.unbinned num v))).setFitControl f.control := by
  simp only [Sess.getValue, Sess.setData, Sess.setFitControl, setupObservables_idem]

theorem evaluateAtPoints_unbinned (s : Sess K) (n : Nat) (g : Nat → Nat → K) (num : Nat)
    (v : Nat → Nat → K) :
    (s.setData (some (.unbinned num v))).evaluateAtPoints n g =
      (s.setData (some (.unbinned num v))).setFitControl .eval := by
  simp only [Sess.evaluateAtPoints, Sess.setData, Sess.setFitControl, setupObservables_idem]

theorem getValue_binned (s : Sess K) (f : EvalFunc) (p : Nat → Nat → K) (num : Nat)
    (c : Nat → Nat → K) (a e v : Nat → K) (h : s.ctl.binErrors = false) :
    (s.setData (some (.binned num c a e v))).getValue f p =
      (s.setData (some (.binned num c a e v))).setFitControl .binnedNll := by
  have h1 : (if s.ctl.binnedFit then s.ctl else Control.binnedNll).binErrors = false := by
    split
    · exact h
    · rfl
  have h2 : (if f.control.binnedFit then f.control else Control.binnedNll) = .binnedNll := by
    cases f <;> rfl
  simp only [Sess.getValue, Sess.setData, Sess.setFitControl, setupObservables_idem, h1, h2]
  rfl

theorem evaluateAtPoints_binned (s : Sess K) (n : Nat) (g : Nat → Nat → K) (num : Nat)
    (c : Nat → Nat → K) (a e v : Nat → K) (h : s.ctl.binErrors = false) :
    (s.setData (some (.binned num c a e v))).evaluateAtPoints n g =
      (s.setData (some (.binned num c a e v))).setFitControl .binnedNll := by
  have h1 : (if s.ctl.binnedFit then s.ctl else Control.binnedNll).binErrors = false := by
    split
    · exact h
    · rfl
  have h2 : (if Control.eval.binnedFit then Control.eval else Control.binnedNll) = .binnedNll := rfl
  simp only [Sess.evaluateAtPoints, Sess.setData, Sess.setFitControl, setupObservables_idem, h1, h2]
  rfl

/-- `setData` with the same dataset again, under another control, changes nothing but the control. -/
theorem query_only_control (s : Sess K) (d : Data K) (c : Control)
    (hd : d.isBinned = true → s.ctl.binErrors = false) (q : Query K) :
    ∃ c', ((s.setData (some d)).setFitControl c).query q = (s.setData (some d)).setFitControl c' := by
  cases q with
  | compProbs => exact ⟨c, rfl⟩
  | normalize => exact ⟨c, rfl⟩
  | getValue f p =>
    have e : ((s.setData (some d)).setFitControl c).query (.getValue f p) =
        (s.setData (some d)).getValue f p := rfl
    rw [e]
    cases d with
    | unbinned num v => exact ⟨_, getValue_unbinned s f p num v⟩
    | binned num ce a er v => exact ⟨_, getValue_binned s f p num ce a er v (hd rfl)⟩
  | evaluateAtPoints n g =>
    have e : ((s.setData (some d)).setFitControl c).query (.evaluateAtPoints n g) =
        (s.setData (some d)).evaluateAtPoints n g := rfl
    rw [e]
    cases d with
    | unbinned num v => exact ⟨_, evaluateAtPoints_unbinned s n g num v⟩
    | binned num ce a er v => exact ⟨_, evaluateAtPoints_binned s n g num ce a er v (hd rfl)⟩

/-- **C19, partial.** Whatever queries follow `setData`, the dataset and the event array stay as they
were: installing the user's fit control again brings back the same state, hence the same
`calculateNLL`.  (For binned data: unless the control was `BinnedErrorFit`.)  Missing: the queries do
change the control, see the violations. -/
theorem C19_only_control_changes_partial [Field K] [LinearOrder K] (log : K → K)
    (pdf : Evt K → Option K) (norm : K) (s₀ : Sess K) (d : Data K)
    (hd : d.isBinned = true → s₀.ctl.binErrors = false) (qs : List (Query K)) :
    let s := s₀.setData (some d)
    ((s.runAll (qs.map .query)).setFitControl s.ctl).calculateNLL log pdf norm =
      s.calculateNLL log pdf norm := by
  intro s
  have key : ∀ (qs : List (Query K)) (c : Control),
      ∃ c', (s.setFitControl c).runAll (qs.map .query) = s.setFitControl c' := by
    intro qs
    induction qs with
    | nil => intro c; exact ⟨c, rfl⟩
    | cons q qs ih =>
      intro c
      obtain ⟨c', h⟩ := query_only_control s₀ d c hd q
      obtain ⟨c'', h'⟩ := ih c'
      refine ⟨c'', ?_⟩
      rw [List.map_cons, Sess.runAll, List.foldl_cons]
      show Sess.runAll (qs.map .query) ((s.setFitControl c).query q) = _
      rw [h]
      exact h'
  obtain ⟨c', h⟩ := key qs s.ctl
  have h' : s.runAll (qs.map .query) = s.setFitControl c' := h
  rw [h']
  rfl

/-- **C19, partial.** Queries that leave the user's control in place (`Harmless`) do not change what a
later `calculateNLL` returns. -/
theorem C19_harmless_queries_partial [Field K] [LinearOrder K] (log : K → K)
    (pdf : Evt K → Option K) (norm : K) (s₀ : Sess K) (d : Data K) (qs : List (Query K))
    (hqs : ∀ q ∈ qs, Harmless (s₀.setData (some d)).ctl d q)
    (hd : d.isBinned = true → s₀.ctl.binErrors = false) :
    ((s₀.setData (some d)).runAll (qs.map .query)).calculateNLL log pdf norm =
      (s₀.setData (some d)).calculateNLL log pdf norm := by
  congr 1
  induction qs with
  | nil => rfl
  | cons q qs ih =>
    rw [List.map_cons, Sess.runAll, List.foldl_cons]
    have h1 : FitOp.run (.query q) (s₀.setData (some d)) = s₀.setData (some d) := by
      have hq := hqs q (by simp)
      cases q with
      | compProbs => rfl
      | normalize => rfl
      | getValue f p =>
        show (s₀.setData (some d)).getValue f p = _
        cases d with
        | unbinned num v =>
          have hc : (s₀.setData (some (.unbinned num v))).ctl = f.control := hq
          rw [getValue_unbinned, ← hc]; rfl
        | binned num c a e v =>
          have hc : (s₀.setData (some (.binned num c a e v))).ctl = .binnedNll := hq
          rw [getValue_binned _ _ _ _ _ _ _ _ (hd rfl), ← hc]; rfl
      | evaluateAtPoints n g =>
        show (s₀.setData (some d)).evaluateAtPoints n g = _
        cases d with
        | unbinned num v =>
          have hc : (s₀.setData (some (.unbinned num v))).ctl = .eval := hq
          rw [evaluateAtPoints_unbinned, ← hc]; rfl
        | binned num c a e v =>
          have hc : (s₀.setData (some (.binned num c a e v))).ctl = .binnedNll := hq
          rw [evaluateAtPoints_binned _ _ _ _ _ _ _ _ (hd rfl), ← hc]; rfl
    rw [h1]
    exact ih (fun q' hq' => hqs q' (by simp [hq']))

/-- Histories meeting the hypotheses: a likelihood fit with component probabilities and
`getValue(NLL)` in between. -/
example : ∀ q ∈ [Query.compProbs, .getValue .nll (fun _ _ => (1 : ℚ)), .normalize],
    Harmless (Demo.sess.setData (some Demo.twoEvents)).ctl Demo.twoEvents q := by
  intro q hq
  simp only [List.mem_cons, List.not_mem_nil, or_false] at hq
  rcases hq with rfl | rfl | rfl
  · trivial
  · exact (rfl : Control.unbinnedNll = Control.unbinnedNll)
  · trivial

/-- **C19 (violated by the code).** One event at `x = e` and the PDF `f(x) = x` with normalisation 1:
`calculateNLL` is `-log e = -1`.  After `getValue()` the control is `ProbFit`
(`src/PDFs/GooPdf.cu:315-316`, never restored) and `calculateNLL` returns the sum of probabilities,
`e`. -/
theorem C19_violation_getValue :
    let pdf : Evt ℝ → Option ℝ := fun e => e 0
    let s := (Sess.fresh [7] (fun _ => -1)).setData (some (.unbinned 1 fun _ _ => Real.exp 1))
    s.calculateNLL Real.log pdf 1 = .value (-1) ∧
    (s.query (.getValue .prob fun _ _ => 1)).calculateNLL Real.log pdf 1 = .value (Real.exp 1) := by
  intro pdf s
  have hpos : Real.exp 1 > 0 := Real.exp_pos 1
  have hne : Real.exp 1 ≠ 0 := hpos.ne'
  have harr : eventArray (setupObservables [7] 0 fun _ => -1) [7] (fun _ _ => Real.exp 1) 1 =
      [some (Real.exp 1)] := rfl
  have e1 : s.array = some [some (Real.exp 1)] := rfl
  have e2 : (s.query (.getValue .prob fun _ _ => 1)) = s.setFitControl .prob :=
    getValue_unbinned _ _ _ _ _
  constructor
  · have hr : s.reduce Real.log pdf (s.normOf 1) = some (-1) := by
      have : collect (s.valueAt Real.log pdf (s.normOf 1) s.eventSize) 1 = some [-1] := by
        rw [collect_eq _ (fun _ => -1)]
        · rfl
        · intro i hi
          have hi0 : i = 0 := by omega
          subst hi0
          show some (if Real.exp 1 * 1 > 0 then -Real.log (Real.exp 1 * 1) else 0) = some (-1)
          rw [mul_one, if_pos hpos, Real.log_exp]
      show (collect _ 1).map List.sum = _
      rw [this]; simp
    unfold Sess.calculateNLL
    rw [hr]
    rw [if_neg (show ¬ s.normOf 1 ≤ 0 from by show ¬ (1 : ℝ) ≤ 0; norm_num)]
    simp
  · rw [e2]
    have hr : (s.setFitControl .prob).reduce Real.log pdf ((s.setFitControl .prob).normOf 1) =
        some (Real.exp 1) := by
      have : collect ((s.setFitControl .prob).valueAt Real.log pdf
          ((s.setFitControl .prob).normOf 1) (s.setFitControl .prob).eventSize) 1 =
          some [Real.exp 1] := by
        rw [collect_eq _ (fun _ => Real.exp 1)]
        · rfl
        · intro i hi
          have hi0 : i = 0 := by omega
          subst hi0
          show some (Real.exp 1 * 1) = some (Real.exp 1)
          rw [mul_one]
      show (collect _ 1).map List.sum = _
      rw [this]; simp
    unfold Sess.calculateNLL
    rw [hr]
    rw [if_neg (show ¬ (s.setFitControl .prob).normOf 1 ≤ 0 from by
      show ¬ (1 : ℝ) ≤ 0; norm_num)]
    simp [hne]

/-- **C19 (violated by the code).** With binned data under `BinnedErrorFit`, any `getValue` or
`evaluateAtPoints` turns the fit into a binned likelihood fit for good and replaces the bin errors
(2) in the event array by the bin volumes (1/2). -/
theorem C19_violation_binned_error :
    let s := (Demo.sess.setFitControl .binnedError).setData (some Demo.oneBin)
    let s' := s.query (.evaluateAtPoints 3 fun _ _ => 1)
    s.ctl = .binnedError ∧ s.tailAt s.eventSize 0 1 = some 2 ∧
    s'.ctl = .binnedNll ∧ (s'.setFitControl .binnedError).tailAt s'.eventSize 0 1 = some (1/2) := by
  refine ⟨rfl, ?_, rfl, ?_⟩ <;> decide +kernel

/-! ### C23 -/

section
variable [Field K] [LinearOrder K] [IsStrictOrderedRing K]

theorem max_eq_ite_gt (n : K) : (if n > 1 then n else 1) = max n 1 := by
  rcases lt_or_ge 1 n with h | h
  · rw [if_pos h, max_eq_left h.le]
  · rw [if_neg (not_lt.2 h), max_eq_right h]

/-- **C23, partial.** After `setData` and with a control that fits the data, entry `i` contributes the
formula of the control's metric, where `p = raw · norm` and `N` is the number of events in the data.
Missing: for the two binned metrics that use `N` this needs the number of bins to be the number of
events, see the violation. -/
theorem C23_metric_formula_partial (log : K → K) (pdf : Evt K → Option K) (norm : K) (s₀ : Sess K)
    (hnd : s₀.obs.Nodup) (d : Data K) (i : Nat) (hi : i < entries d) (raw : K) :
    let s := s₀.setData (some d)
    Matches s.ctl d →
    (s.ctl = .binnedNll ∨ s.ctl = .binnedChisq → numEvents d = (entries d : K)) →
    pdf (s.eventAt s.eventSize i) = some raw →
    s.valueAt log pdf norm s.eventSize i = some (entryTerm log s.ctl d i (raw * norm) raw) := by
  intro s hm hev hraw
  have hok : s.Ok := Sess.Ok.setData _ _
  have hobs : s.obs = s₀.obs := setData_obs _ _
  have hn := hok.numbered (by rw [hobs]; exact hnd) (setData_data (some d) s₀)
  have htot : s.total = entries d := hok.total d (setData_data (some d) s₀)
  have hN : (0 : K) < (entries d : K) := by
    have : 0 < entries d := by omega
    exact_mod_cast this
  unfold Sess.valueAt
  rw [hraw]
  simp only [Option.bind_eq_bind, Option.bind_some]
  rw [htot]
  cases d with
  | unbinned num v =>
    have hc : s.ctl.binnedFit = false := hm
    rcases hk : s.ctl with _ | _ | _ | _ | _ | _ <;> rw [hk] at hc <;>
      first | (exfalso; revert hc; decide) | skip
    · rfl
    · rfl
    · rfl
  | binned num c a e v =>
    have hc : s.ctl.binnedFit = true := hm
    have ha : s.array = some (binnedArray s.idx s.obs c a
        (if s.ctl.binErrors then e else v) num) := rfl
    obtain ⟨h0, h1⟩ := Sess.tail_of_binned hn ha hc i hi
    rcases hk : s.ctl with _ | _ | _ | _ | _ | _ <;> rw [hk] at hc <;>
      first | (exfalso; revert hc; decide) | skip
    · rw [hk] at h1
      replace h1 : s.tailAt s.eventSize i 1 = some (v i) := h1
      simp only [Control.metric, MetricKind.apply, h0, h1, Option.bind_eq_bind, Option.bind_some,
        entryTerm, term, poissonTerm, hev (Or.inl hk)]
      have hiff : ((entries (.binned num c a e v) : K) * (raw * norm * v i) > 0) ↔
          raw * norm * v i > 0 := by
        constructor
        · intro h
          exact (mul_pos_iff_of_pos_left hN).1 h
        · intro h; exact mul_pos hN h
      by_cases hp : raw * norm * v i > 0
      · rw [if_pos hp, if_pos (hiff.2 hp)]; rfl
      · rw [if_neg hp, if_neg (fun h => hp (hiff.1 h))]; rfl
    · rw [hk] at h1
      replace h1 : s.tailAt s.eventSize i 1 = some (e i) := h1
      simp only [Control.metric, MetricKind.apply, h0, h1, Option.bind_eq_bind, Option.bind_some,
        entryTerm, term]
      rw [sq]; rfl
    · rw [hk] at h1
      replace h1 : s.tailAt s.eventSize i 1 = some (v i) := h1
      simp only [Control.metric, MetricKind.apply, h0, h1, Option.bind_eq_bind, Option.bind_some,
        entryTerm, term, hev (Or.inr hk)]
      rw [max_eq_ite_gt, sq, mul_comm ((entries (.binned num c a e v) : K))]; rfl

end

/-- A binned error fit meets the hypotheses of C23: bin 1 is `(6 - 4)/2` squared. -/
example : let s := (Demo.sess.setFitControl .binnedError).setData (some Demo.twoBins)
    Matches s.ctl Demo.twoBins ∧ s.ctl = .binnedError ∧ s.eventAt s.eventSize 1 0 = some 6 ∧
    s.valueAt (fun x => x) (fun e => e 0) (1/5) s.eventSize 1 = some 1 := by
  refine ⟨rfl, rfl, ?_, ?_⟩ <;> decide +kernel

/-- So does a binned likelihood fit of one event per bin. -/
example : let d : Data ℚ := .binned 2 (fun i _ => 5 + i) (fun _ => 1) (fun _ => 2) (fun _ => 1/2)
    numEvents d = (entries d : ℚ) ∧ Matches (Demo.sess.setData (some d)).ctl d := by
  refine ⟨by simp [numEvents, entries]; norm_num, rfl⟩

section
variable [Field K] [LinearOrder K] [IsStrictOrderedRing K]

theorem collect_eq_map (f : Nat → Option K) (g : Nat → K) (n : Nat) (h : ∀ i < n, f i = some (g i)) :
    collect f n = some ((List.range n).map g) := by
  induction n with
  | zero => rfl
  | succ n ih =>
    rw [collect, ih (fun i hi => h i (by omega)), h n (by omega), List.range_succ, List.map_append]
    rfl

/-- **C23, partial**, the whole objective: what `calculateNLL` returns is the sum over all entries of the formula of the
control.  The PDF's normalisation `norm` enters it except in a fit to the bins' errors, which compares the bare PDF; a
normalisation that is not positive stops the program, again except there.  Missing: an objective of exactly zero also
stops the program, and the number of bins stands for the number of events. -/
theorem C23_objective_partial (log : K → K) (pdf : Evt K → Option K) (norm : K) (s₀ : Sess K)
    (hnd : s₀.obs.Nodup) (d : Data K) (raw : Nat → K) :
    let s := s₀.setData (some d)
    let p : Nat → K := fun i => if s.ctl = .binnedError then raw i else raw i * norm
    let objective : K := ((List.range (entries d)).map fun i =>
      entryTerm log s.ctl d i (p i) (raw i)).sum
    Matches s.ctl d →
    (s.ctl = .binnedNll ∨ s.ctl = .binnedChisq → numEvents d = (entries d : K)) →
    (∀ i < entries d, pdf (s.eventAt s.eventSize i) = some (raw i)) →
    (s.ctl ≠ .binnedError → norm ≤ 0 → s.calculateNLL log pdf norm = .aborted) ∧
    (s.ctl = .binnedError ∨ 0 < norm →
      s.calculateNLL log pdf norm = if objective = 0 then .aborted else .value objective) := by
  intro s p objective hm hev hraw
  have hn : s.normOf norm = if s.ctl = .binnedError then 1 else norm := by
    unfold Sess.normOf
    rcases hk : s.ctl with _ | _ | _ | _ | _ | _ <;> rfl
  have hent : s.numEntries = entries d := by
    cases d <;> rfl
  have hred : s.reduce log pdf (s.normOf norm) = some objective := by
    unfold Sess.reduce
    rw [hent, collect_eq_map (g := fun i => entryTerm log s.ctl d i (p i) (raw i))]
    · rfl
    · intro i hi
      rw [C23_metric_formula_partial log pdf (s.normOf norm) s₀ hnd d i hi (raw i) hm hev (hraw i hi)]
      have : raw i * s.normOf norm = p i := by
        rw [hn]
        show _ = if s.ctl = .binnedError then raw i else raw i * norm
        split <;> simp
      rw [this]
  unfold Sess.calculateNLL
  rw [hred]
  constructor
  · intro hc h
    rw [hn, if_neg hc, if_pos h]
  · intro h
    have : ¬ s.normOf norm ≤ 0 := by
      rw [hn]
      split
      · exact not_le.2 one_pos
      · exact not_le.2 (h.resolve_left (by assumption))
    rw [if_neg this]

end

/-- In a fit to the errors of two bins the objective is `((5-3)/2)² + ((6-4)/2)²`, whatever the normalisation. -/
example (norm : ℚ) : ((Demo.sess.setFitControl .binnedError).setData (some Demo.twoBins)).calculateNLL
    (fun x => x) (fun e => e 0) norm = .value 2 := by
  have h := (C23_objective_partial (fun x => x) (fun e => e 0) norm (Demo.sess.setFitControl .binnedError) (by decide)
    Demo.twoBins (fun i => 5 + i) rfl (by intro h; rcases h with h | h <;> cases h)
    (by
      intro i hi
      have : i = 0 ∨ i = 1 := by
        have : i < 2 := hi
        omega
      rcases this with h | h <;> subst h <;> decide +kernel)).2 (Or.inl rfl)
  rw [h]
  simp [List.range_succ, entries, Demo.twoBins, entryTerm, term, Sess.setData, Sess.setFitControl, Control.binnedFit]
  norm_num

/-- **C23 (violated by the code).** Binned chi-square of a flat PDF `p = 1` over two bins of volume 1/2
with 3 and 4 events: with 7 events expected in total each bin expects 3.5.  The code uses the number
of bins for the number of events (`src/PDFs/PdfBase.cu:527`), expects 1 event per bin, and returns
`(1-3)²/3` for the first bin instead of `(3.5-3)²/3`. -/
theorem C23_violation_total_events :
    let s := (Demo.sess.setFitControl .binnedChisq).setData (some Demo.twoBins)
    s.valueAt (fun x => x) (fun _ => some 1) 1 s.eventSize 0 = some (4/3) ∧
    term (fun x => x) .binnedChisq (numEvents Demo.twoBins) 1 1 3 2 (1/2) = 1/12 := by
  refine ⟨by decide +kernel, ?_⟩
  simp [term, numEvents, Demo.twoBins, List.range_succ]
  norm_num

/-- **C23 (violated by the code).** `BinnedErrorFit` installed after `setData`: the last column holds
the bin volume (1/2), and the metric divides by it instead of by the bin error (2). -/
theorem C23_violation_error_column :
    let s := (Demo.sess.setData (some Demo.oneBin)).setFitControl .binnedError
    Matches s.ctl Demo.oneBin ∧
    s.valueAt (fun x => x) (fun _ => some 4) 1 s.eventSize 0 = some 4 ∧
    term (fun x => x) .binnedError (numEvents Demo.oneBin) 4 4 3 2 (1/2) = 1/4 := by
  refine ⟨rfl, by decide +kernel, ?_⟩
  simp [term]
  norm_num

/-- A library of basic PDFs together with GooFit's metrics. -/
def Lib.withMetrics {K : Type} [Field K] [LinearOrder K] (L : Lib K) (log : K → K) (total : Nat) :
    Lib K :=
  { L with Metric := MetricKind, metric := MetricKind.apply log total }

/-- **C23** for whole trees: what one thread of the event sum computes through the flattened arrays is
the metric of the tree's value, which the theorems above are about. -/
theorem C23_tree_metric [FpOps K] [Field K] [LinearOrder K] (log : K → K) (s : Sess K) (L : Lib K)
    (sem : LeafSem K (L.withMetrics log s.total)) (env : Env K) (t : Pdf (L.withMetrics log s.total))
    (h₀ : Host (L.withMetrics log s.total)) (fuel : Nat) (hfuel : t.size ≤ fuel)
    (hwf : WellFormed sem env t) (size : Int) (i : Nat) (v : K)
    (hv : denote sem env t (s.eventAt size i) = some v) :
    metricTaker (L.withMetrics log s.total) (h₀.setIndices env t s.ctl.metric) fuel
        (s.eventAt size i) (s.tailAt size i) =
      s.valueAt log (denote sem env t) t.node.norm size i := by
  rw [C14_metric_applied sem env t s.ctl.metric h₀ _ _ v fuel hfuel hwf hv]
  unfold Sess.valueAt
  rw [hv]
  rfl

/-! ### C21 -/

/-- **C21**, schedules: any reduction schedule over the per-event values gives their sum, and so does
any distribution over ranks: each rank reduces its part in any order and the partial results are
reduced in any order. -/
theorem C21_schedule [AddCommMonoid K] (values : List K) (ranks : List (Reduction K))
    (top : Reduction K) (hr : (ranks.flatMap Reduction.items).Perm values)
    (ht : top.items.Perm (ranks.map Reduction.result)) : top.result = values.sum := by
  rw [Reduction.result_eq, ht.sum_eq, ← hr.sum_eq]
  clear hr ht top values
  induction ranks with
  | nil => rfl
  | cons r rs ih =>
    rw [List.map_cons, List.sum_cons, List.flatMap_cons, List.sum_append, ← ih,
      Reduction.result_eq]

/-- Two ranks, one of them summing `(1 + 3) + (0 + 2)` and the other only `4`. -/
example : Reduction.result
    (.plus (.item (Reduction.result (.plus (.plus (.item 1) (.item (3 : ℚ))) (.plus .start (.item 2)))))
      (.item (Reduction.result (.item (4 : ℚ))))) = [1, 2, 3, 4].sum := by
  rw [C21_schedule [1, 2, 3, 4] [.plus (.plus (.item 1) (.item 3)) (.plus .start (.item 2)), .item 4]]
  · simp only [Reduction.items, List.flatMap_cons, List.flatMap_nil, List.nil_append,
      List.cons_append]
    decide
  · simp only [Reduction.items, List.map_cons, List.map_nil, List.cons_append, List.nil_append]
    exact List.Perm.refl _

/-- The per-entry values: one number per entry, a function of that entry's coordinates only. -/
theorem reduce_eq_sum [Field K] [LinearOrder K] (log : K → K) (pdf : Evt K → Option K) (norm : K)
    (s₀ : Sess K) (hnd : s₀.obs.Nodup) (hloc : Local s₀.obs.length pdf)
    (num : Nat) (v : Nat → Nat → K)
    (hm : s₀.ctl.binnedFit = false)
    (f : (Nat → K) → K)
    (hf : ∀ row : Nat → K, pdf (fun j => (s₀.obs[j]?).map row) = some (f row)) :
    (s₀.setData (some (.unbinned num v))).reduce log pdf norm =
      some ((List.range num).map fun i =>
        term log s₀.ctl num (f (v i) * norm) (f (v i)) 0 0 0).sum := by
  have hok : (s₀.setData (some (.unbinned num v))).Ok := Sess.Ok.setData _ _
  unfold Sess.reduce
  have hnum : (s₀.setData (some (.unbinned num v))).numEntries = num := rfl
  rw [hnum, collect_eq _ (fun i => term log s₀.ctl num (f (v i) * norm) (f (v i)) 0 0 0)]
  · rfl
  · intro i hi
    have hraw : pdf ((s₀.setData (some (.unbinned num v))).eventAt
        (s₀.setData (some (.unbinned num v))).eventSize i) = some (f (v i)) := by
      rw [← hf (v i)]
      refine hloc _ _ (fun j hj => ?_)
      have := hok.slot (s := s₀.setData (some (.unbinned num v))) hnd rfl hm i j hi hj
      rw [this]
      simp [coord, hj, Sess.setData]
    unfold Sess.valueAt
    rw [hraw]
    simp only [Option.bind_eq_bind, Option.bind_some]
    have hc : (s₀.setData (some (.unbinned num v))).ctl = s₀.ctl := rfl
    rw [hc]
    rcases hk : s₀.ctl with _ | _ | _ | _ | _ | _ <;> rw [hk] at hm <;>
      first | (exfalso; revert hm; decide) | rfl

/-- **C21**, order of events: `calculateNLL` on an unbinned dataset whose events are permuted is the
same.  The PDF looks only at its own observables and has a value at every event. -/
theorem C21_event_order [Field K] [LinearOrder K] (log : K → K) (pdf : Evt K → Option K) (norm : K)
    (s₀ : Sess K) (hnd : s₀.obs.Nodup) (hloc : Local s₀.obs.length pdf) (num : Nat)
    (v : Nat → Nat → K) (hm : s₀.ctl.binnedFit = false) (f : (Nat → K) → K)
    (hf : ∀ row : Nat → K, pdf (fun j => (s₀.obs[j]?).map row) = some (f row))
    (σ : List Nat) (hσ : σ.Perm (List.range num)) :
    (s₀.setData (some (.unbinned num fun i => v (σ.getD i 0)))).calculateNLL log pdf norm =
      (s₀.setData (some (.unbinned num v))).calculateNLL log pdf norm := by
  have key : ∀ n, (s₀.setData (some (.unbinned num fun i => v (σ.getD i 0)))).reduce log pdf n =
      (s₀.setData (some (.unbinned num v))).reduce log pdf n := by
    intro n
    rw [reduce_eq_sum log pdf n s₀ hnd hloc num _ hm f hf, reduce_eq_sum log pdf n s₀ hnd hloc num _ hm f hf]
    congr 1
    have hlen : σ.length = num := by rw [hσ.length_eq, List.length_range]
    have e : (List.range num).map (fun i => term log s₀.ctl (num : K) (f (v (σ.getD i 0)) * n)
        (f (v (σ.getD i 0))) 0 0 0) =
        σ.map (fun i => term log s₀.ctl (num : K) (f (v i) * n) (f (v i)) 0 0 0) := by
      apply List.ext_getElem
      · simp [hlen]
      · intro k h1 h2
        simp only [List.length_map, List.length_range] at h1
        simp [List.getD_eq_getElem?_getD, hlen ▸ h1]
    rw [e]
    exact (hσ.map _).sum_eq
  unfold Sess.calculateNLL
  have hnorm : (s₀.setData (some (.unbinned num fun i => v (σ.getD i 0)))).normOf norm =
      (s₀.setData (some (.unbinned num v))).normOf norm := rfl
  rw [hnorm, key]

/-- A PDF meeting the hypotheses of `C21_event_order`: the value of its only observable. -/
example : Local (K := ℚ) 1 (fun e => e 0) ∧
    ∀ row : Nat → ℚ, (fun e : Evt ℚ => e 0) (fun j => ([7] : List Nat)[j]?.map row) = some (row 7) := by
  exact ⟨fun e e' h => h 0 (by omega), fun row => rfl⟩

/-! ### C22 -/

/-- **C22**, unbinned data: for any number of ranks, each event belongs to exactly one rank, the ranks
hold consecutive runs in order, and together they hold everything. -/
theorem C22_partition {α : Type} (num procs dim : Nat) (hp : 0 < procs) (host : List α)
    (hlen : host.length = num * dim) :
    let counts := mpiCounts num num procs
    counts.length = procs ∧
    (rankArrays dim host counts).flatten = host ∧
    ∀ i < num, ∃! r : Nat, ∃ d c, (mpiDisplacements 0 counts)[r]? = some d ∧ counts[r]? = some c ∧
      d ≤ i ∧ i < d + c := by
  intro counts
  have hs : counts.sum = num := mpiCounts_sum num num procs (le_refl _)
  refine ⟨mpiCounts_length _ _ _ hp, ?_, ?_⟩
  · unfold rankArrays
    rw [rankArrays_flatten, hs, Nat.zero_mul, List.drop_zero, List.take_of_length_le]
    rw [hlen, Nat.mul_comm]
  · intro i hi
    exact unique_rank counts 0 i (Nat.zero_le _) (by rw [hs]; omega)

/-- **C22**, unbinned data, event numbers: on every rank but the first, observables flagged as event
numbers count from 0; on the first rank the dataset's numbers stay, which count from 0 if the
dataset's do; all other values stay.  `j ↦ float(j)` is exact below `2^24` (next theorems). -/
theorem C22_event_numbers {α : Type} (number : Nat → α) (fixme : List Bool) (num procs : Nat)
    (host : List α) (hlen : host.length = num * fixme.length)
    (r d c j k : Nat) (hd : (mpiDisplacements 0 (mpiCounts num num procs))[r]? = some d)
    (hc : (mpiCounts num num procs)[r]? = some c) (hj : j < c) (hk : k < fixme.length) :
    (reindex number fixme (mpiCounts num num procs) host)[(d + j) * fixme.length + k]? =
      if 0 < r ∧ fixme[k]? = some true then some (number j)
      else host[(d + j) * fixme.length + k]? := by
  have hs : (mpiCounts num num procs).sum = num := mpiCounts_sum num num procs (le_refl _)
  unfold reindex
  rcases hcs : mpiCounts num num procs with _ | ⟨c₀, cs⟩
  · rw [hcs] at hc; simp at hc
  · rw [hcs] at hd hc hs
    rw [List.sum_cons] at hs
    simp only [mpiDisplacements, List.zip_cons_cons, List.tail_cons, Nat.zero_add] at hd ⊢
    obtain ⟨h1, h2⟩ := reindexRanks_get number fixme k hk cs c₀ host (d + j) (by rw [hs, hlen])
    cases r with
    | zero =>
      simp only [List.getElem?_cons_zero, Option.some.injEq] at hd hc
      subst hd hc
      rw [h1 (by omega), if_neg (by omega)]
    | succ r =>
      rw [List.getElem?_cons_succ] at hd hc
      rw [h2 r d c hd hc (by omega) (by omega)]
      simp

/-- Rank 2 of 3 ranks sharing 7 events of 2 observables: events 4, 5, 6. -/
example : (mpiDisplacements 0 (mpiCounts 7 7 3))[2]? = some 4 ∧ (mpiCounts 7 7 3)[2]? = some 3 ∧
    reindex (fun j => j) [false, true] (mpiCounts 7 7 3)
      [10, 0, 11, 1, 12, 2, 13, 3, 14, 4, 15, 5, 16, 6] =
      [10, 0, 11, 1, 12, 0, 13, 1, 14, 0, 15, 1, 16, 2] := by decide

/-- `float(j)` is exact for ranks of up to `2^24` events. -/
theorem C22_float_exact (j : Nat) (hj : j < 2 ^ 24) : toFloat32 j = j := by
  have h : Nat.log2 j - 23 = 0 := by
    have : Nat.log2 j < 24 := by
      rcases Nat.eq_zero_or_pos j with h0 | h0
      · subst h0; decide
      · exact (Nat.log2_lt (by omega)).2 hj
    omega
  unfold toFloat32
  simp only [h, Nat.pow_zero, Nat.div_one, Nat.mod_one, Nat.mul_zero, Nat.mul_one]
  simp

/-- **C22 (violated by the code)** on a rank of more than `2^24 + 1` events: the event number is
converted to single precision (`src/PDFs/PdfBase.cu:412`), and events `2^24` and `2^24 + 1` of the rank
get the same number. -/
theorem C22_violation_float : toFloat32 (2 ^ 24 + 1) = 2 ^ 24 ∧ toFloat32 (2 ^ 24) = 2 ^ 24 := by
  decide +kernel

/-- **C22**, binned data: `perTask` is computed while `numEvents` is still 0
(`src/PDFs/PdfBase.cu:440, 453`), so the last of any number of ranks holds all bins and the others
none: still a partition into consecutive runs, though the work is not shared. -/
theorem C22_binned_partition {α : Type} (bins procs dim : Nat) (hp : 0 < procs) (host : List α)
    (hlen : host.length = bins * dim) :
    let counts := mpiCounts 0 bins procs
    counts = List.replicate (procs - 1) 0 ++ [bins] ∧
    (rankArrays dim host counts).flatten = host ∧
    ∀ i < bins, ∃! r : Nat, ∃ d c, (mpiDisplacements 0 counts)[r]? = some d ∧ counts[r]? = some c ∧
      d ≤ i ∧ i < d + c := by
  intro counts
  have hs : counts.sum = bins := mpiCounts_sum 0 bins procs (Nat.zero_le _)
  refine ⟨by show mpiCounts 0 bins procs = _; simp [mpiCounts], ?_, ?_⟩
  · unfold rankArrays
    rw [rankArrays_flatten, hs, Nat.zero_mul, List.drop_zero, List.take_of_length_le]
    rw [hlen, Nat.mul_comm]
  · intro i hi
    exact unique_rank counts 0 i (Nat.zero_le _) (by rw [hs]; omega)

/-- **C22**, binned data: the re-indexing loop, which compares with `counts[j]` instead of `counts[i]`
(`src/PDFs/PdfBase.cu:499`), never runs, because `counts[0] = 0` with more than one rank; so event
numbers stay, and the one rank with data sees the dataset's own numbering. -/
theorem C22_binned_loop (bins procs fuel : Nat) (hp : 1 < procs) :
    binnedLoop (mpiCounts 0 bins procs) (fuel + 1) 0 = some 0 := by
  have h : (mpiCounts 0 bins procs)[0]? = some 0 := by
    unfold mpiCounts
    rw [Nat.zero_div]
    obtain ⟨p, rfl⟩ : ∃ p, procs = p + 2 := ⟨procs - 2, by omega⟩
    rw [show p + 2 - 1 = p + 1 by omega, List.replicate_succ]
    rfl
  rw [binnedLoop, h]
  rfl

example : mpiCounts 0 10 4 = [0, 0, 0, 10] ∧ binnedLoop (mpiCounts 0 10 4) 1 0 = some 0 := by decide

/-- **C21 and C22 together**: the sum over ranks of the sums over each rank's events, in any schedule,
is the sum over all events. -/
theorem C21_ranks_equal_serial [AddCommMonoid K] (num procs : Nat) (hp : 0 < procs)
    (values : List K) (hlen : values.length = num) (ranks : List (Reduction K)) (top : Reduction K)
    (hr : List.Forall₂ (fun r part => (Reduction.items r).Perm part) ranks
      (rankArrays 1 values (mpiCounts num num procs)))
    (ht : top.items.Perm (ranks.map Reduction.result)) : top.result = values.sum := by
  refine C21_schedule values ranks top ?_ ht
  have h := (C22_partition num procs 1 hp values (by rw [hlen, Nat.mul_one])).2.1
  rw [← h]
  generalize rankArrays 1 values (mpiCounts num num procs) = parts at hr
  clear h ht
  induction hr with
  | nil => exact List.Perm.refl _
  | cons h _ ih =>
    rw [List.flatMap_cons, List.flatten_cons]
    exact h.append ih

example : rankArrays 1 [(1 : ℚ), 2, 3, 4, 5] (mpiCounts 5 5 2) = [[1, 2], [3, 4, 5]] := by
  decide +kernel

end GooFit
