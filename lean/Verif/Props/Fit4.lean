import Verif.Model.Fit4
import Verif.Spec.Fit4
import Verif.Props.TimeComponent4
import Verif.Props.Component4
import Verif.Props.Fit3
import Verif.Lemmas.Minuit
/-!
# C94: a fit of a four-body amplitude minimises its likelihood
-/
set_option autoImplicit false
namespace GooFit
open Spec FpOps
attribute [local instance] FpOps.ofField

section
variable {L : Lib ℝ} {State Comp : Type}

private theorem sumOfNll_eq {E : Type} (m : FitPdf State Comp) (s : State) (h : Nat → ℝ) (norm : ℝ) (data : List E) (f : E → ℝ)
    (hent : m.entries s = data.length) (hval : ∀ (k : Nat) ev, data[k]? = some ev → m.value h s k = some (f ev)) :
    m.sumOfNll s h norm = some ((data.map fun ev => if f ev * norm > 0 then -Real.log (f ev * norm) else 0).sum) := by
  unfold FitPdf.sumOfNll
  rw [hent, mapM_to_map _ (fun k => match data[k]? with
    | some ev => if f ev * norm > 0 then -Real.log (f ev * norm) else 0
    | none => 0)]
  · rw [Option.map_some]
    congr 2
    apply List.ext_getElem (by simp)
    intro k h1 h2
    have hk : k < data.length := by simpa using h1
    simp [List.getElem?_eq_getElem hk]
  · intro k hk
    rw [List.mem_range] at hk
    rw [hval k data[k] (List.getElem?_eq_getElem hk), List.getElem?_eq_getElem hk]
    rfl

private theorem nllOf_eq {E : Type} (f : E → ℝ) (total : ℝ) (data : List E) (hpos : 0 < total) :
    (data.map fun ev => if f ev * (1 / total) > 0 then -Real.log (f ev * (1 / total)) else 0).sum = nllOf f total data := by
  unfold nllOf
  rw [← sum_map_filter]
  congr 1
  apply List.map_congr_left
  intro ev _
  have h1 : f ev * (1 / total) > 0 ↔ 0 < f ev := by
    have : 0 < 1 / total := by positivity
    exact mul_pos_iff_of_pos_right this
  rw [show f ev * (1 / total) = f ev / total by ring] at h1 ⊢
  by_cases hc : 0 < f ev
  · rw [if_pos (h1.mpr hc), if_pos (by simpa using hc)]
  · rw [if_neg fun hh => hc (h1.mp hh), if_neg (by simpa using hc)]

/-- The calls of the FCN of a PDF of which `Good q s` says that the state `s` is one after evaluations of which the last was at `q`,
and which from such states gives the total and the density. -/
private theorem calls_eq {E : Type} (m : FitPdf State Comp) (t : Pdf L) (data : List E) (Dom : (Nat → ℝ) → Prop)
    (density : (Nat → ℝ) → E → ℝ) (total : (Nat → ℝ) → ℝ) (Good : Option (Nat → ℝ) → State → Prop)
    (hstep : ∀ q s marks h, Dom h → Good q s → (∀ h0, q = some h0 → ∀ o, marks o = false → ∀ i ∈ m.params o, h i = h0 i) →
      ∃ s', m.normalize marks h s = some (total h, s') ∧ Good (some h) s' ∧ m.entries s' = data.length
        ∧ ∀ (k : Nat) ev, data[k]? = some ev → m.value h s' k = some (density h ev))
    (h : Pars ℝ) : ∀ (calls : List (List ℝ)) (g : Pars ℝ) (q : Option (Nat → ℝ)) (s : State),
      (∀ v ∈ calls, t.getParameters.length ≤ v.length ∧ Dom (valuesAt t.getParameters v fun i => (h i).value)
        ∧ 0 < total (valuesAt t.getParameters v fun i => (h i).value)
        ∧ nllOf (density (valuesAt t.getParameters v fun i => (h i).value)) (total (valuesAt t.getParameters v fun i => (h i).value))
          data ≠ 0) →
      Indexed t.getParameters g → (∀ i ∈ t.getParameters, (g i).blind = 0) →
      (∀ i, i ∉ t.getParameters → (g i).value = (h i).value) → Good q s →
      (∀ h0, q = some h0 → ∀ i, (g i).value = h0 i) →
      ∃ h2 s2, m.fcnAll t calls g s = .done (calls.map fun v =>
        nllOf (density (valuesAt t.getParameters v fun i => (h i).value)) (total (valuesAt t.getParameters v fun i => (h i).value))
          data, h2, s2)
  | [], g, q, s, _, _, _, _, _, _ => ⟨g, s, rfl⟩
  | v :: calls, g, q, s, hc, hgi, hgb, hgo, hgood, hlast => by
    obtain ⟨hlen, hdom, htot, hnz⟩ := hc v (by simp)
    obtain ⟨g', hfcn, hgi', hgb', hgv, hgm⟩ := call_values t v g hgi hgb hlen
    have hat : (fun i => (g' i).value) = valuesAt t.getParameters v fun i => (h i).value := by
      rw [hgv]
      funext i
      show (if _ then _ else (g i).value) = (if _ then _ else (h i).value)
      split_ifs with hi
      · rfl
      · exact hgo i hi
    obtain ⟨s', hn, hgood', hent, hval⟩ := hstep q s (fun o => (m.params o).any fun i => (g' i).changed) _ hdom hgood (by
      intro h0 hh0 o ho i hi
      rw [← hlast h0 hh0 i, ← hgm (m.params o) ho i hi]
      exact (congrFun hat i).symm)
    obtain ⟨h2, s2, hrest⟩ := calls_eq m t data Dom density total Good hstep h calls g' _ s' (fun w hw => hc w (by simp [hw])) hgi' hgb'
      (by
        intro i hi
        have := congrFun hat i
        rw [this]
        unfold valuesAt
        rw [if_neg hi]) hgood' (by
        intro h0 hh0 i
        rw [← Option.some.inj hh0]
        exact congrFun hat i)
    refine ⟨h2, s2, ?_⟩
    have hnll : m.calculateNLL s g' = .done (nllOf (density (valuesAt t.getParameters v fun i => (h i).value))
        (total (valuesAt t.getParameters v fun i => (h i).value)) data, s') := by
      unfold FitPdf.calculateNLL
      rw [hat, hn]
      dsimp only
      rw [if_neg (not_le.mpr (by positivity)), sumOfNll_eq m s' _ _ data _ hent hval, nllOf_eq _ _ _ htot]
      dsimp only
      rw [if_neg hnz]
    unfold FitPdf.fcnAll FitPdf.fcn
    rw [hfcn]
    dsimp only
    rw [hnll]
    simp only [Ran.andThen, hrest, List.map_cons]

/-! ### The time-dependent PDF -/

private theorem marksTD_append (q : Option (Nat → ℝ)) (ops : List (T4.Op LsObj (Nat → ℝ) Ev4)) (c : LsObj → Bool) (p : Nat → ℝ) :
    MarksFromTD q (ops ++ [.eval c p]) ↔ MarksFromTD q ops
      ∧ ∀ p0, T4.lastP q ops = some p0 → ∀ x : LsObj, c x = false → ∀ v ∈ x.params, p v = p0 v := by
  induction ops generalizing q with
  | nil => simp [MarksFromTD, T4.lastP]
  | cons op ops ih => cases op <;> simp only [List.cons_append, MarksFromTD, T4.lastP, ih, and_assoc]

private theorem lastP_append (q : Option (Nat → ℝ)) (ops : List (T4.Op LsObj (Nat → ℝ) Ev4)) (c : LsObj → Bool) (p : Nat → ℝ) :
    T4.lastP q (ops ++ [.eval c p]) = some p := by
  induction ops generalizing q with
  | nil => rfl
  | cons op ops ih => cases op <;> simp only [List.cons_append, T4.lastP, ih]

private theorem currentData_append (d : List (Ev4 × ℝ × ℝ)) (ops : List (T4.Op LsObj (Nat → ℝ) Ev4)) (c : LsObj → Bool) (p : Nat → ℝ) :
    T4.currentData d (ops ++ [.eval c p]) = T4.currentData d ops := by
  induction ops generalizing d with
  | nil => rfl
  | cons op ops ih => cases op <;> simp only [List.cons_append, T4.currentData, ih]

private theorem marksTD_set (q : Option (Nat → ℝ)) (ops : List (T4.Op LsObj (Nat → ℝ) Ev4)) (d : List (Ev4 × ℝ × ℝ))
    (h : MarksFromTD q ops) : MarksFromTD q (ops ++ [.setData d]) := by
  induction ops generalizing q with
  | nil => trivial
  | cons op ops ih =>
    cases op with
    | setData d' => exact ih q h
    | force => exact ih q h
    | eval c p => exact ⟨h.1, ih _ h.2⟩
    | generate d' c p => exact ⟨h.1, ih _ h.2⟩

private theorem lastP_set (q : Option (Nat → ℝ)) (ops : List (T4.Op LsObj (Nat → ℝ) Ev4)) (d : List (Ev4 × ℝ × ℝ)) :
    T4.lastP q (ops ++ [.setData d]) = T4.lastP q ops := by
  induction ops generalizing q with
  | nil => rfl
  | cons op ops ih => cases op <;> simp only [List.cons_append, T4.lastP, ih]

private theorem currentData_set (d0 : List (Ev4 × ℝ × ℝ)) (ops : List (T4.Op LsObj (Nat → ℝ) Ev4)) (d : List (Ev4 × ℝ × ℝ)) :
    T4.currentData d0 (ops ++ [.setData d]) = d := by
  induction ops generalizing d0 with
  | nil => rfl
  | cons op ops ih => cases op <;> simp only [List.cons_append, T4.currentData, ih]

/-- Two lists that have an element at the same places have the same length. -/
private theorem length_of_isSome {α β : Type} (a : List α) (b : List β) (h : ∀ e : Nat, (a[e]?).isSome = (b[e]?).isSome) :
    a.length = b.length := by
  have key : ∀ n, n < a.length ↔ n < b.length := by
    intro n
    have := h n
    by_cases ha : n < a.length <;> by_cases hb : n < b.length <;> (simp_all; try omega)
  have h1 := key a.length
  have h2 := key b.length
  omega

/-- **C94 (time-dependent)** (what is missing: spline line shapes, as in C80; blinded parameters, and values set or read back
between the calls, see C30; the efficiency is not in the normalisation, see C68).  In every fit of a time-dependent four-body
amplitude with exactly known decay times: whatever has been done before with the PDF, short of generating events, once it has been
given its data, every value the minimiser gets is minus the logarithm of the likelihood of the data under the rate the user has
described, normalised to its mean over the normalisation events, with the parameters at the values the minimiser has asked for. -/
theorem C94_time_likelihood_partial (junk : Nat → Nat → ℝ) (hc : Nat → ℝ) (d : Decay4) (v : MixVars) (ampsA ampsB : List AmpUse)
    (builtA builtB : List (TAmp LsObj SfObj Nat Nat)) (eff : (Nat → ℝ) → Ev4 × ℝ × ℝ → ℝ) (batches : List (NormBatch Ev4))
    (hbA : ampsA.mapM (ampUseBuild junk hc) = some builtA) (hbB : ampsB.mapM (ampUseBuild junk hc) = some builtB)
    (hsA : ∀ a ∈ ampsA, ∀ c ∈ a.new.ls, ¬ IsSpline c) (hsB : ∀ a ∈ ampsB, ∀ c ∈ a.new.ls, ¬ IsSpline c)
    (hA : (ampsA.map AmpUse.tag).Nodup) (hB : (ampsB.map AmpUse.tag).Nodup) (hw : ∀ b ∈ batches, WholeWeights b)
    (fn : Fn L) (resolution efficiency : Pdf L) (manager : List (MnOp ℝ)) (h₀ h : Pars ℝ) :
    let m := timeFourBodyPdf [d.M, d.m1, d.m2, d.m3, d.m4] v builtA builtB eff (fun _ => truthRes) (fun _ => truthNormalization) batches
    let t := m.tree fn resolution efficiency
    mnRun t h₀ manager = some h → (∀ i ∈ t.getParameters, (h i).blind = 0) →
    ∀ (before : List (T4.Op LsObj (Nat → ℝ) Ev4)) (_ : T4.NoGenerate before) (_ : MarksFromTD none before)
      (_ : ∀ p, T4.lastP none before = some p → ∀ i, (h i).value = p i) (data : List (Ev4 × ℝ × ℝ)) (calls : List (List ℝ)),
    let at_ := fun x => valuesAt t.getParameters x fun i => (h i).value
    let total := fun p => meanRate d v (ampsA.map AmpUse.new) (ampsB.map AmpUse.new) batches p
    let nll := fun p => nllOf (fun ev => eff p ev * describedRate d v (ampsA.map AmpUse.new) (ampsB.map AmpUse.new) p ev.1 ev.2.1)
      (total p) data
    (∀ x ∈ calls, t.getParameters.length ≤ x.length ∧ (0 < at_ x v.tau ∧ |at_ x v.y| < 1) ∧ 0 < total (at_ x) ∧ nll (at_ x) ≠ 0) →
    ∃ h2 s2, m.fitPdf.fcnAll t calls h (m.run (before ++ [.setData data])) = .done (calls.map fun x => nll (at_ x), h2, s2) := by
  intro m t hrun hblind before hgen hmarks hlast data calls at_ total nll hcalls
  have hix : Indexed t.getParameters h := (mnRun_indexed t h₀ h manager hrun).1
  refine calls_eq m.fitPdf t data (fun p => 0 < p v.tau ∧ |p v.y| < 1)
    (fun p ev => eff p ev * describedRate d v (ampsA.map AmpUse.new) (ampsB.map AmpUse.new) p ev.1 ev.2.1) total
    (fun q s => ∃ ops, s = m.run ops ∧ MarksFromTD none ops ∧ T4.lastP none ops = q ∧ T4.NoGenerate ops ∧ T4.currentData [] ops = data)
    ?_ h calls h (T4.lastP none before) _ hcalls hix hblind (fun _ _ => rfl) ⟨before ++ [.setData data], rfl, ?_, ?_, ?_, ?_⟩ hlast
  · rintro q s marks p hdom ⟨ops, rfl, hm, rfl, hg, hdat⟩ hq
    have hm' : MarksFromTD none (ops ++ [.eval marks p]) := (marksTD_append none ops marks p).mpr ⟨hm, hq⟩
    have hrun' : m.run (ops ++ [.eval marks p]) = (m.normalize marks p (m.run ops)).2 := by
      unfold T4.run
      rw [List.foldl_append]
      rfl
    have hval : ∀ e, m.valueAt p (m.normalize marks p (m.run ops)).2 e = (data[e]?).map fun ev =>
        eff p ev * describedRate d v (ampsA.map AmpUse.new) (ampsB.map AmpUse.new) p ev.1 ev.2.1 := by
      intro e
      have := C80_rate_partial junk hc d v ampsA ampsB builtA builtB eff (fun _ => truthRes) (fun _ => truthNormalization) batches
        hbA hbB hsA hsB hA hB ops marks p hm' rfl e
      rw [hdat] at this
      rw [← hrun']
      exact this
    refine ⟨(m.normalize marks p (m.run ops)).2, ?_, ⟨ops ++ [.eval marks p], hrun'.symm, hm', ?_, ?_, ?_⟩, ?_, ?_⟩
    · have := C80_normalization_partial junk hc d v ampsA ampsB builtA builtB eff (fun _ => truthRes) (fun _ => truthNormalization)
        batches hbA hbB hsA hsB hA hB ops hg marks p hm' rfl rfl hdom.1 hdom.2 hw
      show some (m.normalize marks p (m.run ops)) = some (total p, _)
      congr 1
      exact Prod.ext this rfl
    · exact lastP_append none ops marks p
    · intro op hop d' c' p'
      rw [List.mem_append, List.mem_singleton] at hop
      rcases hop with hop | rfl
      · exact hg op hop d' c' p'
      · simp
    · rw [currentData_append, hdat]
    · refine length_of_isSome _ _ fun e => ?_
      have := congrArg Option.isSome (hval e)
      rw [Option.isSome_map] at this
      rw [← this]
      unfold T4.valueAt
      rw [Option.isSome_map]
    · intro k ev hk
      show m.valueAt p _ k = _
      rw [hval k, hk]
      rfl
  · exact marksTD_set _ _ _ hmarks
  · exact lastP_set _ _ _
  · intro op hop d' c' p'
    rw [List.mem_append, List.mem_singleton] at hop
    rcases hop with hop | rfl
    · exact hgen op hop d' c' p'
    · simp
  · exact currentData_set _ _ _

/-! ### The time-independent PDF -/

private theorem marks_append4 (q : Option (Nat → ℝ)) (ops : List (A4.Op LsObj (Nat → ℝ) Ev4)) (c : LsObj → Bool) (p : Nat → ℝ) :
    MarksFrom q (ops ++ [.eval c p]) ↔ MarksFrom q ops
      ∧ ∀ p0, A4.lastP q ops = some p0 → ∀ x : LsObj, c x = false → ∀ v ∈ x.params, p v = p0 v := by
  induction ops generalizing q with
  | nil => simp [MarksFrom, A4.lastP]
  | cons op ops ih => cases op <;> simp only [List.cons_append, MarksFrom, A4.lastP, ih, and_assoc]

private theorem lastP_append4 (q : Option (Nat → ℝ)) (ops : List (A4.Op LsObj (Nat → ℝ) Ev4)) (c : LsObj → Bool) (p : Nat → ℝ) :
    A4.lastP q (ops ++ [.eval c p]) = some p := by
  induction ops generalizing q with
  | nil => rfl
  | cons op ops ih => cases op <;> simp only [List.cons_append, A4.lastP, ih]

private theorem currentData_append4 (d : List Ev4) (ops : List (A4.Op LsObj (Nat → ℝ) Ev4)) (c : LsObj → Bool) (p : Nat → ℝ) :
    A4.currentData d (ops ++ [.eval c p]) = A4.currentData d ops := by
  induction ops generalizing d with
  | nil => rfl
  | cons op ops ih => cases op <;> simp only [List.cons_append, A4.currentData, ih]

private theorem set4 (q : Option (Nat → ℝ)) (d0 : List Ev4) (ops : List (A4.Op LsObj (Nat → ℝ) Ev4)) (d : List Ev4) :
    (MarksFrom q ops → MarksFrom q (ops ++ [.setData d])) ∧ A4.lastP q (ops ++ [.setData d]) = A4.lastP q ops
      ∧ A4.currentData d0 (ops ++ [.setData d]) = d := by
  induction ops generalizing q d0 with
  | nil => exact ⟨fun _ => trivial, rfl, rfl⟩
  | cons op ops ih =>
    cases op with
    | setData d' => exact ih q d'
    | eval c p => exact ⟨fun hm => ⟨hm.1, (ih (some p) d0).1 hm.2⟩, (ih (some p) d0).2⟩
    | generate d' c p => exact ⟨fun hm => ⟨hm.1, (ih (some p) d').1 hm.2⟩, (ih (some p) d').2⟩

/-- **C94 (time-independent)** (what is missing: spline line shapes; amplitudes which the code does not refresh, see C49; blinded
parameters, and values set or read back between the calls, see C30; the efficiency is not in the normalisation, see C50).  The same
for a four-body amplitude PDF with at most as many line shapes as amplitudes. -/
theorem C94_likelihood_partial (junk : Nat → Nat → ℝ) (hc : Nat → ℝ) (d : Decay4) (amps : List AmpNew)
    (built : List (Amp4 LsObj SfObj)) (hb : amps.mapM (ampBuild junk hc) = some built)
    (hs : ∀ a ∈ amps, ∀ c ∈ a.ls, ¬ IsSpline c) (eff : (Nat → ℝ) → Ev4 → ℝ) (mc : List Ev4)
    (fn : Fn L) (efficiency : Pdf L) (manager : List (MnOp ℝ)) (h₀ h : Pars ℝ) :
    let m := fourBodyPdf [d.M, d.m1, d.m2, d.m3, d.m4] amps built eff mc
    let t := m.tree (coefParams amps) fn efficiency
    m.LS.length ≤ m.amps.length → (∀ (i : Nat) (a : Amp4 LsObj SfObj), built[i]? = some a → m.Aligned i a) →
    mnRun t h₀ manager = some h → (∀ i ∈ t.getParameters, (h i).blind = 0) →
    ∀ (before : List (A4.Op LsObj (Nat → ℝ) Ev4)) (_ : ∀ op ∈ before, ∀ d c p, op ≠ .generate d c p) (_ : MarksFrom none before)
      (_ : ∀ p, A4.lastP none before = some p → ∀ i, (h i).value = p i) (data : List Ev4) (calls : List (List ℝ)),
    let at_ := fun x => valuesAt t.getParameters x fun i => (h i).value
    let total := fun p => meanIntensity d amps mc p
    let nll := fun p => nllOf (fun ev => described d amps p ev * eff p ev) (total p) data
    (∀ x ∈ calls, t.getParameters.length ≤ x.length ∧ 0 < total (at_ x) ∧ nll (at_ x) ≠ 0) →
    ∃ s1 h2 s2, m.run Real.sqrt (before ++ [.setData data]) = some s1 ∧
      m.fitPdf.fcnAll t calls h s1 = .done (calls.map fun x => nll (at_ x), h2, s2) := by
  intro m t hle hal hrun hblind before hgen hmarks hlast data calls at_ total nll hcalls
  have hix : Indexed t.getParameters h := (mnRun_indexed t h₀ h manager hrun).1
  have hok : ∀ ops, ∃ s, m.run Real.sqrt ops = some s := fun ops =>
    Option.ne_none_iff_exists'.mp (C49_no_overflow Real.sqrt m hle ops)
  obtain ⟨s1, hs1⟩ := hok (before ++ [.setData data])
  refine ⟨s1, ?_⟩
  obtain ⟨h2, s2, hk⟩ := calls_eq m.fitPdf t data (fun _ => True)
    (fun p ev => described d amps p ev * eff p ev) total
    (fun q s => ∃ ops, m.run Real.sqrt ops = some s ∧ MarksFrom none ops ∧ A4.lastP none ops = q
      ∧ (∀ op ∈ ops, ∀ d c p, op ≠ .generate d c p) ∧ A4.currentData [] ops = data)
    (by
      rintro q s marks p - ⟨ops, hr, hm, rfl, hg, hdat⟩ hq
      have hm' : MarksFrom none (ops ++ [.eval marks p]) := (marks_append4 none ops marks p).mpr ⟨hm, hq⟩
      obtain ⟨s', hs'⟩ := hok (ops ++ [.eval marks p])
      have hn : ∃ r, m.normalize Real.sqrt marks p s = some (r, s') := by
        have : m.run Real.sqrt (ops ++ [.eval marks p]) = (m.normalize Real.sqrt marks p s).map (·.2) := by
          unfold A4.run at hr ⊢
          rw [List.foldlM_append, hr]
          show (m.step Real.sqrt s (.eval marks p)).bind _ = _
          show ((m.normalize Real.sqrt marks p s).map (·.2)).bind _ = _
          cases m.normalize Real.sqrt marks p s <;> rfl
        rw [hs'] at this
        cases hmn : m.normalize Real.sqrt marks p s with
        | none => rw [hmn] at this; simp at this
        | some x =>
          rw [hmn] at this
          exact ⟨x.1, by rw [show s' = x.2 from by simpa using this]⟩
      obtain ⟨r, hn⟩ := hn
      have hr' := C78_normalization_partial junk hc d amps built hb hs eff mc ops hg marks p hm' s s' hr r hn
      have hval : ∀ e, m.value p s' e = (data[e]?).map fun ev => described d amps p ev * eff p ev := by
        intro e
        have := C78_value_partial junk hc d amps built hb hs eff mc hal ops marks p hm' s' hs' e
        rw [hdat] at this
        exact this
      refine ⟨s', ?_, ⟨ops ++ [.eval marks p], hs', hm', lastP_append4 none ops marks p, ?_, ?_⟩, ?_, ?_⟩
      · show m.normalize Real.sqrt marks p s = some (total p, s')
        rw [hn, hr']
        rfl
      · intro op hop d' c' p'
        rw [List.mem_append, List.mem_singleton] at hop
        rcases hop with hop | rfl
        · exact hg op hop d' c' p'
        · simp
      · rw [currentData_append4, hdat]
      · refine length_of_isSome _ _ fun e => ?_
        have := congrArg Option.isSome (hval e)
        rw [Option.isSome_map] at this
        rw [← this]
        unfold A4.value
        rw [Option.isSome_map]
      · intro k ev hk
        show m.value p s' k = _
        rw [hval k, hk]
        rfl)
    h calls h (A4.lastP none before) s1 (fun x hx => ⟨(hcalls x hx).1, trivial, (hcalls x hx).2⟩) hix hblind (fun _ _ => rfl)
    ⟨before ++ [.setData data], hs1, (set4 none [] before data).1 hmarks, (set4 none [] before data).2.1, by
      intro op hop d' c' p'
      rw [List.mem_append, List.mem_singleton] at hop
      rcases hop with hop | rfl
      · exact hgen op hop d' c' p'
      · simp, (set4 none [] before data).2.2⟩ hlast
  exact ⟨h2, s2, hs1, hk⟩

/-! ### The parameters -/

private theorem ls_mem (fn : Fn L) (a : Amp4 LsObj SfObj) (o : LsObj) (ho : o ∈ a.ls) (i : Nat) (hi : i ∈ o.params) :
    i ∈ gather Node.params (amplitudeNode fn a) := by
  unfold amplitudeNode
  rw [mem_gather_own]
  right
  exact ⟨_, List.mem_append_left _ (List.mem_map.mpr ⟨o, ho, rfl⟩), hi⟩

/-- **C94, the parameters (time-independent).**  Everything the described intensity depends on is fitted. -/
theorem C94_parameters (junk : Nat → Nat → ℝ) (hc : Nat → ℝ) (d : Decay4) (amps : List AmpNew)
    (built : List (Amp4 LsObj SfObj)) (hb : amps.mapM (ampBuild junk hc) = some built)
    (hs : ∀ a ∈ amps, ∀ c ∈ a.ls, ¬ IsSpline c) (eff : (Nat → ℝ) → Ev4 → ℝ) (mc : List Ev4) (fn : Fn L) (efficiency : Pdf L)
    (h h' : Nat → ℝ)
    (hv : ∀ i ∈ ((fourBodyPdf [d.M, d.m1, d.m2, d.m3, d.m4] amps built eff mc).tree (coefParams amps) fn efficiency).getParameters,
      h i = h' i) :
    described d amps h = described d amps h' := by
  funext ev
  rw [← terms_eq junk hc d amps built hb hs eff mc h ev, ← terms_eq junk hc d amps built hb hs eff mc h' ev]
  congr 1
  have hcoef : (coefParams amps).map h = (coefParams amps).map h' := by
    apply List.map_congr_left
    intro i hi
    apply hv
    unfold Pdf.getParameters A4.tree
    rw [mem_gather_own]
    exact Or.inl hi
  apply List.map_congr_left
  intro a ha
  have hab : a.1 ∈ built := by
    have := List.mem_zipIdx_iff_getElem?.mp ha
    exact List.mem_of_getElem? this
  have hls : ∀ o ∈ a.1.ls, lsCalc [d.M, d.m1, d.m2, d.m3, d.m4] o h ev = lsCalc [d.M, d.m1, d.m2, d.m3, d.m4] o h' ev := by
    intro o ho
    apply C78_depends
    intro i hi
    apply hv
    unfold Pdf.getParameters A4.tree
    rw [mem_gather_own]
    right
    exact ⟨_, List.mem_append_left _ (List.mem_map.mpr ⟨a.1, hab, rfl⟩), ls_mem fn a.1 o ho i hi⟩
  refine Prod.ext ?_ ?_
  · show amplitude4 _ _ _ _ = amplitude4 _ _ _ _
    congr 1
    apply List.map_congr_left
    intro o ho
    show toCx _ = toCx _
    rw [hls o ho]
  · show (⟨_, _⟩ : Cx ℝ) = ⟨_, _⟩
    rw [hcoef]

/-- **C94, the parameters (time-dependent).**  Everything the described rate depends on is fitted. -/
theorem C94_time_parameters (junk : Nat → Nat → ℝ) (hc : Nat → ℝ) (d : Decay4) (v : MixVars) (ampsA ampsB : List AmpUse)
    (builtA builtB : List (TAmp LsObj SfObj Nat Nat)) (eff : (Nat → ℝ) → Ev4 × ℝ × ℝ → ℝ) (batches : List (NormBatch Ev4))
    (hbA : ampsA.mapM (ampUseBuild junk hc) = some builtA) (hbB : ampsB.mapM (ampUseBuild junk hc) = some builtB)
    (hsA : ∀ a ∈ ampsA, ∀ c ∈ a.new.ls, ¬ IsSpline c) (hsB : ∀ a ∈ ampsB, ∀ c ∈ a.new.ls, ¬ IsSpline c)
    (res : (Nat → ℝ) → ResFn) (norm : (Nat → ℝ) → NormFn) (fn : Fn L) (resolution efficiency : Pdf L) (h h' : Nat → ℝ)
    (hv : ∀ i ∈ ((timeFourBodyPdf [d.M, d.m1, d.m2, d.m3, d.m4] v builtA builtB eff res norm batches).tree fn resolution
      efficiency).getParameters, h i = h' i) :
    describedRate d v (ampsA.map AmpUse.new) (ampsB.map AmpUse.new) h
      = describedRate d v (ampsA.map AmpUse.new) (ampsB.map AmpUse.new) h' := by
  set m := timeFourBodyPdf [d.M, d.m1, d.m2, d.m3, d.m4] v builtA builtB eff res norm batches with hm
  have hp : ∀ i ∈ m.params, h i = h' i := by
    intro i hi
    apply hv
    unfold Pdf.getParameters T4.tree
    rw [mem_gather_own]
    exact Or.inl hi
  have hcomp : ∀ a ∈ m.comps, ∀ o ∈ a.1.amp.ls, ∀ i ∈ o.params, h i = h' i := by
    intro a ha o ho i hi
    apply hv
    unfold Pdf.getParameters T4.tree
    rw [mem_gather_own]
    right
    exact ⟨_, List.mem_append_left _ (List.mem_map.mpr ⟨a, ha, rfl⟩), ls_mem fn a.1.amp o ho i hi⟩
  -- every amplitude of the two lists is a component, and its coefficients are parameters
  have hA : ∀ a ∈ builtA, (∃ f, (a, f) ∈ m.comps) ∧ h a.ar = h' a.ar ∧ h a.ai = h' a.ai := by
    intro a ha
    refine ⟨⟨_, List.mem_append_left _ (List.mem_map.mpr ⟨a, ha, rfl⟩)⟩, hp _ ?_, hp _ ?_⟩ <;>
    · unfold T4.params
      refine List.mem_append_left _ (List.mem_append_right _ (List.mem_flatMap.mpr ⟨a, ha, List.mem_append_left _ ?_⟩))
      simp
  have hB : ∀ b ∈ builtB, (∃ f, (b, f) ∈ m.comps) ∧ h b.ar = h' b.ar ∧ h b.ai = h' b.ai := by
    intro b hbm
    cases hf : (m.ampsA.find? (fun a => b = a)) with
    | some a =>
      have hba : b = a := by simpa using List.find?_some hf
      have hma : a ∈ builtA := List.mem_of_find?_eq_some hf
      rw [hba]
      exact hA a hma
    | none =>
      have hmem : b ∈ m.ampsB.filter (fun b => (m.ampsA.find? (fun a => b = a)).isNone) :=
        List.mem_filter.mpr ⟨hbm, by rw [hf]; rfl⟩
      refine ⟨⟨1, List.mem_append_right _ (List.mem_map.mpr ⟨b, hmem, rfl⟩)⟩, hp _ ?_, hp _ ?_⟩ <;>
      · unfold T4.params
        refine List.mem_append_right _ (List.mem_flatMap.mpr ⟨b, hmem, ?_⟩)
        simp
  have hcoh : ∀ (built : List (TAmp LsObj SfObj Nat Nat)) (ev : Ev4),
      (∀ a ∈ built, (∃ f, (a, f) ∈ m.comps) ∧ h a.ar = h' a.ar ∧ h a.ai = h' a.ai) →
      m.coherent h ev built = m.coherent h' ev built := by
    intro built ev hb'
    unfold T4.coherent
    congr 1
    apply List.map_congr_left
    intro a ha
    obtain ⟨⟨f, hf⟩, q1, q2⟩ := hb' a ha
    have e1 : m.ampAt h ev a = m.ampAt h' ev a := by
      unfold T4.ampAt
      congr 1
      apply List.map_congr_left
      intro o ho
      show (lsCalc _ o h ev).getD 0 = (lsCalc _ o h' ev).getD 0
      rw [C78_depends _ o h h' (hcomp (a, f) hf o ho) ev]
    rw [e1]
    show (⟨h a.ar, h a.ai⟩ : ℂ) * _ = ⟨h' a.ar, h' a.ai⟩ * _
    rw [q1, q2]
  have hfirst : ∀ i ∈ [v.tau, v.x, v.y, v.rate], h i = h' i := by
    intro i hi
    exact hp i (List.mem_append_left _ (List.mem_append_left _ hi))
  funext ev t
  unfold describedRate
  rw [← coherent_described junk hc d ampsA builtA hbA hsA m rfl rfl rfl h ev,
    ← coherent_described junk hc d ampsA builtA hbA hsA m rfl rfl rfl h' ev,
    ← coherent_described junk hc d ampsB builtB hbB hsB m rfl rfl rfl h ev,
    ← coherent_described junk hc d ampsB builtB hbB hsB m rfl rfl rfl h' ev,
    hcoh builtA ev hA, hcoh builtB ev hB, hfirst v.tau (by simp), hfirst v.x (by simp), hfirst v.y (by simp),
    hfirst v.rate (by simp)]

/-! ### Concrete cases -/

namespace DemoFit4

/-- A constant line shape of the first pair. -/
def ls : LsNew := .one ⟨"one", 0, 0, .One, 1⟩ 8 9
/-- An amplitude with the coefficient `h 0 + i h 1`. -/
def amp : AmpNew := ⟨0, 1, [ls], [], 1⟩
/-- An amplitude with the coefficient `h 6 + i h 7`. -/
def amp' : AmpNew := ⟨6, 7, [ls], [], 1⟩
/-- The line shape constructed. -/
noncomputable def obj : LsObj := lsBase .One ⟨"one", 0, 0, .One, 1⟩ [] [] .LS_ONE
/-- A decay. -/
def decay : Decay4 := ⟨5, 1, 1, 1, 1⟩
/-- Variables with different names. -/
noncomputable def vars (i : Nat) : ParVar ℝ :=
  ⟨["re", "im", "tau", "x", "y", "rate", "re2", "im2"].getD i "", 1 / 2, 1, 0, 0, 0, false, false, -1⟩
/-- An event. -/
def ev : Ev4 := ⟨2, 2, 0, 0, 0⟩
/-- The variables of the mixing. -/
def mix : MixVars := ⟨2, 3, 4, 5⟩

theorem described_eq (h : Nat → ℝ) (e : Ev4) : described decay [amp] h e = h 0 ^ 2 + h 1 ^ 2 := by
  simp [described, amp, ls, lineShape4, lineShapeAt, lsMass, args, intensity4, amplitude4, part, toCx, Cx.norm]
  ring

theorem total_eq (h : Nat → ℝ) : meanIntensity decay [amp] [ev, ev] h = h 0 ^ 2 + h 1 ^ 2 := by
  unfold meanIntensity
  simp only [described_eq, List.map_cons, List.map_nil, List.sum_cons, List.sum_nil, List.length_cons, List.length_nil]
  push_cast
  ring

theorem nll_eq (h : Nat → ℝ) (hp : 0 < h 0 ^ 2 + h 1 ^ 2) :
    nllOf (fun e => described decay [amp] h e * 2) (meanIntensity decay [amp] [ev, ev] h) [ev] = -Real.log 2 := by
  unfold nllOf
  rw [total_eq]
  simp only [described_eq]
  have : 0 < (h 0 ^ 2 + h 1 ^ 2) * 2 := by linarith
  simp only [List.filter_cons, List.filter_nil, this, decide_true, if_true, List.map_cons, List.map_nil, List.sum_cons,
    List.sum_nil, add_zero]
  congr 2
  field_simp

theorem rate_eq (h : Nat → ℝ) (e : Ev4) :
    describedRate decay mix [amp] [amp'] h e 0 = 2 * (h 5 ^ 2 * (h 0 ^ 2 + h 1 ^ 2)) := by
  have hA : describedAmplitude decay [amp] h e = ⟨h 0, h 1⟩ := by
    simp [describedAmplitude, amp, ls, lineShape4, lineShapeAt, lsMass, args, amplitudeC, part]
  unfold describedRate decayRate timeAmplitude eigen1 eigen2
  rw [hA]
  simp only [Complex.ofReal_zero, zero_div, mul_zero, Complex.exp_zero, sub_self, add_zero]
  rw [show (1 + 1 : ℂ) / 2 = 1 from by norm_num, mul_one, norm_mul, mul_pow, ← Complex.normSq_eq_norm_sq ⟨h 0, h 1⟩]
  simp only [Complex.normSq_mk, Complex.norm_real, Real.norm_eq_abs, sq_abs, mix]
  ring

/-- The normalisation events. -/
def batch : NormBatch Ev4 := .weighted [(ev, 0, 0, 1)]

theorem meanRate_eq (h : Nat → ℝ) : meanRate decay mix [amp] [amp'] [batch] h = 2 * (h 5 ^ 2 * (h 0 ^ 2 + h 1 ^ 2)) := by
  unfold meanRate batch describedTotal
  simp [batchWeight, rate_eq]

theorem time_nll_eq (h : Nat → ℝ) (hp : 0 < h 5 ^ 2 * (h 0 ^ 2 + h 1 ^ 2)) :
    nllOf (fun e : Ev4 × ℝ × ℝ => 2 * describedRate decay mix [amp] [amp'] h e.1 e.2.1) (meanRate decay mix [amp] [amp'] [batch] h)
      [(ev, 0, 0)] = -Real.log 2 := by
  unfold nllOf
  rw [meanRate_eq]
  have : 0 < 2 * (2 * (h 5 ^ 2 * (h 0 ^ 2 + h 1 ^ 2))) := by linarith
  simp only [List.filter_cons, List.filter_nil, rate_eq, this, decide_true, if_true, List.map_cons, List.map_nil, List.sum_cons,
    List.sum_nil, add_zero]
  congr 2
  rw [mul_div_assoc, div_self (by linarith), mul_one]

theorem log_two : -Real.log 2 ≠ 0 := neg_ne_zero.mpr (Real.log_pos (by norm_num)).ne'

end DemoFit4
open DemoFit4

/-- A fit of one amplitude to one event with three calls; the PDF was evaluated before on other data. -/
example (L : Lib ℝ) (l : L.Leaf) (junk : Nat → Nat → ℝ) (hc : Nat → ℝ) :
    let m := fourBodyPdf [decay.M, decay.m1, decay.m2, decay.m3, decay.m4] [amp] [⟨[obj], [], 1⟩] (fun _ _ => 2) [ev, ev]
    let t := m.tree (L := L) (coefParams [amp]) (.leaf l) (.mk ⟨9, .leaf l, [], [], [], 1⟩ [])
    ∃ h, mnRun t vars [] = some h ∧ ∃ s1 h2 s2,
      m.run Real.sqrt ([.setData [], .eval (fun _ => true) (fun i => (h i).value)] ++ [.setData [ev]]) = some s1 ∧
      m.fitPdf.fcnAll t [[1, 0], [2, 3], [1, 0]] h s1 = .done ([-Real.log 2, -Real.log 2, -Real.log 2], h2, s2) := by
  intro m t
  have hp : t.getParameters = [0, 1] := rfl
  obtain ⟨h, hh, hb⟩ : ∃ h, mnRun t vars [] = some h ∧ ∀ i, (h i).blind = 0 := by
    refine ⟨_, rfl, ?_⟩
    intro i
    match i with
    | 0 => rfl
    | 1 => rfl
    | _ + 2 => rfl
  refine ⟨h, hh, ?_⟩
  have hv : ∀ v ∈ [[1, 0], [2, 3], [1, (0 : ℝ)]], 0 < valuesAt t.getParameters v (fun i => (h i).value) 0 ^ 2
      + valuesAt t.getParameters v (fun i => (h i).value) 1 ^ 2 := by
    intro v hv
    simp only [List.mem_cons, List.not_mem_nil, or_false] at hv
    rw [hp]
    rcases hv with rfl | rfl | rfl <;> norm_num [valuesAt, List.idxOf_cons]
  have hls : m.LS = [obj] := by
    show lineShapesOf [(⟨[obj], [], 1⟩ : Amp4 LsObj SfObj)] = [obj]
    simp [lineShapesOf, addUnique]
  obtain ⟨s1, h2, s2, q1, q2⟩ := C94_likelihood_partial junk hc decay [amp] [⟨[obj], [], 1⟩] (by simp [ampBuild, amp, ls, lsBuild, obj])
    (by intro a ha c hc'; rw [List.mem_singleton.1 ha] at hc'; rw [List.mem_singleton.1 hc']; exact id) (fun _ _ => 2) [ev, ev]
    (.leaf l) (.mk ⟨9, .leaf l, [], [], [], 1⟩ []) [] vars h (by rw [hls]; exact le_refl 1)
    (by
      intro i a ha
      right
      intro x hx
      match i, ha with
      | 0, ha =>
        simp only [List.getElem?_cons_zero, Option.some.injEq] at ha
        subst ha
        rw [List.mem_singleton.1 hx]
        show List.idxOf obj m.LS = 0
        rw [hls]
        simp
      | _ + 1, ha => simp at ha)
    hh (fun i _ => hb i) [.setData [], .eval (fun _ => true) (fun i => (h i).value)]
    (by intro op hop d c p; simp only [List.mem_cons, List.not_mem_nil, or_false] at hop; rcases hop with rfl | rfl <;> simp)
    ⟨fun _ h' => absurd h' (by simp), trivial⟩
    (by intro p hp' i; simp only [A4.lastP, Option.some.injEq] at hp'; rw [← hp'])
    [ev] [[1, 0], [2, 3], [1, 0]] (by
      intro v hvm
      refine ⟨?_, ?_, ?_⟩
      · show 2 ≤ v.length
        simp only [List.mem_cons, List.not_mem_nil, or_false] at hvm
        rcases hvm with rfl | rfl | rfl <;> simp
      · exact lt_of_lt_of_eq (hv v hvm) (total_eq _).symm
      · exact fun e => log_two ((nll_eq _ (hv v hvm)).symm.trans e))
  refine ⟨s1, h2, s2, q1, q2.trans ?_⟩
  congr 2
  simp only [List.map_cons, List.map_nil]
  exact congrArg₂ _ (nll_eq _ (hv _ (by simp)))
    (congrArg₂ _ (nll_eq _ (hv _ (by simp))) (congrArg₂ _ (nll_eq _ (hv _ (by simp))) rfl))

/-- A fit of two amplitudes with mixing to one event at decay time zero, with three calls. -/
example (L : Lib ℝ) (l : L.Leaf) (junk : Nat → Nat → ℝ) (hc : Nat → ℝ) :
    let m := timeFourBodyPdf [decay.M, decay.m1, decay.m2, decay.m3, decay.m4] mix [⟨0, 0, 1, [obj], [], 1⟩] [⟨1, 6, 7, [obj], [], 1⟩]
      (fun _ _ => 2) (fun _ => truthRes) (fun _ => truthNormalization) [batch]
    let t := m.tree (L := L) (.leaf l) (.mk ⟨8, .leaf l, [], [], [], 1⟩ []) (.mk ⟨9, .leaf l, [], [], [], 1⟩ [])
    ∃ h, mnRun t vars [] = some h ∧ ∃ h2 s2,
      m.fitPdf.fcnAll t [[1, 0, 0, 1, 1, 0, 5, 6], [2, 3, 1 / 2, 4, 1, 1, 0, 0], [1, 0, 0, 1, 1, 0, 5, 6]] h (m.run ([] ++ [.setData [(ev, 0, 0)]]))
        = .done ([-Real.log 2, -Real.log 2, -Real.log 2], h2, s2) := by
  intro m t
  have hne : (⟨1, 6, 7, [obj], [], 1⟩ : TAmp LsObj SfObj Nat Nat) ≠ ⟨0, 0, 1, [obj], [], 1⟩ := by simp
  have hpar : m.params = [2, 3, 4, 5, 0, 1, 6, 7] := by
    simp [m, T4.params, timeFourBodyPdf, mix]
  have hp : t.getParameters = [2, 3, 4, 5, 0, 1, 6, 7] := by
    have hcomps : m.comps = [(⟨0, 0, 1, [obj], [], 1⟩, 0), (⟨1, 6, 7, [obj], [], 1⟩, 1)] := by
      simp [m, T4.comps, timeFourBodyPdf]
    show (T4.tree m _ _ _).getParameters = _
    unfold T4.tree
    rw [hpar, hcomps]
    rfl
  obtain ⟨h, hh, hb⟩ : ∃ h, mnRun t vars [] = some h ∧ ∀ i, (h i).blind = 0 := by
    unfold mnRun paramsCtor
    rw [hp]
    refine ⟨_, rfl, ?_⟩
    intro i
    match i with
    | 0 => rfl
    | 1 => rfl
    | 2 => rfl
    | 3 => rfl
    | 4 => rfl
    | 5 => rfl
    | 6 => rfl
    | 7 => rfl
    | _ + 8 => rfl
  refine ⟨h, hh, ?_⟩
  have hv : ∀ v ∈ [[1, 0, 0, 1, 1, 0, 5, 6], [2, 3, 1 / 2, 4, 1, 1, 0, 0], [1, 0, 0, 1, 1, 0, 5, (6 : ℝ)]],
      let x := valuesAt t.getParameters v (fun i => (h i).value)
      (0 < x 2 ∧ |x 4| < 1) ∧ 0 < x 5 ^ 2 * (x 0 ^ 2 + x 1 ^ 2) := by
    intro v hv
    simp only [List.mem_cons, List.not_mem_nil, or_false] at hv
    rw [hp]
    rcases hv with rfl | rfl | rfl <;> norm_num [valuesAt, List.idxOf_cons, abs_lt]
  have hspl : ∀ c, c = ls → ¬ IsSpline c := by rintro c rfl; exact id
  obtain ⟨h2, s2, q2⟩ := C94_time_likelihood_partial junk hc decay mix [⟨0, amp⟩] [⟨1, amp'⟩] [⟨0, 0, 1, [obj], [], 1⟩]
    [⟨1, 6, 7, [obj], [], 1⟩] (fun _ _ => 2) [batch]
    (by simp [ampUseBuild, ampBuild, amp, ls, lsBuild, obj]) (by simp [ampUseBuild, ampBuild, amp', ls, lsBuild, obj])
    (by intro a ha c hc'; rw [List.mem_singleton.1 ha] at hc'; exact hspl c (List.mem_singleton.1 hc'))
    (by intro a ha c hc'; rw [List.mem_singleton.1 ha] at hc'; exact hspl c (List.mem_singleton.1 hc'))
    (by simp) (by simp)
    (by intro b hb'; rw [List.mem_singleton.1 hb']; intro e he; rw [List.mem_singleton.1 he]; exact ⟨1, by simp⟩)
    (.leaf l) (.mk ⟨8, .leaf l, [], [], [], 1⟩ []) (.mk ⟨9, .leaf l, [], [], [], 1⟩ []) [] vars h
    hh (fun i _ => hb i) [] (by intro op hop; simp at hop) trivial (by intro p hp'; simp [T4.lastP] at hp')
    [(ev, 0, 0)] [[1, 0, 0, 1, 1, 0, 5, 6], [2, 3, 1 / 2, 4, 1, 1, 0, 0], [1, 0, 0, 1, 1, 0, 5, 6]] (by
      intro v hvm
      refine ⟨?_, (hv v hvm).1, ?_, ?_⟩
      · rw [hp]
        simp only [List.mem_cons, List.not_mem_nil, or_false] at hvm
        rcases hvm with rfl | rfl | rfl <;> simp
      · have := (hv v hvm).2
        show 0 < meanRate decay mix [amp] [amp'] [batch] _
        rw [meanRate_eq]
        linarith
      · show nllOf (fun e : Ev4 × ℝ × ℝ => 2 * describedRate decay mix [amp] [amp'] _ e.1 e.2.1)
          (meanRate decay mix [amp] [amp'] [batch] _) _ ≠ 0
        rw [time_nll_eq _ (hv v hvm).2]
        exact log_two)
  refine ⟨h2, s2, q2.trans ?_⟩
  congr 2
  have key : ∀ v ∈ [[1, 0, 0, 1, 1, 0, 5, 6], [2, 3, 1 / 2, 4, 1, 1, 0, 0], [1, 0, 0, 1, 1, 0, 5, (6 : ℝ)]], _ :=
    fun v hv' => time_nll_eq (valuesAt t.getParameters v fun i => (h i).value) (hv v hv').2
  simp only [List.map_cons, List.map_nil]
  exact congrArg₂ _ (key _ (by simp)) (congrArg₂ _ (key _ (by simp)) (congrArg₂ _ (key _ (by simp)) rfl))

/-- The coefficients are the parameters of the described intensity. -/
example (L : Lib ℝ) (l : L.Leaf) (junk : Nat → Nat → ℝ) (hc h h' : Nat → ℝ) (h0 : h 0 = h' 0) (h1 : h 1 = h' 1) :
    described decay [amp] h = described decay [amp] h' := by
  refine C94_parameters (L := L) junk hc decay [amp] [⟨[obj], [], 1⟩] (by simp [ampBuild, amp, ls, lsBuild, obj])
    (by intro a ha c hc'; rw [List.mem_singleton.1 ha] at hc'; rw [List.mem_singleton.1 hc']; exact id) (fun _ _ => 2) []
    (.leaf l) (.mk ⟨9, .leaf l, [], [], [], 1⟩ []) h h' ?_
  intro i hi
  have : i ∈ [0, 1] := hi
  simp only [List.mem_cons, List.not_mem_nil, or_false] at this
  rcases this with rfl | rfl
  · exact h0
  · exact h1

/-- The mixing variables and the coefficients are the parameters of the described rate. -/
example (L : Lib ℝ) (l : L.Leaf) (junk : Nat → Nat → ℝ) (hc h h' : Nat → ℝ) (hv : ∀ i ∈ [0, 1, 2, 3, 4, 5], h i = h' i) :
    describedRate decay mix [amp] [] h = describedRate decay mix [amp] [] h' := by
  refine C94_time_parameters (L := L) junk hc decay mix [⟨0, amp⟩] [] [⟨0, 0, 1, [obj], [], 1⟩] [] (fun _ _ => 2) []
    (by simp [ampUseBuild, ampBuild, amp, ls, lsBuild, obj]) (by simp)
    (by intro a ha c hc'; rw [List.mem_singleton.1 ha] at hc'; rw [List.mem_singleton.1 hc']; exact id) (by simp)
    (fun _ => truthRes) (fun _ => truthNormalization) (.leaf l) (.mk ⟨8, .leaf l, [], [], [], 1⟩ [])
    (.mk ⟨9, .leaf l, [], [], [], 1⟩ []) h h' ?_
  intro i hi
  have : i ∈ [2, 3, 4, 5, 0, 1] := hi
  apply hv
  simp only [List.mem_cons, List.not_mem_nil, or_false] at this ⊢
  omega

end
end GooFit
