import Verif.Spec.ConvFit
import Verif.Props.Convolution
import Verif.Props.Fit3
/-!
# C100: a fit of a convolution minimises the likelihood of the smeared distribution
-/
set_option autoImplicit false
namespace GooFit
open Spec FpOps
attribute [local instance] FpOps.ofField

section
variable {L : Lib ℝ}

/-- **C100, the parameters.**  Everything the smeared distribution depends on is fitted: it is the same whenever the parameters of
the PDF have the same values. -/
theorem C100_parameters (C : Cv) (model resol : L.Leaf) (h h' : Nat → ℝ)
    (hv : ∀ i ∈ (C.tree model resol : Pdf L).getParameters, h i = h' i) :
    C.model (C.modelPars.map h) = C.model (C.modelPars.map h') ∧ C.resol (C.resolPars.map h) = C.resol (C.resolPars.map h') := by
  have hm : ∀ i ∈ C.modelPars, h i = h' i := by
    intro i hi
    apply hv
    unfold Pdf.getParameters Cv.tree
    rw [mem_gather_own]
    exact Or.inr ⟨.mk ⟨1, .leaf model, C.modelPars, [], [0], 1⟩ [], by simp, hi⟩
  have hr : ∀ i ∈ C.resolPars, h i = h' i := by
    intro i hi
    apply hv
    unfold Pdf.getParameters Cv.tree
    rw [mem_gather_own]
    exact Or.inr ⟨.mk ⟨2, .leaf resol, C.resolPars, [], [0], 1⟩ [], by simp, hi⟩
  rw [List.map_congr_left hm, List.map_congr_left hr]
  exact ⟨rfl, rfl⟩

/-- The constants, the limits and the range are as they should be. -/
private structure CvSet (c : ConvSetup ℝ) (n : Nat) (s : CvState) : Prop where
  consts_eq : s.consts = c
  lower_eq : s.lower = c.lower
  upper_eq : s.upper = c.upper
  size_eq : s.gridSize = n

/-- They are also on the device. -/
private structure CvReady (c : ConvSetup ℝ) (n : Nat) (s : CvState) : Prop extends CvSet c n s where
  dev_eq : s.dev = some (c.lo, c.hi, c.step)
  norm_eq : s.norm = some (c.lower, c.upper, n)

/-- The workspaces, once filled, are those of the present values. -/
private def CvFresh (C : Cv) (s : CvState) (h : Nat → ℝ) : Prop :=
  s.filled = true → s.modWs = s.consts.modelWs (C.model (C.modelPars.map h)) ∧ s.resWs = s.consts.resolWs (C.resol (C.resolPars.map h))

private theorem ready_setData {c : ConvSetup ℝ} {n : Nat} {s : CvState} (hs : CvSet c n s) (d : List ℝ) : CvReady c n (s.setData d) := by
  obtain ⟨h1, h2, h3, h4⟩ := hs
  refine ⟨⟨h1, h2, h3, h4⟩, ?_, ?_⟩
  · show some (s.consts.lo, s.consts.hi, s.consts.step) = _
    rw [h1]
  · show some (s.lower, s.upper, s.gridSize) = _
    rw [h2, h3, h4]

private theorem value_eq {c : ConvSetup ℝ} {n : Nat} {s : CvState} {M R : ℝ → ℝ} (hr : CvReady c n s)
    (h1 : s.modWs = c.modelWs M) (h2 : s.resWs = c.resolWs R) (x : ℝ) : s.value x = c.value M R x := by
  unfold CvState.value
  rw [hr.dev_eq, hr.consts_eq, h1, h2]
  rfl

/-- The sum over the bins. -/
private theorem sumBins_eq {c : ConvSetup ℝ} {n : Nat} {s : CvState} (hr : CvReady c n s) (hn : 0 < n) (f : ℝ → ℝ)
    (hc : c.lower ≤ c.upper) (hf : ∀ x, c.lower ≤ x → x ≤ c.upper → s.value x = some (f x)) :
    s.sumBins = some (((List.range n).map fun b => f (cellCenter c.lower c.upper n b)).sum) := by
  unfold CvState.sumBins
  rw [hr.norm_eq, Option.bind_some, if_neg hn.ne', hr.size_eq]
  rw [mapM_to_map _ fun b => f (cellCenter c.lower c.upper n b)]
  · rfl
  intro b hb
  have hb' : b < n := List.mem_range.mp hb
  have hn' : (0 : ℝ) < n := by exact_mod_cast hn
  dsimp only
  rw [Nat.mod_eq_of_lt hb', show (c.upper - c.lower) / (n : ℝ) * ((b : ℝ) + 1 / 2) + c.lower = cellCenter c.lower c.upper n b by
    unfold cellCenter; ring]
  have hb2 : (b : ℝ) + 1 / 2 ≤ n := by
    have : (b : ℝ) + 1 ≤ n := by exact_mod_cast hb'
    linarith
  have hw : 0 ≤ (c.upper - c.lower) / (n : ℝ) := div_nonneg (by linarith) hn'.le
  apply hf
  · unfold cellCenter
    have : 0 ≤ ((b : ℝ) + 1 / 2) * ((c.upper - c.lower) / (n : ℝ)) := by positivity
    linarith
  · unfold cellCenter
    have : ((b : ℝ) + 1 / 2) * ((c.upper - c.lower) / (n : ℝ)) ≤ n * ((c.upper - c.lower) / (n : ℝ)) :=
      mul_le_mul_of_nonneg_right hb2 hw
    rw [mul_div_cancel₀ _ hn'.ne'] at this
    linarith

private theorem nllOn_eq (lower upper : ℝ) (n : Nat) (f : ℝ → ℝ) (data : List ℝ) (hpos : 0 < gridIntegral1 lower upper n f) :
    (data.map fun x => if f x * (1 / gridIntegral1 lower upper n f) > 0 then -Real.log (f x * (1 / gridIntegral1 lower upper n f))
      else 0).sum = nllOn lower upper n f data := by
  unfold nllOn
  rw [← sum_map_filter]
  congr 1
  apply List.map_congr_left
  intro x _
  have h1 : f x * (1 / gridIntegral1 lower upper n f) > 0 ↔ 0 < f x := by
    have : 0 < 1 / gridIntegral1 lower upper n f := by positivity
    exact mul_pos_iff_of_pos_right this
  rw [show f x * (1 / gridIntegral1 lower upper n f) = f x / gridIntegral1 lower upper n f by ring] at h1 ⊢
  by_cases hc : 0 < f x
  · rw [if_pos (h1.mpr hc), if_pos (by simpa using hc)]
  · rw [if_neg fun hh => hc (h1.mp hh), if_neg (by simpa using hc)]

private theorem sumOfNll_of_value {s : CvState} (norm : ℝ) (f : ℝ → ℝ) (hf : ∀ x ∈ s.data, s.value x = some (f x)) :
    s.sumOfNll norm = some ((s.data.map fun x => if f x * norm > 0 then -Real.log (f x * norm) else 0).sum) := by
  unfold CvState.sumOfNll
  rw [mapM_to_map _ fun x => if f x * norm > 0 then -Real.log (f x * norm) else 0]
  · rfl
  intro x hx
  rw [hf x hx]
  rfl

/-- The value of the PDF when its workspaces are right. -/
private theorem smeared_value (c : ConvSetup ℝ) (hs : 0 < c.step) (kL kH kA kB : Int) (hL : c.lo = (kL : ℝ) * c.step)
    (hH : c.hi = (kH : ℝ) * c.step) (hA : c.lower = (kA : ℝ) * c.step) (hB : c.upper = (kB : ℝ) * c.step) (hLH : kL < kH)
    (M R : ℝ → ℝ) (heven : ∀ t, R (-t) = R t) (x : ℝ) (hx1 : c.lower ≤ x) (hx2 : x ≤ c.upper) :
    c.value M R x = some (smeared M R c.lo c.step (kH - kL).toNat x) := by
  obtain ⟨x', e1, e2, ⟨k, e3⟩, e4⟩ := C31_value_partial c M R hs kL kH kA kB hL hH hA hB hLH x hx1 hx2
  have hk : ⌊x / c.step⌋ = k := by
    rw [Int.floor_eq_iff]
    constructor
    · rw [le_div_iff₀ hs, ← e3]; exact e1
    · rw [div_lt_iff₀ hs, add_mul, one_mul, ← e3]; exact e2
  rw [e4]
  unfold smeared convolution correlation stepEdge
  rw [hk, ← e3]
  congr 1
  refine Finset.sum_congr rfl fun i _ => ?_
  rw [← heven, neg_sub]

/-- **C100** (what is missing: ranges that are not multiples of the step, resolutions that are not symmetric, composite model or
resolution, and values set or read back between two calls, as in C30 and C31; events outside the limits; blinded parameters; rounding;
the code aborts when the likelihood is exactly one).  In every sequence of fits of a convolution of two basic PDFs, whatever has been done
before with the PDF, the fit manager and the variables: once the integration range has been set, whatever data sets are given and
whatever values the minimiser asks for between them, in any order, each value it gets is minus the logarithm of the likelihood of the
data given last under the convolution of model and resolution, normalised on the grid of the observable, with the parameters at the
values asked for. -/
theorem C100_likelihood_partial (C : Cv) (heven : ∀ ps t, C.resol ps (-t) = C.resol ps t) (model resol : L.Leaf)
    (before : List (MnOp ℝ)) (h₀ h : Pars ℝ) :
    let t : Pdf L := C.tree model resol
    mnRun t h₀ before = some h → (∀ i ∈ t.getParameters, (h i).blind = 0) →
    ∀ (s : CvState) (step : ℝ) (_ : 0 < step) (kL kH kA kB : Int), kL < kH → kA ≤ kB →
      s.lower = kA * step → s.upper = kB * step →
    let bins := if s.fineness > 0 then s.fineness.toNat else s.bins
    let f := fun v => smeared (C.model (C.modelPars.map (valuesAt t.getParameters v fun i => (h i).value)))
      (C.resol (C.resolPars.map (valuesAt t.getParameters v fun i => (h i).value))) (kL * step) step (kH - kL).toNat
    let nll := fun v d => nllOn s.lower s.upper bins (f v) d
    ∀ (d : List ℝ) (uses : List CvUse),
    0 < bins →
    (∀ d', .data d' ∈ .data d :: uses → ∀ x ∈ d', s.lower ≤ x ∧ x ≤ s.upper) →
    (∀ v, .call v ∈ uses → t.getParameters.length ≤ v.length ∧ 0 < gridIntegral1 s.lower s.upper bins (f v)) →
    (∀ r ∈ expectedNlls nll uses d, r ≠ 0) →
    ∃ s1 h2 s2, s.setIntegration (kL * step) (kH * step) step = some s1
      ∧ C.useAll t (.data d :: uses) h s1 = .done (expectedNlls nll uses d, h2, s2) := by
  intro t hrun hblind s step hstep kL kH kA kB hLH hAB hlow hup bins f nll d uses hbins hdata hcalls hnz
  have hix : Indexed t.getParameters h := (mnRun_indexed t h₀ h before hrun).1
  set c : ConvSetup ℝ := ⟨kL * step, kH * step, step, s.lower, s.upper⟩ with hc
  obtain ⟨b1, b2, -, -⟩ := aligned_bins c hstep kL kH kA kB rfl rfl hlow hup
  have hlu : c.lower ≤ c.upper := by
    show s.lower ≤ s.upper
    rw [hlow, hup]
    have : (kA : ℝ) ≤ kB := by exact_mod_cast hAB
    exact mul_le_mul_of_nonneg_right this hstep.le
  obtain ⟨s1, hs1, hset1, hfill1⟩ : ∃ s1, s.setIntegration (kL * step) (kH * step) step = some s1 ∧ CvSet c bins s1
      ∧ s1.filled = false := by
    refine ⟨_, if_neg ?_, ⟨rfl, rfl, rfl, rfl⟩, rfl⟩
    show ¬ (c.modelBins ≤ 0 ∨ c.resolBins ≤ 0)
    omega
  refine ⟨s1, ?_⟩
  have key : ∀ (uses : List CvUse) (g : Pars ℝ) (s' : CvState),
      (∀ d', .data d' ∈ uses → ∀ x ∈ d', s.lower ≤ x ∧ x ≤ s.upper) → (∀ x ∈ s'.data, s.lower ≤ x ∧ x ≤ s.upper) →
      (∀ v, .call v ∈ uses → t.getParameters.length ≤ v.length ∧ 0 < gridIntegral1 s.lower s.upper bins (f v)) →
      (∀ r ∈ expectedNlls nll uses s'.data, r ≠ 0) →
      Indexed t.getParameters g → (∀ i ∈ t.getParameters, (g i).blind = 0) →
      (∀ i, i ∉ t.getParameters → (g i).value = (h i).value) →
      CvReady c bins s' → CvFresh C s' (fun i => (g i).value) →
      ∃ h2 s2, C.useAll t uses g s' = .done (expectedNlls nll uses s'.data, h2, s2) := by
    intro uses
    induction uses with
    | nil => intro g s' _ _ _ _ _ _ _ _ _; exact ⟨g, s', rfl⟩
    | cons u us ih =>
      intro g s' hd hd0 hcl hz hgi hgb hgo hready hfresh
      cases u with
      | data d' =>
        refine ih g (s'.setData d') (fun e he => hd e (by simp [he])) (hd d' (by simp)) (fun v hv => hcl v (by simp [hv])) hz
          hgi hgb hgo (ready_setData hready.toCvSet d') ?_
        exact hfresh
      | call v =>
        obtain ⟨hlen, htot⟩ := hcl v (by simp)
        obtain ⟨g', hfcn, hgi', hgb', hgv, hgm⟩ := call_values t v g hgi hgb hlen
        have hat : (fun i => (g' i).value) = valuesAt t.getParameters v fun i => (h i).value := by
          rw [hgv]
          funext i
          show (if _ then _ else (g i).value) = (if _ then _ else (h i).value)
          split_ifs with hi
          · rfl
          · exact hgo i hi
        set w := valuesAt t.getParameters v fun i => (h i).value with hw
        set sr := C.refresh s' (cvChanged g' C.modelPars) (cvChanged g' C.resolPars) fun i => (g' i).value with hsr
        have hready' : CvReady c bins sr := by
          obtain ⟨⟨q1, q2, q3, q4⟩, q5, q6⟩ := hready
          exact ⟨⟨q1, q2, q3, q4⟩, q5, q6⟩
        have same : ∀ ps : List Nat, cvChanged g' ps = false → ps.map (fun i => (g' i).value) = ps.map fun i => (g i).value :=
          fun ps hps => List.map_congr_left (hgm ps hps)
        have hmod : sr.modWs = c.modelWs (C.model (C.modelPars.map w)) := by
          show (if _ then _ else _) = _
          rw [← hat, hready.consts_eq]
          split_ifs with hf
          · rfl
          · simp only [Bool.or_eq_true, Bool.not_eq_true', not_or, Bool.not_eq_false, Bool.not_eq_true] at hf
            rw [(hfresh hf.1).1, hready.consts_eq, same _ hf.2]
        have hres : sr.resWs = c.resolWs (C.resol (C.resolPars.map w)) := by
          show (if _ then _ else _) = _
          rw [← hat, hready.consts_eq]
          split_ifs with hf
          · rfl
          · simp only [Bool.or_eq_true, Bool.not_eq_true', not_or, Bool.not_eq_false, Bool.not_eq_true] at hf
            rw [(hfresh hf.1).2, hready.consts_eq, same _ hf.2]
        have hval : ∀ x, c.lower ≤ x → x ≤ c.upper → sr.value x = some (f v x) := by
          intro x hx1 hx2
          rw [value_eq hready' hmod hres]
          exact smeared_value c hstep kL kH kA kB rfl rfl hlow hup hLH _ _ (heven _) x hx1 hx2
        have hsum := sumBins_eq hready' hbins (f v) hlu hval
        have hint : gridIntegral1 s.lower s.upper bins (f v) = (sr.upper - sr.lower) / (sr.gridSize : ℝ)
            * ((List.range bins).map fun b => f v (cellCenter c.lower c.upper bins b)).sum := by
          unfold gridIntegral1
          rw [List.sum_map_mul_right, hready'.upper_eq, hready'.lower_eq, hready'.size_eq]
          exact mul_comm _ _
        have hvol : 0 ≤ (sr.upper - sr.lower) / (sr.gridSize : ℝ) := by
          rw [hready'.upper_eq, hready'.lower_eq]
          exact div_nonneg (by linarith) (Nat.cast_nonneg _)
        have hnll : C.calculateNLL s' g' = .done (nll v s'.data, sr) := by
          unfold Cv.calculateNLL Cv.normalize
          rw [← hsr]
          dsimp only
          rw [hsum]
          dsimp only
          rw [← hint, if_neg, if_neg htot.ne']
          · simp only [Ran.andThen]
            rw [if_neg (not_le.mpr (by positivity)), sumOfNll_of_value _ (f v) fun x hx => ?_]
            · dsimp only
              rw [show sr.data = s'.data from rfl, nllOn_eq _ _ _ _ _ htot]
              rw [if_neg (hz _ (by simp [expectedNlls, nll]))]
            · exact hval x (hd0 x hx).1 (hd0 x hx).2
          · intro hle
            rw [hint] at htot
            exact absurd htot (not_lt.mpr (mul_nonpos_of_nonneg_of_nonpos hvol hle))
        obtain ⟨h2, s2, hrest⟩ := ih g' sr (fun e he => hd e (by simp [he])) hd0 (fun v hv => hcl v (by simp [hv]))
          (fun r hr => hz r (by simp [expectedNlls]; exact Or.inr hr)) hgi' hgb' (by
            intro i hi
            rw [congrFun hgv i]
            unfold valuesAt
            rw [if_neg hi]
            exact hgo i hi) hready' (fun _ => by
              rw [hat, hready'.consts_eq]
              exact ⟨hmod, hres⟩)
        refine ⟨h2, s2, ?_⟩
        unfold Cv.useAll Cv.fcn
        rw [hfcn]
        dsimp only
        rw [hnll]
        simp only [Ran.andThen, hrest]
        rfl
  obtain ⟨h2, s2, hk⟩ := key uses h (s1.setData d) (fun e he => hdata e (by simp [he])) (hdata d (by simp)) hcalls hnz hix hblind
    (fun _ _ => rfl) (ready_setData hset1 d) (fun hf => by
      rw [show (s1.setData d).filled = s1.filled from rfl, hfill1] at hf
      exact absurd hf (by simp))
  exact ⟨h2, s2, hs1, hk⟩

private theorem bind_mapM_none {α : Type} (l : List α) (F : α → Option ℝ) (a : α) (ha : a ∈ l) (hF : F a = none) :
    l.mapM F = none := by
  induction l with
  | nil => simp at ha
  | cons b l ih =>
    rw [List.mapM_cons]
    rcases List.mem_cons.mp ha with rfl | ha
    · rw [hF]; rfl
    · rw [ih ha]
      cases F b <;> rfl

private theorem convLoop_reads_model (mod res : List ℝ) (shift : Int) (n i : Nat) (ret v : ℝ)
    (h : convLoop mod res shift n i ret = some v) : n = 0 ∨ i + n ≤ mod.length := by
  induction n generalizing i ret with
  | zero => exact Or.inl rfl
  | succ n ih =>
    right
    rw [convLoop] at h
    simp only [bind, Option.bind] at h
    cases hm : mod[i]? with
    | none => rw [hm] at h; exact absurd h (by simp)
    | some m =>
      have hi : i < mod.length := (List.getElem?_eq_some_iff.mp hm).1
      rw [hm] at h
      cases hr : atInt res ((i : Int) + shift) with
      | none => rw [hr] at h; exact absurd h (by simp)
      | some r =>
        rw [hr] at h
        rcases ih _ _ h with h0 | h0 <;> omega

/-- **C100, violation (range set after the data).**  A range of integration with fewer steps, set after the data, is not known to the
device before the next `setData`: every call reads outside the workspaces. -/
theorem C100_violation_range_after_data (C : Cv) (s s1 s2 : CvState) (lo hi lo' hi' step step' : ℝ) (d : List ℝ)
    (h1 : s.setIntegration lo hi step = some s1) (h2 : (s1.setData d).setIntegration lo' hi' step' = some s2) (hb : 0 < s1.gridSize)
    (hfew : ⌊(hi' - lo') / step' + 1 / 2⌋ < ⌊(hi - lo) / step + 1 / 2⌋) (h : Pars ℝ) :
    C.calculateNLL s2 h = .ub := by
  have e1 : s1.consts = ⟨lo, hi, step, s.lower, s.upper⟩ := by
    unfold CvState.setIntegration at h1
    dsimp only at h1
    split_ifs at h1
    rw [← Option.some.inj h1]
  obtain ⟨e2, e3, e4, e5⟩ : s2.consts = ⟨lo', hi', step', s1.lower, s1.upper⟩ ∧ s2.dev = some (lo, hi, step)
      ∧ s2.norm = some (s1.lower, s1.upper, s1.gridSize) ∧ s2.gridSize = s1.gridSize := by
    unfold CvState.setIntegration at h2
    dsimp only at h2
    split_ifs at h2
    rw [← Option.some.inj h2]
    refine ⟨rfl, ?_, rfl, rfl⟩
    show some (s1.consts.lo, s1.consts.hi, s1.consts.step) = _
    rw [e1]
  unfold Cv.calculateNLL Cv.normalize
  have hnone : (C.refresh s2 (cvChanged h C.modelPars) (cvChanged h C.resolPars) fun i => (h i).value).sumBins = none := by
    unfold CvState.sumBins
    have hf : s2.filled = false := by
      unfold CvState.setIntegration at h2
      dsimp only at h2
      split_ifs at h2
      rw [← Option.some.inj h2]
    set sr := C.refresh s2 (cvChanged h C.modelPars) (cvChanged h C.resolPars) fun i => (h i).value with hsr
    have hv : ∀ x, sr.value x = none := by
      intro x
      unfold CvState.value
      rw [show sr.dev = some (lo, hi, step) from e3, Option.bind_some]
      dsimp only
      rw [show sr.consts = s2.consts from rfl]
      have hm : sr.modWs = s2.consts.modelWs (C.model (C.modelPars.map fun i => (h i).value)) := by
        rw [hsr]
        unfold Cv.refresh
        simp [hf]
      cases hq : convLoop sr.modWs sr.resWs (s2.consts.offset - (⟨lo, hi, step, s2.consts.lower, s2.consts.upper⟩ : ConvSetup ℝ).offsetInBins x)
        (⟨lo, hi, step, s2.consts.lower, s2.consts.upper⟩ : ConvSetup ℝ).modelBins.toNat 0 0 with
      | none => rfl
      | some r =>
        exfalso
        have hr := convLoop_reads_model _ _ _ _ _ _ _ hq
        rw [hm, modelWs_length, e2] at hr
        unfold ConvSetup.modelBins at hr
        dsimp only at hr
        have hp : 0 < ⌊(hi' - lo') / step' + 1 / 2⌋ := by
          unfold CvState.setIntegration at h2
          dsimp only at h2
          split_ifs at h2 with hq
          unfold ConvSetup.modelBins at hq
          dsimp only at hq
          omega
        omega
    rw [show sr.norm = s2.norm from rfl, e4, Option.bind_some, if_neg hb.ne', show sr.gridSize = s2.gridSize from rfl, e5]
    rw [bind_mapM_none _ _ 0 (List.mem_range.mpr hb) (hv _)]
    rfl
  dsimp only
  rw [hnone]
  rfl

/-- **C100, violation (limits changed).**  The workspaces are made for the limits the observable had when the range was set (at the
latest in the constructor).  When the upper limit is raised afterwards, no fit to data with an event a step or more above the old
limit is possible: no call returns a value. -/
theorem C100_violation_limits (C : Cv) (s s1 : CvState) (step : ℝ) (hstep : 0 < step) (kL kH kA kB : Int) (hLH : kL < kH)
    (hlow : s.lower = kA * step) (hup : s.upper = kB * step)
    (h1 : s.setIntegration (kL * step) (kH * step) step = some s1) (u : ℝ) (d : List ℝ) (x : ℝ) (hx : x ∈ d) (hx1 : s.upper + step ≤ x)
    (h : Pars ℝ) (r : ℝ × CvState) : C.calculateNLL ((s1.setUpper u).setData d) h ≠ .done r := by
  set c : ConvSetup ℝ := ⟨kL * step, kH * step, step, s.lower, s.upper⟩ with hc
  have e1 : s1.consts = c := by
    unfold CvState.setIntegration at h1
    dsimp only at h1
    split_ifs at h1
    rw [← Option.some.inj h1]
  obtain ⟨b1, -, b3, b4⟩ := aligned_bins c hstep kL kH kA kB rfl rfl hlow hup
  unfold Cv.calculateNLL
  intro hdone
  cases hn : C.normalize ((s1.setUpper u).setData d) (cvChanged h C.modelPars) (cvChanged h C.resolPars) fun i => (h i).value with
  | ub => rw [hn] at hdone; exact absurd hdone (by simp [Ran.andThen])
  | aborted => rw [hn] at hdone; exact absurd hdone (by simp [Ran.andThen])
  | done p =>
    obtain ⟨sr, tot⟩ := p
    have hsr : sr = C.refresh ((s1.setUpper u).setData d) (cvChanged h C.modelPars) (cvChanged h C.resolPars) fun i => (h i).value := by
      unfold Cv.normalize at hn
      dsimp only at hn
      split at hn
      · exact absurd hn (by simp)
      · split_ifs at hn
        injection hn with hn
        exact (congrArg Prod.fst hn).symm
    rw [hn] at hdone
    simp only [Ran.andThen] at hdone
    have hv : sr.value x = none := by
      unfold CvState.value
      have hd : sr.dev = some (c.lo, c.hi, c.step) := by
        rw [hsr]
        show some (s1.consts.lo, s1.consts.hi, s1.consts.step) = _
        rw [e1]
      rw [hd, Option.bind_some, show sr.consts = c by rw [hsr]; exact e1]
      dsimp only
      rw [show (⟨c.lo, c.hi, c.step, c.lower, c.upper⟩ : ConvSetup ℝ) = c from rfl, b1, b3, b4]
      cases hq : convLoop sr.modWs sr.resWs (kB - ⌊x / c.step⌋) (kH - kL).toNat 0 0 with
      | none => rfl
      | some r =>
        exfalso
        have hr := (convLoop_reads _ _ _ _ _ _ _ hq 0 le_rfl (by omega)).1
        have : kB + 1 ≤ ⌊x / c.step⌋ := by
          rw [Int.le_floor, le_div_iff₀ hstep]
          push_cast
          rw [add_mul, one_mul, ← hup]
          exact hx1
        omega
    have hs : sr.sumOfNll (1 / tot) = none := by
      unfold CvState.sumOfNll
      have hdat : sr.data = d := by rw [hsr]; rfl
      rw [bind_mapM_none sr.data _ x (by rw [hdat]; exact hx) (by rw [hv]; rfl)]
      rfl
    rw [hs] at hdone
    split_ifs at hdone

end

/-! ### An example -/

namespace DemoConv

/-- A constant model and a resolution with one parameter. -/
noncomputable def pdf : Cv := ⟨fun ps _ => ps.headD 0, [0], fun ps t => ps.headD 0 + t ^ 2, [1]⟩

/-- An observable from 0 to 2 with two bins; nothing done yet. -/
noncomputable def start : CvState := ⟨0, 2, 2, -1, ⟨0, 0, 0, 0, 0⟩, none, [], [], false, none, []⟩

theorem smeared_eq (a b x : ℝ) : smeared (fun _ => a) (fun t => b + t ^ 2) 0 1 1 x = a * (b + ((⌊x⌋ : ℝ) - 1 / 2) ^ 2) := by
  simp [smeared, convolution, stepEdge]

theorem total_eq (a b : ℝ) : gridIntegral1 0 2 2 (smeared (fun _ => a) (fun t => b + t ^ 2) 0 1 1) = 2 * a * (b + 1 / 4) := by
  have f0 : ⌊(1 / 2 : ℝ)⌋ = 0 := by rw [Int.floor_eq_iff]; norm_num
  have f1 : ⌊(3 / 2 : ℝ)⌋ = 1 := by rw [Int.floor_eq_iff]; norm_num
  have c0 : cellCenter (0 : ℝ) 2 2 0 = 1 / 2 := by unfold cellCenter; norm_num
  have c1 : cellCenter (0 : ℝ) 2 2 1 = 3 / 2 := by unfold cellCenter; norm_num
  unfold gridIntegral1
  simp only [List.range_succ, List.range_zero, List.nil_append, List.map_append, List.map_cons, List.map_nil, List.sum_append,
    List.sum_cons, List.sum_nil, c0, c1, smeared_eq, f0, f1]
  norm_num
  ring

theorem nll_one (a b : ℝ) (ha : 0 < a) (hb : 0 < b) :
    nllOn 0 2 2 (smeared (fun _ => a) (fun t => b + t ^ 2) 0 1 1) [1 / 2] = Real.log 2 := by
  have f0 : ⌊(1 / 2 : ℝ)⌋ = 0 := by rw [Int.floor_eq_iff]; norm_num
  unfold nllOn
  rw [total_eq]
  have hp : 0 < a * (b + (((0 : ℤ) : ℝ) - 1 / 2) ^ 2) := by positivity
  simp only [List.filter_cons, List.filter_nil, smeared_eq, f0, hp, decide_true, if_true, List.map_cons, List.map_nil, List.sum_cons,
    List.sum_nil, add_zero]
  rw [← Real.log_inv]
  congr 1
  push_cast
  field_simp
  ring

theorem nll_two : nllOn 0 2 2 (smeared (fun _ => (2 : ℝ)) (fun t => 3 / 4 + t ^ 2) 0 1 1) [1 / 2, 2] = Real.log 2 - Real.log (3 / 2) := by
  have f0 : ⌊(1 / 2 : ℝ)⌋ = 0 := by rw [Int.floor_eq_iff]; norm_num
  have f2 : ⌊(2 : ℝ)⌋ = 2 := by rw [Int.floor_eq_iff]; norm_num
  unfold nllOn
  rw [total_eq]
  simp only [List.filter_cons, List.filter_nil, smeared_eq, f0, f2]
  norm_num
  rw [show (1 / 2 : ℝ) = 2⁻¹ by norm_num, Real.log_inv]
  ring

/-- A range with steps can be set. -/
theorem set_some (s : CvState) (hi : ℝ) (h0 : s.lower = 0) (h2 : s.upper = 2) (hhi : 1 ≤ hi) :
    ∃ s1, s.setIntegration 0 hi 1 = some s1 ∧ s1.lower = s.lower ∧ s1.upper = s.upper ∧ s1.gridSize = s.gridSize := by
  refine ⟨_, if_neg ?_, rfl, rfl, rfl⟩
  unfold ConvSetup.modelBins ConvSetup.resolBins
  dsimp only
  rw [h0, h2, not_or, not_le, not_le, Int.floor_pos, Int.floor_pos]
  constructor <;> linarith

end DemoConv
open DemoConv

/-- Two data sets and three calls. -/
example (L : Lib ℝ) (l : L.Leaf) :
    let t : Pdf L := DemoConv.pdf.tree l l
    ∃ h, mnRun t DemoFit3.vars [] = some h ∧ ∃ s1 h2 s2, start.setIntegration 0 1 1 = some s1 ∧
      DemoConv.pdf.useAll t [.data [1 / 2], .call [1, 1 / 4], .call [2, 3 / 4], .data [1 / 2, 2], .call [2, 3 / 4]] h s1
        = .done ([Real.log 2, Real.log 2, Real.log 2 - Real.log (3 / 2)], h2, s2) := by
  intro t
  have hp : t.getParameters = [0, 1] := rfl
  obtain ⟨h, hh, hb⟩ : ∃ h, mnRun t DemoFit3.vars [] = some h ∧ ∀ i, (h i).blind = 0 := by
    refine ⟨_, rfl, ?_⟩
    intro i
    match i with
    | 0 => rfl
    | 1 => rfl
    | _ + 2 => rfl
  refine ⟨h, hh, ?_⟩
  have hv : ∀ (a b : ℝ), DemoConv.pdf.modelPars.map (valuesAt t.getParameters [a, b] fun i => (h i).value) = [a]
      ∧ DemoConv.pdf.resolPars.map (valuesAt t.getParameters [a, b] fun i => (h i).value) = [b] := by
    intro a b
    rw [hp]
    simp [DemoConv.pdf, valuesAt]
  have hlog : Real.log 2 ≠ 0 := (Real.log_pos (by norm_num)).ne'
  have hlog2 : Real.log 2 - Real.log (3 / 2) ≠ 0 := by
    have := Real.log_lt_log (by norm_num : (0 : ℝ) < 3 / 2) (by norm_num : (3 / 2 : ℝ) < 2)
    exact (sub_pos.mpr this).ne'
  have key := C100_likelihood_partial DemoConv.pdf (by intro ps t; simp [DemoConv.pdf]) l l [] DemoFit3.vars h hh (fun i _ => hb i)
    start 1 one_pos 0 1 0 2 (by decide) (by decide) (by simp [start]) (by simp [start]) [1 / 2]
    [.call [1, 1 / 4], .call [2, 3 / 4], .data [1 / 2, 2], .call [2, 3 / 4]]
  have hm : DemoConv.pdf.model = fun ps _ => ps.headD 0 := rfl
  have hr : DemoConv.pdf.resol = fun ps t => ps.headD 0 + t ^ 2 := rfl
  have hl : (start.lower, start.upper, start.bins, start.fineness) = (0, 2, 2, -1) := rfl
  simp only [Prod.mk.injEq] at hl
  obtain ⟨l1, l2, l3, l4⟩ := hl
  simp only [show ((DemoConv.pdf.tree l l : Pdf L)) = t from rfl] at key
  simp only [expectedNlls, hv, hm, hr, l1, l2, l3, l4, List.headD_cons, Int.cast_zero, zero_mul, Int.cast_one, one_mul,
    show ((1 : Int) - 0).toNat = 1 from rfl, show ¬ ((-1 : Int) > 0) by decide, if_false] at key
  rw [nll_one 1 (1 / 4) (by norm_num) (by norm_num), nll_one 2 (3 / 4) (by norm_num) (by norm_num), nll_two] at key
  refine key (by norm_num) ?_ ?_ ?_
  · intro d' hd x hx
    simp only [List.mem_cons, CvUse.data.injEq, reduceCtorEq, List.not_mem_nil, or_false, false_or] at hd
    rcases hd with rfl | rfl
    · simp at hx; subst hx; norm_num
    · simp at hx; rcases hx with rfl | rfl <;> norm_num
  · intro v hvm
    simp only [List.mem_cons, CvUse.call.injEq, reduceCtorEq, List.not_mem_nil, or_false, false_or] at hvm
    rw [hp]
    rcases hvm with rfl | rfl | rfl
    all_goals
      refine ⟨by simp, ?_⟩
      rw [← hp, (hv _ _).1, (hv _ _).2, List.headD_cons, List.headD_cons, total_eq]
      norm_num
  · intro r hr
    simp only [List.mem_cons, List.not_mem_nil, or_false] at hr
    rcases hr with rfl | rfl | rfl <;> assumption

/-- The range is narrowed after the data have been given. -/
example (h : Pars ℝ) : ∃ s1 s2, start.setIntegration 0 2 1 = some s1 ∧ (s1.setData [1 / 2]).setIntegration 0 1 1 = some s2
    ∧ DemoConv.pdf.calculateNLL s2 h = .ub := by
  have f2 : ⌊(2 - 0 : ℝ) / 1 + 1 / 2⌋ = 2 := by rw [Int.floor_eq_iff]; norm_num
  have f1 : ⌊(1 - 0 : ℝ) / 1 + 1 / 2⌋ = 1 := by rw [Int.floor_eq_iff]; norm_num
  obtain ⟨s1, h1, a1, a2, a3⟩ := set_some start 2 rfl rfl (by norm_num)
  obtain ⟨s2, h2, -⟩ := set_some (s1.setData [1 / 2]) 1 (a1.trans rfl) (a2.trans rfl) le_rfl
  exact ⟨s1, s2, h1, h2, C100_violation_range_after_data _ _ _ _ 0 2 0 1 1 1 _ h1 h2 (by rw [a3]; decide) (by rw [f1, f2]; decide) h⟩

/-- The upper limit is raised from 2 to 3, and there is an event at 3. -/
example (h : Pars ℝ) (r : ℝ × CvState) : ∃ s1, start.setIntegration 0 1 1 = some s1
    ∧ DemoConv.pdf.calculateNLL ((s1.setUpper 3).setData [1 / 2, 3]) h ≠ .done r := by
  obtain ⟨s1, h1, -⟩ := set_some start 1 rfl rfl le_rfl
  exact ⟨s1, h1, C100_violation_limits _ start _ 1 one_pos 0 1 0 2 (by decide) (by simp [start]) (by simp [start]) (by simpa using h1)
    3 _ 3 (by simp) (by show (2 : ℝ) + 1 ≤ 3; norm_num) h r⟩

end GooFit
