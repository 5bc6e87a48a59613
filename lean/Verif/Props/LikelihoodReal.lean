import Verif.Props.Likelihood
import Verif.Props.Integrate
import Verif.Model.LikelihoodBasic
/-!
# C86 for GooFit's own basic PDFs over the real numbers
-/
set_option autoImplicit false
namespace GooFit
open Spec FpOps

/-- **C86.** The analytic integrals of the fit function, given by parameter values and constants, are those of the constructor calls. -/
theorem C86_analytic_integrals {F : Type} [FpMath F] (a : BasicCall F) (val : Nat → F) :
    basicAnalytic a.leaf (a.params.map val) a.consts =
      if a.hasAnalyticIntegral then some (a.integrate val) else none := by
  cases a
  case argus x m s u p => cases u <;> rfl
  case trigThreshold x m s u => cases u <;> rfl
  case trigThreshold2 x m s u => cases u <;> rfl
  case expPoly x ws =>
    simp only [basicAnalytic, BasicCall.leaf, BasicCall.hasAnalyticIntegral, BasicCall.params, List.length_map,
      beq_iff_eq]
    rfl
  case expPolyOffset x ws o =>
    simp only [basicAnalytic, BasicCall.leaf, BasicCall.hasAnalyticIntegral, BasicCall.params, List.length_map,
      beq_iff_eq]
    rfl
  all_goals rfl

/-- What a basic PDF of one observable evaluates to. -/
noncomputable def basicSem (base : Lib ℝ) (T : HistTables ℝ) : LeafSem ℝ (basicLib base T) :=
  fun k ps ks os e => (allSome (os.map (at_ e))).bind (basicValue T k ps ks)

/-- A basic PDF of one observable whose value is the function `g` is what C86 asks of a leaf. -/
theorem basic_ok (base : Lib ℝ) (T : HistTables ℝ) (a : BasicCall ℝ) (ha : SoundCall a)
    (h1 : a.leaf ≠ .interHist) (h2 : a.leaf ≠ .varBin) (oid x : Nat) (norm : ℝ) (hx : a.obsArgs = [x])
    (val : Nat → ℝ) (idx : Nat → Int) (f : Nat → ℝ → ℝ) (os : List Nat) (hos : x ∈ os)
    (hf : ∀ X, basicValue T a.leaf (a.params.map val) a.consts [X] = some (f oid X)) :
    BasicOK (basicSem base T) val idx f os a.leaf (a.node base T oid norm) x := by
  have hr : registerAll [x] = [x] := rfl
  have hobs : (a.node base T oid norm).obs = [x] := by rw [node_eq, hx, hr]
  refine ⟨hobs, hos, ?_, ?_⟩
  · intro B c norm' e v hs ho hv
    have hv' : (allSome (([idx x] : List Int).map (at_ e))).bind
      (basicValue T a.leaf ((a.node base T oid norm).params.map val) (a.node base T oid norm).consts) =
        some v := hv
    rw [Option.bind_eq_some_iff] at hv'
    obtain ⟨xs, hxs, hv'⟩ := hv'
    have hlen : xs.length = 1 := by
      simpa using (congrArg List.length (allSome_get _ _ hxs)).symm
    have hshape := shape_of_call a ⟨val, idx⟩ xs ha h1 h2 (by rw [hlen, hx, hr]; rfl)
    rw [node_eq] at ho hv' ⊢
    have hd := basicDev_eq T a.leaf (view_of B c e _ _ xs _ norm' (storable_real _ _ _) ho hxs) hshape
    show basicDev T a.leaf B c e = _
    rw [hd, hv', hlen]
    rfl
  · intro e X he
    show (allSome (([idx x] : List Int).map (at_ e))).bind
      (basicValue T a.leaf ((a.node base T oid norm).params.map val) (a.node base T oid norm).consts) = _
    rw [node_eq]
    simp only [List.map_cons, List.map_nil, he, allSome]
    exact hf X

/-- `AddPdf("sum", {fr}, {&GaussianPdf("signal", o, m, σ), &ExpPdf("background", o, α)})`, over the
observable number `o` with the variables numbered `fr`, `m`, `σ`, `α`. -/
noncomputable def signalAndBackground (base : Lib ℝ) (T : HistTables ℝ) (total : Nat) (o fr m σ α : Nat) :
    Pdf ((basicLib base T).metrics Real.log total) :=
  .mk ⟨0, .add, [fr], [], [o], 1⟩
    [.mk (BasicCall.node (base.metrics Real.log total) T 1 1 (.gaussian o m σ)) [],
     .mk (BasicCall.node (base.metrics Real.log total) T 2 1 (.exp o α)) []]

/-- Observable `o` from `lo` to `hi`, everything else as it is by default. -/
noncomputable def plainSetup (base : Lib ℝ) (T : HistTables ℝ) (total : Nat) (lo hi : ℝ) (bins : Nat) :
    NormSetup ((basicLib base T).metrics Real.log total) :=
  ⟨fun _ => (lo, hi, bins), fun _ => -1, ⟨fun _ => false, fun _ => false⟩, basicAnalytic⟩

/-- `exp(-(X-m)²/2σ²)/(σ·1.4142135623730951·√π)`: what GooFit takes as the Gaussian density. -/
noncomputable def goofitGaussian (m σ X : ℝ) : ℝ :=
  Real.exp (-(X - m) ^ 2 / (2 * σ ^ 2)) / (σ * (14142135623730951 / 10000000000000000 * Real.sqrt Real.pi))

/-- The exponential density on `[lo, hi]`. -/
noncomputable def exponentialOn (lo hi α X : ℝ) : ℝ :=
  Real.exp (α * X) / ∫ u in lo..hi, Real.exp (α * u)

theorem rootPi : (FpMath.sqrt (FpMath.atan2 (lit 0) (FpMath.neg (lit 1))) : ℝ) = Real.sqrt Real.pi := by
  show Real.sqrt (Complex.arg ⟨-((1 : ℚ) : ℝ), ((0 : ℚ) : ℝ)⟩) = _
  have : (⟨-((1 : ℚ) : ℝ), ((0 : ℚ) : ℝ)⟩ : ℂ) = -1 := by
    apply Complex.ext <;> simp
  rw [this, Complex.arg_neg_one]

theorem goofitGaussian_pos (m σ X : ℝ) (h : 0 < σ) : 0 < goofitGaussian m σ X :=
  div_pos (Real.exp_pos _) (mul_pos h (mul_pos (by norm_num) (Real.sqrt_pos.2 Real.pi_pos)))

theorem exponential_pos (lo hi α : ℝ) (h : lo < hi) : 0 < ∫ u in lo..hi, Real.exp (α * u) :=
  intervalIntegral.intervalIntegral_pos_of_pos (by apply Continuous.intervalIntegrable; fun_prop)
    (fun X => Real.exp_pos _) h

/-- **C86, partial, for a signal-and-background fit.** An unbinned maximum likelihood fit of the sum of a
`GaussianPdf` and an `ExpPdf` to any `N` events: at every point the minimiser asks for, in any order and number, with
`σ > 0` and a fraction from 0 to 1, it gets minus the logarithm of the likelihood, unless that is zero.
Missing: the Gaussian is divided by its integral over the whole line, not over the range of the
observable, and `√2` has 17 digits (C38). -/
theorem C86_signal_and_background_partial (base : Lib ℝ) (T : HistTables ℝ) (x₀ : ExtSess ℝ)
    (hnd : x₀.sess.obs.Nodup) (hlen : x₀.sess.obs.length ≤ 10) (N : Nat) (value : Nat → Nat → ℝ) :
    let x := x₀.setData (some (.unbinned N value))
    x.sess.ctl = .unbinnedNll →
    ∀ (o fr m σ α bins : Nat) (lo hi : ℝ) (val₀ : Nat → ℝ) (vals : List (Nat → ℝ))
      (h₀ : Host ((basicLib base T).metrics Real.log x.sess.total)),
    o ∈ x₀.sess.obs → lo < hi → 0 < bins →
    let nll := fun v : Nat → ℝ => ((List.range N).map fun i =>
      -Real.log (v fr * goofitGaussian (v m) (v σ) (value i o) +
        (1 - v fr) * exponentialOn lo hi (v α) (value i o))).sum
    (∀ v ∈ vals, 0 < v σ ∧ 0 ≤ v fr ∧ v fr ≤ 1 ∧ nll v ≠ 0) →
    let t := signalAndBackground base T x.sess.total o fr m σ α
    ∃ s, (Machine.start Real.log x val₀ t h₀).fcnAll Real.log x (plainSetup base T x.sess.total lo hi bins) 3 t vals =
      .done (vals.map nll, s) := by
  intro x hctl o fr m σ α bins lo hi val₀ vals h₀ ho hlo hb nll hv t
  have hobs : x.sess.obs = x₀.sess.obs := rfl
  let f : (Nat → ℝ) → Nat → ℝ → ℝ := fun v oid X =>
    if oid = 1 then Real.exp (-(X - v m) ^ 2 / (2 * v σ ^ 2)) else Real.exp (v α * X)
  have hgauss : ∀ (v : Nat → ℝ), gaussianIntegrate (v σ) =
      v σ * (14142135623730951 / 10000000000000000 * Real.sqrt Real.pi) := by
    intro v
    unfold gaussianIntegrate
    rw [rootPi, real_mul, real_mul, real_lit]
    push_cast
    rfl
  have hdens : ∀ (v X : Nat → ℝ), density (plainSetup base T x.sess.total lo hi bins) v (f v) t X =
      v fr * goofitGaussian (v m) (v σ) (X o) + (1 - v fr) * exponentialOn lo hi (v α) (X o) := by
    intro v X
    show v fr * (Real.exp (-(X o - v m) ^ 2 / (2 * v σ ^ 2)) / gaussianIntegrate (v σ)) +
      ((1 - (v fr + 0)) * (Real.exp (v α * X o) / expIntegrate (v α) lo hi) + 0) = _
    rw [hgauss, show expIntegrate (v α) lo hi = _ from exp_integral ⟨v, fun _ => 0⟩ o α lo hi, add_zero, add_zero]
    rfl
  have hpos : ∀ (v : Nat → ℝ) (X : ℝ), 0 < v σ → 0 ≤ v fr → v fr ≤ 1 →
      0 < v fr * goofitGaussian (v m) (v σ) X + (1 - v fr) * exponentialOn lo hi (v α) X := by
    intro v X h1 h2 h3
    have hg := goofitGaussian_pos (v m) (v σ) X h1
    have he : 0 < exponentialOn lo hi (v α) X := div_pos (Real.exp_pos _) (exponential_pos lo hi _ hlo)
    rcases h2.lt_or_eq with h | h
    · nlinarith [mul_pos h hg, mul_nonneg (sub_nonneg.2 h3) he.le]
    · rw [← h]; simpa using he
  have hsum : ∀ v ∈ vals, ((List.range (entries (.unbinned N value))).map fun i =>
      entryTerm Real.log x.sess.ctl (.unbinned N value) i
        (density (plainSetup base T x.sess.total lo hi bins) v (f v) t (coord (.unbinned N value) i)) 0).sum = nll v := by
    intro v hmem
    obtain ⟨h1, h2, h3, -⟩ := hv v hmem
    rw [hctl]
    show ((List.range N).map _).sum = _
    congr 1
    apply List.map_congr_left
    intro i _
    show (if density _ v (f v) t (value i) > 0 then _ else _) = _
    rw [hdens, if_pos (hpos v _ h1 h2 h3)]
    exact congrArg (fun y => -Real.log y) (hdens v (value i))
  refine (fun main => ?_) (C86_every_call_partial (L := basicLib base T) Real.log x₀ hnd hlen (.unbinned N value)
    (show x.sess.ctl.binnedFit = false by rw [hctl]; rfl) (by rw [hctl]; exact ⟨by simp, by simp⟩)
    (by rw [hctl]; simp) (plainSetup base T x.sess.total lo hi bins) t h₀ 3 val₀ vals
    (show [0, 1, 2].Nodup by decide) (show 3 ≤ 3 from le_refl 3)
    (basicSem (base.metrics Real.log x.sess.total) T) f ?_)
  · obtain ⟨s, hs⟩ := main
    refine ⟨s, hs.trans ?_⟩
    congr 2
    apply List.map_congr_left
    intro v hmem
    exact (add_zero _).trans (hsum v hmem)
  · intro v hmem
    obtain ⟨h1, h2, h3, h4⟩ := hv v hmem
    refine ⟨⟨rfl, fun h => Bool.noConfusion h, ⟨rfl, o, ?_, ⟨hlo, hb⟩, ?_⟩, ⟨rfl, o, ?_, ⟨hlo, hb⟩, ?_⟩, trivial⟩,
      fun _ _ => ⟨trivial, trivial, trivial⟩, by rw [hsum v hmem]; exact h4⟩
    · refine basic_ok (base.metrics Real.log x.sess.total) T (.gaussian o m σ) trivial (by simp [BasicCall.leaf])
        (by simp [BasicCall.leaf]) 1 o 1 rfl v x.sess.idx (f v) x₀.sess.obs ho ?_
      intro X
      show some (gaussianValue X (v m) (v σ)) = some (Real.exp (-(X - v m) ^ 2 / (2 * v σ ^ 2)))
      unfold gaussianValue
      simp only [real_sub, real_mul, real_div, real_exp, real_lit]
      congr 2
      push_cast
      ring
    · show 0 < gaussianIntegrate (v σ)
      rw [hgauss]
      exact mul_pos h1 (mul_pos (by norm_num) (Real.sqrt_pos.2 Real.pi_pos))
    · exact basic_ok (base.metrics Real.log x.sess.total) T (.exp o α) trivial (by simp [BasicCall.leaf])
        (by simp [BasicCall.leaf]) 2 o 1 rfl v x.sess.idx (f v) x₀.sess.obs ho (fun X => rfl)
    · show 0 < expIntegrate (v α) lo hi
      rw [show expIntegrate (v α) lo hi = _ from exp_integral ⟨v, fun _ => 0⟩ o α lo hi]
      exact exponential_pos lo hi _ hlo

/-- The hypotheses are met by any events at all: fraction ½, mean 1, width 1, slope 0 on the range from 0 to 2 give
a likelihood below one. -/
example (base : Lib ℝ) (T : HistTables ℝ) (N : Nat) (value : Nat → Nat → ℝ) (hN : 0 < N) :
    let x₀ : ExtSess ℝ := ExtSess.fresh [0] (fun _ => -1)
    let x := x₀.setData (some (.unbinned N value))
    let v : Nat → ℝ := fun k => if k = 0 then 1/2 else if k = 3 then 0 else 1
    x₀.sess.obs.Nodup ∧ x₀.sess.obs.length ≤ 10 ∧ x.sess.ctl = .unbinnedNll ∧ 0 ∈ x₀.sess.obs ∧
    0 < v 2 ∧ 0 ≤ v 0 ∧ v 0 ≤ 1 ∧ 0 < ((List.range N).map fun i =>
      -Real.log (v 0 * goofitGaussian (v 1) (v 2) (value i 0) +
        (1 - v 0) * exponentialOn 0 2 (v 3) (value i 0))).sum := by
  intro x₀ x v
  have hsq : 1 < Real.sqrt Real.pi := by
    rw [show (1 : ℝ) = Real.sqrt 1 by simp]
    exact Real.sqrt_lt_sqrt (by norm_num) (by linarith [Real.pi_gt_three])
  have hg : ∀ X, goofitGaussian 1 1 X < 1 := by
    intro X
    unfold goofitGaussian
    rw [div_lt_one (by positivity)]
    have h1 : Real.exp (-(X - 1) ^ 2 / (2 * 1 ^ 2)) ≤ 1 := by
      rw [Real.exp_le_one_iff]
      have := sq_nonneg (X - 1)
      linarith
    linarith
  have he : ∀ X, exponentialOn 0 2 0 X = 1/2 := by
    intro X
    unfold exponentialOn
    simp
  refine ⟨by decide, by decide, rfl, by decide, by simp [v], by simp [v], by norm_num [v], ?_⟩
  have h0 : v 0 = 1/2 := rfl
  have h1 : v 1 = 1 := rfl
  have h2 : v 2 = 1 := rfl
  have h3 : v 3 = 0 := rfl
  rw [h0, h1, h2, h3]
  apply List.sum_pos
  · intro y hy
    obtain ⟨i, -, rfl⟩ := List.mem_map.1 hy
    have ha := goofitGaussian_pos 1 1 (value i 0) one_pos
    have hb := hg (value i 0)
    rw [he]
    have := Real.log_neg (show 0 < 1/2 * goofitGaussian 1 1 (value i 0) + (1 - 1/2) * (1/2) by linarith) (by linarith)
    linarith
  · intro h
    rw [List.map_eq_nil_iff, List.range_eq_nil] at h
    omega

end GooFit
