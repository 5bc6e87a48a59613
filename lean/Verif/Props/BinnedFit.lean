import Verif.Lemmas.BinnedFit
import Verif.Props.LikelihoodReal
import Verif.Props.BasicReal
/-!
# C103: fits to a histogram
-/
set_option autoImplicit false
namespace GooFit
open Spec Finset

section
variable {K : Type} [Field K] [LinearOrder K] [IsStrictOrderedRing K] [FloorRing K]
attribute [local instance] FpOps.ofField
variable {L : Lib K}

/-- what bin `i` contributes: the number of bins is taken for the number of events -/
theorem bins_formula (log : K → K) (s₀ : Sess K) (hnd : s₀.obs.Nodup) (num : Nat) (c : Nat → Nat → K) (a e v : Nat → K)
    (i : Nat) (hi : i < num) (pdf : Evt K → Option K) (norm raw : K) :
    let s := s₀.setData (some (.binned num c a e v))
    s.ctl = .binnedNll ∨ s.ctl = .binnedChisq → pdf (s.eventAt s.eventSize i) = some raw →
    s.valueAt log pdf norm s.eventSize i = some (term log s.ctl (num : K) (raw * norm) 0 (a i) (e i) (v i)) := by
  intro s hctl hraw
  have hok : s.Ok := Sess.Ok.setData _ _
  have hobs : s.obs = s₀.obs := setData_obs _ _
  have hn := hok.numbered (by rw [hobs]; exact hnd) (setData_data (some (.binned num c a e v)) s₀)
  have hN : (0 : K) < (num : K) := by
    have : 0 < num := by omega
    exact_mod_cast this
  have htot : s.total = num := rfl
  have hc : s.ctl.binnedFit = true := by rcases hctl with h | h <;> rw [h] <;> rfl
  have ha : s.array = some (binnedArray s.idx s.obs c a (if s.ctl.binErrors then e else v) num) := rfl
  obtain ⟨h0, h1⟩ := Sess.tail_of_binned hn ha hc i hi
  unfold Sess.valueAt
  rw [hraw]
  simp only [Option.bind_eq_bind, Option.bind_some]
  rw [htot]
  rcases hctl with hk | hk
  · rw [hk] at h1 ⊢
    replace h1 : s.tailAt s.eventSize i 1 = some (v i) := h1
    simp only [Control.metric, MetricKind.apply, h0, h1, Option.bind_eq_bind, Option.bind_some, term, poissonTerm]
    have hiff : ((num : K) * (raw * norm * v i) > 0) ↔ raw * norm * v i > 0 :=
      ⟨fun h => (mul_pos_iff_of_pos_left hN).1 h, fun h => mul_pos hN h⟩
    by_cases hp : raw * norm * v i > 0
    · rw [if_pos hp, if_pos (hiff.2 hp)]; rfl
    · rw [if_neg hp, if_neg (fun h => hp (hiff.1 h))]; rfl
  · rw [hk] at h1 ⊢
    replace h1 : s.tailAt s.eventSize i 1 = some (v i) := h1
    simp only [Control.metric, MetricKind.apply, h0, h1, Option.bind_eq_bind, Option.bind_some, term]
    rw [max_eq_ite_gt, sq, mul_comm (num : K)]; rfl

/-- **C103, partial**: what the minimiser gets in a fit to bins.  A tree as in C86 gets a binned dataset of `num` bins with contents `a`
and volumes `v`, in any number of observables, and a binned likelihood or chi-square fit.  At every point the minimiser asks for it gets the sum over the bins of the
fit control's formula, in which the number of *bins* stands for the number of events, plus the Poisson term of an extended sum. -/
theorem C103_calls_partial (log : K → K) (x₀ : ExtSess K) (hnd : x₀.sess.obs.Nodup) (hlen : x₀.sess.obs.length ≤ 10)
    (num : Nat) (c : Nat → Nat → K) (a e v : Nat → K) :
    let x := x₀.setData (some (.binned num c a e v))
    x.sess.ctl = .binnedNll ∨ x.sess.ctl = .binnedChisq →
    ∀ (cfg : NormSetup (L.metrics log x.sess.total)) (t : Pdf (L.metrics log x.sess.total))
      (h₀ : Host (L.metrics log x.sess.total)) (fuel : Nat) (val₀ : Nat → K) (vals : List (Nat → K)),
    ((nodes t).map Node.oid).Nodup → t.size ≤ fuel →
    ∀ (sem : LeafSem K (L.metrics log x.sess.total)) (f : (Nat → K) → Nat → K → K),
    (∀ val ∈ vals, SumProduct cfg sem val x.sess.idx (f val) x.sess.obs t ∧ (∀ i < num, DefinedAt (f val) (c i) t) ∧
      ((List.range num).map fun i =>
        term log x.sess.ctl (num : K) (density cfg val (f val) t (c i)) 0 (a i) (e i) (v i)).sum ≠ 0) →
    ∃ s, (Machine.start log x val₀ t h₀).fcnAll log x cfg fuel t vals =
      .done (vals.map fun val => ((List.range num).map fun i =>
          term log x.sess.ctl (num : K) (density cfg val (f val) t (c i)) 0 (a i) (e i) (v i)).sum +
        (match yieldsOf val t with
        | none => 0
        | some ws => ws.sum - ((List.range num).map a).sum * log ws.sum), s) := by
  intro x hctl cfg t h₀ fuel val₀ vals hobj hfuel sem f hall
  refine fcnAll_gen log x₀ hnd hlen (.binned num c a e v)
    (show x.sess.ctl.binnedFit = true by rcases hctl with h | h <;> rw [h] <;> rfl)
    (fun i p => term log x.sess.ctl (num : K) p 0 (a i) (e i) (v i)) ?_ cfg t h₀ fuel val₀ vals hobj hfuel sem f hall
  intro i hi pdf norm raw hraw
  exact bins_formula log x₀.sess hnd num c a e v i hi pdf norm raw hctl hraw

end

section
attribute [local instance] FpOps.ofField
variable {L : Lib ℝ}

theorem list_sum_range (n : Nat) (g : Nat → ℝ) : ((List.range n).map g).sum = ∑ i ∈ range n, g i := by
  induction n with
  | zero => simp
  | succ n ih => rw [List.range_succ, List.map_append, List.sum_append, ih, Finset.sum_range_succ]; simp

/-- minus the logarithm of the likelihood of the counts -/
theorem log_poisson (n : Nat) (E : Nat → ℝ) (k : Nat → Nat) (hE : ∀ b < n, 0 < E b) :
    -Real.log (poissonLikelihood n E k) =
      ∑ b ∈ range n, (E b - k b * Real.log (E b)) + ∑ b ∈ range n, Real.log (Nat.factorial (k b) : ℝ) := by
  unfold poissonLikelihood
  have hne : ∀ b ∈ range n, Real.exp (-E b) * E b ^ k b / (Nat.factorial (k b) : ℝ) ≠ 0 := by
    intro b hb
    have h1 := hE b (Finset.mem_range.1 hb)
    have h2 : (0 : ℝ) < Nat.factorial (k b) := by exact_mod_cast Nat.factorial_pos _
    positivity
  rw [Real.log_prod hne, ← Finset.sum_neg_distrib, ← Finset.sum_add_distrib]
  apply Finset.sum_congr rfl
  intro b hb
  have h1 := hE b (Finset.mem_range.1 hb)
  have h2 : (0 : ℝ) < Nat.factorial (k b) := by exact_mod_cast Nat.factorial_pos _
  rw [Real.log_div (by positivity) h2.ne', Real.log_mul (Real.exp_pos _).ne' (pow_pos h1 _).ne', Real.log_exp, Real.log_pow]
  ring

/-- the sum of the Poisson terms when `M` events are expected in all -/
theorem poisson_sum (n : Nat) (q : Nat → ℝ) (k : Nat → Nat) (M : ℝ) (hM : 0 < M) (hq : ∀ b < n, 0 < q b)
    (h1 : ∑ b ∈ range n, q b = 1) :
    ∑ b ∈ range n, (M * q b - k b * Real.log (M * q b)) =
      M - (∑ b ∈ range n, (k b : ℝ)) * Real.log M - ∑ b ∈ range n, (k b : ℝ) * Real.log (q b) := by
  have : ∀ b ∈ range n, M * q b - k b * Real.log (M * q b) =
      M * q b - (k b : ℝ) * Real.log M - (k b : ℝ) * Real.log (q b) := by
    intro b hb
    rw [Real.log_mul hM.ne' (hq b (Finset.mem_range.1 hb)).ne']
    ring
  rw [Finset.sum_congr rfl this, Finset.sum_sub_distrib, Finset.sum_sub_distrib, ← Finset.mul_sum, h1, ← Finset.sum_mul, mul_one]

/-- the value that the minimiser gets is the logarithm of the likelihood but for a constant -/
theorem binned_nll_value (n : Nat) (q : Nat → ℝ) (k : Nat → Nat) (hn : 0 < n) (hN : 0 < ∑ b ∈ range n, k b)
    (hq : ∀ b < n, 0 < q b) (h1 : ∑ b ∈ range n, q b = 1) (Y : ℝ) (hY : 0 < Y) :
    ∑ b ∈ range n, ((n : ℝ) * q b - k b * Real.log (n * q b)) + (Y - (∑ b ∈ range n, (k b : ℝ)) * Real.log Y) =
      -Real.log (poissonLikelihood n (fun b => Y * q b) k) +
        (n - (∑ b ∈ range n, (k b : ℝ)) * Real.log n - ∑ b ∈ range n, Real.log (Nat.factorial (k b) : ℝ)) := by
  rw [log_poisson n _ k (fun b hb => mul_pos hY (hq b hb)), poisson_sum n q k Y hY hq h1,
    poisson_sum n q k n (by exact_mod_cast hn) hq h1]
  ring

/-- **C103, partial**: a binned maximum likelihood fit.  A tree as in C86 gets a histogram with the counts `k`, in any number of observables; at every bin centre the density
times the volume is positive, and the sum of those over the bins is one.  Then there is a number `C` such that at every point the minimiser asks for, in any
order and number, it gets minus the logarithm of the Poisson likelihood of the counts plus `C`: the fit finds the parameters of maximum likelihood, and their errors.
The expected counts add up to the number of events, or for an extended sum to the sum of its yields. Missing: a sum of exactly zero stops the program. -/
theorem C103_likelihood_partial (x₀ : ExtSess ℝ) (hnd : x₀.sess.obs.Nodup) (hlen : x₀.sess.obs.length ≤ 10)
    (num : Nat) (c : Nat → Nat → ℝ) (a e v : Nat → ℝ) (k : Nat → Nat) (hk : ∀ i < num, a i = k i)
    (hN : 0 < ∑ i ∈ range num, k i) :
    let x := x₀.setData (some (.binned num c a e v))
    x.sess.ctl = .binnedNll →
    ∀ (cfg : NormSetup (L.metrics Real.log x.sess.total)) (t : Pdf (L.metrics Real.log x.sess.total)),
    ((nodes t).map Node.oid).Nodup →
    ∃ C : ℝ, ∀ (h₀ : Host (L.metrics Real.log x.sess.total)) (fuel : Nat) (val₀ : Nat → ℝ) (vals : List (Nat → ℝ)),
    t.size ≤ fuel →
    ∀ (sem : LeafSem ℝ (L.metrics Real.log x.sess.total)) (f : (Nat → ℝ) → Nat → ℝ → ℝ),
    let q := fun (val : Nat → ℝ) (i : Nat) => density cfg val (f val) t (c i) * v i
    let total := fun (val : Nat → ℝ) => expectedTotal val t (∑ i ∈ range num, (k i : ℝ))
    (∀ val ∈ vals, SumProduct cfg sem val x.sess.idx (f val) x.sess.obs t ∧ (∀ i < num, DefinedAt (f val) (c i) t) ∧
      (∀ i < num, 0 < q val i) ∧ ∑ i ∈ range num, q val i = 1 ∧ 0 < total val ∧
      ∑ i ∈ range num, (num * q val i - k i * Real.log (num * q val i)) ≠ 0) →
    ∃ s, (Machine.start Real.log x val₀ t h₀).fcnAll Real.log x cfg fuel t vals =
      .done (vals.map fun val => -Real.log (poissonLikelihood num (fun i => total val * q val i) k) + C, s) := by
  intro x hctl cfg t hobj
  have hn : 0 < num := by
    rcases Nat.eq_zero_or_pos num with h | h
    · subst h; simp at hN
    · exact h
  have hnR : (0 : ℝ) < num := by exact_mod_cast hn
  have hNR : (0 : ℝ) < ∑ i ∈ range num, (k i : ℝ) := by exact_mod_cast hN
  let Z : ℝ := ∑ i ∈ range num, (k i : ℝ)
  let C₀ : ℝ := num - Z * Real.log num - ∑ b ∈ range num, Real.log (Nat.factorial (k b) : ℝ)
  have hsumk : ((List.range num).map a).sum = Z := by
    rw [list_sum_range]
    exact Finset.sum_congr rfl fun i hi => hk i (Finset.mem_range.1 hi)
  refine ⟨(match t.node.fn with
    | .addExt => C₀
    | _ => C₀ - (Z - Z * Real.log Z)), ?_⟩
  intro h₀ fuel val₀ vals hfuel sem f q total hall
  have hshape : ∀ val ∈ vals, ((List.range num).map fun i =>
      term Real.log x.sess.ctl (num : ℝ) (density cfg val (f val) t (c i)) 0 (a i) (e i) (v i)).sum =
      ∑ i ∈ range num, (num * q val i - k i * Real.log (num * q val i)) := by
    intro val hv
    rw [list_sum_range]
    apply Finset.sum_congr rfl
    intro i hi
    have hi := Finset.mem_range.1 hi
    have hp : (0 : ℝ) < num * (density cfg val (f val) t (c i) * v i) := mul_pos hnR ((hall val hv).2.2.1 i hi)
    rw [hctl]
    simp only [term, poissonTerm]
    rw [if_pos hp, hk i hi]
  obtain ⟨s, hs⟩ := C103_calls_partial (L := L) Real.log x₀ hnd hlen num c a e v (Or.inl hctl) cfg t h₀ fuel val₀ vals hobj hfuel
    sem f (fun val hv => ⟨(hall val hv).1, (hall val hv).2.1, by
      have := hshape val hv
      rw [this]
      exact (hall val hv).2.2.2.2.2⟩)
  refine ⟨s, hs.trans ?_⟩
  congr 2
  apply List.map_congr_left
  intro val hv
  have h1 := hshape val hv
  obtain ⟨-, -, hq, hone, htot, -⟩ := hall val hv
  have h2 := binned_nll_value num (q val) k hn hN hq hone (total val) htot
  rw [h1]
  cases hf : t.node.fn
  case addExt =>
    have hy : yieldsOf val t = some (t.node.params.map val) := by simp only [yieldsOf, hf]
    have ht : total val = (t.node.params.map val).sum := by simp only [total, expectedTotal, hf]
    rw [hy]
    dsimp only
    rw [hsumk, ← ht]
    exact h2
  all_goals
    have hy : yieldsOf val t = none := by simp only [yieldsOf, hf]
    have ht : total val = Z := by simp only [total, expectedTotal, hf]; rfl
    rw [hy]
    rw [ht] at h2 ⊢
    simp only [Z, C₀] at h2 ⊢
    linarith

/-- **C103, partial**: a binned chi-square fit.  As `C103_likelihood_partial`, with an event in every bin and no extended sum at the root: the minimiser gets
`(num / N)²` times chi-square plus a constant, so the fit finds the parameters of least chi-square.  Missing: chi-square itself, and with it the errors of the
parameters, which come out `N / num` times too large. -/
theorem C103_chisquare_partial (x₀ : ExtSess ℝ) (hnd : x₀.sess.obs.Nodup) (hlen : x₀.sess.obs.length ≤ 10)
    (num : Nat) (c : Nat → Nat → ℝ) (a e v : Nat → ℝ) (k : Nat → Nat) (hk : ∀ i < num, a i = k i)
    (hN : 0 < num) (h1 : ∀ i < num, 1 ≤ k i) :
    let x := x₀.setData (some (.binned num c a e v))
    let N : ℝ := ∑ i ∈ range num, (k i : ℝ)
    x.sess.ctl = .binnedChisq →
    ∀ (cfg : NormSetup (L.metrics Real.log x.sess.total)) (t : Pdf (L.metrics Real.log x.sess.total)),
    ((nodes t).map Node.oid).Nodup → t.node.fn ≠ .addExt →
    ∀ (h₀ : Host (L.metrics Real.log x.sess.total)) (fuel : Nat) (val₀ : Nat → ℝ) (vals : List (Nat → ℝ)),
    t.size ≤ fuel →
    ∀ (sem : LeafSem ℝ (L.metrics Real.log x.sess.total)) (f : (Nat → ℝ) → Nat → ℝ → ℝ),
    let q := fun (val : Nat → ℝ) (i : Nat) => density cfg val (f val) t (c i) * v i
    let value := fun (val : Nat → ℝ) => (num / N) ^ 2 * chiSquare num (fun i => N * q val i) k + (num - N) ^ 2 / N
    (∀ val ∈ vals, SumProduct cfg sem val x.sess.idx (f val) x.sess.obs t ∧ (∀ i < num, DefinedAt (f val) (c i) t) ∧
      ∑ i ∈ range num, q val i = 1 ∧ value val ≠ 0) →
    ∃ s, (Machine.start Real.log x val₀ t h₀).fcnAll Real.log x cfg fuel t vals = .done (vals.map value, s) := by
  intro x N hctl cfg t hobj hfn h₀ fuel val₀ vals hfuel sem f q value hall
  have hNR : (0 : ℝ) < N := by
    apply Finset.sum_pos
    · intro i hi
      have := h1 i (Finset.mem_range.1 hi)
      exact_mod_cast this
    · exact Finset.nonempty_range_iff.2 hN.ne'
  have hshape : ∀ val ∈ vals, ((List.range num).map fun i =>
      term Real.log x.sess.ctl (num : ℝ) (density cfg val (f val) t (c i)) 0 (a i) (e i) (v i)).sum = value val := by
    intro val hv
    have hone := (hall val hv).2.2.1
    rw [list_sum_range]
    have e1 : ∀ i ∈ range num, term Real.log x.sess.ctl (num : ℝ) (density cfg val (f val) t (c i)) 0 (a i) (e i) (v i) =
        (num : ℝ) ^ 2 * (q val i ^ 2 / k i) - 2 * num * q val i + k i := by
      intro i hi
      have hi := Finset.mem_range.1 hi
      have hp : (1 : ℝ) ≤ k i := by exact_mod_cast h1 i hi
      have hk0 : (k i : ℝ) ≠ 0 := by linarith
      rw [hctl]
      simp only [term]
      rw [hk i hi, max_eq_left hp]
      field_simp
      ring
    have e2 : ∀ i ∈ range num, ((N * q val i - k i) / Real.sqrt (k i)) ^ 2 =
        N ^ 2 * (q val i ^ 2 / k i) - 2 * N * q val i + k i := by
      intro i hi
      have hp : (1 : ℝ) ≤ k i := by exact_mod_cast h1 i (Finset.mem_range.1 hi)
      have hk0 : (k i : ℝ) ≠ 0 := by linarith
      rw [div_pow, Real.sq_sqrt (by linarith)]
      field_simp
      ring
    have hv' : value val = (num / N) ^ 2 * ∑ i ∈ range num, ((N * q val i - k i) / Real.sqrt (k i)) ^ 2 + (num - N) ^ 2 / N := rfl
    rw [hv', Finset.sum_congr rfl e1, Finset.sum_congr rfl e2, Finset.sum_add_distrib, Finset.sum_add_distrib,
      Finset.sum_sub_distrib, Finset.sum_sub_distrib, ← Finset.mul_sum, ← Finset.mul_sum, ← Finset.mul_sum, ← Finset.mul_sum, hone]
    change (num : ℝ) ^ 2 * _ - 2 * num * 1 + N = (num / N) ^ 2 * (N ^ 2 * _ - 2 * N * 1 + N) + _
    field_simp
    ring
  obtain ⟨s, hs⟩ := C103_calls_partial (L := L) Real.log x₀ hnd hlen num c a e v (Or.inr hctl) cfg t h₀ fuel val₀ vals hobj hfuel
    sem f (fun val hv => ⟨(hall val hv).1, (hall val hv).2.1, by
      have := hshape val hv
      rw [this]
      exact (hall val hv).2.2.2⟩)
  refine ⟨s, hs.trans ?_⟩
  congr 2
  apply List.map_congr_left
  intro val hv
  have hy : yieldsOf val t = none := by
    unfold yieldsOf
    split
    · rename_i h; exact absurd h hfn
    · rfl
  rw [hshape val hv, hy]
  exact add_zero _

/-- an event in the range is in one bin -/
theorem countIn_one (lo hi : ℝ) (n : Nat) (hn : 0 < n) (hlo : lo < hi) (x : ℝ) (h1 : lo ≤ x) (h2 : x < hi) :
    ∑ b ∈ range n, countIn lo hi n b [x] = 1 := by
  have hnR : (0 : ℝ) < n := by exact_mod_cast hn
  have hw : (0 : ℝ) < (hi - lo) / n := div_pos (by linarith) hnR
  have h0 : 0 ≤ (x - lo) / ((hi - lo) / n) := div_nonneg (by linarith) hw.le
  have hiff : ∀ b : Nat, (lo + b * ((hi - lo) / n) ≤ x ∧ x < lo + (b + 1) * ((hi - lo) / n)) ↔
      ⌊(x - lo) / ((hi - lo) / n)⌋₊ = b := by
    intro b
    rw [Nat.floor_eq_iff h0, le_div_iff₀ hw, div_lt_iff₀ hw]
    constructor <;> rintro ⟨ha, hb⟩ <;> constructor <;> linarith
  have hlt : ⌊(x - lo) / ((hi - lo) / n)⌋₊ < n := by
    rw [Nat.floor_lt h0, div_lt_iff₀ hw]
    have : (n : ℝ) * ((hi - lo) / n) = hi - lo := by field_simp
    linarith
  have : ∀ b ∈ range n, countIn lo hi n b [x] = if ⌊(x - lo) / ((hi - lo) / n)⌋₊ = b then 1 else 0 := by
    intro b _
    unfold countIn
    rw [List.filter_cons]
    by_cases hb : ⌊(x - lo) / ((hi - lo) / n)⌋₊ = b
    · rw [if_pos hb, if_pos (by rw [decide_eq_true_eq]; exact (hiff b).2 hb)]
      rfl
    · rw [if_neg hb, if_neg (by rw [decide_eq_true_eq]; exact fun h => hb ((hiff b).1 h))]
      rfl
  rw [Finset.sum_congr rfl this, Finset.sum_ite_eq, if_pos (Finset.mem_range.2 hlt)]

theorem countIn_total (lo hi : ℝ) (n : Nat) (hn : 0 < n) (hlo : lo < hi) : ∀ xs : List ℝ, (∀ x ∈ xs, lo ≤ x ∧ x < hi) →
    ∑ b ∈ range n, countIn lo hi n b xs = xs.length
  | [], _ => by simp [countIn]
  | x :: xs, h => by
    have ih := countIn_total lo hi n hn hlo xs fun y hy => h y (by simp [hy])
    have h1 := countIn_one lo hi n hn hlo x (h x (by simp)).1 (h x (by simp)).2
    have : ∀ b ∈ range n, countIn lo hi n b (x :: xs) = countIn lo hi n b [x] + countIn lo hi n b xs :=
      fun b _ => countIn_append lo hi n b [x] xs
    rw [Finset.sum_congr rfl this, Finset.sum_add_distrib, ih, h1, List.length_cons]
    omega

/-- **C103, partial**: from events to the fit.  A `BinnedDataSet` over one observable of `n` bins is made and filled event by event with values in the observable's range; a PDF in
that observable, whose components are normalised on `n` cells, gets it for a binned likelihood fit.  Then the minimiser gets minus the logarithm of the Poisson likelihood of the numbers of
events in the bins plus a constant; the density is taken at the bin's centre, times the bin's size. -/
theorem C103_fit_partial (s0 : Store ℝ) (o n : Nat) (lo hi : ℝ) (hl : (s0 o).lower = lo) (hu : (s0 o).upper = hi)
    (hb : (s0 o).numBins = n) (hn : 0 < n) (hsmall : n < 2 ^ 31) (hlo : lo < hi) (d0 : BDS ℝ) (hd : BDS.new s0 [o] = .ok d0)
    (xs : List ℝ) (hne : xs ≠ []) (hx : ∀ x ∈ xs, lo ≤ x ∧ x < hi) (sqrt : ℝ → ℝ) (x₀ : ExtSess ℝ) (hobs : x₀.sess.obs = [o]) :
    ∃ d, readBinned sqrt (BSt.run ⟨s0, d0⟩ (xs.map fun y => .addEventV y [])).1 x₀.sess.obs = some d ∧
    let x := x₀.setData (some d)
    x.sess.ctl = .binnedNll →
    ∀ (cfg : NormSetup (L.metrics Real.log x.sess.total)) (t : Pdf (L.metrics Real.log x.sess.total)),
    (cfg.range o).1 = lo → (cfg.range o).2.1 = hi → OnCells cfg o n t → ((nodes t).map Node.oid).Nodup →
    ∃ C : ℝ, ∀ (h₀ : Host (L.metrics Real.log x.sess.total)) (fuel : Nat) (val₀ : Nat → ℝ) (vals : List (Nat → ℝ)),
    t.size ≤ fuel →
    ∀ (sem : LeafSem ℝ (L.metrics Real.log x.sess.total)) (f : (Nat → ℝ) → Nat → ℝ → ℝ),
    let pt := fun (b p : Nat) => if p = o then cellCenter lo hi n b else 0
    let E := fun (val : Nat → ℝ) (b : Nat) =>
      expectedTotal val t xs.length * (density cfg val (f val) t (pt b) * ((hi - lo) / n))
    (∀ val ∈ vals, SumProduct cfg sem val x.sess.idx (f val) x.sess.obs t ∧ (∀ b < n, DefinedAt (f val) (pt b) t) ∧
      (∀ b < n, 0 < density cfg val (f val) t (pt b)) ∧ 0 < expectedTotal val t (xs.length : ℝ) ∧
      ∑ b ∈ range n, (n * (density cfg val (f val) t (pt b) * ((hi - lo) / n)) -
        countIn lo hi n b xs * Real.log (n * (density cfg val (f val) t (pt b) * ((hi - lo) / n)))) ≠ 0) →
    ∃ s, (Machine.start Real.log x val₀ t h₀).fcnAll Real.log x cfg fuel t vals =
      .done (vals.map fun val => -Real.log (poissonLikelihood n (E val) fun b => countIn lo hi n b xs) + C, s) := by
  have h31 : getNumBins [n] = n := by
    rw [getNumBins_eq _ (by simpa using hn) (by simpa using hsmall)]
    simp
  have hd0 : d0 = { obs := [o], binsizes := [n], values := List.replicate n 0, errors := [], num := 0 } := by
    unfold BDS.new at hd
    simp only [List.map_cons, List.map_nil, hb, h31] at hd
    rw [if_pos (by omega)] at hd
    cases hd
    rfl
  have hfill₀ : Filling lo hi o n [] ⟨s0, d0⟩ := by
    refine ⟨⟨s0, [o], d0, [], hd, by simpa [hb] using hn, by simpa [hb] using hsmall, rfl⟩, by rw [hd0], by rw [hd0], hl, hu, ?_⟩
    intro b hbn
    rw [hd0]
    simp [BDS.getBinContent, countIn, hbn]
  have hfill := Filling.run xs [] _ hfill₀ hx
  rw [List.nil_append] at hfill
  obtain ⟨c, a, e, v, hr, hrow⟩ := hfill.read sqrt
  refine ⟨_, by rw [hobs]; exact hr, ?_⟩
  intro x hctl cfg t hr1 hr2 hcells hobj
  have hcount := countIn_total lo hi n hn hlo xs hx
  have hcountR : ∑ b ∈ range n, (countIn lo hi n b xs : ℝ) = xs.length := by exact_mod_cast hcount
  have hlen : 0 < xs.length := List.length_pos_iff.2 hne
  obtain ⟨C, hC⟩ := C103_likelihood_partial (L := L) x₀ (by rw [hobs]; simp) (by rw [hobs]; simp) n c a e v
    (fun b => countIn lo hi n b xs) (fun b hb => (hrow b hb).2.1) (by rw [hcount]; exact hlen) hctl cfg t hobj
  refine ⟨C, ?_⟩
  intro h₀ fuel val₀ vals hfuel sem f pt E hall
  have hdens : ∀ val : Nat → ℝ, ∀ b < n, density cfg val (f val) t (c b) * v b =
      density cfg val (f val) t (pt b) * ((hi - lo) / n) := by
    intro val b hb
    obtain ⟨e1, -, e3⟩ := hrow b hb
    rw [e1, e3]
  have hw : 0 < (hi - lo) / (n : ℝ) := div_pos (by linarith) (by exact_mod_cast hn)
  obtain ⟨s, hs⟩ := hC h₀ fuel val₀ vals hfuel sem f (by
    intro val hv
    obtain ⟨a1, a2, a3, a4, a5⟩ := hall val hv
    refine ⟨a1, ?_, ?_, ?_, ?_, ?_⟩
    · intro b hb
      rw [(hrow b hb).1]
      exact a2 b hb
    · intro b hb
      beta_reduce
      rw [hdens val b hb]
      exact mul_pos (a3 b hb) hw
    · rw [Finset.sum_congr rfl fun b hb => hdens val b (Finset.mem_range.1 hb)]
      have hone := density_cells cfg sem val x.sess.idx (f val) o n pt (by
        intro b hb
        rw [hr1, hr2]
        exact if_pos rfl) t (by
        have : x.sess.obs = [o] := hobs
        rw [this] at a1
        exact a1) hcells
      unfold cellSum at hone
      rw [hr1, hr2, list_sum_range] at hone
      exact hone
    · rw [hcountR]; exact a4
    · beta_reduce
      rw [Finset.sum_congr rfl fun b hb => by rw [hdens val b (Finset.mem_range.1 hb)]]
      exact a5)
  refine ⟨s, hs.trans ?_⟩
  congr 2
  apply List.map_congr_left
  intro val hv
  have : poissonLikelihood n (fun i => expectedTotal val t (∑ i ∈ range n, (countIn lo hi n i xs : ℝ)) *
      (density cfg val (f val) t (c i) * v i)) (fun b => countIn lo hi n b xs) =
      poissonLikelihood n (E val) fun b => countIn lo hi n b xs := by
    unfold poissonLikelihood
    apply Finset.prod_congr rfl
    intro b hb
    have : expectedTotal val t (∑ i ∈ range n, (countIn lo hi n i xs : ℝ)) * (density cfg val (f val) t (c b) * v b) = E val b := by
      rw [hcountR, hdens val b (Finset.mem_range.1 hb)]
    beta_reduce
    rw [this]
  rw [this]

end

/-- `BWPdf("signal", o, m, w)`. -/
noncomputable def resonancePdf (base : Lib ℝ) (T : HistTables ℝ) (total : Nat) (o m w : Nat) :
    Pdf ((basicLib base T).metrics Real.log total) :=
  .mk (BasicCall.node (base.metrics Real.log total) T 1 1 (.bw o m w)) []

/-- `GaussianPdf("signal", o, m, σ)`. -/
noncomputable def peakPdf (base : Lib ℝ) (T : HistTables ℝ) (total : Nat) (o m σ : Nat) :
    Pdf ((basicLib base T).metrics Real.log total) :=
  .mk (BasicCall.node (base.metrics Real.log total) T 1 1 (.gaussian o m σ)) []

/-- The Breit-Wigner function. -/
noncomputable def breitWigner (m w X : ℝ) : ℝ := w / ((X - m) ^ 2 + w ^ 2 / 4) / (2 * Real.pi)

theorem breitWigner_pos (m w X : ℝ) (h : 0 < w) : 0 < breitWigner m w X := by
  unfold breitWigner
  have := Real.pi_pos
  positivity

/-- The part of the events in bin `b`, when a Breit-Wigner function taken at the centres of the bins describes them. -/
noncomputable def resonanceShare (lo hi : ℝ) (n : Nat) (m w : ℝ) (b : Nat) : ℝ :=
  breitWigner m w (cellCenter lo hi n b) / ∑ b' ∈ range n, breitWigner m w (cellCenter lo hi n b')

theorem resonance_grid (lo hi : ℝ) (n : Nat) (m w : ℝ) : gridIntegral1 lo hi n (breitWigner m w) =
    (∑ b ∈ range n, breitWigner m w (cellCenter lo hi n b)) * ((hi - lo) / n) := by
  unfold gridIntegral1
  rw [list_sum_range, Finset.sum_mul]

theorem resonance_sum_pos (lo hi : ℝ) (n : Nat) (hn : 0 < n) (m w : ℝ) (h : 0 < w) :
    0 < ∑ b ∈ range n, breitWigner m w (cellCenter lo hi n b) :=
  Finset.sum_pos (fun b _ => breitWigner_pos _ _ _ h) (Finset.nonempty_range_iff.2 hn.ne')

theorem resonance_density (base : Lib ℝ) (T : HistTables ℝ) (total o m w : Nat) (lo hi : ℝ) (n : Nat) (hlo : lo < hi) (hn : 0 < n)
    (v : Nat → ℝ) (b : Nat) :
    density (plainSetup base T total lo hi n) v (fun _ X => breitWigner (v m) (v w) X) (resonancePdf base T total o m w)
      (fun p => if p = o then cellCenter lo hi n b else 0) * ((hi - lo) / n) = resonanceShare lo hi n (v m) (v w) b := by
  have hw : 0 < (hi - lo) / (n : ℝ) := div_pos (by linarith) (by exact_mod_cast hn)
  show breitWigner (v m) (v w) (if o = o then cellCenter lo hi n b else 0) / gridIntegral1 lo hi n (breitWigner (v m) (v w)) * _ = _
  rw [if_pos rfl, resonance_grid]
  unfold resonanceShare
  rw [div_mul_eq_mul_div, mul_div_mul_right _ _ hw.ne']

theorem resonance_ok (base : Lib ℝ) (T : HistTables ℝ) (total o m w : Nat) (lo hi : ℝ) (n : Nat) (hlo : lo < hi) (hn : 0 < n)
    (v : Nat → ℝ) (h1 : 0 < v w) (idx : Nat → Int) (os : List Nat) (ho : o ∈ os) :
    SumProduct (plainSetup base T total lo hi n) (basicSem (base.metrics Real.log total) T) v idx
      (fun _ X => breitWigner (v m) (v w) X) os (resonancePdf base T total o m w) := by
  have hw : 0 < (hi - lo) / (n : ℝ) := div_pos (by linarith) (by exact_mod_cast hn)
  refine ⟨rfl, o, ?_, ⟨hlo, hn⟩, ?_⟩
  · refine basic_ok (base.metrics Real.log total) T (.bw o m w) trivial (by simp [BasicCall.leaf])
      (by simp [BasicCall.leaf]) 1 o 1 rfl v idx _ os ho ?_
    intro X
    show some (bwValue X (v m) (v w)) = some (breitWigner (v m) (v w) X)
    unfold bwValue breitWigner
    simp only [real_sub, real_mul, real_div, real_add, real_lit]
    push_cast
    rw [real_pi]
    congr 1
    rw [show (-2 : ℝ) * -(Real.pi / 2) = Real.pi by ring, ← sq, ← sq]
  · show 0 < gridIntegral1 lo hi n (breitWigner (v m) (v w))
    rw [resonance_grid]
    exact mul_pos (resonance_sum_pos lo hi n hn _ _ h1) hw

/-- The hypotheses of `C103_chisquare_partial` are met: a `BWPdf` and the counts 1 and 2 in the two bins from -1 to 1, at any mass and positive width. -/
example (base : Lib ℝ) (T : HistTables ℝ) (v : Nat → ℝ) (h : 0 < v 1) :
    let a : Nat → ℝ := fun i => ((i + 1 : Nat) : ℝ)
    let x₀ : ExtSess ℝ := { ExtSess.fresh [0] (fun _ => -1) with
      sess := (ExtSess.fresh [0] (fun _ => -1) : ExtSess ℝ).sess.setFitControl .binnedChisq }
    let x := x₀.setData (some (.binned 2 (fun b p => if p = 0 then cellCenter (-1) 1 2 b else 0) a (fun _ => 1) (fun _ => 1)))
    let t := resonancePdf base T x.sess.total 0 0 1
    let cfg := plainSetup base T x.sess.total (-1) 1 2
    let q := fun i => density cfg v (fun _ X => breitWigner (v 0) (v 1) X) t (fun p => if p = 0 then cellCenter (-1) 1 2 i else 0) * 1
    x.sess.ctl = .binnedChisq ∧ ((nodes t).map Node.oid).Nodup ∧ t.node.fn ≠ .addExt ∧ t.size = 1 ∧
    SumProduct cfg (basicSem (base.metrics Real.log x.sess.total) T) v x.sess.idx (fun _ X => breitWigner (v 0) (v 1) X) x.sess.obs t ∧
    ∑ i ∈ range 2, q i = 1 ∧
    ((2 : Nat) / (3 : ℝ)) ^ 2 * chiSquare 2 (fun i => 3 * q i) (fun i => i + 1) + ((2 : Nat) - 3) ^ 2 / 3 ≠ 0 := by
  intro a x₀ x t cfg q
  have hq : ∀ i, q i = resonanceShare (-1) 1 2 (v 0) (v 1) i := by
    intro i
    have := resonance_density base T x.sess.total 0 0 1 (-1) 1 2 (by norm_num) (by norm_num) v i
    norm_num at this
    show density _ v _ _ _ * 1 = _
    rw [mul_one]
    exact this
  refine ⟨rfl, (show [1].Nodup by decide), (fun h => by cases h), rfl,
    resonance_ok base T x.sess.total 0 0 1 (-1) 1 2 (by norm_num) (by norm_num) v h x.sess.idx x.sess.obs (by decide), ?_, ?_⟩
  · rw [Finset.sum_congr rfl fun i _ => hq i]
    unfold resonanceShare
    rw [← Finset.sum_div]
    exact div_self (resonance_sum_pos (-1) 1 2 (by norm_num) _ _ h).ne'
  · have : 0 ≤ chiSquare 2 (fun i => 3 * q i) (fun i => i + 1) := Finset.sum_nonneg fun i _ => sq_nonneg _
    have : 0 < ((2 : Nat) / (3 : ℝ)) ^ 2 * chiSquare 2 (fun i => 3 * q i) (fun i => i + 1) + ((2 : Nat) - 3) ^ 2 / 3 := by
      have h2 : (0 : ℝ) < ((2 : Nat) - 3) ^ 2 / 3 := by norm_num
      positivity
    exact this.ne'

/-- **C103, partial, for a Breit-Wigner fit.**  A `BinnedDataSet` over one observable is filled event by event and a `BWPdf` is fitted to it: at every mass and positive width the
minimiser asks for, it gets minus the logarithm of the Poisson likelihood of the numbers of events in the bins plus a constant. Missing: as `C103_likelihood_partial`. -/
theorem C103_resonance_partial (base : Lib ℝ) (T : HistTables ℝ) (s0 : Store ℝ) (o n : Nat) (lo hi : ℝ) (hl : (s0 o).lower = lo)
    (hu : (s0 o).upper = hi) (hb : (s0 o).numBins = n) (hn : 0 < n) (hsmall : n < 2 ^ 31) (hlo : lo < hi) (d0 : BDS ℝ)
    (hd : BDS.new s0 [o] = .ok d0) (xs : List ℝ) (hne : xs ≠ []) (hx : ∀ x ∈ xs, lo ≤ x ∧ x < hi) (sqrt : ℝ → ℝ)
    (x₀ : ExtSess ℝ) (hobs : x₀.sess.obs = [o]) :
    ∃ d, readBinned sqrt (BSt.run ⟨s0, d0⟩ (xs.map fun y => .addEventV y [])).1 x₀.sess.obs = some d ∧
    let x := x₀.setData (some d)
    x.sess.ctl = .binnedNll → ∀ m w : Nat,
    let t := resonancePdf base T x.sess.total o m w
    ∃ C : ℝ, ∀ (h₀ : Host ((basicLib base T).metrics Real.log x.sess.total)) (val₀ : Nat → ℝ) (vals : List (Nat → ℝ)),
    (∀ v ∈ vals, 0 < v w ∧ ∑ b ∈ range n, (n * resonanceShare lo hi n (v m) (v w) b -
        countIn lo hi n b xs * Real.log (n * resonanceShare lo hi n (v m) (v w) b)) ≠ 0) →
    ∃ s, (Machine.start Real.log x val₀ t h₀).fcnAll Real.log x (plainSetup base T x.sess.total lo hi n) 1 t vals =
      .done (vals.map fun v => -Real.log (poissonLikelihood n (fun b => xs.length * resonanceShare lo hi n (v m) (v w) b)
        fun b => countIn lo hi n b xs) + C, s) := by
  obtain ⟨d, hr, main⟩ := C103_fit_partial (L := basicLib base T) s0 o n lo hi hl hu hb hn hsmall hlo d0 hd xs hne hx sqrt x₀ hobs
  refine ⟨d, hr, ?_⟩
  intro x hctl m w t
  obtain ⟨C, hC⟩ := main hctl (plainSetup base T x.sess.total lo hi n) t rfl rfl
    ⟨fun ps => rfl, rfl⟩ (show [1].Nodup by decide)
  refine ⟨C, ?_⟩
  intro h₀ val₀ vals hall
  have hxo : x.sess.obs = [o] := (setData_obs (some d) x₀.sess).trans hobs
  let f : (Nat → ℝ) → Nat → ℝ → ℝ := fun v _ X => breitWigner (v m) (v w) X
  have hw : 0 < (hi - lo) / (n : ℝ) := div_pos (by linarith) (by exact_mod_cast hn)
  have hdens : ∀ (v : Nat → ℝ) (b : Nat), density (plainSetup base T x.sess.total lo hi n) v (f v) t
      (fun p => if p = o then cellCenter lo hi n b else 0) * ((hi - lo) / n) = resonanceShare lo hi n (v m) (v w) b :=
    fun v b => resonance_density base T x.sess.total o m w lo hi n hlo hn v b
  have htot : ∀ v, expectedTotal v t (xs.length : ℝ) = xs.length := fun v => rfl
  obtain ⟨s, hs⟩ := hC h₀ 1 val₀ vals (show 1 ≤ 1 from le_refl 1) (basicSem (base.metrics Real.log x.sess.total) T) f (by
    intro v hv
    obtain ⟨h1, h2⟩ := hall v hv
    have hpd : ∀ b < n, 0 < density (plainSetup base T x.sess.total lo hi n) v (f v) t
        (fun p => if p = o then cellCenter lo hi n b else 0) := by
      intro b hb
      have h3 : 0 < resonanceShare lo hi n (v m) (v w) b :=
        div_pos (breitWigner_pos _ _ _ h1) (resonance_sum_pos lo hi n hn _ _ h1)
      rw [← hdens v b] at h3
      exact (mul_pos_iff_of_pos_right hw).1 h3
    refine ⟨resonance_ok base T x.sess.total o m w lo hi n hlo hn v h1 x.sess.idx x.sess.obs (by rw [hxo]; simp),
      fun _ _ => trivial, hpd, ?_, ?_⟩
    · rw [htot]
      exact_mod_cast List.length_pos_iff.2 hne
    · rw [Finset.sum_congr rfl fun b _ => by rw [hdens v b]]
      exact h2)
  refine ⟨s, hs.trans ?_⟩
  congr 2
  apply List.map_congr_left
  intro v hv
  have : (fun b => expectedTotal v t (xs.length : ℝ) * (density (plainSetup base T x.sess.total lo hi n) v (f v) t
      (fun p => if p = o then cellCenter lo hi n b else 0) * ((hi - lo) / n))) =
      fun b => xs.length * resonanceShare lo hi n (v m) (v w) b := by
    funext b
    rw [htot, hdens v b]
  exact congrArg (fun E => -Real.log (poissonLikelihood n E fun b => countIn lo hi n b xs) + C) this

/-- The hypotheses are met: two events, one in each of the two bins from -1 to 1, at any mass and positive width. -/
example (v : Nat → ℝ) (h : 0 < v 1) :
    let s0 : Store ℝ := fun _ => ⟨0, -1, 1, 2, false⟩
    (∃ d0, BDS.new s0 [0] = .ok d0) ∧ (ExtSess.fresh [0] (fun _ => -1) : ExtSess ℝ).sess.obs = [0] ∧
    (∀ x ∈ [(-1 / 2 : ℝ), 1 / 2], -1 ≤ x ∧ x < 1) ∧
    countIn (-1) 1 2 0 [-1 / 2, 1 / 2] = 1 ∧ countIn (-1) 1 2 1 [-1 / 2, 1 / 2] = 1 ∧
    ∑ b ∈ range 2, (((2 : Nat) : ℝ) * resonanceShare (-1) 1 2 (v 0) (v 1) b -
      countIn (-1) 1 2 b [-1 / 2, 1 / 2] * Real.log (((2 : Nat) : ℝ) * resonanceShare (-1) 1 2 (v 0) (v 1) b)) ≠ 0 := by
  have c0 : countIn (-1) 1 2 0 [-1 / 2, 1 / 2] = 1 := by
    unfold countIn
    norm_num [List.filter_cons]
  have c1 : countIn (-1) 1 2 1 [-1 / 2, 1 / 2] = 1 := by
    unfold countIn
    norm_num [List.filter_cons]
  refine ⟨⟨_, rfl⟩, rfl, ?_, c0, c1, ?_⟩
  · intro x hx
    rcases List.mem_cons.1 hx with rfl | hx
    · norm_num
    · obtain rfl : x = 1 / 2 := by simpa using hx
      norm_num
  · rw [Finset.sum_range_succ, Finset.sum_range_one, c0, c1]
    unfold resonanceShare
    rw [Finset.sum_range_succ, Finset.sum_range_one]
    have a := breitWigner_pos (v 0) (v 1) (cellCenter (-1) 1 2 0) h
    have b := breitWigner_pos (v 0) (v 1) (cellCenter (-1) 1 2 1) h
    set A := breitWigner (v 0) (v 1) (cellCenter (-1) 1 2 0)
    set B := breitWigner (v 0) (v 1) (cellCenter (-1) 1 2 1)
    have hA : A / (A + B) < 1 := by rw [div_lt_one (by linarith)]; linarith
    have hB : B / (A + B) < 1 := by rw [div_lt_one (by linarith)]; linarith
    have hA0 : 0 < A / (A + B) := by positivity
    have hB0 : 0 < B / (A + B) := by positivity
    have hS : A / (A + B) + B / (A + B) = 1 := by field_simp
    have l2 : Real.log 2 < 1 := by
      have := Real.log_lt_sub_one_of_pos (show (0 : ℝ) < 2 by norm_num) (by norm_num)
      linarith
    have lA : Real.log (2 * (A / (A + B))) < Real.log 2 := Real.log_lt_log (by linarith) (by linarith)
    have lB : Real.log (2 * (B / (A + B))) < Real.log 2 := Real.log_lt_log (by linarith) (by linarith)
    push_cast
    have : 0 < 2 * (A / (A + B)) - 1 * Real.log (2 * (A / (A + B))) + (2 * (B / (A + B)) - 1 * Real.log (2 * (B / (A + B)))) := by
      linarith
    exact this.ne'

/-- **C103 (violated by the code).** A `GaussianPdf`, which is divided by its integral over the whole line, is fitted to a histogram of one bin of size one that holds two events.  The fit function prefers
a width that is half the most likely one: the number of bins stands for the number of events, and nothing holds the normalisation in place. -/
theorem C103_violation_analytic_integral (base : Lib ℝ) (T : HistTables ℝ) (x₀ : ExtSess ℝ) (hobs : x₀.sess.obs = [0]) :
    let x := x₀.setData (some (.binned 1 (fun _ _ => 0) (fun _ => 2) (fun _ => 1) (fun _ => 1)))
    x.sess.ctl = .binnedNll →
    let t := peakPdf base T x.sess.total 0 0 1
    let width := fun (σ : ℝ) (k : Nat) => if k = 1 then σ else 0
    ∃ σ : ℝ, 0 < σ ∧
    (∀ (h₀ : Host ((basicLib base T).metrics Real.log x.sess.total)) (val₀ : Nat → ℝ), ∃ a b s, a < b ∧
      (Machine.start Real.log x val₀ t h₀).fcnAll Real.log x (plainSetup base T x.sess.total (-1 / 2) (1 / 2) 1) 1 t
        [width (σ / 2), width σ] = .done ([a, b], s)) ∧
    poissonLikelihood 1 (fun _ => 2 * goofitGaussian 0 (σ / 2) 0) (fun _ => 2) <
      poissonLikelihood 1 (fun _ => 2 * goofitGaussian 0 σ 0) (fun _ => 2) := by
  intro x hctl t width
  have hs : 0 < 14142135623730951 / 10000000000000000 * Real.sqrt Real.pi :=
    mul_pos (by norm_num) (Real.sqrt_pos.2 Real.pi_pos)
  set c := 14142135623730951 / 10000000000000000 * Real.sqrt Real.pi with hc
  have hg : ∀ σ : ℝ, 0 < σ → goofitGaussian 0 σ 0 = 1 / (σ * c) := by
    intro σ hσ
    unfold goofitGaussian
    simp [hc]
  have h1 : goofitGaussian 0 (1 / c) 0 = 1 := by
    rw [hg _ (by positivity)]
    field_simp
  have h2 : goofitGaussian 0 (1 / c / 2) 0 = 2 := by
    rw [hg _ (by positivity)]
    field_simp
  have hlow : Real.log 2 < 1 := by
    have := Real.log_lt_sub_one_of_pos (show (0 : ℝ) < 2 by norm_num) (by norm_num)
    linarith
  have hhigh : 1 / 2 < Real.log 2 := by
    have := Real.log_lt_sub_one_of_pos (show (0 : ℝ) < 1 / 2 by norm_num) (by norm_num)
    rw [one_div, Real.log_inv] at this
    linarith
  refine ⟨1 / c, by positivity, ?_, ?_⟩
  · intro h₀ val₀
    let f : (Nat → ℝ) → Nat → ℝ → ℝ := fun v _ X => Real.exp (-(X - v 0) ^ 2 / (2 * v 1 ^ 2))
    have hgauss : ∀ (v : Nat → ℝ), gaussianIntegrate (v 1) = v 1 * c := by
      intro v
      unfold gaussianIntegrate
      rw [rootPi, real_mul, real_mul, real_lit]
      push_cast
      rfl
    have hdens : ∀ (σ : ℝ), density (plainSetup base T x.sess.total (-1 / 2) (1 / 2) 1) (width σ) (f (width σ)) t (fun _ => 0) =
        goofitGaussian 0 σ 0 := by
      intro σ
      show Real.exp (-(0 - 0) ^ 2 / (2 * σ ^ 2)) / gaussianIntegrate (width σ 1) = _
      rw [hgauss]
      rfl
    have hval : ∀ σ : ℝ, 0 < goofitGaussian 0 σ 0 → ((List.range 1).map fun i =>
        term Real.log x.sess.ctl ((1 : Nat) : ℝ) (density (plainSetup base T x.sess.total (-1 / 2) (1 / 2) 1) (width σ)
          (f (width σ)) t (fun _ => 0)) 0 2 1 1).sum = goofitGaussian 0 σ 0 - 2 * Real.log (goofitGaussian 0 σ 0) := by
      intro σ hσ
      have : x.sess.ctl = .binnedNll := hctl
      rw [hdens, this]
      simp [term, poissonTerm, hσ]
    have hok : ∀ σ : ℝ, 0 < σ → SumProduct (plainSetup base T x.sess.total (-1 / 2) (1 / 2) 1)
        (basicSem (base.metrics Real.log x.sess.total) T) (width σ) x.sess.idx (f (width σ)) x.sess.obs t := by
      intro σ hσ
      have hxo : x.sess.obs = [0] := hobs
      refine ⟨rfl, 0, ?_, ⟨by show (-1 / 2 : ℝ) < 1 / 2; norm_num, by show 0 < 1; norm_num⟩, ?_⟩
      · refine basic_ok (base.metrics Real.log x.sess.total) T (.gaussian 0 0 1) trivial (by simp [BasicCall.leaf])
          (by simp [BasicCall.leaf]) 1 0 1 rfl (width σ) x.sess.idx (f (width σ)) x.sess.obs (by rw [hxo]; simp) ?_
        intro X
        show some (gaussianValue X (width σ 0) (width σ 1)) = some (Real.exp (-(X - width σ 0) ^ 2 / (2 * width σ 1 ^ 2)))
        unfold gaussianValue
        simp only [real_sub, real_mul, real_div, real_exp, real_lit]
        congr 2
        push_cast
        ring
      · show 0 < gaussianIntegrate (width σ 1)
        rw [hgauss]
        exact mul_pos hσ hs
    have v1 := hval (1 / c / 2) (by rw [h2]; norm_num)
    have v2 := hval (1 / c) (by rw [h1]; norm_num)
    rw [h2] at v1
    rw [h1, Real.log_one] at v2
    obtain ⟨s, hs⟩ := C103_calls_partial (L := basicLib base T) Real.log x₀ (by rw [hobs]; simp) (by rw [hobs]; simp) 1 (fun _ _ => 0)
      (fun _ => 2) (fun _ => 1) (fun _ => 1) (Or.inl hctl) (plainSetup base T x.sess.total (-1 / 2) (1 / 2) 1) t h₀ 1 val₀
      [width (1 / c / 2), width (1 / c)] (show [1].Nodup by decide) (show 1 ≤ 1 from le_refl 1)
      (basicSem (base.metrics Real.log x.sess.total) T) f (by
        intro v hv
        rcases List.mem_cons.1 hv with rfl | hv
        · exact ⟨hok _ (by positivity), fun _ _ => trivial, fun h => by
            have := v1.symm.trans h
            linarith⟩
        · obtain rfl : v = width (1 / c) := by simpa using hv
          exact ⟨hok _ (by positivity), fun _ _ => trivial, fun h => by
            have := v2.symm.trans h
            linarith⟩)
    refine ⟨2 - 2 * Real.log 2, 1, s, by linarith, hs.trans ?_⟩
    have w1 := (add_zero _).trans v1
    have w2 := (add_zero _).trans (v2.trans (show (1 : ℝ) - 2 * 0 = 1 by norm_num))
    congr 2
    exact congrArg₂ (fun a b => [a, b]) w1 w2
  · rw [h1, h2]
    unfold poissonLikelihood
    simp only [Finset.prod_range_one]
    have : Real.exp (-(2 * 2)) * 4 < Real.exp (-(2 * 1)) := by
      have h4 : (4 : ℝ) = Real.exp (2 * Real.log 2) := by
        rw [two_mul, Real.exp_add, Real.exp_log (by norm_num)]
        norm_num
      rw [h4, ← Real.exp_add]
      exact Real.exp_lt_exp.2 (by linarith)
    norm_num at this ⊢
    linarith

namespace Demo

/-- Four bins of size one from 0 to 4 with the contents 0, 0, 5, 2. -/
def bfCounts (i : Nat) : ℚ := if i = 2 then 5 else if i = 3 then 2 else 0
/-- The data. -/
def bfData : Data ℚ := .binned 4 (fun i _ => i + 1 / 2) bfCounts (fun _ => 1) (fun _ => 1)
/-- The session of a chi-square fit. -/
def bfSess : ExtSess ℚ :=
  let x : ExtSess ℚ := ExtSess.fresh [0] (fun _ => -1)
  ({ x with sess := x.sess.setFitControl .binnedChisq }).setData (some bfData)
/-- The demo library with the metrics. -/
abbrev bfLib : Lib ℚ := lib.metrics lhLog bfSess.sess.total
/-- Observable 0 from 0 to 4 in four bins. -/
def bfCfg : NormSetup bfLib := ⟨fun _ => (0, 4, 4), fun _ => -1, ⟨fun _ => false, fun _ => false⟩, fun _ _ _ => none⟩
/-- `AddPdf(v0; lin, ProdPdf(lin, val))`: the densities are `X/8` and `X²/21`. -/
def bfTree : Pdf bfLib :=
  .mk ⟨0, .add, [0], [], [0], 1⟩ [.mk ⟨1, .leaf Leaf.lin, [1], [], [0], 1⟩ [],
    .mk ⟨2, .prod, [], [2], [0], 1⟩ [.mk ⟨3, .leaf Leaf.lin, [1], [], [0], 1⟩ [], .mk ⟨4, .leaf Leaf.val, [], [], [0], 1⟩ []]]
/-- Nothing in the arrays. -/
def bfHost : Host bfLib := ⟨⟨[], [], [], []⟩, [], fun _ => ⟨0, 0, 0, 0, 0⟩⟩
/-- Fraction of the linear component times the density of each bin. -/
def bfDensity (fr : ℚ) (i : Nat) : ℚ := fr * ((i + 1 / 2) / 8) + (1 - fr) * ((i + 1 / 2) ^ 2 / 21)

end Demo

/-- **C103 (violated by the code).** A chi-square fit with empty bins does not find the parameters of least chi-square: the counts are 0, 0, 5, 2 and the densities
`X/8` and `X²/21`.  Chi-square prefers the fraction 1 to the fraction 0, whether empty bins are left out or count with error one; the fit function prefers 0. -/
theorem C103_violation_empty_bins :
    let code := (Machine.start Demo.lhLog Demo.bfSess (Demo.lhPoint 0 1) Demo.bfTree Demo.bfHost).fcnAll Demo.lhLog Demo.bfSess
      Demo.bfCfg 5 Demo.bfTree [Demo.lhPoint 0 1, Demo.lhPoint 1 1]
    let chisq := fun fr : ℚ => ((List.range 4).map fun i =>
      (7 * Demo.bfDensity fr i - Demo.bfCounts i) ^ 2 / max (Demo.bfCounts i) 1).sum
    let chisqFilled := fun fr : ℚ => (([2, 3] : List Nat).map fun i =>
      (7 * Demo.bfDensity fr i - Demo.bfCounts i) ^ 2 / Demo.bfCounts i).sum
    (∃ a b, code.numbers = some [a, b] ∧ a < b) ∧ chisq 1 < chisq 0 ∧ chisqFilled 1 < chisqFilled 0 := by
  refine ⟨?_, by decide +kernel, by decide +kernel⟩
  refine ⟨(((Machine.start Demo.lhLog Demo.bfSess (Demo.lhPoint 0 1) Demo.bfTree Demo.bfHost).fcnAll Demo.lhLog Demo.bfSess
      Demo.bfCfg 5 Demo.bfTree [Demo.lhPoint 0 1, Demo.lhPoint 1 1]).numbers.getD [])[0]?.getD 0,
    (((Machine.start Demo.lhLog Demo.bfSess (Demo.lhPoint 0 1) Demo.bfTree Demo.bfHost).fcnAll Demo.lhLog Demo.bfSess
      Demo.bfCfg 5 Demo.bfTree [Demo.lhPoint 0 1, Demo.lhPoint 1 1]).numbers.getD [])[1]?.getD 0, ?_, ?_⟩ <;> decide +kernel

end GooFit
