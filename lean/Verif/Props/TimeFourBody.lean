import Verif.Lemmas.TimeFourBodyRun
import Verif.Props.TimeDalitz
import Verif.Props.Utils

/-!
# C67 and C68: time-dependent four-body amplitudes
-/

set_option autoImplicit false

namespace GooFit

open Spec MeasureTheory

section
variable {A S V T P Ev : Type} [DecidableEq A] [DecidableEq S] [DecidableEq V] [DecidableEq T]

theorem T4.coherent_comm (m : T4 A S V T P Ev) (p : P) (ev : Ev) :
    m.coherent p ev m.ampsA * (m.value p m.rate : ℂ) = m.decayA p ev := by unfold T4.decayA; ring

theorem T4.sumB_decay (m : T4 A S V T P Ev) (hA : m.ampsA.Nodup) (hB : m.ampsB.Nodup) (p : P) (ev : Ev) :
    T4.sumB (fun a => (⟨m.value p a.ar, m.value p a.ai⟩ : ℂ) * m.ampAt p ev a) m.comps = m.decayB p ev :=
  m.sumB_nodup hA hB _

theorem T4.run_append_eval (m : T4 A S V T P Ev) (ops : List (T4.Op A P Ev)) (c : A → Bool) (p : P) :
    m.run (ops ++ [.eval c p]) = (m.normalize c p (m.run ops)).2 := by
  unfold T4.run
  rw [List.foldl_append]
  rfl

/-- **C67.**  Take two lists of amplitudes, each without repetitions; an amplitude may be in both, and amplitudes may share
line shapes and spin factors in any way.  After every history of data, evaluations with honest marks, forced
recomputations and generation of events, the value at every event is the efficiency times what the decay-time resolution
makes of the two coherent sums, all at the current values of the parameters. -/
theorem C67_value_partial (m : T4 A S V T P Ev) (hA : m.ampsA.Nodup) (hB : m.ampsB.Nodup) (ops : List (T4.Op A P Ev))
    (c : A → Bool) (p : P) (hh : m.HonestFrom none (ops ++ [.eval c p])) (e : Nat) :
    m.valueAt p (m.run (ops ++ [.eval c p])) e = ((T4.currentData [] ops)[e]?).map fun ev =>
      m.efficiency p ev * m.res p (‖m.decayA p ev.1‖ ^ 2 + ‖m.decayB p ev.1‖ ^ 2) (‖m.decayA p ev.1‖ ^ 2 - ‖m.decayB p ev.1‖ ^ 2)
        (m.decayA p ev.1 * starRingEnd ℂ (m.decayB p ev.1)).re (m.decayA p ev.1 * starRingEnd ℂ (m.decayB p ev.1)).im
        (m.value p m.tau) ev.2.1 (m.value p m.x) (m.value p m.y) ev.2.2 := by
  rw [T4.honest_append] at hh
  obtain ⟨hi, hd, _, _⟩ := m.run_inv ops none T4.init (m.force_inv _ _ rfl) hh.1
  have hf : m.FreshAt p (m.normalize c p (m.run ops)).2 := m.normalize_fresh _ _ c p hi hh.2.1
  have hdata : (m.normalize c p (m.run ops)).2.data = T4.currentData [] ops := hd
  rw [m.run_append_eval]
  unfold T4.valueAt
  rw [← hdata]
  cases he : (m.normalize c p (m.run ops)).2.data[e]? with
  | none => rfl
  | some ev =>
    simp only [Option.map_some, Option.some.injEq]
    rw [m.event_sums p _ hf e ev he, m.coherent_comm, m.sumB_decay hA hB]
    unfold resolve
    simp only [(m.par_first p).1, (m.par_first p).2.1, (m.par_first p).2.2.1, Complex.normSq_eq_norm_sq]
    ring

/-- **C67 (rate).**  With perfect time resolution this is the efficiency times the rate of a mixing meson. -/
theorem C67_rate_partial (m : T4 A S V T P Ev) (hA : m.ampsA.Nodup) (hB : m.ampsB.Nodup) (ops : List (T4.Op A P Ev))
    (c : A → Bool) (p : P) (hh : m.HonestFrom none (ops ++ [.eval c p])) (hres : m.res p = truthRes) (e : Nat) :
    m.valueAt p (m.run (ops ++ [.eval c p])) e = ((T4.currentData [] ops)[e]?).map fun ev =>
      m.efficiency p ev * decayRate (m.decayA p ev.1) (m.decayB p ev.1) (m.value p m.tau) (m.value p m.x) (m.value p m.y)
        ev.2.1 := by
  rw [C67_value_partial m hA hB ops c p hh e]
  cases (T4.currentData [] ops)[e]? with
  | none => rfl
  | some ev =>
    simp only [Option.map_some, Option.some.injEq]
    rw [hres, ← C62_rate]
    simp only [Complex.normSq_eq_norm_sq]
    rfl

/-! ### Normalisation -/

theorem truthNormalization_sum {β : Type} (l : List β) (f1 f2 f3 f4 : β → ℝ) (τ x y : ℝ) :
    truthNormalization (l.map f1).sum (l.map f2).sum (l.map f3).sum (l.map f4).sum τ x y
      = (l.map fun b => truthNormalization (f1 b) (f2 b) (f3 b) (f4 b) τ x y).sum := by
  induction l with
  | nil => simp [truthNormalization]
  | cons b l ih =>
    simp only [List.map_cons, List.sum_cons]
    rw [← ih]
    unfold truthNormalization
    ring

theorem sumInitWeights_whole {Ev : Type} (b : NormBatch Ev) (h : WholeWeights b) : b.sumInitWeights = batchWeight b := by
  cases b with
  | plain mc => rfl
  | weighted mc =>
    have key : ∀ (l : List (Ev × ℝ × ℝ × ℝ)) (s : ℤ), (∀ e ∈ l, ∃ k : ℤ, e.2.2.2 = (k : ℝ)) →
        ((l.foldl (fun (s : ℤ) e => s + truncInt e.2.2.2) s : ℤ) : ℝ) = s + (l.map fun e => e.2.2.2).sum := by
      intro l
      induction l with
      | nil => intro s _; simp
      | cons e l ih =>
        intro s hl
        obtain ⟨k, hk⟩ := hl e List.mem_cons_self
        rw [List.foldl_cons, ih _ fun e he => hl e (List.mem_cons_of_mem _ he), hk, truncInt_cast,
          List.map_cons, List.sum_cons, hk]
        push_cast
        ring
    have := key mc 0 h
    simpa [NormBatch.sumInitWeights, batchWeight] using this

theorem T4.batch_integral (m : T4 A S V T P Ev) (hA : m.ampsA.Nodup) (hB : m.ampsB.Nodup) (p : P) (s : T4State Ev)
    (hf : m.FreshAt p s) (hn : s.noNorm = false) (hres : m.res p = truthRes) (hnorm : m.norm p = truthNormalization)
    (hτ : 0 < m.value p m.tau) (hy : |m.value p m.y| < 1) (n : Nat) (b : NormBatch Ev) (hb : m.batches[n]? = some b) :
    m.normIntegral p (s.normSF n) (s.normLS n) b = m.batchTotal p b := by
  have hsum : ∀ (e : Nat) (ev : Ev), b.points[e]? = some ev →
      m.normSums p b.points (s.normSF n) (s.normLS n) e = (m.decayA p ev, m.decayB p ev) := by
    intro e ev he
    rw [m.norm_sums p s hf hn n b hb e ev he, m.coherent_comm, m.sumB_decay hA hB]
  cases b with
  | plain mc =>
    have hterms : (List.range mc.length).map (m.normSums p mc (s.normSF n) (s.normLS n))
        = mc.map fun ev => (m.decayA p ev, m.decayB p ev) := by
      refine List.ext_getElem (by simp) fun e h1 h2 => ?_
      have he : e < mc.length := by simpa using h1
      simp only [List.getElem_map, List.getElem_range]
      exact hsum e _ (List.getElem?_eq_getElem he)
    unfold T4.normIntegral T4.batchTotal
    simp only [hterms, hnorm, List.map_map]
    rw [truthNormalization_sum]
    congr 1
    refine List.map_congr_left fun ev _ => ?_
    simp only [Function.comp, (m.par_first p).1, (m.par_first p).2.1, (m.par_first p).2.2.1]
    exact (rate_total _ _ _ _ _ hτ hy).symm
  | weighted mc =>
    unfold T4.normIntegral T4.batchTotal
    refine congrArg List.sum (List.ext_getElem (by simp) fun e h1 h2 => ?_)
    have he : e < mc.length := by simpa using h1
    simp only [List.getElem_map, List.getElem_zipIdx, Nat.zero_add]
    have := hsum e mc[e].1 (by
      show (mc.map (·.1))[e]? = _
      rw [List.getElem?_map, List.getElem?_eq_getElem he]; rfl)
    rw [show (NormBatch.weighted mc).points = mc.map (·.1) from rfl] at this
    rw [this]
    simp only [hres, resolve, truthRes, T4.rateAt, (m.par_first p).1, (m.par_first p).2.1, (m.par_first p).2.2.1]
    rw [C62_rate]
    ring

theorem T4.normalize_ret (m : T4 A S V T P Ev) (c : A → Bool) (p : P) (s : T4State Ev) (hn : s.noNorm = false) :
    (m.normalize c p s).1 = (m.batches.zipIdx.map fun b => m.normIntegral p ((m.normalize c p s).2.normSF b.2)
        ((m.normalize c p s).2.normLS b.2) b.1).sum / (m.batches.map NormBatch.sumInitWeights).sum := by
  rw [← C35_exact (m.batches.zipIdx.map _)]
  have : (m.batches.map NormBatch.sumInitWeights).sum = m.batches.foldl (fun w b => w + b.sumInitWeights) 0 := by
    rw [foldl_plus_sum, zero_add]
  rw [this]
  show (if s.noNorm = true then (1 : ℝ) else _) = _
  rw [if_neg (by simp [hn])]
  rfl

/-- **C68.**  As long as no events have been generated, and if the weights are whole numbers, the normalisation is the
mean over all normalisation events, however they are split into batches, of the integral of the rate over the decay time
(plain events) and of the rate (weighted events). -/
theorem C68_norm_partial (m : T4 A S V T P Ev) (hA : m.ampsA.Nodup) (hB : m.ampsB.Nodup) (ops : List (T4.Op A P Ev))
    (hg : T4.NoGenerate ops) (c : A → Bool) (p : P) (hh : m.HonestFrom none (ops ++ [.eval c p]))
    (hres : m.res p = truthRes) (hnorm : m.norm p = truthNormalization)
    (hτ : 0 < m.value p m.tau) (hy : |m.value p m.y| < 1) (hw : ∀ b ∈ m.batches, WholeWeights b) :
    (m.normalize c p (m.run ops)).1 = (m.batches.map (m.batchTotal p)).sum / (m.batches.map batchWeight).sum := by
  rw [T4.honest_append] at hh
  obtain ⟨hi, _, hno, _⟩ := m.run_inv ops none T4.init (m.force_inv _ _ rfl) hh.1
  have hf := m.normalize_fresh _ _ c p hi hh.2.1
  have hn : (m.run ops).noNorm = false := hno hg
  rw [m.normalize_ret c p _ hn]
  congr 2
  · refine List.ext_getElem (by simp) fun n h1 h2 => ?_
    have hlt : n < m.batches.length := by simpa using h1
    simp only [List.getElem_map, List.getElem_zipIdx, Nat.zero_add]
    exact m.batch_integral hA hB p _ hf hn hres hnorm hτ hy n _ (List.getElem?_eq_getElem hlt)
  · exact List.map_congr_left fun b hb => sumInitWeights_whole b (hw b hb)

/-- **C68 (plain events).**  Without weighted events there is nothing to assume about weights: the normalisation is the
mean over all points. -/
theorem C68_plain (m : T4 A S V T P Ev) (hA : m.ampsA.Nodup) (hB : m.ampsB.Nodup) (ops : List (T4.Op A P Ev))
    (hg : T4.NoGenerate ops) (c : A → Bool) (p : P) (hh : m.HonestFrom none (ops ++ [.eval c p]))
    (hres : m.res p = truthRes) (hnorm : m.norm p = truthNormalization)
    (hτ : 0 < m.value p m.tau) (hy : |m.value p m.y| < 1) (mcs : List (List Ev)) (hb : m.batches = mcs.map NormBatch.plain) :
    (m.normalize c p (m.run ops)).1
      = (mcs.flatten.map fun ev => ∫ t in Set.Ioi 0, m.rateAt p ev t).sum / (mcs.flatten.length : ℝ) := by
  rw [C68_norm_partial m hA hB ops hg c p hh hres hnorm hτ hy (by
    intro b hb'
    rw [hb] at hb'
    obtain ⟨mc, _, rfl⟩ := List.mem_map.1 hb'
    trivial), hb, List.map_map, List.map_map]
  congr 1
  · induction mcs with
    | nil => rfl
    | cons mc mcs ih =>
      clear hb
      rw [List.map_cons, List.sum_cons, List.flatten_cons, List.map_append, List.sum_append]
      congr 1
      have : ∀ l : List (List Ev), (l.map (m.batchTotal p ∘ NormBatch.plain)).sum
          = (l.flatten.map fun ev => ∫ t in Set.Ioi 0, m.rateAt p ev t).sum := by
        intro l
        induction l with
        | nil => rfl
        | cons a l ih =>
          rw [List.map_cons, List.sum_cons, List.flatten_cons, List.map_append, List.sum_append, ih]
          rfl
      exact this mcs
  · clear hb
    induction mcs with
    | nil => simp
    | cons mc mcs ih =>
      rw [List.map_cons, List.sum_cons, List.flatten_cons, List.length_append, ih]
      push_cast
      rfl

/-- **C68 (violation).**  After events have been generated with the PDF, its normalisation is 1, whatever the
parameters. -/
theorem C68_violation_generate (m : T4 A S V T P Ev) (ops ops' : List (T4.Op A P Ev)) (d : List (Ev × ℝ × ℝ))
    (c0 c : A → Bool) (p0 p : P) : (m.normalize c p (m.run (ops ++ .generate d c0 p0 :: ops'))).1 = 1 := by
  have key : ∀ (l : List (T4.Op A P Ev)) (s : T4State Ev), s.noNorm = true → (l.foldl m.step s).noNorm = true := by
    intro l
    induction l with
    | nil => intro s h; exact h
    | cons op l ih =>
      intro s h
      rw [List.foldl_cons]
      refine ih _ ?_
      cases op with
      | setData d => exact h
      | force => exact h
      | eval c p => exact h
      | generate d c p => rfl
  have h : (m.run (ops ++ .generate d c0 p0 :: ops')).noNorm = true := by
    unfold T4.run
    rw [List.foldl_append, List.foldl_cons]
    exact key ops' _ rfl
  show (if (m.run (ops ++ .generate d c0 p0 :: ops')).noNorm = true then (1 : ℝ) else _) = 1
  rw [if_pos h]

/-- **C68 (violation).**  If every weight is at least 0 and less than 1, the sum of weights that the normalisation is
divided by is 0, however many events there are. -/
theorem C68_violation_weights {Ev : Type} (mc : List (Ev × ℝ × ℝ × ℝ)) (h : ∀ e ∈ mc, 0 ≤ e.2.2.2 ∧ e.2.2.2 < 1) :
    (NormBatch.weighted mc).sumInitWeights = 0 := by
  have key : ∀ (l : List (Ev × ℝ × ℝ × ℝ)), (∀ e ∈ l, 0 ≤ e.2.2.2 ∧ e.2.2.2 < 1) →
      l.foldl (fun (s : ℤ) e => s + truncInt e.2.2.2) 0 = 0 := by
    intro l
    induction l with
    | nil => intro _; rfl
    | cons e l ih =>
      intro hl
      obtain ⟨h0, h1⟩ := hl e List.mem_cons_self
      rw [List.foldl_cons]
      have : truncInt e.2.2.2 = 0 := by
        unfold truncInt
        rw [if_pos h0]
        exact Int.floor_eq_zero_iff.2 ⟨h0, h1⟩
      rw [this, add_zero]
      exact ih fun e he => hl e (List.mem_cons_of_mem _ he)
  unfold NormBatch.sumInitWeights
  simp only [key mc h, Int.cast_zero]

/-- **C68 (violation).**  The efficiency is a factor of the value but not of the normalisation: with a constant
efficiency `ε` the mean over the plain points of the integrated value is `ε` times the normalisation, not the
normalisation. -/
theorem C68_violation_efficiency (m : T4 A S V T P Ev) (hA : m.ampsA.Nodup) (hB : m.ampsB.Nodup)
    (ops : List (T4.Op A P Ev)) (hg : T4.NoGenerate ops) (c : A → Bool) (p : P)
    (hh : m.HonestFrom none (ops ++ [.eval c p])) (hres : m.res p = truthRes) (hnorm : m.norm p = truthNormalization)
    (hτ : 0 < m.value p m.tau) (hy : |m.value p m.y| < 1) (mcs : List (List Ev)) (hb : m.batches = mcs.map NormBatch.plain)
    (ε : ℝ) (he : ∀ ev, m.efficiency p ev = ε) :
    (mcs.flatten.map fun ev => ∫ t in Set.Ioi 0, m.efficiency p (ev, t, 0) * m.rateAt p ev t).sum / (mcs.flatten.length : ℝ)
      = ε * (m.normalize c p (m.run ops)).1 := by
  rw [C68_plain m hA hB ops hg c p hh hres hnorm hτ hy mcs hb]
  simp only [he, integral_const_mul, List.sum_map_mul_left]
  ring

/-- **C67 (violation).**  If an amplitude is twice in the first list and once in the second, it is counted twice in the
second sum as well. -/
theorem C67_violation_duplicate (m : T4 A S V T P Ev) (a : TAmp A S V T) (hA : m.ampsA = [a, a]) (hB : m.ampsB = [a])
    (ev : Ev × ℝ × ℝ) (c : A → Bool) (p : P) :
    m.valueAt p (m.run [.setData [ev], .eval c p]) 0 = some (m.efficiency p ev *
      m.res p (‖m.decayA p ev.1‖ ^ 2 + ‖2 * m.decayB p ev.1‖ ^ 2) (‖m.decayA p ev.1‖ ^ 2 - ‖2 * m.decayB p ev.1‖ ^ 2)
        (m.decayA p ev.1 * starRingEnd ℂ (2 * m.decayB p ev.1)).re (m.decayA p ev.1 * starRingEnd ℂ (2 * m.decayB p ev.1)).im
        (m.value p m.tau) ev.2.1 (m.value p m.x) (m.value p m.y) ev.2.2) := by
  have hi : m.Inv none (m.run [.setData [ev]]) := m.force_inv _ _ rfl
  have hf : m.FreshAt p (m.run [.setData [ev], .eval c p]) :=
    m.normalize_fresh none (m.run [.setData [ev]]) c p hi (by intro p0 h; cases h)
  have hd : (m.run [.setData [ev], .eval c p]).data = [ev] := rfl
  have hB2 : T4.sumB (fun a => (⟨m.value p a.ar, m.value p a.ai⟩ : ℂ) * m.ampAt p ev.1 a) m.comps = 2 * m.decayB p ev.1 := by
    rw [m.sumB_comps]
    unfold T4.decayB T4.coherent
    simp only [hA, hB]
    simp
    ring
  unfold T4.valueAt
  rw [hd]
  simp only [List.getElem?_cons_zero, Option.map_some, Option.some.injEq]
  rw [m.event_sums p _ hf 0 ev (by rw [hd]; rfl), m.coherent_comm, hB2]
  unfold resolve
  simp only [(m.par_first p).1, (m.par_first p).2.1, (m.par_first p).2.2.1, Complex.normSq_eq_norm_sq]
  ring

end

/-! ### A concrete decay -/

/-- Two amplitudes of the first flavour, the second of which is also one of the other flavour and shares a line shape with
the first; parameters 0 to 3 are lifetime, mixing and scale, 4 to 7 coefficients, 8 a mass. -/
noncomputable def exT4 (eff : ℝ → ℝ) (batches : List (NormBatch ℝ)) : T4 (Fin 2) (Fin 2) (Fin 9) Nat (Fin 9 → ℝ) ℝ where
  ampsA := [⟨0, 4, 5, ⟨[0, 1], [0], 1⟩⟩, ⟨1, 6, 7, ⟨[1, 0], [0, 1], 2⟩⟩]
  ampsB := [⟨1, 6, 7, ⟨[1, 0], [0, 1], 2⟩⟩]
  tau := 0
  x := 1
  y := 2
  rate := 3
  value := fun p v => p v
  lineShape := fun a p e => ⟨a.val, e - p 8⟩
  spinFactor := fun s e => s.val + e
  efficiency := fun _ e => eff e.1
  res := fun _ => truthRes
  norm := fun _ => truthNormalization
  batches := batches

/-- A history with marks that are honest although not all are set: the mass changes once, then only a coefficient. -/
noncomputable def exT4Ops : List (T4.Op (Fin 2) (Fin 9 → ℝ) ℝ) :=
  [.setData [(1, 0.2, 0.1), (2, 0.3, 0.1)], .eval (fun _ => false) (fun _ => 0.1), .eval (fun _ => true) (fun _ => 0.2),
   .setData [(3, 0.1, 0.1)]]

/-- The parameters at the end. -/
noncomputable def exT4P : Fin 9 → ℝ := fun v => if v = 4 then 0.7 else 0.2

theorem exT4_honest (eff : ℝ → ℝ) (bs : List (NormBatch ℝ)) :
    (exT4 eff bs).HonestFrom none (exT4Ops ++ [.eval (fun _ => false) exT4P]) := by
  refine ⟨fun p0 h => absurd h (by simp), fun p0 _ x hx => absurd hx (by simp), fun p0 h x _ => ?_, trivial⟩
  cases h
  funext e
  simp [exT4, exT4P]

theorem exT4_tau : exT4P 0 = 0.2 := if_neg (by decide)
theorem exT4_y : exT4P 2 = 0.2 := if_neg (by decide)

example (e : Nat) := C67_rate_partial (exT4 (fun e => 1 / 2 + e) []) (by decide) (by decide) exT4Ops _ _ (exT4_honest _ _) rfl e
example (e : Nat) := C67_value_partial (exT4 (fun e => 1 / 2 + e) []) (by decide) (by decide) exT4Ops _ _ (exT4_honest _ _) e

theorem exT4_noGenerate : T4.NoGenerate exT4Ops := by
  intro op hop d c p
  simp only [exT4Ops, List.mem_cons, List.not_mem_nil, or_false] at hop
  rcases hop with rfl | rfl | rfl | rfl <;> simp

example := C68_norm_partial
  (exT4 (fun e => 1 / 2 + e) [.plain [1, 2], .plain [3], .weighted [(1, 0.3, 0.1, 2), (2, 0.4, 0.1, 3)]]) (by decide) (by decide) exT4Ops
  exT4_noGenerate _ _ (exT4_honest _ _) rfl rfl (by norm_num [exT4, exT4_tau]) (by norm_num [exT4, exT4_y, abs_lt]) (by
    intro b hb
    simp only [exT4, List.mem_cons, List.not_mem_nil, or_false] at hb
    rcases hb with rfl | rfl | rfl
    · trivial
    · trivial
    · intro e he
      simp only [List.mem_cons, List.not_mem_nil, or_false] at he
      rcases he with rfl | rfl
      · exact ⟨2, by norm_num⟩
      · exact ⟨3, by norm_num⟩)

example := C68_plain (exT4 (fun e => 1 / 2 + e) [.plain [1, 2], .plain [3]]) (by decide) (by decide) exT4Ops exT4_noGenerate
  _ _ (exT4_honest _ _) rfl rfl (by norm_num [exT4, exT4_tau]) (by norm_num [exT4, exT4_y, abs_lt]) [[1, 2], [3]] rfl

example := C68_violation_efficiency (exT4 (fun _ => 1 / 2) [.plain [1, 2], .plain [3]])
  (by decide) (by decide) exT4Ops exT4_noGenerate _ _ (exT4_honest _ _) rfl rfl (by norm_num [exT4, exT4_tau])
  (by norm_num [exT4, exT4_y, abs_lt])
  [[1, 2], [3]] rfl (1 / 2) (fun _ => rfl)

example := C68_violation_weights [((), (0.1 : ℝ), (0.1 : ℝ), (0.9 : ℝ)), ((), 0.2, 0.1, 0.8)] (by
  intro e he
  simp only [List.mem_cons, List.not_mem_nil, or_false] at he
  rcases he with rfl | rfl <;> norm_num)

example (a : TAmp (Fin 2) (Fin 2) (Fin 9) Nat) (ev : ℝ × ℝ × ℝ) (p : Fin 9 → ℝ) :=
  C67_violation_duplicate { exT4 (fun _ => 1) [] with ampsA := [a, a], ampsB := [a] } a rfl rfl ev (fun _ => true) p

end GooFit
