import Verif.Lemmas.Amp4BodyRun
import Mathlib.Algebra.Order.Ring.Rat
import Mathlib.Data.List.Induction
/-!
# C49 and C50: four-body amplitudes after any history

`m.run sqrt ops = some s`: the PDF `m` was constructed, and then `ops` happened to it: new data, evaluations with values `p`
of the parameters, toy generation.
-/
set_option autoImplicit false
namespace GooFit
open Spec A4

section
variable {K : Type} [Field K] (sqrt : K → K) {A S P Ev : Type} [DecidableEq A] [DecidableEq S]

omit [DecidableEq A] [DecidableEq S] in
theorem A4.value_spec (m : A4 K A S P Ev) (p : P) (s : A4State K Ev) (e : Nat)
    (h : ∀ (i : Nat) (a : Amp4 A S), m.amps[i]? = some a → ∀ ev, s.data[e]? = some ev →
      s.ampv (e * m.amps.length + i) = m.ampAt sqrt a p ev) :
    m.value p s e = (s.data[e]?).map fun ev =>
      intensity4 (m.amps.zipIdx.map fun a => (m.ampAt sqrt a.1 p ev, m.coef p a.2)) * m.efficiency p ev := by
  unfold A4.value
  cases he : s.data[e]? with
  | none => rfl
  | some ev =>
    simp only [Option.map_some, Option.some.injEq]
    unfold intensity4
    rw [foldl_plus_sum, zero_add]
    congr 3
    refine List.ext_getElem (by simp) fun i hi1 hi2 => ?_
    have hi : i < m.amps.length := by simpa using hi1
    simp only [List.getElem_map, List.getElem_range, List.getElem_zipIdx, Nat.zero_add]
    rw [h i _ (List.getElem?_eq_getElem hi) ev he]

theorem A4.run_data (m : A4 K A S P Ev) (ops : List (Op A P Ev)) (s0 s : A4State K Ev)
    (hr : ops.foldlM (m.step sqrt) s0 = some s) : s.data = currentData s0.data ops := by
  have hnorm : ∀ (c : A → Bool) (p : P) (s0 s1 : A4State K Ev) (r : K), m.normalize sqrt c p s0 = some (r, s1) →
      s1.data = s0.data := by
    intro c p s0 s1 r h
    unfold normalize at h
    simp only [bind, Option.bind] at h
    cases hm : m.markRedo c s0.force s0.redo with
    | none => rw [hm] at h; exact absurd h (by simp)
    | some redo =>
      rw [hm] at h
      simp only [pure, Option.some.injEq, Prod.mk.injEq] at h
      rw [← h.2]
  induction ops generalizing s0 with
  | nil =>
    simp only [List.foldlM_nil, pure, Option.some.injEq] at hr
    subst hr
    rfl
  | cons op ops ih =>
    rw [List.foldlM_cons] at hr
    simp only [bind, Option.bind] at hr
    cases op with
    | setData d =>
      simp only [step] at hr
      exact ih _ hr
    | eval c p =>
      simp only [step] at hr
      cases hn : m.normalize sqrt c p s0 with
      | none => rw [hn] at hr; exact absurd hr (by simp)
      | some rs =>
        obtain ⟨r, s1⟩ := rs
        rw [hn] at hr
        simp only [Option.map_some] at hr
        rw [ih _ hr, hnorm c p s0 s1 r hn]
        rfl
    | generate d c p =>
      simp only [step] at hr
      cases hn : m.normalize sqrt c p { setData s0 d with noNorm := true } with
      | none => rw [hn] at hr; exact absurd hr (by simp)
      | some rs =>
        obtain ⟨r, s1⟩ := rs
        rw [hn] at hr
        simp only [Option.map_some] at hr
        rw [ih _ hr]
        show currentData s1.data ops = _
        rw [hnorm c p _ s1 r hn]
        rfl

/-- A history that ends with an evaluation, taken apart. -/
theorem A4.run_eval (m : A4 K A S P Ev) (ops : List (Op A P Ev)) (c : A → Bool) (p : P) (s : A4State K Ev)
    (hr : m.run sqrt (ops ++ [.eval c p]) = some s) :
    ∃ s0 r, m.run sqrt ops = some s0 ∧ m.normalize sqrt c p s0 = some (r, s) := by
  unfold A4.run at hr ⊢
  rw [List.foldlM_append] at hr
  simp only [bind, Option.bind] at hr
  cases h0 : ops.foldlM (m.step sqrt) m.init with
  | none => rw [h0] at hr; exact absurd hr (by simp)
  | some s0 =>
    rw [h0] at hr
    simp only [List.foldlM_cons, List.foldlM_nil, bind, Option.bind, step, pure] at hr
    cases hn : m.normalize sqrt c p s0 with
    | none => rw [hn] at hr; exact absurd hr (by simp)
    | some rs =>
      rw [hn] at hr
      simp only [Option.map_some, Option.some.injEq] at hr
      exact ⟨s0, rs.1, rfl, by rw [hn, ← hr]⟩

theorem A4.honest_append (m : A4 K A S P Ev) (q : Option P) (ops ops' : List (Op A P Ev)) :
    m.HonestFrom q (ops ++ ops') ↔ m.HonestFrom q ops ∧ m.HonestFrom (lastP q ops) ops' := by
  induction ops generalizing q with
  | nil => simp [HonestFrom, lastP]
  | cons op ops ih =>
    cases op <;> simp only [List.cons_append, HonestFrom, lastP, ih, and_assoc]

/-- **C49** (what is missing: amplitudes that share line shapes, see `C49_violation_stale`, and PDFs with more line shapes than
amplitudes, see `C49_violation_overflow`).  If amplitude number `i` uses no line shape but number `i`, then after any
history of honest marks, the value at every event is that of the current parameters: the squared coherent sum times the
efficiency. -/
theorem C49_values_partial (m : A4 K A S P Ev) (hal : ∀ (i : Nat) (a : Amp4 A S), m.amps[i]? = some a → m.Aligned i a)
    (ops : List (Op A P Ev)) (c : A → Bool) (p : P) (hh : m.HonestFrom none (ops ++ [.eval c p])) (s : A4State K Ev)
    (hr : m.run sqrt (ops ++ [.eval c p]) = some s) (e : Nat) :
    m.value p s e = ((currentData [] ops)[e]?).map fun ev =>
      intensity4 (m.amps.zipIdx.map fun a =>
        (amplitude4 sqrt a.1.nPerm (a.1.ls.map fun x => m.lineShape x p ev) (a.1.sf.map fun x => m.spinFactor x ev),
          m.coef p a.2)) * m.efficiency p ev := by
  obtain ⟨s0, r, h0, hn⟩ := m.run_eval sqrt ops c p s hr
  rw [honest_append] at hh
  obtain ⟨hi, _⟩ := run_inv sqrt m ops none m.init s0 (init_inv sqrt m) hh.1 h0
  obtain ⟨_, hf, hd, _⟩ := normalize_spec sqrt m _ s0 s c p r hi hh.2.1 hn
  rw [m.value_spec sqrt p s e fun i a ha ev he => hf.amp i a ha (hal i a ha) e ev he, hd,
    m.run_data sqrt ops m.init s0 h0]
  rfl

/-- **C49** With new data everything is recomputed, whatever the amplitudes share. -/
theorem C49_new_data_partial (m : A4 K A S P Ev) (ops : List (Op A P Ev)) (d : List Ev) (c : A → Bool) (p : P)
    (hh : m.HonestFrom none (ops ++ [.setData d, .eval c p])) (s : A4State K Ev)
    (hr : m.run sqrt (ops ++ [.setData d, .eval c p]) = some s) (e : Nat) :
    m.value p s e = (d[e]?).map fun ev =>
      intensity4 (m.amps.zipIdx.map fun a =>
        (amplitude4 sqrt a.1.nPerm (a.1.ls.map fun x => m.lineShape x p ev) (a.1.sf.map fun x => m.spinFactor x ev),
          m.coef p a.2)) * m.efficiency p ev := by
  have heq : ops ++ [Op.setData d, .eval c p] = (ops ++ [.setData d]) ++ [.eval c p] := by simp
  rw [heq] at hr hh
  obtain ⟨s0, r, h0, hn⟩ := m.run_eval sqrt _ c p s hr
  rw [honest_append] at hh
  obtain ⟨hi, _⟩ := run_inv sqrt m _ none m.init s0 (init_inv sqrt m) hh.1 h0
  have hs0 : s0.force = true ∧ s0.data = d := by
    unfold A4.run at h0
    rw [List.foldlM_append] at h0
    simp only [bind, Option.bind] at h0
    cases h1 : ops.foldlM (m.step sqrt) m.init with
    | none => rw [h1] at h0; exact absurd h0 (by simp)
    | some s1 =>
      rw [h1] at h0
      simp only [List.foldlM_cons, List.foldlM_nil, bind, Option.bind, step, pure, Option.some.injEq] at h0
      rw [← h0]
      exact ⟨rfl, rfl⟩
  obtain ⟨_, _, hd, _, ha, _⟩ := normalize_spec sqrt m _ s0 s c p r hi hh.2.1 hn
  rw [m.value_spec sqrt p s e fun i a hia ev he => ha hs0.1 i a hia e ev (hd ▸ he), hd, hs0.2]
  rfl

/-- **C49 violated** A PDF with more line shapes than amplitudes writes past the end of an array at its first evaluation,
and at every other. -/
theorem C49_violation_overflow (m : A4 K A S P Ev) (hlt : m.amps.length < m.LS.length) (ops : List (Op A P Ev)) (c : A → Bool)
    (p : P) : m.run sqrt (ops ++ [.eval c p]) = none := by
  cases hr : m.run sqrt (ops ++ [.eval c p]) with
  | none => rfl
  | some s =>
    exfalso
    have hlen : ∀ (ops : List (Op A P Ev)) (s0 s : A4State K Ev), s0.redo.length = m.amps.length →
        ops.foldlM (m.step sqrt) s0 = some s → s.redo.length = m.amps.length := by
      intro ops
      induction ops with
      | nil =>
        intro s0 s h0 h
        simp only [List.foldlM_nil, pure, Option.some.injEq] at h
        rw [← h, h0]
      | cons op ops ih =>
        intro s0 s h0 h
        rw [List.foldlM_cons] at h
        simp only [bind, Option.bind] at h
        cases op with
        | setData d =>
          simp only [step] at h
          exact ih _ s (by simpa [setData] using h0) h
        | eval c p =>
          simp only [step, normalize, bind, Option.bind] at h
          rw [(markRedo_none m c s0.force s0.redo).2 (by omega)] at h
          exact absurd h (by simp)
        | generate d c p =>
          simp only [step, normalize, bind, Option.bind] at h
          rw [(markRedo_none m c _ _).2 (by simp only [setData]; omega)] at h
          exact absurd h (by simp)
    obtain ⟨s0, r, h0, hn⟩ := m.run_eval sqrt ops c p s hr
    have := hlen ops m.init s0 (by simp [A4.init]) h0
    simp only [normalize, bind, Option.bind] at hn
    rw [(markRedo_none m c s0.force s0.redo).2 (by omega)] at hn
    exact absurd hn (by simp)

/-- **C49** Otherwise no history goes wrong. -/
theorem C49_no_overflow (m : A4 K A S P Ev) (hle : m.LS.length ≤ m.amps.length) (ops : List (Op A P Ev)) :
    m.run sqrt ops ≠ none := by
  have key : ∀ (ops : List (Op A P Ev)) (s0 : A4State K Ev), s0.redo.length = m.amps.length →
      ops.foldlM (m.step sqrt) s0 ≠ none := by
    have hnorm : ∀ (c : A → Bool) (p : P) (s0 : A4State K Ev), s0.redo.length = m.amps.length →
        ∃ r s1, m.normalize sqrt c p s0 = some (r, s1) ∧ s1.redo.length = m.amps.length := by
      intro c p s0 h0
      cases hm : m.markRedo c s0.force s0.redo with
      | none => exact absurd ((markRedo_none m c _ _).1 hm) (by omega)
      | some redo =>
        have h1 := (markRedo_spec m c _ _ _ hm).1
        refine ⟨_, _, by simp only [normalize, bind, Option.bind, hm, pure]; rfl, ?_⟩
        show redo.length = _
        omega
    intro ops
    induction ops with
    | nil => intro s0 _; simp [pure]
    | cons op ops ih =>
      intro s0 h0
      rw [List.foldlM_cons]
      simp only [bind, Option.bind]
      cases op with
      | setData d => exact ih _ (by simpa [setData] using h0)
      | eval c p =>
        obtain ⟨r, s1, h1, h2⟩ := hnorm c p s0 h0
        simp only [step, h1, Option.map_some]
        exact ih s1 h2
      | generate d c p =>
        obtain ⟨r, s1, h1, h2⟩ := hnorm c p { setData s0 d with noNorm := true } h0
        simp only [step, h1, Option.map_some]
        exact ih _ h2
  exact key ops m.init (by simp [A4.init])

/-- **C50** (what is missing: the efficiency, see `C50_violation_efficiency`, and histories with toy generation, see
`C50_violation_generate`).  The value `normalize` returns is the mean, over the normalisation events, of the intensity for
the current parameters, after any history of honest marks, whatever the amplitudes share. -/
theorem C50_normalization_partial (m : A4 K A S P Ev) (ops : List (Op A P Ev))
    (hg : ∀ op ∈ ops, ∀ d c p, op ≠ .generate d c p) (c : A → Bool) (p : P)
    (hh : m.HonestFrom none (ops ++ [.eval c p])) (s0 s : A4State K Ev) (hr : m.run sqrt ops = some s0) (r : K)
    (hn : m.normalize sqrt c p s0 = some (r, s)) :
    r = (m.mc.map fun ev => intensity4 (m.amps.zipIdx.map fun a =>
        (amplitude4 sqrt a.1.nPerm (a.1.ls.map fun x => m.lineShape x p ev) (a.1.sf.map fun x => m.spinFactor x ev),
          m.coef p a.2))).sum / (m.mc.length : K) := by
  rw [honest_append] at hh
  obtain ⟨hi, hno, _⟩ := run_inv sqrt m ops none m.init s0 (init_inv sqrt m) hh.1 hr
  obtain ⟨_, _, _, _, _, _, h⟩ := normalize_spec sqrt m _ s0 s c p r hi hh.2.1 hn
  exact h (hno hg)

/-- **C50** Together: the values at data that happen to be the normalisation events average to the normalisation, if the
efficiency is one. -/
theorem C50_consistent_partial (m : A4 K A S P Ev) (ops : List (Op A P Ev))
    (hg : ∀ op ∈ ops, ∀ d c p, op ≠ .generate d c p) (c : A → Bool) (p : P) (heff : ∀ ev, m.efficiency p ev = 1)
    (hh : m.HonestFrom none (ops ++ [.setData m.mc, .eval c p])) (s0 s : A4State K Ev)
    (hr : m.run sqrt (ops ++ [.setData m.mc]) = some s0) (r : K)
    (hn : m.normalize sqrt c p s0 = some (r, s)) :
    r = (((List.range m.mc.length).filterMap (m.value p s)).sum) / (m.mc.length : K) := by
  have heq : ops ++ [Op.setData m.mc, .eval c p] = (ops ++ [.setData m.mc]) ++ [.eval c p] := by simp
  have hr' : m.run sqrt (ops ++ [Op.setData m.mc, .eval c p]) = some s := by
    rw [heq]
    unfold A4.run at hr ⊢
    rw [List.foldlM_append, hr]
    simp [bind, Option.bind, step, hn, pure]
  have hv := C49_new_data_partial sqrt m ops m.mc c p hh s hr'
  rw [C50_normalization_partial sqrt m (ops ++ [.setData m.mc]) (fun op hop d c p => by
    rcases List.mem_append.1 hop with h | h
    · exact hg op h d c p
    · rw [List.mem_singleton] at h
      rw [h]; exact fun h => by cases h) c p (heq ▸ hh) s0 s hr r hn]
  congr 2
  have : m.value p s = fun e => (m.mc[e]?).map fun ev =>
      intensity4 (m.amps.zipIdx.map fun a =>
        (amplitude4 sqrt a.1.nPerm (a.1.ls.map fun x => m.lineShape x p ev) (a.1.sf.map fun x => m.spinFactor x ev),
          m.coef p a.2)) := by
    funext e
    rw [hv e]
    simp only [heff, mul_one]
  rw [this]
  generalize (fun ev => intensity4 (m.amps.zipIdx.map fun a =>
        (amplitude4 sqrt a.1.nPerm (a.1.ls.map fun x => m.lineShape x p ev) (a.1.sf.map fun x => m.spinFactor x ev),
          m.coef p a.2))) = g
  generalize m.mc = l
  clear hv hr' heq hn hr hh heff hg this
  induction l using List.reverseRecOn with
  | nil => rfl
  | append_singleton l x ih =>
    rw [List.map_append, List.length_append, List.length_singleton, List.range_succ, List.filterMap_append]
    congr 1
    · rw [ih]
      refine List.filterMap_congr fun e he => ?_
      rw [List.mem_range] at he
      rw [List.getElem?_append_left he]
    · simp

/-- **C50 violated** After toy generation the normalisation is 1, whatever the parameters, for the rest of the PDF's life. -/
theorem C50_violation_generate (m : A4 K A S P Ev) (ops ops' : List (Op A P Ev)) (d : List Ev) (c0 c : A → Bool) (p0 p : P)
    (hh : m.HonestFrom none (ops ++ .generate d c0 p0 :: ops' ++ [.eval c p])) (s0 s : A4State K Ev)
    (hr : m.run sqrt (ops ++ .generate d c0 p0 :: ops') = some s0) (r : K)
    (hn : m.normalize sqrt c p s0 = some (r, s)) : r = 1 := by
  rw [honest_append] at hh
  obtain ⟨hi, _⟩ := run_inv sqrt m _ none m.init s0 (init_inv sqrt m) hh.1 hr
  obtain ⟨_, _, _, _, _, h, _⟩ := normalize_spec sqrt m _ s0 s c p r hi hh.2.1 hn
  refine h ?_
  have hh1 := hh.1
  rw [honest_append] at hh1
  unfold A4.run at hr
  rw [List.foldlM_append] at hr
  simp only [bind, Option.bind] at hr
  cases h1 : ops.foldlM (m.step sqrt) m.init with
  | none => rw [h1] at hr; exact absurd hr (by simp)
  | some s1 =>
    rw [h1] at hr
    simp only [List.foldlM_cons, bind, Option.bind, step] at hr
    obtain ⟨hi1, _⟩ := run_inv sqrt m _ none m.init s1 (init_inv sqrt m) hh1.1 h1
    cases h2 : m.normalize sqrt c0 p0 { setData s1 d with noNorm := true } with
    | none => rw [h2] at hr; exact absurd hr (by simp)
    | some rs =>
      obtain ⟨r2, s2⟩ := rs
      rw [h2] at hr
      simp only [Option.map_some] at hr
      have hi1' : m.Inv sqrt (lastP none ops) { setData s1 d with noNorm := true } :=
        ⟨hi1.len, hi1.tail, fun h => absurd h (by simp [setData])⟩
      obtain ⟨g1, _, _, g4, _⟩ := normalize_spec sqrt m _ _ s2 c0 p0 r2 hi1' hh1.2.1 h2
      exact (run_inv sqrt m ops' (some p0) { s2 with force := true } s0
        ⟨g1.len, g1.tail, fun h => absurd h (by simp)⟩ hh1.2.2 hr).2.2 g4

end

/-! ### Cases -/

/-- Two amplitudes, each with its own line shape (number 0 or 1, a constant that is its parameter) and the same spin
factor. -/
def exA4 (amps : List (Amp4 Nat Nat)) : A4 ℚ Nat Nat (Nat → ℚ) ℚ :=
  ⟨amps, fun x p ev => ⟨p x, ev⟩, fun _ ev => ev + 1, fun _ i => ⟨1, (i : ℚ)⟩, fun _ ev => ev, [1, 2]⟩

/-- Amplitudes that use their own line shape. -/
def exAligned : A4 ℚ Nat Nat (Nat → ℚ) ℚ := exA4 [⟨[7], [3], 1⟩, ⟨[8], [3], 1⟩]
/-- The first amplitude uses both line shapes. -/
def exShared : A4 ℚ Nat Nat (Nat → ℚ) ℚ := exA4 [⟨[7, 8], [3], 1⟩, ⟨[8], [3], 1⟩]

/-- Not vacuous: the hypotheses of `C49_values_partial` are met, with a parameter that changes between evaluations. -/
example : (∀ (i : Nat) (a : Amp4 Nat Nat), exAligned.amps[i]? = some a → exAligned.Aligned i a) ∧
    exAligned.HonestFrom none ([.setData [5], .eval (fun _ => true) (fun _ => 1)]
      ++ [.eval (fun x => x == 8) (fun x => if x = 8 then 2 else 1)]) ∧
    ∃ s, exAligned.run id ([.setData [5], .eval (fun _ => true) (fun _ => 1)]
      ++ [.eval (fun x => x == 8) (fun x => if x = 8 then 2 else 1)]) = some s ∧
      exAligned.value (fun x => if x = 8 then 2 else 1) s 0 = some 26640 := by
  refine ⟨fun i a ha => ?_, ⟨?_, ?_, trivial⟩, ?_⟩
  · match i with
    | 0 =>
      refine Or.inr ?_
      have : a = ⟨[7], [3], 1⟩ := (Option.some.inj ha).symm
      subst this
      decide
    | 1 =>
      refine Or.inr ?_
      have : a = ⟨[8], [3], 1⟩ := (Option.some.inj ha).symm
      subst this
      decide
    | n + 2 => exact absurd ha (by simp [exAligned, exA4])
  · intro p0 h; cases h
  · intro p0 h x hx
    have : p0 = fun _ => 1 := (Option.some.inj h).symm
    subst this
    have hx8 : x ≠ 8 := by simpa using hx
    funext ev
    simp [exAligned, exA4, hx8]
  · exact ⟨_, rfl, by decide +kernel⟩

/-- **C49 violated** The first amplitude uses the second line shape.  When that changes, the first amplitude keeps the value
for the parameters before: the value at the event is not that of the current parameters. -/
theorem C49_violation_stale :
    exShared.HonestFrom none ([.setData [5], .eval (fun _ => true) (fun _ => 1)]
      ++ [.eval (fun x => x == 8) (fun x => if x = 8 then 2 else 1)]) ∧
    ∃ s, exShared.run id ([.setData [5], .eval (fun _ => true) (fun _ => 1)]
      ++ [.eval (fun x => x == 8) (fun x => if x = 8 then 2 else 1)]) = some s ∧
      exShared.value (fun x => if x = 8 then 2 else 1) s 0
        ≠ some (intensity4 (exShared.amps.zipIdx.map fun a =>
          (amplitude4 id a.1.nPerm (a.1.ls.map fun x => exShared.lineShape x (fun x => if x = 8 then 2 else 1) 5)
            (a.1.sf.map fun x => exShared.spinFactor x 5), exShared.coef (fun x => if x = 8 then 2 else 1) a.2))
          * exShared.efficiency (fun x => if x = 8 then 2 else 1) 5) := by
  refine ⟨⟨?_, ?_, trivial⟩, ?_⟩
  · intro p0 h; cases h
  · intro p0 h x hx
    have : p0 = fun _ => 1 := (Option.some.inj h).symm
    subst this
    have hx8 : x ≠ 8 := by simpa using hx
    funext ev
    simp [exShared, exA4, hx8]
  · exact ⟨_, rfl, by decide +kernel⟩

/-- **C50 violated** The normalisation does not know the efficiency: with one that is not constant, the values at the
normalisation events do not average to it. -/
theorem C50_violation_efficiency :
    ∃ (s0 s : A4State ℚ ℚ) (r : ℚ), exAligned.run id [.setData exAligned.mc] = some s0 ∧
      exAligned.normalize id (fun _ => true) (fun _ => 1) s0 = some (r, s) ∧
      r ≠ (((List.range exAligned.mc.length).filterMap (exAligned.value (fun _ => 1) s)).sum) / (exAligned.mc.length : ℚ) :=
  ⟨_, _, _, rfl, rfl, by decide +kernel⟩

/-- Not vacuous: a history without generation and one with it; the second line of `exShared` is enough for the theorems that
do not need alignment. -/
example : (∃ s0 s r, exShared.run id [.setData [5], .eval (fun _ => true) (fun _ => 1)] = some s0 ∧
      exShared.normalize id (fun x => x == 8) (fun x => if x = 8 then 2 else 1) s0 = some (r, s) ∧ r = 548) ∧
    (∃ s0 s r, exShared.run id ([] ++ .generate [4] (fun _ => true) (fun _ => 1) :: [.setData [5]]) = some s0 ∧
      exShared.normalize id (fun _ => true) (fun x => if x = 8 then 2 else 1) s0 = some (r, s) ∧ r = 1) :=
  ⟨⟨_, _, _, rfl, rfl, by decide +kernel⟩, ⟨_, _, _, rfl, rfl, by decide +kernel⟩⟩

/-- Not vacuous: a PDF with one amplitude and two line shapes. -/
example : (exA4 [⟨[7, 8], [3], 1⟩]).amps.length < (exA4 [⟨[7, 8], [3], 1⟩]).LS.length := by decide

end GooFit
