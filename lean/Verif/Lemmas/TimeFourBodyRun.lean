import Verif.Lemmas.TimeFourBody

/-! # Lemmas about the histories of the time-dependent four-body PDF -/

set_option autoImplicit false

namespace GooFit
open Spec

namespace T4
section
variable {A S V T P Ev : Type} [DecidableEq A] [DecidableEq S] [DecidableEq V] [DecidableEq T]

theorem fillLS_read (m : T4 A S V T P Ev) (p : P) (ch : List Bool) (data : List (Ev × ℝ × ℝ)) (res : Nat → ℂ) (i : Nat)
    (x : A) (hx : m.LS[i]? = some x) (e : Nat) (ev : Ev × ℝ × ℝ) (he : data[e]? = some ev) :
    m.fillLS p ch data res (e * (m.LS.length + m.SF.length) + i)
      = if ch.getD i false then m.lineShape x p ev.1 else res (e * (m.LS.length + m.SF.length) + i) := by
  have h := (columns_read m.LS 0 0 (m.LS.length + m.SF.length) data.length (fun i => ch.getD i false)
    (fun x e => match data[e]? with | some ev => m.lineShape x p ev.1 | none => 0) res (by omega)).1 i x hx e (idx_lt he)
  simp only [Nat.zero_add, he] at h
  unfold fillLS
  rw [show e * (m.LS.length + m.SF.length) + i = i + (m.LS.length + m.SF.length) * e by rw [Nat.mul_comm]; omega]
  exact h

theorem fillLS_other (m : T4 A S V T P Ev) (p : P) (ch : List Bool) (data : List (Ev × ℝ × ℝ)) (res : Nat → ℂ) (j : Nat)
    (hj : j < m.SF.length) (e : Nat) :
    m.fillLS p ch data res (e * (m.LS.length + m.SF.length) + m.LS.length + j)
      = res (e * (m.LS.length + m.SF.length) + m.LS.length + j) := by
  have h := (columns_read m.LS 0 0 (m.LS.length + m.SF.length) data.length (fun i => ch.getD i false)
    (fun x e => match data[e]? with | some ev => m.lineShape x p ev.1 | none => 0) res (by omega)).2 (m.LS.length + j) e
      (by omega) (by omega)
  simp only [Nat.zero_add] at h
  unfold fillLS
  rw [show e * (m.LS.length + m.SF.length) + m.LS.length + j = m.LS.length + j + (m.LS.length + m.SF.length) * e by
    rw [Nat.mul_comm]; omega]
  exact h

theorem fillSF_read (m : T4 A S V T P Ev) (data : List (Ev × ℝ × ℝ)) (res : Nat → ℂ) (j : Nat) (x : S)
    (hx : m.SF[j]? = some x) (e : Nat) (ev : Ev × ℝ × ℝ) (he : data[e]? = some ev) :
    m.fillSF data res (e * (m.LS.length + m.SF.length) + m.LS.length + j) = (m.spinFactor x ev.1 : ℂ) := by
  have h := (columns_read m.SF 0 m.LS.length (m.LS.length + m.SF.length) data.length (fun _ => true)
    (fun x e => match data[e]? with | some ev => (m.spinFactor x ev.1 : ℂ) | none => 0) res (by omega)).1 j x hx e
      (idx_lt he)
  simp only [Nat.zero_add, he, if_true] at h
  unfold fillSF
  rw [show e * (m.LS.length + m.SF.length) + m.LS.length + j = m.LS.length + j + (m.LS.length + m.SF.length) * e by
    rw [Nat.mul_comm]; omega]
  exact h

theorem fillNormLS_read (m : T4 A S V T P Ev) (p : P) (ch : List Bool) (mc : List Ev) (arr : Nat → ℂ) (i : Nat) (x : A)
    (hx : m.LS[i]? = some x) (e : Nat) (ev : Ev) (he : mc[e]? = some ev) :
    m.fillNormLS p ch mc arr (e + i * mc.length)
      = if ch.getD i false then m.lineShape x p ev else arr (e + i * mc.length) := by
  have h := (rows_read m.LS 0 mc.length (fun i => ch.getD i false)
    (fun x e => match mc[e]? with | some ev => m.lineShape x p ev | none => 0) arr).1 i x hx e (idx_lt he)
  simp only [Nat.zero_add, he] at h
  exact h

theorem fillNormSF_read (m : T4 A S V T P Ev) (mc : List Ev) (arr : Nat → ℝ) (j : Nat) (x : S)
    (hx : m.SF[j]? = some x) (e : Nat) (ev : Ev) (he : mc[e]? = some ev) :
    m.fillNormSF false mc arr (e + j * mc.length) = m.spinFactor x ev := by
  have h := (rows_read m.SF 0 mc.length (fun _ => true)
    (fun x e => match mc[e]? with | some ev => m.spinFactor x ev | none => 0) arr).1 j x hx e (idx_lt he)
  simp only [Nat.zero_add, he, if_true] at h
  exact h

theorem fillAmps_read (m : T4 A S V T P Ev) (ch : List Bool) (data : List (Ev × ℝ × ℝ)) (res ampv : Nat → ℂ) (i : Nat)
    (a : TAmp A S V T × Nat) (ha : m.comps[i]? = some a) (e : Nat) (he : e < data.length) :
    m.fillAmps ch data res ampv (e * m.comps.length + i)
      = if ch.getD i false then
          ampCalcTD m.idx m.LS.length m.SF.length m.comps.length a.1.amp.nPerm (m.start i) res e
        else ampv (e * m.comps.length + i) := by
  have key : ∀ (l : List (TAmp A S V T × Nat)) (start : Nat) (arr : Nat → ℂ), start + l.length ≤ m.comps.length →
      (∀ (j : Nat) (a : TAmp A S V T × Nat), l[j]? = some a → ∀ e, e < data.length →
        ((l.zipIdx start).foldl (fun arr x => if ch.getD x.2 false then
            writeStrided arr x.2 m.comps.length data.length
              (ampCalcTD m.idx m.LS.length m.SF.length m.comps.length x.1.1.amp.nPerm (m.start x.2) res)
          else arr) arr) (start + j + m.comps.length * e)
        = if ch.getD (start + j) false then
            ampCalcTD m.idx m.LS.length m.SF.length m.comps.length a.1.amp.nPerm (m.start (start + j)) res e
          else arr (start + j + m.comps.length * e)) := by
    intro l start arr hb j a ha e he
    have h := (columns_read (l.zipIdx start) start 0 m.comps.length data.length (fun i => ch.getD i false)
      (fun x => ampCalcTD m.idx m.LS.length m.SF.length m.comps.length x.1.1.amp.nPerm (m.start x.2) res) arr
      (by simpa using hb)).1 j (a, start + j) (by rw [List.getElem?_zipIdx, ha]; rfl) e he
    simp only [Nat.zero_add] at h
    rw [← h]
    congr 1
    clear h ha he hb
    generalize start + j + m.comps.length * e = k
    clear e a j
    induction l generalizing start arr with
    | nil => rfl
    | cons y l ih =>
      simp only [List.zipIdx_cons, List.foldl_cons]
      exact ih (start + 1) _
  have h := key m.comps 0 ampv (by omega) i a ha e he
  simp only [Nat.zero_add] at h
  unfold fillAmps
  rw [show e * m.comps.length + i = i + m.comps.length * e by rw [Nat.mul_comm]; omega]
  exact h

theorem lsChanged_read (m : T4 A S V T P Ev) (c : A → Bool) (f : Bool) (i : Nat) (x : A) (hx : m.LS[i]? = some x) :
    (m.lineshapeChanged c f).getD i false = (f || c x) := by
  unfold lineshapeChanged
  rw [List.getD_eq_getElem?_getD, List.getElem?_map, hx]
  rfl

theorem ampChanged_read (m : T4 A S V T P Ev) (c : A → Bool) (f : Bool) (i : Nat) (a : TAmp A S V T × Nat)
    (ha : m.comps[i]? = some a) : (m.amplitudeChanged c f).getD i false = (f || a.1.amp.ls.any c) := by
  unfold amplitudeChanged
  rw [List.getD_eq_getElem?_getD, List.getElem?_map, ha]
  rfl

/-- The caches are those of `p`. -/
structure FreshAt (m : T4 A S V T P Ev) (p : P) (s : T4State Ev) : Prop where
  ls : ∀ (i : Nat) (x : A), m.LS[i]? = some x → ∀ (e : Nat) (ev : Ev × ℝ × ℝ), s.data[e]? = some ev →
    s.resSF (e * (m.LS.length + m.SF.length) + i) = m.lineShape x p ev.1
  sf : ∀ (j : Nat) (x : S), m.SF[j]? = some x → ∀ (e : Nat) (ev : Ev × ℝ × ℝ), s.data[e]? = some ev →
    s.resSF (e * (m.LS.length + m.SF.length) + m.LS.length + j) = (m.spinFactor x ev.1 : ℂ)
  amp : ∀ (i : Nat) (a : TAmp A S V T × Nat), m.comps[i]? = some a → ∀ (e : Nat) (ev : Ev × ℝ × ℝ),
    s.data[e]? = some ev → s.ampv (e * m.comps.length + i) = m.ampAt p ev.1 a.1
  nls : s.noNorm = false → ∀ (n : Nat) (b : NormBatch Ev), m.batches[n]? = some b → ∀ (i : Nat) (x : A),
    m.LS[i]? = some x → ∀ (e : Nat) (ev : Ev), b.points[e]? = some ev →
    s.normLS n (e + i * b.points.length) = m.lineShape x p ev
  nsf : s.noNorm = false → ∀ (n : Nat) (b : NormBatch Ev), m.batches[n]? = some b → ∀ (j : Nat) (x : S),
    m.SF[j]? = some x → ∀ (e : Nat) (ev : Ev), b.points[e]? = some ev →
    s.normSF n (e + j * b.points.length) = m.spinFactor x ev

/-- What holds between the calls. -/
def Inv (m : T4 A S V T P Ev) (q : Option P) (s : T4State Ev) : Prop :=
  s.force = false → ∃ p0, q = some p0 ∧ m.FreshAt p0 s

theorem normalize_fresh (m : T4 A S V T P Ev) (q : Option P) (s : T4State Ev) (c : A → Bool) (p : P)
    (hi : m.Inv q s) (hc : ∀ p0, q = some p0 → ∀ x, c x = false → m.lineShape x p = m.lineShape x p0) :
    m.FreshAt p (m.normalize c p s).2 := by
  have hsame : ∀ x, (s.force || c x) = false → ∃ p0, m.FreshAt p0 s ∧ m.lineShape x p = m.lineShape x p0 := by
    intro x hx
    simp only [Bool.or_eq_false_iff] at hx
    obtain ⟨p0, hq, hf⟩ := hi hx.1
    exact ⟨p0, hf, hc p0 hq x hx.2⟩
  have sf1 : ∀ (j : Nat) (x : S), m.SF[j]? = some x → ∀ (e : Nat) (ev : Ev × ℝ × ℝ), s.data[e]? = some ev →
      (if (!(!s.force)) = true then m.fillSF s.data s.resSF else s.resSF)
        (e * (m.LS.length + m.SF.length) + m.LS.length + j) = (m.spinFactor x ev.1 : ℂ) := by
    intro j x hx e ev he
    by_cases hf : s.force = false
    · obtain ⟨p0, _, hfr⟩ := hi hf
      rw [if_neg (by simp [hf])]
      exact hfr.sf j x hx e ev he
    · rw [if_pos (by simpa using hf)]
      exact m.fillSF_read s.data s.resSF j x hx e ev he
  have sf2 : ∀ (j : Nat) (x : S), m.SF[j]? = some x → ∀ (e : Nat) (ev : Ev × ℝ × ℝ), s.data[e]? = some ev →
      (m.normalize c p s).2.resSF (e * (m.LS.length + m.SF.length) + m.LS.length + j) = (m.spinFactor x ev.1 : ℂ) := by
    intro j x hx e ev he
    show m.fillLS p _ s.data _ _ = _
    rw [m.fillLS_other p _ s.data _ j (idx_lt hx) e]
    exact sf1 j x hx e ev he
  have ls2 : ∀ (i : Nat) (x : A), m.LS[i]? = some x → ∀ (e : Nat) (ev : Ev × ℝ × ℝ), s.data[e]? = some ev →
      (m.normalize c p s).2.resSF (e * (m.LS.length + m.SF.length) + i) = m.lineShape x p ev.1 := by
    intro i x hx e ev he
    show m.fillLS p (m.lineshapeChanged c s.force) s.data _ _ = _
    rw [m.fillLS_read p _ s.data _ i x hx e ev he, m.lsChanged_read c s.force i x hx]
    by_cases hf : (s.force || c x) = false
    · rw [hf]
      obtain ⟨p0, hfr, hl⟩ := hsame x hf
      simp only [Bool.or_eq_false_iff] at hf
      rw [if_neg (by simp), if_neg (by simp [hf.1]), hl]
      exact hfr.ls i x hx e ev he
    · rw [if_pos (Bool.eq_true_of_not_eq_false hf)]
  refine ⟨ls2, sf2, ?_, ?_, ?_⟩
  · intro i a ha e ev he
    show m.fillAmps (m.amplitudeChanged c s.force) s.data (m.normalize c p s).2.resSF s.ampv _ = _
    have he' : s.data[e]? = some ev := he
    rw [m.fillAmps_read _ s.data _ s.ampv i a ha e (idx_lt he'), m.ampChanged_read c s.force i a ha]
    by_cases hf : (s.force || a.1.amp.ls.any c) = false
    · rw [hf, if_neg (by simp)]
      simp only [Bool.or_eq_false_iff] at hf
      obtain ⟨p0, hq, hfr⟩ := hi hf.1
      rw [hfr.amp i a ha e ev he']
      unfold ampAt
      congr 1
      refine List.map_congr_left fun x hx => ?_
      rw [hc p0 hq x (by
        by_contra hcx
        have := List.any_eq_false.1 hf.2 x hx
        exact this (by simpa using hcx))]
    · rw [if_pos (Bool.eq_true_of_not_eq_false hf)]
      exact m.ampCalc_fresh p _ s.data ls2 sf2 i a ha e ev he'
  · intro hn n b hb i x hx e ev he
    have hn' : s.noNorm = false := hn
    show (match m.batches[n]? with
      | some b => if s.noNorm then s.normLS n else m.batchLS p (!s.force && (m.lineshapeChanged c s.force).all fun v => !v)
          (m.lineshapeChanged c s.force) b (s.normLS n)
      | none => s.normLS n) _ = _
    rw [hb]
    simp only [hn', Bool.false_eq_true, if_false]
    unfold batchLS
    by_cases hk : (!s.force && (m.lineshapeChanged c s.force).all fun v => !v) = false
    · rw [if_pos (by rw [hk]; rfl), m.fillNormLS_read p _ b.points _ i x hx e ev he, m.lsChanged_read c s.force i x hx]
      by_cases hf : (s.force || c x) = false
      · rw [hf, if_neg (by simp)]
        obtain ⟨p0, hfr, hl⟩ := hsame x hf
        rw [hl]
        exact hfr.nls hn' n b hb i x hx e ev he
      · rw [if_pos (Bool.eq_true_of_not_eq_false hf)]
    · have hk' : (!s.force && (m.lineshapeChanged c s.force).all fun v => !v) = true := by simpa using hk
      rw [if_neg (by rw [hk']; simp)]
      have hcx : (s.force || c x) = false := by
        have h2 := (Bool.and_eq_true_iff.1 hk').2
        have h3 := List.all_eq_true.1 h2 (s.force || c x)
          (List.mem_map.2 ⟨x, List.mem_of_getElem? hx, rfl⟩)
        simpa using h3
      obtain ⟨p0, hfr, hl⟩ := hsame x hcx
      rw [hl]
      exact hfr.nls hn' n b hb i x hx e ev he
  · intro hn n b hb j x hx e ev he
    have hn' : s.noNorm = false := hn
    show (match m.batches[n]? with
      | some b => if s.noNorm then s.normSF n else m.batchSF (!s.force && (m.lineshapeChanged c s.force).all fun v => !v)
          (!s.force) b (s.normSF n)
      | none => s.normSF n) _ = _
    rw [hb]
    simp only [hn', Bool.false_eq_true, if_false]
    unfold batchSF
    by_cases hf : s.force = false
    · obtain ⟨p0, _, hfr⟩ := hi hf
      have h1 := hfr.nsf hn' n b hb j x hx e ev he
      rw [hf]
      unfold fillNormSF
      split
      · simpa using h1
      · exact h1
    · have hf' : s.force = true := by simpa using hf
      rw [hf']
      simp only [Bool.not_true, Bool.false_and, Bool.not_false, if_true]
      exact m.fillNormSF_read b.points _ j x hx e ev he

theorem normalize_inv (m : T4 A S V T P Ev) (q : Option P) (s : T4State Ev) (c : A → Bool) (p : P)
    (hi : m.Inv q s) (hc : ∀ p0, q = some p0 → ∀ x, c x = false → m.lineShape x p = m.lineShape x p0) :
    m.Inv (some p) (m.normalize c p s).2 := fun _ => ⟨p, rfl, m.normalize_fresh q s c p hi hc⟩

theorem force_inv (m : T4 A S V T P Ev) (q : Option P) (s : T4State Ev) (h : s.force = true) : m.Inv q s :=
  fun h' => absurd (h ▸ h') (by simp)

theorem run_inv (m : T4 A S V T P Ev) (ops : List (Op A P Ev)) (q : Option P) (s : T4State Ev) (hi : m.Inv q s)
    (hh : m.HonestFrom q ops) :
    m.Inv (lastP q ops) (ops.foldl m.step s) ∧ (ops.foldl m.step s).data = currentData s.data ops ∧
    (NoGenerate ops → (ops.foldl m.step s).noNorm = s.noNorm) ∧ (s.noNorm = true → (ops.foldl m.step s).noNorm = true) := by
  induction ops generalizing q s with
  | nil => exact ⟨hi, rfl, fun _ => rfl, fun h => h⟩
  | cons op ops ih =>
    rw [List.foldl_cons]
    cases op with
    | setData d =>
      obtain ⟨h1, h2, h3, h4⟩ := ih q (setData s d) (m.force_inv q _ rfl) hh
      exact ⟨h1, h2, fun hg => h3 fun op hop => hg op (List.mem_cons_of_mem _ hop), h4⟩
    | force =>
      obtain ⟨h1, h2, h3, h4⟩ := ih q { s with force := true } (m.force_inv q _ rfl) hh
      exact ⟨h1, h2, fun hg => h3 fun op hop => hg op (List.mem_cons_of_mem _ hop), h4⟩
    | eval c p =>
      obtain ⟨h1, h2, h3, h4⟩ := ih (some p) _ (m.normalize_inv q s c p hi hh.1) hh.2
      exact ⟨h1, h2, fun hg => h3 fun op hop => hg op (List.mem_cons_of_mem _ hop), h4⟩
    | generate d c p =>
      obtain ⟨h1, h2, _, h4⟩ := ih (some p) (m.step s (.generate d c p)) (m.force_inv _ _ rfl) hh.2
      exact ⟨h1, h2, fun hg => absurd rfl (hg _ List.mem_cons_self d c p), fun _ => h4 rfl⟩

theorem honest_append (m : T4 A S V T P Ev) (q : Option P) (ops ops' : List (Op A P Ev)) :
    m.HonestFrom q (ops ++ ops') ↔ m.HonestFrom q ops ∧ m.HonestFrom (lastP q ops) ops' := by
  induction ops generalizing q with
  | nil => simp [HonestFrom, lastP]
  | cons op ops ih => cases op <;> simp only [List.cons_append, HonestFrom, lastP, ih, and_assoc]

/-- The two sums at an event, after an evaluation. -/
theorem event_sums (m : T4 A S V T P Ev) (p : P) (s : T4State Ev) (hf : m.FreshAt p s) (e : Nat) (ev : Ev × ℝ × ℝ)
    (he : s.data[e]? = some ev) :
    flagSums m.idx m.comps.length (m.par p) (fun i => s.ampv (e * m.comps.length + i))
      = (m.coherent p ev.1 m.ampsA * (m.value p m.rate : ℂ),
         sumB (fun a => (⟨m.value p a.ar, m.value p a.ai⟩ : ℂ) * m.ampAt p ev.1 a) m.comps) := by
  rw [m.flagSums_comps p (m.ampAt p ev.1) _ (fun i a ha => hf.amp i a ha e ev he), sumA_comps]
  rfl

theorem norm_sums (m : T4 A S V T P Ev) (p : P) (s : T4State Ev) (hf : m.FreshAt p s) (hn : s.noNorm = false) (n : Nat)
    (b : NormBatch Ev) (hb : m.batches[n]? = some b) (e : Nat) (ev : Ev) (he : b.points[e]? = some ev) :
    m.normSums p b.points (s.normSF n) (s.normLS n) e
      = (m.coherent p ev m.ampsA * (m.value p m.rate : ℂ),
         sumB (fun a => (⟨m.value p a.ar, m.value p a.ai⟩ : ℂ) * m.ampAt p ev a) m.comps) := by
  unfold normSums
  rw [m.flagSums_comps p (m.ampAt p ev) _ (fun i a ha => m.normAmp_fresh p b.points (s.normSF n) (s.normLS n)
    (fun i x hx e ev he => hf.nls hn n b hb i x hx e ev he) (fun j x hx e ev he => hf.nsf hn n b hb j x hx e ev he) i a ha
    e ev he), sumA_comps]
  rfl

end
end T4
end GooFit
