import Verif.Spec.TimeFourBody
import Verif.Lemmas.Amp4BodyRun

/-! # Lemmas about the time-dependent four-body PDF -/

set_option autoImplicit false

namespace GooFit
open Spec

/-- Reading an array made of the starts of blocks, followed by the blocks. -/
theorem rd_blocks {β : Type} (blk : β → List Nat) (l : List β) (i : Nat) (b : β) (hb : l[i]? = some b) (k : Nat)
    (hk : k < (blk b).length) :
    rd ((List.range l.length).map (fun i => ((l.take i).flatMap blk).length) ++ l.flatMap blk)
      (l.length + ((l.take i).flatMap blk).length + k) = (blk b).getD k 0 := by
  have hi := idx_lt hb
  have hsplit : l = l.take i ++ b :: l.drop (i + 1) := by
    have h1 : l[i] = b := by
      rw [List.getElem?_eq_getElem hi] at hb
      exact Option.some.inj hb
    conv_lhs => rw [← List.take_append_drop i l, List.drop_eq_getElem_cons hi, h1]
  unfold rd
  rw [List.getD_append_right _ _ _ _ (by simp; omega)]
  simp only [List.length_map, List.length_range]
  rw [show l.length + ((l.take i).flatMap blk).length + k - l.length = ((l.take i).flatMap blk).length + k by omega]
  have : l.flatMap blk = (l.take i).flatMap blk ++ (blk b ++ (l.drop (i + 1)).flatMap blk) := by
    conv_lhs => rw [hsplit]
    rw [List.flatMap_append, List.flatMap_cons]
  rw [this, List.getD_append_right _ _ _ _ (by omega)]
  rw [show ((l.take i).flatMap blk).length + k - ((l.take i).flatMap blk).length = k by omega]
  exact List.getD_append _ _ _ _ hk

theorem rd_starts {β : Type} (blk : β → List Nat) (l : List β) (i : Nat) (hi : i < l.length) :
    rd ((List.range l.length).map (fun i => ((l.take i).flatMap blk).length) ++ l.flatMap blk) i
      = ((l.take i).flatMap blk).length := by
  unfold rd
  rw [List.getD_append _ _ _ _ (by simpa using hi)]
  simp [List.getD_eq_getElem?_getD, hi]

theorem prod_ofReal (l : List ℝ) : (l.map fun r : ℝ => (r : ℂ)).prod = ((l.prod : ℝ) : ℂ) := by
  induction l with
  | nil => simp
  | cons x l ih => rw [List.map_cons, List.prod_cons, List.prod_cons, ih]; push_cast; rfl

namespace T4
section
variable {A S V T P Ev : Type} [DecidableEq A] [DecidableEq S] [DecidableEq V] [DecidableEq T]

theorem rd_block (m : T4 A S V T P Ev) (i : Nat) (a : TAmp A S V T × Nat) (ha : m.comps[i]? = some a) (k : Nat)
    (hk : k < (m.block a).length) : rd m.idx (m.comps.length + m.start i + k) = (m.block a).getD k 0 :=
  rd_blocks m.block m.comps i a ha k hk

theorem rd_start (m : T4 A S V T P Ev) (i : Nat) (hi : i < m.comps.length) : rd m.idx i = m.start i :=
  rd_starts m.block m.comps i hi

theorem block_length (m : T4 A S V T P Ev) (a : TAmp A S V T × Nat) :
    (m.block a).length = 4 + a.1.amp.ls.length + a.1.amp.sf.length := by
  simp [block]; omega

theorem block_ls (m : T4 A S V T P Ev) (a : TAmp A S V T × Nat) (j : Nat) (hj : j < a.1.amp.ls.length) :
    (m.block a).getD (4 + j) 0 = m.LS.idxOf (a.1.amp.ls[j]) := by
  unfold block
  rw [List.append_assoc, List.getD_append_right _ _ _ _ (by simp), List.getD_append _ _ _ _ (by simp; omega)]
  simp [List.getD_eq_getElem?_getD, hj]

theorem block_sf (m : T4 A S V T P Ev) (a : TAmp A S V T × Nat) (j : Nat) (hj : j < a.1.amp.sf.length) :
    (m.block a).getD (4 + a.1.amp.ls.length + j) 0 = m.SF.idxOf (a.1.amp.sf[j]) := by
  unfold block
  rw [List.getD_append_right _ _ _ _ (by simp; omega)]
  simp [List.getD_eq_getElem?_getD, show 4 + a.1.amp.ls.length + j - (a.1.amp.ls.length + 4) = j by omega, hj]

theorem rd_head (m : T4 A S V T P Ev) (i : Nat) (a : TAmp A S V T × Nat) (ha : m.comps[i]? = some a) :
    rd m.idx (m.comps.length + m.start i) = a.1.amp.ls.length ∧
    rd m.idx (m.comps.length + m.start i + 1) = a.1.amp.sf.length ∧
    rd m.idx (m.comps.length + m.start i + 2) = a.1.amp.nPerm ∧
    rd m.idx (m.comps.length + m.start i + 3) = a.2 := by
  have hl := m.block_length a
  refine ⟨?_, ?_, ?_, ?_⟩
  · have := m.rd_block i a ha 0 (by omega)
    rw [Nat.add_zero] at this
    rw [this]; rfl
  · rw [m.rd_block i a ha 1 (by omega)]; rfl
  · rw [m.rd_block i a ha 2 (by omega)]; rfl
  · rw [m.rd_block i a ha 3 (by omega)]; rfl

theorem mem_LS (m : T4 A S V T P Ev) {a : TAmp A S V T × Nat} {x : A} (ha : a ∈ m.comps) (hx : x ∈ a.1.amp.ls) :
    x ∈ m.LS := mem_lineShapesOf (List.mem_map.2 ⟨a, ha, rfl⟩) hx

theorem mem_SF (m : T4 A S V T P Ev) {a : TAmp A S V T × Nat} {x : S} (ha : a ∈ m.comps) (hx : x ∈ a.1.amp.sf) :
    x ∈ m.SF := mem_spinFactorsOf (List.mem_map.2 ⟨a, ha, rfl⟩) hx

/-- The sum over permutations, from functions that read the right entries. -/
theorem perm_sum (nPerm : Nat) (l : List A) (s : List S) (lv : A → ℂ) (sv : S → ℝ) (f g : Nat → ℂ)
    (hf : ∀ (j : Nat) (x : A), l[j]? = some x → f j = lv x)
    (hg : ∀ (j : Nat) (x : S), s[j]? = some x → g j = (sv x : ℂ)) :
    ((List.range nPerm).foldl (fun acc i =>
      acc + (List.range' (i * (s.length / nPerm)) (s.length / nPerm)).foldl (fun r j => r * g j)
        ((List.range' (i * (l.length / nPerm)) (l.length / nPerm)).foldl (fun r j => r * f j) 1)) 0)
      * ((1 / √(nPerm : ℝ) : ℝ) : ℂ) = amplitudeC nPerm (l.map lv) (s.map sv) := by
  unfold amplitudeC
  rw [foldl_plus_sum, zero_add, Complex.ofReal_div, Complex.ofReal_one, mul_one_div]
  congr 2
  refine List.map_congr_left fun p hp => ?_
  rw [List.mem_range] at hp
  rw [foldl_part l lv f nPerm p hp 1 hf, one_mul, foldl_part s (fun x => (sv x : ℂ)) g nPerm p hp _ hg]
  congr 1
  rw [← prod_ofReal, ← part_map, List.map_map]
  rfl

/-- `AmpCalc_TD` computes the amplitude from fresh caches. -/
theorem ampCalc_fresh (m : T4 A S V T P Ev) (p : P) (res : Nat → ℂ) (data : List (Ev × ℝ × ℝ))
    (hls : ∀ (i : Nat) (x : A), m.LS[i]? = some x → ∀ (e : Nat) (ev : Ev × ℝ × ℝ), data[e]? = some ev →
      res (e * (m.LS.length + m.SF.length) + i) = m.lineShape x p ev.1)
    (hsf : ∀ (j : Nat) (x : S), m.SF[j]? = some x → ∀ (e : Nat) (ev : Ev × ℝ × ℝ), data[e]? = some ev →
      res (e * (m.LS.length + m.SF.length) + m.LS.length + j) = (m.spinFactor x ev.1 : ℂ))
    (i : Nat) (a : TAmp A S V T × Nat) (ha : m.comps[i]? = some a) (e : Nat) (ev : Ev × ℝ × ℝ) (he : data[e]? = some ev) :
    ampCalcTD m.idx m.LS.length m.SF.length m.comps.length a.1.amp.nPerm (m.start i) res e = m.ampAt p ev.1 a.1 := by
  obtain ⟨h0, h1, _, _⟩ := m.rd_head i a ha
  have hl := m.block_length a
  have hmem := List.mem_of_getElem? ha
  unfold ampCalcTD ampAt
  simp only [h0, h1]
  refine perm_sum _ _ _ _ _ _ _ (fun j x hx => ?_) (fun j x hx => ?_)
  · have hj := idx_lt hx
    have hx' : a.1.amp.ls[j] = x := by
      rw [List.getElem?_eq_getElem hj] at hx
      exact Option.some.inj hx
    rw [show m.comps.length + m.start i + 4 + j = m.comps.length + m.start i + (4 + j) by omega,
      m.rd_block i a ha _ (by omega), m.block_ls a j hj, hx']
    exact hls _ x (idxOf_read (m.mem_LS hmem (hx' ▸ List.getElem_mem hj))) e ev he
  · have hj := idx_lt hx
    have hx' : a.1.amp.sf[j] = x := by
      rw [List.getElem?_eq_getElem hj] at hx
      exact Option.some.inj hx
    rw [show m.comps.length + m.start i + 4 + a.1.amp.ls.length + j
        = m.comps.length + m.start i + (4 + a.1.amp.ls.length + j) by omega,
      m.rd_block i a ha _ (by omega), m.block_sf a j hj, hx',
      hsf _ x (idxOf_read (m.mem_SF hmem (hx' ▸ List.getElem_mem hj))) e ev he, Complex.ofReal_re]

/-- The amplitude of a normalisation event, from fresh caches. -/
theorem normAmp_fresh (m : T4 A S V T P Ev) (p : P) (mc : List Ev) (sf : Nat → ℝ) (ls : Nat → ℂ)
    (hls : ∀ (i : Nat) (x : A), m.LS[i]? = some x → ∀ (e : Nat) (ev : Ev), mc[e]? = some ev →
      ls (e + i * mc.length) = m.lineShape x p ev)
    (hsf : ∀ (j : Nat) (x : S), m.SF[j]? = some x → ∀ (e : Nat) (ev : Ev), mc[e]? = some ev →
      sf (e + j * mc.length) = m.spinFactor x ev)
    (i : Nat) (a : TAmp A S V T × Nat) (ha : m.comps[i]? = some a) (e : Nat) (ev : Ev) (he : mc[e]? = some ev) :
    normAmpTD m.idx m.comps.length mc.length sf ls e i = m.ampAt p ev a.1 := by
  obtain ⟨h0, h1, h2, _⟩ := m.rd_head i a ha
  have hl := m.block_length a
  have hmem := List.mem_of_getElem? ha
  unfold normAmpTD ampAt
  simp only [m.rd_start i (idx_lt ha), h0, h1, h2]
  refine perm_sum _ _ _ _ _ _ _ (fun j x hx => ?_) (fun j x hx => ?_)
  · have hj := idx_lt hx
    have hx' : a.1.amp.ls[j] = x := by
      rw [List.getElem?_eq_getElem hj] at hx
      exact Option.some.inj hx
    rw [show m.comps.length + m.start i + 4 + j = m.comps.length + m.start i + (4 + j) by omega,
      m.rd_block i a ha _ (by omega), m.block_ls a j hj, hx']
    exact hls _ x (idxOf_read (m.mem_LS hmem (hx' ▸ List.getElem_mem hj))) e ev he
  · have hj := idx_lt hx
    have hx' : a.1.amp.sf[j] = x := by
      rw [List.getElem?_eq_getElem hj] at hx
      exact Option.some.inj hx
    rw [show m.comps.length + m.start i + 4 + a.1.amp.ls.length + j
        = m.comps.length + m.start i + (4 + a.1.amp.ls.length + j) by omega,
      m.rd_block i a ha _ (by omega), m.block_sf a j hj, hx',
      hsf _ x (idxOf_read (m.mem_SF hmem (hx' ▸ List.getElem_mem hj))) e ev he]

/-! ### Flags and coefficients -/

/-- The parameters that follow the first four, for components with flags. -/
def coefVars (l : List (TAmp A S V T × Nat)) : List V :=
  l.flatMap fun a => if a.2 = 2 then [a.1.ar, a.1.ai, a.1.ar, a.1.ai] else [a.1.ar, a.1.ai]

theorem params_eq (m : T4 A S V T P Ev) : m.params = [m.tau, m.x, m.y, m.rate] ++ coefVars m.comps := by
  unfold params coefVars comps
  rw [List.flatMap_append, List.append_assoc]
  congr 2
  · rw [List.flatMap_map]
    refine List.flatMap_congr fun a _ => ?_
    cases h : m.ampsB.find? (fun b => decide (a = b)) with
    | none => simp
    | some b =>
      have : a = b := by simpa using List.find?_some h
      subst this
      simp
  · rw [List.flatMap_map]
    rfl

/-- What the loop adds up. -/
noncomputable def sumA (c : TAmp A S V T → ℂ) (l : List (TAmp A S V T × Nat)) : ℂ :=
  (l.map fun a => if a.2 = 0 ∨ a.2 = 2 then c a.1 else 0).sum
noncomputable def sumB (c : TAmp A S V T → ℂ) (l : List (TAmp A S V T × Nat)) : ℂ :=
  (l.map fun a => if a.2 = 1 ∨ a.2 = 2 then c a.1 else 0).sum

theorem flag_loop (par : Nat → ℝ) (value : V → ℝ) (av : TAmp A S V T → ℂ) (flag : Nat → Nat) (amp : Nat → ℂ)
    (l : List (TAmp A S V T × Nat)) (i0 k : Nat) (s : ℂ × ℂ)
    (hfl : ∀ a ∈ l, a.2 = 0 ∨ a.2 = 1 ∨ a.2 = 2)
    (hflag : ∀ (j : Nat) (a : TAmp A S V T × Nat), l[j]? = some a → flag (i0 + j) = a.2 ∧ amp (i0 + j) = av a.1)
    (hpar : ∀ (j : Nat) (v : V), (coefVars l)[j]? = some v → par (4 + 2 * (i0 + k) + j) = value v) :
    ∃ k', (List.range' i0 l.length).foldl (fun s i => flagStep par (flag i) (amp i) i s) (s.1, s.2, k)
      = (s.1 + sumA (fun a => (⟨value a.ar, value a.ai⟩ : ℂ) * av a) l,
         s.2 + sumB (fun a => (⟨value a.ar, value a.ai⟩ : ℂ) * av a) l, k') := by
  induction l generalizing i0 k s with
  | nil => exact ⟨k, by simp [sumA, sumB]⟩
  | cons a l ih =>
    rw [List.length_cons, List.range'_succ, List.foldl_cons]
    obtain ⟨f1, f2⟩ := hflag 0 a rfl
    rw [Nat.add_zero] at f1 f2
    have hrest : ∀ (j : Nat) (b : TAmp A S V T × Nat), l[j]? = some b →
        flag (i0 + 1 + j) = b.2 ∧ amp (i0 + 1 + j) = av b.1 := by
      intro j b hb
      have := hflag (j + 1) b (by simpa using hb)
      rwa [show i0 + (j + 1) = i0 + 1 + j by omega] at this
    have hA : sumA (fun a => (⟨value a.ar, value a.ai⟩ : ℂ) * av a) (a :: l)
        = (if a.2 = 0 ∨ a.2 = 2 then (⟨value a.1.ar, value a.1.ai⟩ : ℂ) * av a.1 else 0)
          + sumA (fun a => (⟨value a.ar, value a.ai⟩ : ℂ) * av a) l := by simp [sumA]
    have hB : sumB (fun a => (⟨value a.ar, value a.ai⟩ : ℂ) * av a) (a :: l)
        = (if a.2 = 1 ∨ a.2 = 2 then (⟨value a.1.ar, value a.1.ai⟩ : ℂ) * av a.1 else 0)
          + sumB (fun a => (⟨value a.ar, value a.ai⟩ : ℂ) * av a) l := by simp [sumB]
    rw [hA, hB, f1, f2]
    have hfl' : ∀ b ∈ l, b.2 = 0 ∨ b.2 = 1 ∨ b.2 = 2 := fun b hb => hfl b (List.mem_cons_of_mem _ hb)
    have hcv : coefVars (a :: l) = (if a.2 = 2 then [a.1.ar, a.1.ai, a.1.ar, a.1.ai] else [a.1.ar, a.1.ai]) ++ coefVars l := by
      simp [coefVars]
    rw [hcv] at hpar
    rcases hfl a List.mem_cons_self with h | h | h
    · rw [h] at hpar ⊢
      simp only [Nat.reduceEqDiff, if_false, OfNat.zero_ne_ofNat, or_false, if_true] at hpar ⊢
      have p0 := hpar 0 a.1.ar rfl
      have p1 := hpar 1 a.1.ai rfl
      obtain ⟨k', hk⟩ := ih (i0 + 1) k (s.1 + av a.1 * ⟨value a.1.ar, value a.1.ai⟩, s.2) hfl' hrest (fun j v hv => by
        have := hpar (j + 2) v (by simpa using hv)
        rw [← this]; congr 1; omega)
      refine ⟨k', ?_⟩
      have hst : flagStep par 0 (av a.1) i0 (s.1, s.2, k) = (s.1 + av a.1 * ⟨value a.1.ar, value a.1.ai⟩, s.2, k) := by
        simp only [flagStep]
        rw [show 4 + 2 * (i0 + k) = 4 + 2 * (i0 + k) + 0 by omega, p0,
          show 5 + 2 * (i0 + k) = 4 + 2 * (i0 + k) + 1 by omega, p1]
      rw [hst, hk]
      simp
      ring
    · rw [h] at hpar ⊢
      simp only [Nat.reduceEqDiff, if_false, or_false, if_true, one_ne_zero, OfNat.one_ne_ofNat] at hpar ⊢
      have p0 := hpar 0 a.1.ar rfl
      have p1 := hpar 1 a.1.ai rfl
      obtain ⟨k', hk⟩ := ih (i0 + 1) k (s.1, s.2 + av a.1 * ⟨value a.1.ar, value a.1.ai⟩) hfl' hrest (fun j v hv => by
        have := hpar (j + 2) v (by simpa using hv)
        rw [← this]; congr 1; omega)
      refine ⟨k', ?_⟩
      have hst : flagStep par 1 (av a.1) i0 (s.1, s.2, k) = (s.1, s.2 + av a.1 * ⟨value a.1.ar, value a.1.ai⟩, k) := by
        simp only [flagStep]
        rw [show 4 + 2 * (i0 + k) = 4 + 2 * (i0 + k) + 0 by omega, p0,
          show 5 + 2 * (i0 + k) = 4 + 2 * (i0 + k) + 1 by omega, p1]
      rw [hst, hk]
      simp
      ring
    · rw [h] at hpar ⊢
      simp only [if_true, or_true] at hpar ⊢
      have p0 := hpar 0 a.1.ar rfl
      have p1 := hpar 1 a.1.ai rfl
      have p2 := hpar 2 a.1.ar rfl
      have p3 := hpar 3 a.1.ai rfl
      obtain ⟨k', hk⟩ := ih (i0 + 1) (k + 1) (s.1 + av a.1 * ⟨value a.1.ar, value a.1.ai⟩,
          s.2 + av a.1 * ⟨value a.1.ar, value a.1.ai⟩) hfl' hrest (fun j v hv => by
        have := hpar (j + 4) v (by simpa using hv)
        rw [← this]; congr 1; omega)
      refine ⟨k', ?_⟩
      have hst : flagStep par 2 (av a.1) i0 (s.1, s.2, k) = (s.1 + av a.1 * ⟨value a.1.ar, value a.1.ai⟩,
          s.2 + av a.1 * ⟨value a.1.ar, value a.1.ai⟩, k + 1) := by
        simp only [flagStep]
        rw [show 4 + 2 * (i0 + k) = 4 + 2 * (i0 + k) + 0 by omega, p0,
          show 5 + 2 * (i0 + k) = 4 + 2 * (i0 + k) + 1 by omega, p1,
          show 4 + 2 * (i0 + (k + 1)) = 4 + 2 * (i0 + k) + 2 by omega, p2,
          show 5 + 2 * (i0 + (k + 1)) = 4 + 2 * (i0 + k) + 3 by omega, p3]
      rw [hst, hk]
      simp
      constructor <;> ring

theorem comps_flag (m : T4 A S V T P Ev) (a : TAmp A S V T × Nat) (ha : a ∈ m.comps) : a.2 = 0 ∨ a.2 = 1 ∨ a.2 = 2 := by
  unfold comps at ha
  rcases List.mem_append.1 ha with h | h
  · obtain ⟨b, _, rfl⟩ := List.mem_map.1 h
    dsimp only
    split <;> simp
  · obtain ⟨b, _, rfl⟩ := List.mem_map.1 h
    simp

theorem par_first (m : T4 A S V T P Ev) (p : P) :
    m.par p 0 = m.value p m.tau ∧ m.par p 1 = m.value p m.x ∧ m.par p 2 = m.value p m.y ∧ m.par p 3 = m.value p m.rate := by
  simp [par, params]

/-- The two sums, from the right amplitudes. -/
theorem flagSums_comps (m : T4 A S V T P Ev) (p : P) (av : TAmp A S V T → ℂ) (amp : Nat → ℂ)
    (hamp : ∀ (i : Nat) (a : TAmp A S V T × Nat), m.comps[i]? = some a → amp i = av a.1) :
    flagSums m.idx m.comps.length (m.par p) amp
      = (sumA (fun a => (⟨m.value p a.ar, m.value p a.ai⟩ : ℂ) * av a) m.comps * (m.value p m.rate : ℂ),
         sumB (fun a => (⟨m.value p a.ar, m.value p a.ai⟩ : ℂ) * av a) m.comps) := by
  obtain ⟨k', h⟩ := flag_loop (m.par p) (m.value p) av (fun i => rd m.idx (rd m.idx i + 3 + m.comps.length)) amp m.comps 0 0
    (0, 0) (m.comps_flag) (fun j a ha => by
      rw [Nat.zero_add]
      refine ⟨?_, hamp j a ha⟩
      show rd m.idx (rd m.idx j + 3 + m.comps.length) = a.2
      rw [m.rd_start j (idx_lt ha), show m.start j + 3 + m.comps.length = m.comps.length + m.start j + 3 by omega]
      exact (m.rd_head j a ha).2.2.2)
    (fun j v hv => by
      have : m.params[4 + j]? = some v := by
        rw [m.params_eq, List.getElem?_append_right (by simp)]
        simpa using hv
      show (match m.params[4 + 2 * (0 + 0) + j]? with | some v => m.value p v | none => 0) = m.value p v
      rw [show 4 + 2 * (0 + 0) + j = 4 + j by omega, this])
  unfold flagSums
  rw [List.range_eq_range', h, (m.par_first p).2.2.2]
  simp

theorem sumA_comps (m : T4 A S V T P Ev) (c : TAmp A S V T → ℂ) : sumA c m.comps = (m.ampsA.map c).sum := by
  unfold sumA comps
  rw [List.map_append, List.sum_append, List.map_map, List.map_map]
  have h2 : ((m.ampsB.filter (fun b => (m.ampsA.find? (fun a => b = a)).isNone)).map
      ((fun a : TAmp A S V T × Nat => if a.2 = 0 ∨ a.2 = 2 then c a.1 else 0) ∘ fun b => (b, 1))).sum = 0 := by
    apply List.sum_eq_zero
    intro z hz
    obtain ⟨b, _, rfl⟩ := List.mem_map.1 hz
    simp
  rw [h2, add_zero]
  congr 1
  refine List.map_congr_left fun a _ => ?_
  simp only [Function.comp]
  split <;> simp

theorem sumB_comps (m : T4 A S V T P Ev) (c : TAmp A S V T → ℂ) :
    sumB c m.comps = ((m.ampsA.filter (fun a => a ∈ m.ampsB)).map c).sum
      + ((m.ampsB.filter (fun b => b ∉ m.ampsA)).map c).sum := by
  unfold sumB comps
  rw [List.map_append, List.sum_append, List.map_map, List.map_map]
  congr 1
  · induction m.ampsA with
    | nil => rfl
    | cons a l ih =>
      rw [List.map_cons, List.sum_cons, ih, List.filter_cons]
      by_cases h : a ∈ m.ampsB
      · have : (m.ampsB.find? (fun b => decide (a = b))).isSome = true := by
          rw [List.find?_isSome]; exact ⟨a, h, by simp⟩
        simp [h, this]
      · have : (m.ampsB.find? (fun b => decide (a = b))).isSome = false := by
          rw [Bool.eq_false_iff, Ne, List.find?_isSome]
          rintro ⟨b, hb, hab⟩
          exact h (by simpa using (of_decide_eq_true hab) ▸ hb)
        simp [h, this]
  · congr 1
    have : (m.ampsB.filter (fun b => (m.ampsA.find? (fun a => decide (b = a))).isNone))
        = m.ampsB.filter (fun b => b ∉ m.ampsA) := by
      refine List.filter_congr fun b _ => ?_
      by_cases h : b ∈ m.ampsA
      · have : (m.ampsA.find? (fun a => decide (b = a))).isSome = true := by
          rw [List.find?_isSome]; exact ⟨b, h, by simp⟩
        rw [← Option.not_isSome, this]; simp [h]
      · have : (m.ampsA.find? (fun a => decide (b = a))).isSome = false := by
          rw [Bool.eq_false_iff, Ne, List.find?_isSome]
          rintro ⟨a, ha, hab⟩
          exact h (by simpa using (of_decide_eq_true hab) ▸ ha)
        rw [← Option.not_isSome, this]; simp [h]
    rw [this]
    refine List.map_congr_left fun b _ => by simp

/-- Without repetitions, the second sum is that of the second list. -/
theorem sumB_nodup (m : T4 A S V T P Ev) (hA : m.ampsA.Nodup) (hB : m.ampsB.Nodup) (c : TAmp A S V T → ℂ) :
    sumB c m.comps = (m.ampsB.map c).sum := by
  rw [sumB_comps]
  have hperm : (m.ampsA.filter (fun a => a ∈ m.ampsB)).Perm (m.ampsB.filter (fun b => b ∈ m.ampsA)) := by
    refine (List.perm_ext_iff_of_nodup (hA.filter _) (hB.filter _)).2 fun a => ?_
    simp [and_comm]
  rw [(hperm.map c).sum_eq, ← List.sum_append, ← List.map_append]
  have h2 : (m.ampsB.filter (fun b => b ∈ m.ampsA) ++ m.ampsB.filter (fun b => b ∉ m.ampsA)).Perm m.ampsB := by
    have := List.filter_append_perm (fun b => decide (b ∈ m.ampsA)) m.ampsB
    simpa using this
  exact (h2.map c).sum_eq

end
end T4
end GooFit
