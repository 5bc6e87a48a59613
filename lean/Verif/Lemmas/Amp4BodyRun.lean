import Verif.Lemmas.Amp4Body
/-! # Lemmas about the histories of a four-body PDF -/
set_option autoImplicit false
namespace GooFit
open Spec

section
variable {K : Type} [Field K] (sqrt : K → K) {A S P Ev : Type} [DecidableEq A] [DecidableEq S]

theorem idx_lt {α : Type} {l : List α} {i : Nat} {x : α} (h : l[i]? = some x) : i < l.length := by
  by_contra hc
  rw [List.getElem?_eq_none (by omega)] at h
  exact absurd h (by simp)

namespace A4

theorem fillLS_read (m : A4 K A S P Ev) (p : P) (redo : List Bool) (data : List Ev) (res : Nat → Cx K) (i : Nat) (x : A)
    (hx : m.LS[i]? = some x) (e : Nat) (ev : Ev) (he : data[e]? = some ev) :
    m.fillLS p redo data res (e * (m.LS.length + m.SF.length) + i)
      = if redo.getD i false then m.lineShape x p ev else res (e * (m.LS.length + m.SF.length) + i) := by
  have h := (columns_read m.LS 0 0 (m.LS.length + m.SF.length) data.length (fun i => redo.getD i false)
    (fun x e => match data[e]? with | some ev => m.lineShape x p ev | none => 0) res (by omega)).1 i x hx e (idx_lt he)
  simp only [Nat.zero_add, he] at h
  unfold fillLS
  rw [show e * (m.LS.length + m.SF.length) + i = i + (m.LS.length + m.SF.length) * e by rw [Nat.mul_comm]; omega]
  exact h

theorem fillLS_other (m : A4 K A S P Ev) (p : P) (redo : List Bool) (data : List Ev) (res : Nat → Cx K) (j : Nat)
    (hj : j < m.SF.length) (e : Nat) :
    m.fillLS p redo data res (e * (m.LS.length + m.SF.length) + m.LS.length + j)
      = res (e * (m.LS.length + m.SF.length) + m.LS.length + j) := by
  have h := (columns_read m.LS 0 0 (m.LS.length + m.SF.length) data.length (fun i => redo.getD i false)
    (fun x e => match data[e]? with | some ev => m.lineShape x p ev | none => 0) res (by omega)).2 (m.LS.length + j) e
      (by omega) (by omega)
  simp only [Nat.zero_add] at h
  unfold fillLS
  rw [show e * (m.LS.length + m.SF.length) + m.LS.length + j = m.LS.length + j + (m.LS.length + m.SF.length) * e by
    rw [Nat.mul_comm]; omega]
  exact h

theorem fillSF_read (m : A4 K A S P Ev) (data : List Ev) (res : Nat → Cx K) (j : Nat) (x : S)
    (hx : m.SF[j]? = some x) (e : Nat) (ev : Ev) (he : data[e]? = some ev) :
    m.fillSF data res (e * (m.LS.length + m.SF.length) + m.LS.length + j) = Cx.ofReal (m.spinFactor x ev) := by
  have h := (columns_read m.SF 0 m.LS.length (m.LS.length + m.SF.length) data.length (fun _ => true)
    (fun x e => match data[e]? with | some ev => Cx.ofReal (m.spinFactor x ev) | none => 0) res (by omega)).1 j x hx e
      (idx_lt he)
  simp only [Nat.zero_add, he, if_true] at h
  unfold fillSF
  rw [show e * (m.LS.length + m.SF.length) + m.LS.length + j = m.LS.length + j + (m.LS.length + m.SF.length) * e by
    rw [Nat.mul_comm]; omega]
  exact h

theorem fillNormLS_read (m : A4 K A S P Ev) (p : P) (redo : List Bool) (arr : Nat → Cx K) (i : Nat) (x : A)
    (hx : m.LS[i]? = some x) (e : Nat) (ev : Ev) (he : m.mc[e]? = some ev) :
    m.fillNormLS p redo arr (e + i * m.mc.length)
      = if redo.getD i false then m.lineShape x p ev else arr (e + i * m.mc.length) := by
  have h := (rows_read m.LS 0 m.mc.length (fun i => redo.getD i false)
    (fun x e => match m.mc[e]? with | some ev => m.lineShape x p ev | none => 0) arr).1 i x hx e (idx_lt he)
  simp only [Nat.zero_add, he] at h
  exact h

theorem fillNormSF_read (m : A4 K A S P Ev) (arr : Nat → K) (j : Nat) (x : S)
    (hx : m.SF[j]? = some x) (e : Nat) (ev : Ev) (he : m.mc[e]? = some ev) :
    m.fillNormSF arr (e + j * m.mc.length) = m.spinFactor x ev := by
  have h := (rows_read m.SF 0 m.mc.length (fun _ => true)
    (fun x e => match m.mc[e]? with | some ev => m.spinFactor x ev | none => 0) arr).1 j x hx e (idx_lt he)
  simp only [Nat.zero_add, he, if_true] at h
  exact h

theorem fillAmps_read (m : A4 K A S P Ev) (redo : List Bool) (data : List Ev) (res ampv : Nat → Cx K) (i : Nat)
    (a : Amp4 A S) (ha : m.amps[i]? = some a) (e : Nat) (he : e < data.length) :
    m.fillAmps sqrt redo data res ampv (e * m.amps.length + i)
      = if redo.getD i false then
          ampCalc sqrt m.idx m.LS.length m.SF.length m.amps.length a.nPerm (ampStart m.LS m.SF m.amps i) res e
        else ampv (e * m.amps.length + i) := by
  have key : ∀ (l : List (Amp4 A S)) (start : Nat) (arr : Nat → Cx K), start + l.length ≤ m.amps.length →
      (∀ (j : Nat) (a : Amp4 A S), l[j]? = some a → ∀ e, e < data.length →
        ((l.zipIdx start).foldl (fun arr x => if redo.getD x.2 false then
            writeStrided arr x.2 m.amps.length data.length
              (ampCalc sqrt m.idx m.LS.length m.SF.length m.amps.length x.1.nPerm (ampStart m.LS m.SF m.amps x.2) res)
          else arr) arr) (start + j + m.amps.length * e)
        = if redo.getD (start + j) false then
            ampCalc sqrt m.idx m.LS.length m.SF.length m.amps.length a.nPerm (ampStart m.LS m.SF m.amps (start + j)) res e
          else arr (start + j + m.amps.length * e)) := by
    intro l start arr hb j a ha e he
    have h := (columns_read (l.zipIdx start) start 0 m.amps.length data.length (fun i => redo.getD i false)
      (fun x => ampCalc sqrt m.idx m.LS.length m.SF.length m.amps.length x.1.nPerm (ampStart m.LS m.SF m.amps x.2) res) arr
      (by simpa using hb)).1 j (a, start + j) (by rw [List.getElem?_zipIdx, ha]; rfl) e he
    simp only [Nat.zero_add] at h
    rw [← h]
    congr 1
    clear h ha he hb
    generalize start + j + m.amps.length * e = k
    clear e a j
    induction l generalizing start arr with
    | nil => rfl
    | cons y l ih =>
      simp only [List.zipIdx_cons, List.foldl_cons]
      exact ih (start + 1) _
  have h := key m.amps 0 ampv (by omega) i a ha e he
  simp only [Nat.zero_add] at h
  unfold fillAmps
  rw [show e * m.amps.length + i = i + m.amps.length * e by rw [Nat.mul_comm]; omega]
  exact h

theorem markRedo_spec (m : A4 K A S P Ev) (changed : A → Bool) (force : Bool) (redo redo' : List Bool)
    (h : m.markRedo changed force redo = some redo') :
    redo'.length = redo.length ∧ m.LS.length ≤ redo.length ∧
    (∀ (i : Nat) (x : A), m.LS[i]? = some x → redo'.getD i false = (force || changed x)) ∧
    (∀ (i : Nat), m.LS.length ≤ i → redo'.getD i false = redo.getD i false) := by
  have key : ∀ (l : List A) (start : Nat) (r r' : List Bool),
      (l.zipIdx start).foldlM (fun (r : List Bool) (x : A × Nat) =>
        if x.2 < r.length then some (r.set x.2 (force || changed x.1)) else none) r = some r' → start ≤ r.length →
      r'.length = r.length ∧ start + l.length ≤ r.length ∧
      (∀ (i : Nat) (x : A), l[i]? = some x → r'.getD (start + i) false = (force || changed x)) ∧
      (∀ (i : Nat), i < start ∨ start + l.length ≤ i → r'.getD i false = r.getD i false) := by
    intro l
    induction l with
    | nil =>
      intro start r r' h hs
      simp only [List.zipIdx_nil, List.foldlM_nil, pure, Option.some.injEq] at h
      subst h
      exact ⟨rfl, by simpa using hs, fun i x hx => by simp at hx, fun _ _ => rfl⟩
    | cons y l ih =>
      intro start r r' h _
      simp only [List.zipIdx_cons, List.foldlM_cons, bind, Option.bind] at h
      by_cases hs : start < r.length
      · rw [if_pos hs] at h
        obtain ⟨h1, h2, h3, h4⟩ := ih (start + 1) _ _ h (by rw [List.length_set]; omega)
        rw [List.length_set] at h1 h2
        simp only [List.length_cons]
        refine ⟨h1, by omega, fun i x hx => ?_, fun i hi => ?_⟩
        · match i with
          | 0 =>
            simp only [List.getElem?_cons_zero, Option.some.injEq] at hx
            subst hx
            rw [Nat.add_zero, h4 start (by omega), List.getD_eq_getElem?_getD, List.getElem?_set_self hs]
            rfl
          | i + 1 =>
            rw [List.getElem?_cons_succ] at hx
            rw [show start + (i + 1) = start + 1 + i by omega]
            exact h3 i x hx
        · rw [h4 i (by omega), List.getD_eq_getElem?_getD, List.getD_eq_getElem?_getD,
            List.getElem?_set_ne (by omega)]
      · rw [if_neg hs] at h
        exact absurd h (by simp)
  obtain ⟨h1, h2, h3, h4⟩ := key m.LS 0 redo redo' h (by omega)
  refine ⟨h1, by omega, fun i x hx => ?_, fun i hi => h4 i (Or.inr (by omega))⟩
  have := h3 i x hx
  rwa [Nat.zero_add] at this

theorem markRedo_none (m : A4 K A S P Ev) (changed : A → Bool) (force : Bool) (redo : List Bool) :
    m.markRedo changed force redo = none ↔ redo.length < m.LS.length := by
  have key : ∀ (l : List A) (start : Nat) (r : List Bool), start ≤ r.length →
      ((l.zipIdx start).foldlM (fun (r : List Bool) (x : A × Nat) =>
        if x.2 < r.length then some (r.set x.2 (force || changed x.1)) else none) r = none ↔ r.length < start + l.length) := by
    intro l
    induction l with
    | nil =>
      intro start r hs
      simp only [List.zipIdx_nil, List.foldlM_nil, pure, List.length_nil, reduceCtorEq, false_iff]
      omega
    | cons y l ih =>
      intro start r hs
      simp only [List.zipIdx_cons, List.foldlM_cons, bind, Option.bind, List.length_cons]
      by_cases hs : start < r.length
      · rw [if_pos hs]
        simp only
        rw [ih (start + 1) _ (by rw [List.length_set]; omega), List.length_set]
        omega
      · rw [if_neg hs]
        simp only [true_iff]
        omega
  have := key m.LS 0 redo (by omega)
  rw [Nat.zero_add] at this
  exact this

/-- The line shapes, spin factors and (aligned) amplitudes in the caches are those of `p`. -/
structure FreshAt (m : A4 K A S P Ev) (p : P) (s : A4State K Ev) : Prop where
  ls : ∀ (i : Nat) (x : A), m.LS[i]? = some x → ∀ (e : Nat) (ev : Ev), s.data[e]? = some ev →
    s.res (e * (m.LS.length + m.SF.length) + i) = m.lineShape x p ev
  sf : ∀ (j : Nat) (x : S), m.SF[j]? = some x → ∀ (e : Nat) (ev : Ev), s.data[e]? = some ev →
    s.res (e * (m.LS.length + m.SF.length) + m.LS.length + j) = Cx.ofReal (m.spinFactor x ev)
  amp : ∀ (i : Nat) (a : Amp4 A S), m.amps[i]? = some a → m.Aligned i a → ∀ (e : Nat) (ev : Ev), s.data[e]? = some ev →
    s.ampv (e * m.amps.length + i) = m.ampAt sqrt a p ev
  nls : s.noNorm = false → ∀ (i : Nat) (x : A), m.LS[i]? = some x → ∀ (e : Nat) (ev : Ev), m.mc[e]? = some ev →
    s.normLS (e + i * m.mc.length) = m.lineShape x p ev
  nsf : s.noNorm = false → ∀ (j : Nat) (x : S), m.SF[j]? = some x → ∀ (e : Nat) (ev : Ev), m.mc[e]? = some ev →
    s.normSF (e + j * m.mc.length) = m.spinFactor x ev

/-- What holds between the calls. -/
structure Inv (m : A4 K A S P Ev) (q : Option P) (s : A4State K Ev) : Prop where
  len : s.redo.length = m.amps.length
  tail : ∀ i, m.LS.length ≤ i → i < m.amps.length → s.redo.getD i false = true
  fresh : s.force = false → ∃ p0, q = some p0 ∧ m.FreshAt sqrt p0 s

theorem init_inv (m : A4 K A S P Ev) : m.Inv sqrt none m.init := by
  refine ⟨by simp [init], fun i _ hi => ?_, fun h => absurd h (by simp [init])⟩
  simp [init, List.getD_eq_getElem?_getD, hi]

/-- The values computed from fresh line shapes and spin factors. -/
theorem ampCalc_fresh (m : A4 K A S P Ev) (p : P) (res : Nat → Cx K) (data : List Ev)
    (hls : ∀ (i : Nat) (x : A), m.LS[i]? = some x → ∀ (e : Nat) (ev : Ev), data[e]? = some ev →
      res (e * (m.LS.length + m.SF.length) + i) = m.lineShape x p ev)
    (hsf : ∀ (j : Nat) (x : S), m.SF[j]? = some x → ∀ (e : Nat) (ev : Ev), data[e]? = some ev →
      res (e * (m.LS.length + m.SF.length) + m.LS.length + j) = Cx.ofReal (m.spinFactor x ev))
    (i : Nat) (a : Amp4 A S) (ha : m.amps[i]? = some a) (e : Nat) (ev : Ev) (he : data[e]? = some ev) :
    ampCalc sqrt m.idx m.LS.length m.SF.length m.amps.length a.nPerm (ampStart m.LS m.SF m.amps i) res e
      = m.ampAt sqrt a p ev :=
  ampCalc_spec sqrt m.amps i a ha res e (fun x => m.lineShape x p ev) (fun x => m.spinFactor x ev)
    (fun x hx => hls _ x (idxOf_read (mem_lineShapesOf (List.mem_of_getElem? ha) hx)) e ev he)
    (fun x hx => hsf _ x (idxOf_read (mem_spinFactorsOf (List.mem_of_getElem? ha) hx)) e ev he)

/-- `normalize` leaves fresh caches, and returns the mean intensity of the normalisation events. -/
theorem normalize_spec (m : A4 K A S P Ev) (q : Option P) (s s' : A4State K Ev) (changed : A → Bool) (p : P) (r : K)
    (hi : m.Inv sqrt q s) (hc : ∀ p0, q = some p0 → ∀ x, changed x = false → m.lineShape x p = m.lineShape x p0)
    (h : m.normalize sqrt changed p s = some (r, s')) :
    m.Inv sqrt (some p) s' ∧ m.FreshAt sqrt p s' ∧ s'.data = s.data ∧ s'.noNorm = s.noNorm ∧
    (s.force = true → ∀ (i : Nat) (a : Amp4 A S), m.amps[i]? = some a → ∀ (e : Nat) (ev : Ev), s.data[e]? = some ev →
      s'.ampv (e * m.amps.length + i) = m.ampAt sqrt a p ev) ∧
    (s.noNorm = true → r = 1) ∧
    (s.noNorm = false → r = (m.mc.map fun ev =>
      intensity4 (m.amps.zipIdx.map fun a => (m.ampAt sqrt a.1 p ev, m.coef p a.2))).sum / (m.mc.length : K)) := by
  unfold normalize at h
  simp only [bind, Option.bind] at h
  cases hm : m.markRedo changed s.force s.redo with
  | none => rw [hm] at h; exact absurd h (by simp)
  | some redo =>
    rw [hm] at h
    obtain ⟨h1, h2, h3, h4⟩ := markRedo_spec m changed s.force s.redo redo hm
    simp only [pure, Option.some.injEq, Prod.mk.injEq] at h
    obtain ⟨hr, hs'⟩ := h
    set res1 := if s.force = true then m.fillSF s.data s.res else s.res with hres1
    set nsf := if s.force = true ∧ s.noNorm = false then m.fillNormSF s.normSF else s.normSF with hnsf
    set res2 := m.fillLS p redo s.data res1 with hres2
    set ampv := m.fillAmps sqrt redo s.data res2 s.ampv with hampv
    set nls := if s.noNorm = true then s.normLS else m.fillNormLS p redo s.normLS with hnls
    -- spin factors
    have sf1 : ∀ (j : Nat) (x : S), m.SF[j]? = some x → ∀ (e : Nat) (ev : Ev), s.data[e]? = some ev →
        res1 (e * (m.LS.length + m.SF.length) + m.LS.length + j) = Cx.ofReal (m.spinFactor x ev) := by
      intro j x hx e ev he
      by_cases hf : s.force = true
      · rw [hres1, if_pos hf]
        exact fillSF_read m s.data s.res j x hx e ev he
      · rw [hres1, if_neg hf]
        obtain ⟨p0, _, hfr⟩ := hi.fresh (by simpa using hf)
        exact hfr.sf j x hx e ev he
    have sf2 : ∀ (j : Nat) (x : S), m.SF[j]? = some x → ∀ (e : Nat) (ev : Ev), s.data[e]? = some ev →
        res2 (e * (m.LS.length + m.SF.length) + m.LS.length + j) = Cx.ofReal (m.spinFactor x ev) := by
      intro j x hx e ev he
      rw [hres2, fillLS_other m p redo s.data res1 j (idx_lt hx) e]
      exact sf1 j x hx e ev he
    have ls2 : ∀ (i : Nat) (x : A), m.LS[i]? = some x → ∀ (e : Nat) (ev : Ev), s.data[e]? = some ev →
        res2 (e * (m.LS.length + m.SF.length) + i) = m.lineShape x p ev := by
      intro i x hx e ev he
      rw [hres2, fillLS_read m p redo s.data res1 i x hx e ev he, h3 i x hx]
      by_cases hf : (s.force || changed x) = true
      · rw [if_pos hf]
      · rw [if_neg hf]
        simp only [Bool.or_eq_true, not_or, Bool.not_eq_true] at hf
        obtain ⟨p0, hq, hfr⟩ := hi.fresh hf.1
        rw [hres1, if_neg (by simp [hf.1]), hfr.ls i x hx e ev he, hc p0 hq x hf.2]
    have amp2 : ∀ (i : Nat) (a : Amp4 A S), m.amps[i]? = some a → redo.getD i false = true →
        ∀ (e : Nat) (ev : Ev), s.data[e]? = some ev → ampv (e * m.amps.length + i) = m.ampAt sqrt a p ev := by
      intro i a ha hrd e ev he
      rw [hampv, fillAmps_read sqrt m redo s.data res2 s.ampv i a ha e (idx_lt he), if_pos hrd]
      exact ampCalc_fresh sqrt m p res2 s.data ls2 sf2 i a ha e ev he
    have tail' : ∀ i, m.LS.length ≤ i → i < m.amps.length → redo.getD i false = true := by
      intro i h1' h2'
      rw [h4 i h1']
      exact hi.tail i h1' h2'
    have nls2 : s.noNorm = false → ∀ (i : Nat) (x : A), m.LS[i]? = some x → ∀ (e : Nat) (ev : Ev), m.mc[e]? = some ev →
        nls (e + i * m.mc.length) = m.lineShape x p ev := by
      intro hn i x hx e ev he
      rw [hnls, if_neg (by simp [hn]), fillNormLS_read m p redo s.normLS i x hx e ev he, h3 i x hx]
      by_cases hf : (s.force || changed x) = true
      · rw [if_pos hf]
      · rw [if_neg hf]
        simp only [Bool.or_eq_true, not_or, Bool.not_eq_true] at hf
        obtain ⟨p0, hq, hfr⟩ := hi.fresh hf.1
        rw [hfr.nls hn i x hx e ev he, hc p0 hq x hf.2]
    have nsf2 : s.noNorm = false → ∀ (j : Nat) (x : S), m.SF[j]? = some x → ∀ (e : Nat) (ev : Ev), m.mc[e]? = some ev →
        nsf (e + j * m.mc.length) = m.spinFactor x ev := by
      intro hn j x hx e ev he
      by_cases hf : s.force = true
      · rw [hnsf, if_pos ⟨hf, hn⟩]
        exact fillNormSF_read m s.normSF j x hx e ev he
      · rw [hnsf, if_neg (fun hc => hf hc.1)]
        obtain ⟨p0, _, hfr⟩ := hi.fresh (by simpa using hf)
        exact hfr.nsf hn j x hx e ev he
    have fr : m.FreshAt sqrt p s' := by
      rw [← hs']
      refine ⟨ls2, sf2, fun i a ha hal e ev he => ?_, nls2, nsf2⟩
      by_cases hrd : redo.getD i false = true
      · exact amp2 i a ha hrd e ev he
      · show ampv _ = _
        rw [hampv, fillAmps_read sqrt m redo s.data res2 s.ampv i a ha e (idx_lt he), if_neg hrd]
        rcases hal with hge | hal
        · exact absurd (tail' i hge (idx_lt ha)) hrd
        · -- nothing of this amplitude has changed
          by_cases hiLS : i < m.LS.length
          · have hx : m.LS[i]? = some m.LS[i] := List.getElem?_eq_getElem hiLS
            rw [h3 i _ hx] at hrd
            simp only [Bool.or_eq_true, not_or, Bool.not_eq_true] at hrd
            obtain ⟨p0, hq, hfr⟩ := hi.fresh hrd.1
            rw [hfr.amp i a ha (Or.inr hal) e ev he]
            unfold ampAt
            congr 1
            refine List.map_congr_left fun x hxa => ?_
            have : x = m.LS[i] := by
              have h5 := idxOf_read (mem_lineShapesOf (List.mem_of_getElem? ha) hxa)
              rw [show List.idxOf x (lineShapesOf m.amps) = i from hal x hxa, hx] at h5
              exact (Option.some.inj h5).symm
            rw [hc p0 hq x (by rw [this]; exact hrd.2)]
          · exact absurd (tail' i (by omega) (idx_lt ha)) hrd
    refine ⟨⟨?_, ?_, fun _ => ⟨p, rfl, fr⟩⟩, fr, ?_, ?_, fun hf i a ha e ev he => ?_, fun hn => ?_, fun hn => ?_⟩
    · rw [← hs', ← hi.len]; exact h1
    · rw [← hs']; exact tail'
    · rw [← hs']
    · rw [← hs']
    · rw [← hs']
      refine amp2 i a ha ?_ e ev he
      by_cases hiLS : i < m.LS.length
      · rw [h3 i _ (List.getElem?_eq_getElem hiLS), hf]; rfl
      · exact tail' i (by omega) (idx_lt ha)
    · rw [← hr, if_pos hn]
    · rw [← hr, if_neg (by simp [hn])]
      congr 2
      refine List.ext_getElem (by simp) fun e he1 he2 => ?_
      have he : e < m.mc.length := by simpa using he1
      simp only [List.getElem_map, List.getElem_range]
      rw [normIntegrator_spec sqrt m.amps m.mc.length e nsf nls (m.coef p) (fun x => m.lineShape x p m.mc[e])
        (fun x => m.spinFactor x m.mc[e])]
      · rfl
      · intro a ha x hx
        exact nls2 hn _ x (idxOf_read (mem_lineShapesOf ha hx)) e _ (List.getElem?_eq_getElem he)
      · intro a ha x hx
        exact nsf2 hn _ x (idxOf_read (mem_spinFactorsOf ha hx)) e _ (List.getElem?_eq_getElem he)

theorem setData_inv (m : A4 K A S P Ev) (q : Option P) (s : A4State K Ev) (d : List Ev) (hi : m.Inv sqrt q s) :
    m.Inv sqrt q (setData s d) :=
  ⟨hi.len, hi.tail, fun h => absurd h (by simp [setData])⟩

theorem run_inv (m : A4 K A S P Ev) (ops : List (Op A P Ev)) (q : Option P) (s0 s : A4State K Ev) (hi : m.Inv sqrt q s0)
    (hh : m.HonestFrom q ops) (hr : ops.foldlM (m.step sqrt) s0 = some s) :
    m.Inv sqrt (lastP q ops) s ∧ ((∀ op ∈ ops, ∀ d c p, op ≠ .generate d c p) → s.noNorm = s0.noNorm) ∧
    (s0.noNorm = true → s.noNorm = true) := by
  induction ops generalizing q s0 with
  | nil =>
    simp only [List.foldlM_nil, pure, Option.some.injEq] at hr
    subst hr
    exact ⟨hi, fun _ => rfl, fun h => h⟩
  | cons op ops ih =>
    rw [List.foldlM_cons] at hr
    simp only [bind, Option.bind] at hr
    cases op with
    | setData d =>
      simp only [step] at hr
      obtain ⟨h1, h2, h3⟩ := ih q (setData s0 d) (setData_inv sqrt m q s0 d hi) hh hr
      exact ⟨h1, fun hg => h2 fun op hop => hg op (List.mem_cons_of_mem _ hop), h3⟩
    | eval c p =>
      simp only [step] at hr
      cases hn : m.normalize sqrt c p s0 with
      | none => rw [hn] at hr; exact absurd hr (by simp)
      | some rs =>
        obtain ⟨r, s1⟩ := rs
        rw [hn] at hr
        simp only [Option.map_some] at hr
        obtain ⟨g1, _, _, g4, _⟩ := normalize_spec sqrt m q s0 s1 c p r hi hh.1 hn
        obtain ⟨h1, h2, h3⟩ := ih (some p) s1 g1 hh.2 hr
        exact ⟨h1, fun hg => (h2 fun op hop => hg op (List.mem_cons_of_mem _ hop)).trans g4, fun h => h3 (g4.trans h)⟩
    | generate d c p =>
      simp only [step] at hr
      cases hn : m.normalize sqrt c p { setData s0 d with noNorm := true } with
      | none => rw [hn] at hr; exact absurd hr (by simp)
      | some rs =>
        obtain ⟨r, s1⟩ := rs
        rw [hn] at hr
        simp only [Option.map_some] at hr
        have hi' : m.Inv sqrt q { setData s0 d with noNorm := true } :=
          ⟨hi.len, hi.tail, fun h => absurd h (by simp [setData])⟩
        obtain ⟨g1, _, _, g4, _⟩ := normalize_spec sqrt m q _ s1 c p r hi' hh.1 hn
        have hi2 : m.Inv sqrt (some p) { s1 with force := true } :=
          ⟨g1.len, g1.tail, fun h => absurd h (by simp)⟩
        obtain ⟨h1, _, h3⟩ := ih (some p) { s1 with force := true } hi2 hh.2 hr
        exact ⟨h1, fun hg => absurd rfl (hg _ List.mem_cons_self d c p), fun _ => h3 g4⟩

end A4
end
end GooFit
