import Verif.Model.Grid
import Verif.Lemmas.DataSet
import Mathlib.Algebra.Order.Field.Basic
import Mathlib.Algebra.Order.BigOperators.Group.List
import Mathlib.Tactic.Ring
import Mathlib.Tactic.Linarith
import Mathlib.Tactic.FieldSimp
import Mathlib.Tactic.Positivity
set_option autoImplicit false
namespace GooFit
open Spec
variable {K : Type} [Field K] [LinearOrder K] [IsStrictOrderedRing K]

/-- Number of grid points of a (reversed) list of observables. -/
def gridN (s : Store K) : List Nat → Nat
  | [] => 1
  | o :: os => if (s o).isEventNumber then gridN s os else (s o).numBins * gridN s os

/-- Grid value of observable `p` in the `g`-th event. -/
def gridVal (ev : Option Nat) (s : Store K) : List Nat → Nat → Nat → Option K
  | [], _, p => if ev = some p then none else none
  | o :: os, g, p =>
    if (s o).isEventNumber then gridVal ev s os g p
    else if p = o then some (gridValue (s o) (g / gridN s os))
    else gridVal ev s os (g % gridN s os) p

/-- The `g`-th event: grid values, the running event number, or unchanged. -/
def gridRow (ev : Option Nat) (s : Store K) (os : List Nat) (g : Nat) : Event K := fun p =>
  match gridVal ev s os g p with
  | some v => v
  | none => if ev = some p then (s p).value + (g : K) else (s p).value

/-- Same contents except possibly the value. -/
def SameMeta (c d : ObsCell K) : Prop :=
  c.lower = d.lower ∧ c.upper = d.upper ∧ c.numBins = d.numBins ∧ c.isEventNumber = d.isEventNumber

theorem SameMeta.refl (c : ObsCell K) : SameMeta c c := ⟨rfl, rfl, rfl, rfl⟩
theorem SameMeta.trans {c d e : ObsCell K} (h : SameMeta c d) (h' : SameMeta d e) : SameMeta c e :=
  ⟨h.1.trans h'.1, h.2.1.trans h'.2.1, h.2.2.1.trans h'.2.2.1, h.2.2.2.trans h'.2.2.2⟩

theorem sameMeta_setValue (s : Store K) (o : Nat) (v : K) (p : Nat) : SameMeta (s.setValue o v p) (s p) := by
  unfold Store.setValue; split <;> exact ⟨rfl, rfl, rfl, rfl⟩

theorem gridN_congr {s s' : Store K} (os : List Nat) (h : ∀ p, SameMeta (s p) (s' p)) :
    gridN s os = gridN s' os := by
  induction os with
  | nil => rfl
  | cons o os ih => simp [gridN, ih, (h o).2.2.1, (h o).2.2.2]

theorem gridValue_congr {c d : ObsCell K} (h : SameMeta c d) (i : Nat) : gridValue c i = gridValue d i := by
  simp [gridValue, h.1, h.2.1, h.2.2.1]

theorem gridVal_congr (ev : Option Nat) {s s' : Store K} (os : List Nat) (h : ∀ p, SameMeta (s p) (s' p))
    (g p : Nat) : gridVal ev s os g p = gridVal ev s' os g p := by
  induction os generalizing g with
  | nil => rfl
  | cons o os ih =>
    simp only [gridVal, (h o).2.2.2, gridN_congr os h, ih, gridValue_congr (h o)]

theorem gridVal_notMem (ev : Option Nat) (s : Store K) (os : List Nat) (g p : Nat)
    (h : p ∉ os ∨ (s p).isEventNumber = true) :
    gridVal ev s os g p = none := by
  induction os generalizing g with
  | nil => simp [gridVal]
  | cons o os ih =>
    have h' : p ∉ os ∨ (s p).isEventNumber = true := by
      rcases h with h | h
      · left; simp only [List.mem_cons, not_or] at h; exact h.2
      · right; exact h
    simp only [gridVal]
    split
    · exact ih g h'
    · next hne =>
      have : p ≠ o := by
        rintro rfl
        rcases h with h | h
        · simp at h
        · exact hne h
      simp only [this, if_false]
      exact ih _ h'

theorem gridValue_inRange (c : ObsCell K) (i : Nat) (hi : i < c.numBins) (hl : c.lower ≤ c.upper) :
    ({ c with value := gridValue c i } : ObsCell K).inRange = true := by
  simp only [ObsCell.inRange, FpCmp.le, FpCmp.eq, Bool.or_eq_true, Bool.and_eq_true, decide_eq_true_eq]
  right
  have hn : (0 : K) < c.numBins := by
    have : 0 < c.numBins := by omega
    exact_mod_cast this
  have hi' : (i : K) + 1 ≤ c.numBins := by exact_mod_cast hi
  have hi0 : (0 : K) ≤ i := by positivity
  have hw : 0 ≤ (c.upper - c.lower) / (c.numBins : K) := div_nonneg (by linarith) hn.le
  have hww : (c.upper - c.lower) = (c.numBins : K) * ((c.upper - c.lower) / (c.numBins : K)) := by
    field_simp
  unfold gridValue
  generalize hwd : (c.upper - c.lower) / (c.numBins : K) = w at *
  constructor
  · nlinarith
  · have : 0 ≤ ((i : K) + 1 / 2) * w := mul_nonneg (by linarith) hw
    linarith

/-- Hypotheses under which a grid over `os` can be filled. -/
structure GridOk (ev : Option Nat) (obs os : List Nat) (s : Store K) : Prop where
  limits : ∀ o ∈ os, (s o).isEventNumber = false → (s o).lower ≤ (s o).upper
  others : ∀ o ∈ obs, (o ∉ os ∨ (s o).isEventNumber = true) → ev ≠ some o → (s o).inRange = true
  event : ∀ e, ev = some e → (s e).isEventNumber = true ∧
    ∀ k < gridN s os, ({ s e with value := (s e).value + (k : K) } : ObsCell K).inRange = true

/-- What filling the grid over `os` from state `st` does. -/
structure GridDone (ev : Option Nat) (os : List Nat) (st : USt K) (es new : List (Event K)) (n : Nat)
    (r : USt K × Out K) : Prop where
  out : r.2 = .done
  obs : r.1.ds.obs = st.ds.obs
  holds : Holds r.1.ds (es ++ new)
  same : ∀ p, SameMeta (r.1.store p) (st.store p)
  keep : ∀ p, p ∉ os ∨ (st.store p).isEventNumber = true → ev ≠ some p → r.1.store p = st.store p
  count : ∀ e, ev = some e → (r.1.store e).value = (st.store e).value + (n : K)

theorem gridRow_step (ev : Option Nat) (s : Store K) (o : Nat) (os : List Nat) (ho : o ∉ os)
    (hE : (s o).isEventNumber = false) (hev : ∀ e, ev = some e → (s e).isEventNumber = true)
    (s' : Store K) (hm : ∀ p, SameMeta (s' p) (s p)) (i r : Nat) (hr : r < gridN s os)
    (hso : (s' o).value = gridValue (s o) i)
    (hk : ∀ p, p ∉ os ∨ (s p).isEventNumber = true → p ≠ o → ev ≠ some p → (s' p).value = (s p).value)
    (hc : ∀ e, ev = some e → (s' e).value = (s e).value + ((i * gridN s os : Nat) : K)) :
    gridRow ev s' os r = gridRow ev s (o :: os) (i * gridN s os + r) := by
  funext p
  have hN : 0 < gridN s os := by omega
  have hdiv : (i * gridN s os + r) / gridN s os = i := by
    rw [Nat.mul_comm, Nat.mul_add_div hN, Nat.div_eq_of_lt hr]; omega
  have hmod : (i * gridN s os + r) % gridN s os = r := by
    rw [Nat.mul_comm, Nat.mul_add_mod, Nat.mod_eq_of_lt hr]
  simp only [gridRow, gridVal_congr ev os hm]
  simp only [gridVal, hE, hdiv, hmod]
  by_cases hpo : p = o
  · subst hpo
    rw [gridVal_notMem ev s os r p (Or.inl ho)]
    have : ev ≠ some p := fun h => by have := hev p h; rw [hE] at this; cases this
    simp [this, hso]
  · simp only [hpo, if_false]
    cases hv : gridVal ev s os r p with
    | some v => rfl
    | none =>
      by_cases he : ev = some p
      · simp only [he, if_true, hc p he]; push_cast; ring
      · simp only [he, if_false]
        by_cases hmem : p ∉ os ∨ (s p).isEventNumber = true
        · simpa using hk p hmem hpo he
        · exfalso
          rw [not_or, not_not] at hmem
          have : ∀ (os : List Nat) (g : Nat), p ∈ os → gridVal ev s os g p ≠ none := by
            intro os
            induction os with
            | nil => simp
            | cons q qs ih =>
              intro g hq
              simp only [gridVal]
              by_cases hpq : p = q
              · subst hpq
                have : (s p).isEventNumber = false := by simpa using hmem.2
                simp [this]
              · have hq' : p ∈ qs := by simpa [hpq] using hq
                cases (s q).isEventNumber
                · simp only [Bool.false_eq_true, if_false, hpq]; exact ih _ hq'
                · exact ih _ hq'
          exact this os r hmem.1 hv

theorem range_split {α : Type} (f : Nat → α) (n N i : Nat) :
    (List.range ((n + 1) * N)).map (fun g => f (i * N + g)) =
      (List.range N).map (fun g => f (i * N + g)) ++
      (List.range (n * N)).map (fun g => f ((i + 1) * N + g)) := by
  have : (n + 1) * N = N + n * N := by ring
  rw [this, List.range_add, List.map_append, List.map_map]
  congr 1
  apply List.map_congr_left
  intro g _
  simp only [Function.comp]
  congr 1; ring

theorem gridLoop_spec (ev : Option Nat) (obs : List Nat) (o : Nat) (os : List Nat) (ho : o ∉ os)
    (s0 : Store K) (hE : (s0 o).isEventNumber = false) (hlim : (s0 o).lower ≤ (s0 o).upper)
    (hev : ∀ e, ev = some e → (s0 e).isEventNumber = true)
    (body : USt K → USt K × Out K)
    (hbody : ∀ (st : USt K) (es : List (Event K)), st.ds.obs = obs → Holds st.ds es →
      GridOk ev obs os st.store → GridDone ev os st es ((List.range (gridN st.store os)).map
        (gridRow ev st.store os)) (gridN st.store os) (body st))
    (hok : GridOk ev obs (o :: os) s0) :
    ∀ (n i : Nat) (st : USt K) (es : List (Event K)), i + n = (s0 o).numBins → st.ds.obs = obs →
      Holds st.ds es → (∀ p, SameMeta (st.store p) (s0 p)) →
      (∀ p, p ∉ o :: os ∨ (s0 p).isEventNumber = true → ev ≠ some p → st.store p = s0 p) →
      (∀ e, ev = some e → (st.store e).value = (s0 e).value + ((i * gridN s0 os : Nat) : K)) →
      GridDone ev (o :: os) st es
        ((List.range (n * gridN s0 os)).map (fun g => gridRow ev s0 (o :: os) (i * gridN s0 os + g)))
        (n * gridN s0 os) (gridLoop body o n i st) := by
  intro n
  induction n with
  | zero =>
    intro i st es _ hob hh hm hk hc
    refine ⟨rfl, rfl, by simpa [gridLoop] using hh, fun p => SameMeta.refl _, fun _ _ _ => rfl, ?_⟩
    intro e _; simp [gridLoop]
  | succ n ih =>
    intro i st es hin hob hh hm hk hc
    have hi : i < (s0 o).numBins := by omega
    simp only [gridLoop]
    rw [gridValue_congr (hm o) i]
    set s1 := st.store.setValue o (gridValue (s0 o) i) with hs1
    have hm1 : ∀ p, SameMeta (s1 p) (s0 p) := fun p => (sameMeta_setValue _ _ _ _).trans (hm p)
    have hN1 : gridN s1 os = gridN s0 os := gridN_congr os hm1
    have hev1 : ∀ e, ev = some e → e ≠ o := by
      rintro e he rfl; have := hev e he; simp [hE] at this
    have hne : ∀ p, p ≠ o → s1 p = st.store p := by
      intro p hp; simp [hs1, Store.setValue, hp]
    have hin1 : (s1 o).inRange = true := by
      have := gridValue_inRange (s0 o) i hi hlim
      have h1 : (s1 o).value = gridValue (s0 o) i := by simp [hs1, Store.setValue]
      have h2 := (hm1 o)
      simp only [ObsCell.inRange] at this ⊢
      rw [h2.1, h2.2.1, h1]; exact this
    have hok1 : GridOk ev obs os s1 := by
      refine ⟨?_, ?_, ?_⟩
      · intro p hp hpe
        rw [(hm1 p).1, (hm1 p).2.1]
        exact hok.limits p (by simp [hp]) (by rw [← (hm1 p).2.2.2]; exact hpe)
      · intro p hp hpn hpe
        by_cases hpo : p = o
        · subst hpo; exact hin1
        · rw [hne p hpo]
          have hcond : p ∉ o :: os ∨ (s0 p).isEventNumber = true := by
            rcases hpn with h | h
            · left; simp [hpo, h]
            · right; rw [← (hm1 p).2.2.2]; exact h
          rw [hk p hcond hpe]
          exact hok.others p hp hcond hpe
      · intro e he
        refine ⟨by rw [(hm1 e).2.2.2]; exact hev e he, ?_⟩
        intro k hk'
        rw [hN1] at hk'
        rw [hne e (hev1 e he)]
        have h1 := (hok.event e he).2 (i * gridN s0 os + k) (by
          simp only [gridN, hE]
          have : (i + 1) * gridN s0 os ≤ (s0 o).numBins * gridN s0 os := Nat.mul_le_mul_right _ (by omega)
          have h3 : (i + 1) * gridN s0 os = i * gridN s0 os + gridN s0 os := by ring
          simp only [Bool.false_eq_true, if_false]; omega)
        simp only [ObsCell.inRange] at h1 ⊢
        rw [(hm e).1, (hm e).2.1, hc e he]
        have h4 : (s0 e).value + ((i * gridN s0 os + k : Nat) : K) =
          (s0 e).value + ((i * gridN s0 os : Nat) : K) + (k : K) := by push_cast; ring
        rw [h4] at h1; exact h1
    have B := hbody { st with store := s1 } es hob hh hok1
    simp only at B
    rw [hN1] at B
    rcases hb : body { st with store := s1 } with ⟨st2, out⟩
    rw [hb] at B
    have hout := B.out
    simp only at hout
    subst hout
    have hm2 : ∀ p, SameMeta (st2.store p) (s0 p) := fun p => (B.same p).trans (hm1 p)
    have hk2 : ∀ p, p ∉ o :: os ∨ (s0 p).isEventNumber = true → ev ≠ some p → st2.store p = s0 p := by
      intro p hp hpe
      have hpo : p ≠ o := by
        rintro rfl
        rcases hp with h | h
        · simp at h
        · simp [hE] at h
      have : p ∉ os ∨ (s1 p).isEventNumber = true := by
        rcases hp with h | h
        · left; simp only [List.mem_cons, not_or] at h; exact h.2
        · right; rw [(hm1 p).2.2.2]; exact h
      have h2 := B.keep p this hpe
      simp only at h2
      rw [h2, hne p hpo]; exact hk p hp hpe
    have hc2 : ∀ e, ev = some e → (st2.store e).value = (s0 e).value + (((i + 1) * gridN s0 os : Nat) : K) := by
      intro e he
      have h2 := B.count e he
      simp only at h2
      rw [h2, hne e (hev1 e he), hc e he]
      push_cast; ring
    have IH := ih (i + 1) st2 _ (by omega) (B.obs.trans hob) B.holds hm2 hk2 hc2
    have hrows : (List.range (gridN s0 os)).map (gridRow ev s1 os) =
        (List.range (gridN s0 os)).map (fun g => gridRow ev s0 (o :: os) (i * gridN s0 os + g)) := by
      apply List.map_congr_left
      intro g hg
      apply gridRow_step ev s0 o os ho hE hev s1 hm1 i g (by simpa using hg)
      · simp [hs1, Store.setValue]
      · intro p hp hpo hpe
        rw [hne p hpo, hk p _ hpe]
        rcases hp with h | h
        · left; simp [hpo, h]
        · right; exact h
      · intro e he; rw [hne e (hev1 e he)]; exact hc e he
    refine ⟨IH.out, IH.obs.trans B.obs, ?_, ?_, ?_, ?_⟩
    · have := IH.holds
      rw [hrows, List.append_assoc] at this
      rw [range_split (gridRow ev s0 (o :: os)) n (gridN s0 os) i]
      exact this
    · intro p
      exact (IH.same p).trans ((B.same p).trans (sameMeta_setValue _ _ _ _))
    · intro p hp hpe
      have hp' : p ∉ o :: os ∨ (s0 p).isEventNumber = true := by rw [← (hm p).2.2.2]; exact hp
      have hp2 : p ∉ o :: os ∨ (st2.store p).isEventNumber = true := by rw [(hm2 p).2.2.2]; exact hp'
      rw [IH.keep p hp2 hpe, hk2 p hp' hpe, hk p hp' hpe]
    · intro e he
      rw [IH.count e he, hc2 e he, hc e he]
      push_cast; ring

theorem makeAGrid_spec (ev : Option Nat) (obs : List Nat) (os : List Nat) (hn : os.Nodup) :
    ∀ (st : USt K) (es : List (Event K)), st.ds.obs = obs → Holds st.ds es →
      GridOk ev obs os st.store → GridDone ev os st es ((List.range (gridN st.store os)).map
        (gridRow ev st.store os)) (gridN st.store os) (makeAGrid ev os st) := by
  induction os with
  | nil =>
    intro st es hob hh hok
    have hr : AllInRange st.ds.obs st.store := by
      intro o ho
      rw [← inRange_iff]
      rw [hob] at ho
      by_cases he : ev = some o
      · have := (hok.event o he).2 0 (by simp [gridN])
        simpa using this
      · exact hok.others o ho (Or.inl (by simp)) he
    obtain ⟨a, b, c, d⟩ := (holds_addEvent st es hh).1 hr
    have hrow : (List.range (gridN st.store [])).map (gridRow ev st.store []) = [fun o => (st.store o).value] := by
      simp only [gridN, List.range_one, List.map_cons, List.map_nil]
      congr 1
      funext p
      simp [gridRow, gridVal]
    rw [hrow]
    simp only [makeAGrid]
    rcases hae : st.addEvent with ⟨st2, out⟩
    rw [hae] at a b c d
    simp only at a b c d
    subst a
    cases ev with
    | none =>
      exact ⟨rfl, c, d, fun p => by simp only [b]; exact SameMeta.refl _, fun p _ _ => by simp only [b],
        fun e he => by simp at he⟩
    | some e =>
      refine ⟨rfl, c, d, ?_, ?_, ?_⟩
      · intro p; rw [← b]; exact sameMeta_setValue _ _ _ _
      · intro p _ hp
        have : p ≠ e := fun h => hp (by rw [h])
        simp [Store.setValue, this, b]
      · intro e' he'
        obtain rfl : e = e' := by simpa using he'
        simp [Store.setValue, b, gridN]
  | cons o os ih =>
    intro st es hob hh hok
    rw [List.nodup_cons] at hn
    simp only [makeAGrid]
    cases hE : (st.store o).isEventNumber with
    | true =>
      simp only [if_true]
      have hok' : GridOk ev obs os st.store := by
        refine ⟨fun p hp => hok.limits p (by simp [hp]), ?_, ?_⟩
        · intro p hp hpn hpe
          by_cases hpo : p = o
          · subst hpo; exact hok.others p hp (Or.inr hE) hpe
          · apply hok.others p hp _ hpe
            rcases hpn with h | h
            · left; simp [hpo, h]
            · right; exact h
        · intro e he
          have := hok.event e he
          simpa [gridN, hE] using this
      have := ih hn.2 st es hob hh hok'
      have hN : gridN st.store (o :: os) = gridN st.store os := by simp [gridN, hE]
      have hrow : gridRow ev st.store (o :: os) = gridRow ev st.store os := by
        funext g p; simp [gridRow, gridVal, hE]
      rw [hN, hrow]
      refine ⟨this.out, this.obs, this.holds, this.same, ?_, this.count⟩
      intro p hp hpe
      apply this.keep p _ hpe
      rcases hp with h | h
      · left; simp only [List.mem_cons, not_or] at h; exact h.2
      · right; exact h
    | false =>
      simp only [Bool.false_eq_true, if_false]
      have := gridLoop_spec ev obs o os hn.1 st.store hE (hok.limits o (by simp) hE)
        (fun e he => (hok.event e he).1) (makeAGrid ev os) (ih hn.2) hok (st.store o).numBins 0 st es
        (by omega) hob hh (fun p => SameMeta.refl _) (fun _ _ _ => rfl) (fun e _ => by simp)
      have hN : gridN st.store (o :: os) = (st.store o).numBins * gridN st.store os := by simp [gridN, hE]
      rw [hN]
      simpa using this

/-- Digit of the grid index belonging to an observable, in the order of the data set. -/
theorem gridVal_digit (ev : Option Nat) (s : Store K) (os : List Nat) (hn : os.Nodup) (o : Nat) (pre post : List Nat)
    (h : os.reverse = pre ++ o :: post) (hE : (s o).isEventNumber = false) (g : Nat) (hg : g < gridN s os) :
    gridVal ev s os g o = some (gridValue (s o) (g / gridN s pre % (s o).numBins)) := by
  induction os generalizing post g with
  | nil => simp at h
  | cons q qs ih =>
    rw [List.nodup_cons] at hn
    rw [List.reverse_cons] at h
    have hrev : ∀ l : List Nat, gridN s l.reverse = gridN s l := by
      have happ : ∀ a b : List Nat, gridN s (a ++ b) = gridN s a * gridN s b := by
        intro a b
        induction a with
        | nil => simp [gridN]
        | cons x xs ihx =>
          simp only [List.cons_append, gridN, ihx]
          split
          · rfl
          · ring
      intro l
      induction l with
      | nil => rfl
      | cons x xs ihx =>
        rw [List.reverse_cons, happ, ihx]
        simp only [gridN]
        split <;> ring
    have happ : ∀ a b : List Nat, gridN s (a ++ b) = gridN s a * gridN s b := by
      intro a b
      induction a with
      | nil => simp [gridN]
      | cons x xs ihx =>
        simp only [List.cons_append, gridN, ihx]
        split
        · rfl
        · ring
    rcases List.eq_nil_or_concat post with hp | ⟨post', x, hp⟩
    · subst hp
      have h1 := List.append_inj' h (by simp)
      obtain ⟨h1, h2⟩ := h1
      have h2 : q = o := by simpa using h2
      subst h2
      have hNp : gridN s pre = gridN s qs := by rw [← h1, hrev]
      have hg' : g < (s q).numBins * gridN s qs := by simpa [gridN, hE] using hg
      have hlt : g / gridN s qs < (s q).numBins := by
        apply Nat.div_lt_of_lt_mul; rw [Nat.mul_comm]; exact hg'
      simp [gridVal, hE, hNp, Nat.mod_eq_of_lt hlt]
    · subst hp
      rw [List.concat_eq_append, ← List.cons_append, ← List.append_assoc] at h
      have h1 := List.append_inj' h (by simp)
      obtain ⟨h1, h2⟩ := h1
      have h2 : q = x := by simpa using h2
      have hmem : o ∈ qs := by
        have : o ∈ qs.reverse := by rw [h1]; simp
        simpa using this
      have hqo : o ≠ q := fun h => hn.1 (h ▸ hmem)
      simp only [gridVal]
      cases hEq : (s q).isEventNumber with
      | true =>
        simp only [if_true]
        exact ih hn.2 post' h1 g (by simpa [gridN, hEq] using hg)
      | false =>
        simp only [Bool.false_eq_true, if_false, hqo]
        have hpos : 0 < gridN s qs := by
          rcases Nat.eq_zero_or_pos (gridN s qs) with h0 | h0
          · simp [gridN, hEq, h0] at hg
          · exact h0
        rw [ih hn.2 post' h1 (g % gridN s qs) (Nat.mod_lt _ hpos)]
        have hN : gridN s qs = gridN s pre * ((s o).numBins * gridN s post') := by
          rw [← hrev qs, h1, happ]
          simp [gridN, hE]
        rw [hN, Nat.mod_mul_right_div_self, Nat.mod_mul_right_mod]

theorem gridN_eq_prod (s : Store K) (l : List Nat) :
    gridN s l = ((l.filter fun o => !(s o).isEventNumber).map fun o => (s o).numBins).prod := by
  induction l with
  | nil => rfl
  | cons o os ih =>
    cases h : (s o).isEventNumber <;> simp [gridN, h, ih]

theorem gridN_reverse (s : Store K) (l : List Nat) : gridN s l.reverse = gridN s l := by
  rw [gridN_eq_prod, gridN_eq_prod, List.filter_reverse, List.map_reverse, List.prod_reverse]

end GooFit
