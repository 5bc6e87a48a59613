import Verif.Spec.Toy
import Verif.Props.DataSet
import Mathlib.Tactic.IntervalCases
import Mathlib.Data.Rat.Floor
import Mathlib.Algebra.Order.BigOperators.Group.List
/-!
# C33 and C39: toy data stay in range; C39: exceptions and the PDF's dataset
-/
set_option autoImplicit false
namespace GooFit
open Spec

section
variable {K : Type} [Field K] [LinearOrder K] [IsStrictOrderedRing K]

omit [LinearOrder K] [IsStrictOrderedRing K] in
theorem partialSums_length (acc : K) (l : List K) : (partialSums acc l).length = l.length := by
  induction l generalizing acc with
  | nil => rfl
  | cons x xs ih => simp [partialSums, ih]

omit [LinearOrder K] [IsStrictOrderedRing K] in
theorem partialSums_get (acc : K) (l : List K) (j : Nat) (hj : j < l.length) :
    (partialSums acc l)[j]? = some (acc + (l.take (j + 1)).sum) := by
  induction l generalizing acc j with
  | nil => simp at hj
  | cons x xs ih =>
    cases j with
    | zero => simp [partialSums]
    | succ j =>
      simp only [partialSums, List.getElem?_cons_succ]
      rw [ih (acc + x) j (by simpa using hj)]
      simp [add_assoc]

omit [LinearOrder K] [IsStrictOrderedRing K] in
theorem partialSums_last (l : List K) (hl : l ≠ []) : (partialSums 0 l).getLastD 0 = l.sum := by
  have hlen : 0 < l.length := List.length_pos_iff.mpr hl
  have h := partialSums_get 0 l (l.length - 1) (by omega)
  rw [List.getLastD_eq_getLast?, List.getLast?_eq_getElem?, partialSums_length, h]
  simp [Nat.sub_add_cancel hlen]

omit [LinearOrder K] [IsStrictOrderedRing K] in
/-- Entry `j` of the cumulative distribution. -/
theorem cumulative_get (l : List K) (j : Nat) (hj : j < l.length) :
    (cumulative l)[j]? = some ((l.take (j + 1)).sum / l.sum) := by
  have hne : l ≠ [] := by rintro rfl; simp at hj
  unfold cumulative
  simp only [List.getElem?_map, partialSums_get 0 l j hj, Option.map_some, zero_add, partialSums_last l hne]

/-- The bin chosen for `r` exists, and has positive probability if `r` is positive. -/
theorem lowerBound_spec (probs : List K) (hsum : 0 < probs.sum) (r : K) (hr1 : r < 1) :
    ∃ p, probs[lowerBound (cumulative probs) r]? = some p
      ∧ (0 < r → 0 < p) ∧ (r ≤ 0 → (∀ p ∈ probs, 0 ≤ p) → lowerBound (cumulative probs) r = 0) := by
  have hlen : (cumulative probs).length = probs.length := by simp [cumulative, partialSums_length]
  have hne : probs ≠ [] := by rintro rfl; simp at hsum
  have hpos : 0 < probs.length := List.length_pos_iff.mpr hne
  have hlast := cumulative_get probs (probs.length - 1) (by omega)
  rw [Nat.sub_add_cancel hpos, List.take_length, div_self hsum.ne'] at hlast
  have hlt : lowerBound (cumulative probs) r < (cumulative probs).length := by
    unfold lowerBound
    rw [List.findIdx_lt_length]
    refine ⟨1, List.mem_of_getElem? hlast, ?_⟩
    simp [not_lt.mpr hr1.le]
  have hj := hlt
  rw [hlen] at hj
  refine ⟨probs[lowerBound (cumulative probs) r], List.getElem?_eq_getElem hj, ?_, ?_⟩
  · intro hr0
    have hsat := List.findIdx_getElem (w := hlt)
    have hge : r ≤ (cumulative probs)[lowerBound (cumulative probs) r] := by
      have : (!decide ((cumulative probs)[lowerBound (cumulative probs) r] < r)) = true := hsat
      simpa using this
    have h1 := cumulative_get probs _ hj
    rw [List.getElem?_eq_getElem hlt, Option.some.injEq] at h1
    rw [h1, le_div_iff₀ hsum] at hge
    clear hsat h1
    generalize hjj : lowerBound (cumulative probs) r = j at *
    cases j with
    | zero =>
      rw [List.take_succ_eq_append_getElem hj] at hge
      simp only [List.take_zero, List.nil_append, List.sum_singleton] at hge
      exact lt_of_lt_of_le (mul_pos hr0 hsum) hge
    | succ j =>
      have hjlt : j < (cumulative probs).length := by omega
      have hnot : (!decide ((cumulative probs)[j] < r)) = false :=
        List.not_of_lt_findIdx (p := fun x => !decide (x < r)) (show j < (cumulative probs).findIdx (fun x => !decide (x < r)) by
          have : (cumulative probs).findIdx (fun x => !decide (x < r)) = j + 1 := hjj
          omega)
      have hlt2 : (cumulative probs)[j] < r := by simpa using hnot
      have h2 := cumulative_get probs j (by omega)
      rw [List.getElem?_eq_getElem hjlt, Option.some.injEq] at h2
      rw [h2, div_lt_iff₀ hsum] at hlt2
      rw [List.take_succ_eq_append_getElem hj, List.sum_append, List.sum_singleton] at hge
      linarith
  · intro hr0 hnn
    unfold lowerBound
    have hc := cumulative_get probs 0 hpos
    cases hcum : cumulative probs with
    | nil => rfl
    | cons x xs =>
      rw [hcum] at hc
      simp only [List.getElem?_cons_zero, Option.some.injEq] at hc
      rw [List.findIdx_cons]
      have hx : ¬ x < r := by
        rw [hc, not_lt]
        refine hr0.trans (div_nonneg (List.sum_nonneg fun p hp => hnn p (List.mem_of_mem_take hp)) hsum.le)
      simp [hx]

/-- **C33, proportions.**  The numbers that choose bin `j` are those between the share of the bins before it and the share of
these and itself: an interval whose length is the share of the bin. -/
theorem C33_shares (probs : List K) (hsum : 0 < probs.sum) (hnn : ∀ p ∈ probs, 0 ≤ p) (r : K) (hr0 : 0 < r)
    (j : Nat) (hj : j < probs.length) :
    (lowerBound (cumulative probs) r = j ↔ (probs.take j).sum / probs.sum < r ∧ r ≤ (probs.take (j + 1)).sum / probs.sum)
      ∧ (probs.take (j + 1)).sum / probs.sum - (probs.take j).sum / probs.sum = probs[j] / probs.sum := by
  have hlen : (cumulative probs).length = probs.length := by simp [cumulative, partialSums_length]
  have hmono : ∀ a b, a ≤ b → (probs.take a).sum ≤ (probs.take b).sum := by
    intro a b hab
    obtain ⟨c, rfl⟩ := Nat.exists_eq_add_of_le hab
    rw [List.take_add, List.sum_append]
    have : 0 ≤ ((probs.drop a).take c).sum :=
      List.sum_nonneg fun p hp => hnn p (List.mem_of_mem_drop (List.mem_of_mem_take hp))
    linarith
  have hcum : ∀ i (hi : i < (cumulative probs).length), (cumulative probs)[i] = (probs.take (i + 1)).sum / probs.sum := by
    intro i hi
    have h := cumulative_get probs i (by omega)
    rw [List.getElem?_eq_getElem hi, Option.some.injEq] at h
    exact h
  refine ⟨?_, ?_⟩
  · have hjl : j < (cumulative probs).length := by omega
    unfold lowerBound
    rw [List.findIdx_eq hjl]
    simp only [hcum, Bool.not_eq_true', decide_eq_false_iff_not, not_lt, Bool.not_eq_false', decide_eq_true_eq]
    constructor
    · rintro ⟨h1, h2⟩
      refine ⟨?_, h1⟩
      cases j with
      | zero => simpa using hr0
      | succ j => exact h2 j (by omega)
    · rintro ⟨h1, h2⟩
      refine ⟨h2, fun i hi => lt_of_le_of_lt ?_ h1⟩
      exact div_le_div_of_nonneg_right (hmono (i + 1) j (by omega)) hsum.le
  · rw [List.take_succ_eq_append_getElem hj, List.sum_append, List.sum_singleton]
    ring

/-- A case of `C33_shares`: of weights 1, 0 and 3 the third is chosen by all numbers above 1/4. -/
example (r : ℚ) (hr0 : 0 < r) : lowerBound (cumulative [1, 0, 3]) r = 2 ↔ 1 / 4 < r ∧ r ≤ 1 := by
  have := (C33_shares [1, 0, 3] (by norm_num) (by norm_num) r hr0 2 (by decide)).1
  rw [this]
  norm_num

/-- The event loop appends one event per draw. -/
theorem toyLoop_spec (o : Nat) (c0 : ObsCell K) (grid : UDS K) (probs : List K) (hsum : 0 < probs.sum)
    (hlen : probs.length = c0.numBins) (hlim : c0.lower < c0.upper)
    (hgrid : ∀ g < c0.numBins, grid.getValue o g = .val (binCentre c0 g))
    (stream : List (K × K)) (hstream : ∀ q ∈ stream, q.1 < 1 ∧ -(1 / 2) ≤ q.2 ∧ q.2 < 1 / 2)
    (st : USt K) (es : List (Event K)) (hholds : Holds st.ds es)
    (hmeta : (st.store o).lower = c0.lower ∧ (st.store o).upper = c0.upper ∧ (st.store o).numBins = c0.numBins)
    (hothers : ∀ p ∈ st.ds.obs, p ≠ o → InLimits (st.store p)) :
    ∃ st' new, toyLoop o grid (cumulative probs) stream st = (st', .done) ∧ st'.ds.obs = st.ds.obs
      ∧ Holds st'.ds (es ++ new) ∧ new.length = stream.length
      ∧ (∀ p, p ≠ o → st'.store p = st.store p)
      ∧ (∀ (k : Nat) q e, stream[k]? = some q → new[k]? = some e →
          ToyEvent c0 probs q.1 (e o) ∧ ∀ p, p ≠ o → e p = (st.store p).value) := by
  induction stream generalizing st es with
  | nil => exact ⟨st, [], rfl, rfl, by simpa using hholds, rfl, fun _ _ => rfl, by simp⟩
  | cons q rest ih =>
    obtain ⟨r, u⟩ := q
    obtain ⟨hr1, hu1, hu2⟩ := hstream (r, u) (by simp)
    obtain ⟨p, hp, hp0, _⟩ := lowerBound_spec probs hsum r hr1
    generalize hj : lowerBound (cumulative probs) r = j at hp
    have hjlt : j < c0.numBins := by rw [← hlen]; exact (List.getElem?_eq_some_iff.mp hp).1
    obtain ⟨hm1, hm2, hm3⟩ := hmeta
    have hbs : (st.store o).binSize = (c0.upper - c0.lower) / (c0.numBins : K) := by
      unfold ObsCell.binSize; rw [hm1, hm2, hm3]
    have hn0 : (0 : K) < (c0.numBins : K) := Nat.cast_pos.mpr (by omega)
    generalize hbsd : (c0.upper - c0.lower) / (c0.numBins : K) = bs at hbs
    have hbs0 : 0 < bs := by rw [← hbsd]; exact div_pos (sub_pos.mpr hlim) hn0
    have hfull : (c0.numBins : K) * bs = c0.upper - c0.lower := by rw [← hbsd]; field_simp
    have hcen : binCentre c0 j = c0.lower + ((j : K) + 1 / 2) * bs := by rw [← hbsd]; rfl
    let x := binCentre c0 j + bs * u
    have hx : x = c0.lower + ((j : K) + 1 / 2) * bs + bs * u := by show binCentre c0 j + bs * u = _; rw [hcen]
    have hxl : c0.lower + (j : K) * bs ≤ x := by
      rw [hx]; have := mul_le_mul_of_nonneg_left hu1 hbs0.le; linarith
    have hxu : x < c0.lower + ((j : K) + 1) * bs := by
      rw [hx]; have := mul_lt_mul_of_pos_left hu2 hbs0; linarith
    have hjn : ((j : K) + 1) ≤ (c0.numBins : K) := by exact_mod_cast hjlt
    have hlow : c0.lower ≤ x := by
      have : 0 ≤ (j : K) * bs := mul_nonneg (Nat.cast_nonneg _) hbs0.le
      linarith
    have hupp : x ≤ c0.upper := by
      have := mul_le_mul_of_nonneg_right hjn hbs0.le
      linarith
    -- the event is accepted
    let s1 : USt K := { st with store := st.store.setValue o x }
    have hadd := holds_addEvent s1 es hholds
    have hin : AllInRange s1.ds.obs s1.store := by
      intro p hp
      by_cases hpo : p = o
      · subst hpo
        right
        show decide ((st.store.setValue p x p).lower ≤ (st.store.setValue p x p).value) = true
          ∧ decide ((st.store.setValue p x p).value ≤ (st.store.setValue p x p).upper) = true
        simp only [Store.setValue, if_pos, decide_eq_true_eq, hm1, hm2]
        exact ⟨hlow, hupp⟩
      · have : s1.store p = st.store p := by show st.store.setValue o x p = _; simp [Store.setValue, hpo]
        rw [this]
        exact hothers p hp hpo
    obtain ⟨a1, a2, a3, a4⟩ := hadd.1 hin
    have hs1 : ∀ p, p ≠ o → s1.store p = st.store p := by
      intro p hpo
      show st.store.setValue o x p = _
      simp [Store.setValue, hpo]
    have hs1o : (s1.store o).lower = c0.lower ∧ (s1.store o).upper = c0.upper ∧ (s1.store o).numBins = c0.numBins := by
      show (st.store.setValue o x o).lower = _ ∧ (st.store.setValue o x o).upper = _ ∧ (st.store.setValue o x o).numBins = _
      simp only [Store.setValue, if_pos]
      exact ⟨hm1, hm2, hm3⟩
    have hs1x : (s1.store o).value = x := by
      show (st.store.setValue o x o).value = _
      simp [Store.setValue]
    obtain ⟨st', new, b1, b2, b3, b4, b5, b6⟩ := ih (fun q hq => hstream q (List.mem_cons_of_mem _ hq)) s1.addEvent.1
      (es ++ [fun o => (s1.store o).value]) a4 (by rw [a2]; exact hs1o)
      (by rw [a2, a3]; intro p hp hpo; rw [hs1 p hpo]; exact hothers p hp hpo)
    refine ⟨st', (fun o => (s1.store o).value) :: new, ?_, b2.trans a3, ?_, by simp [b4], ?_, ?_⟩
    · unfold toyLoop
      rw [hj, hgrid j hjlt, hbs]
      have hpair : s1.addEvent = (s1.addEvent.1, .done) := by rw [← a1]
      show (match USt.addEvent s1 with
        | (st', .done) => toyLoop o grid (cumulative probs) rest st'
        | res => res) = _
      rw [hpair]
      exact b1
    · simpa using b3
    · intro p hpo
      rw [b5 p hpo, a2, hs1 p hpo]
    · intro k q e hq he
      cases k with
      | zero =>
        simp only [List.getElem?_cons_zero, Option.some.injEq] at hq he
        subst hq; subst he
        show ToyEvent c0 probs r (s1.store o).value ∧ ∀ p, p ≠ o → (s1.store p).value = (st.store p).value
        refine ⟨⟨by rw [hs1x]; exact hlow, by rw [hs1x]; exact hupp, j, p, hp, hp0, ?_, ?_⟩, fun p hpo => by rw [hs1 p hpo]⟩
        · rw [hs1x, hbsd]; exact hxl
        · rw [hs1x, hbsd]; exact hxu
      | succ k =>
        simp only [List.getElem?_cons_succ] at hq he
        obtain ⟨c1, c2⟩ := b6 k q e hq he
        refine ⟨c1, fun p hpo => ?_⟩
        rw [c2 p hpo, a2, hs1 p hpo]

/-- Two stores that differ in the value of `o` only. -/
def SameBut (o : Nat) (s t : Store K) : Prop :=
  (∀ p, p ≠ o → s p = t p) ∧ (s o).lower = (t o).lower ∧ (s o).upper = (t o).upper ∧ (s o).numBins = (t o).numBins

omit [Field K] [LinearOrder K] [IsStrictOrderedRing K] in
theorem SameBut.refl (o : Nat) (s : Store K) : SameBut o s s := ⟨fun _ _ => rfl, rfl, rfl, rfl⟩

omit [Field K] [LinearOrder K] [IsStrictOrderedRing K] in
theorem SameBut.trans {o : Nat} {s t u : Store K} (h : SameBut o s t) (h2 : SameBut o t u) : SameBut o s u :=
  ⟨fun p hp => (h.1 p hp).trans (h2.1 p hp), h.2.1.trans h2.2.1, h.2.2.1.trans h2.2.2.1, h.2.2.2.trans h2.2.2.2⟩

omit [Field K] [LinearOrder K] [IsStrictOrderedRing K] in
theorem SameBut.setValue (o : Nat) (s : Store K) (x : K) : SameBut o (s.setValue o x) s :=
  ⟨fun p hp => by simp [Store.setValue, hp], by simp [Store.setValue], by simp [Store.setValue], by simp [Store.setValue]⟩

omit [Field K] [IsStrictOrderedRing K] in
theorem addEvent_store (st : USt K) : st.addEvent.1.store = st.store := by
  unfold USt.addEvent
  dsimp only
  split
  · split <;> rfl
  · rfl

omit [IsStrictOrderedRing K] in
theorem makeAGrid_nil_store (st : USt K) : (makeAGrid none [] st).1.store = st.store := by
  unfold makeAGrid
  have h := addEvent_store st
  split
  · rename_i st2 h2; rw [h2] at h; exact h
  · exact h

omit [IsStrictOrderedRing K] in
/-- Filling a grid over one observable changes that observable's value only. -/
theorem gridLoop_store (o : Nat) (n i : Nat) (st : USt K) :
    SameBut o (gridLoop (makeAGrid none []) o n i st).1.store st.store := by
  induction n generalizing i st with
  | zero => exact SameBut.refl _ _
  | succ n ih =>
    unfold gridLoop
    have h := makeAGrid_nil_store (K := K) { st with store := st.store.setValue o (gridValue (st.store o) i) }
    have h2 := SameBut.setValue o st.store (gridValue (st.store o) i)
    split
    · rename_i st2 he
      rw [he] at h
      simp only at h
      have := ih (i + 1) st2
      rw [h] at this
      exact this.trans h2
    · rw [h]; exact h2

omit [IsStrictOrderedRing K] in
theorem fillWithGrid_store (o : Nat) (s : Store K) (hev : (s o).isEventNumber = false) :
    SameBut o (USt.fillWithGrid ⟨s, UDS.new K [o]⟩).1.store s := by
  unfold USt.fillWithGrid
  split
  · exact SameBut.refl _ _
  · have h1 : (UDS.new K [o]).obs = [o] := rfl
    have h2 : lastEventNumber s [o] = none := by simp [lastEventNumber, hev]
    simp only [h1, h2, List.reverse_singleton]
    unfold makeAGrid
    rw [if_neg (by simp [hev])]
    exact gridLoop_store o _ 0 _

/-- **C33.**  For a PDF of one observable `o` with bins and proper limits, whose dataset `d` holds the events `es`, contains the
observable and whose other observables are in range, whose values on the grid are not negative and not all zero, and every
stream of random numbers in `[0, 1)` and `[-1/2, 1/2)`: the call succeeds and adds exactly one event per pair of numbers after
the old ones; in every new event the observable lies within its limits, in a bin of positive probability unless the number
drawn is exactly zero (`C33_violation_zero_draw`); the other observables keep their values; the PDF has its dataset again. -/
theorem C33_toy_partial (o : Nat) (pdf : UDS K → Option (List K)) (id : Nat) (d : UDS K) (es : List (Event K)) (s : Store K)
    (stream : List (K × K)) (hholds : Holds d es) (hev : (s o).isEventNumber = false)
    (hbins : 0 < (s o).numBins) (hlim : (s o).lower < (s o).upper) (hothers : ∀ p ∈ d.obs, p ≠ o → InLimits (s p))
    (hpdf : ∀ grid : UDS K, grid.num = (s o).numBins → (∀ g < (s o).numBins, grid.getValue o g = .val (binCentre (s o) g)) →
      ∃ probs, pdf grid = some probs ∧ probs.length = (s o).numBins ∧ (∀ p ∈ probs, 0 ≤ p) ∧ 0 < probs.sum)
    (hstream : ∀ q ∈ stream, 0 ≤ q.1 ∧ q.1 < 1 ∧ -(1 / 2) ≤ q.2 ∧ q.2 < 1 / 2) :
    ∃ grid probs s' d' new, pdf grid = some probs
      ∧ (∀ g < (s o).numBins, grid.getValue o g = .val (binCentre (s o) g))
      ∧ fillMCDataSimple [o] pdf (some (id, d)) s stream = (s', some d', .done, .user id)
      ∧ d'.obs = d.obs ∧ Holds d' (es ++ new) ∧ new.length = stream.length
      ∧ ∀ (k : Nat) q e, stream[k]? = some q → new[k]? = some e →
          ToyEvent (s o) probs q.1 (e o) ∧ ∀ p, p ≠ o → e p = (s p).value := by
  obtain ⟨h1, h2, h3⟩ := C07_grid (K := K) [o] (by simp) s (by simp; exact fun _ => hlim.le) (by simp) (by simp [hev])
  have hgp : gridPoints s [o] = (s o).numBins := by simp [gridPoints, hev]
  have hsame := fillWithGrid_store o s hev
  generalize hg : USt.fillWithGrid ⟨s, UDS.new K [o]⟩ = g at h1 h2 h3 hsame
  obtain ⟨g, out⟩ := g
  simp only at h1 h2 h3 hsame
  subst h1
  have hgrid : ∀ i < (s o).numBins, g.ds.getValue o i = .val (binCentre (s o) i) := by
    intro i hi
    have := h3 i (by rw [hgp]; exact hi) 0 o rfl
    rw [this, hev]
    simp [gridPoints, Nat.mod_eq_of_lt hi]
  obtain ⟨probs, hp1, hp2, hp3, hp4⟩ := hpdf g.ds (by rw [h2, hgp]) hgrid
  obtain ⟨st', new, b1, b2, b3, b4, b5, b6⟩ := toyLoop_spec o (s o) g.ds probs hp4 hp2 hlim hgrid stream
    (fun q hq => (hstream q hq).2) ⟨g.store, d⟩ es hholds hsame.2 (by
      intro p hp hpo
      show InLimits (g.store p)
      rw [hsame.1 p hpo]
      exact hothers p hp hpo)
  refine ⟨g.ds, probs, st'.store, st'.ds, new, hp1, hgrid, ?_, b2, b3, b4, ?_⟩
  · unfold fillMCDataSimple
    simp only [hg, hp1, b1]
  · intro k q e hq he
    obtain ⟨c1, c2⟩ := b6 k q e hq he
    refine ⟨c1, fun p hpo => ?_⟩
    rw [c2 p hpo]
    show (g.store p).value = _
    rw [hsame.1 p hpo]

/-! ### Where the PDF's dataset points after an exception -/

omit [IsStrictOrderedRing K] in
/-- **C39 for toy data.**  For every PDF, dataset, state and stream: after a call that succeeds the PDF has its dataset again.
After one that fails it has it exactly if the failure came before the dataset was replaced: not one observable, the grid could
not be filled, or no dataset.  Otherwise it points to the dead grid. -/
theorem C39_fill_partial (obs : List Nat) (pdf : UDS K → Option (List K)) (id : Nat) (d : UDS K) (s : Store K)
    (stream : List (K × K)) :
    let r := fillMCDataSimple obs pdf (some (id, d)) s stream
    (r.2.2.1 = .done → r.2.2.2 = .user id)
      ∧ (r.2.2.1 ≠ .done → (r.2.2.2 = .user id ↔
          ∀ o, obs = [o] → (USt.fillWithGrid ⟨s, UDS.new K [o]⟩).2 ≠ .done))
      ∧ (r.2.2.2 ≠ .user id → r.2.2.2 = .localVar) := by
  rcases obs with _ | ⟨o, _ | ⟨o', os⟩⟩
  · refine ⟨fun h => ?_, fun _ => ⟨fun _ o h => ?_, fun _ => rfl⟩, fun h => absurd rfl h⟩
    · simp [fillMCDataSimple] at h
    · cases h
  · unfold fillMCDataSimple
    dsimp only
    generalize hg : USt.fillWithGrid ⟨s, UDS.new K [o]⟩ = g
    obtain ⟨g, out⟩ := g
    cases out with
    | done =>
      dsimp only
      have key : ¬ ∀ o_1, [o] = [o_1] → (USt.fillWithGrid ⟨s, UDS.new K [o_1]⟩).2 ≠ .done := by
        intro h
        exact h o rfl (by rw [hg])
      cases hp : pdf g.ds with
      | none => exact ⟨fun h => (by cases h), fun _ => ⟨fun h => (by cases h), fun h => absurd h key⟩, fun _ => rfl⟩
      | some probs =>
        dsimp only
        generalize toyLoop o g.ds (cumulative probs) stream ⟨g.store, d⟩ = t
        obtain ⟨st, e⟩ := t
        cases e with
        | done => exact ⟨fun _ => rfl, fun h => absurd rfl h, fun h => absurd rfl h⟩
        | val v => exact ⟨fun h => (by cases h), fun _ => ⟨fun h => (by cases h), fun h => absurd h key⟩, fun _ => rfl⟩
        | threw x => exact ⟨fun h => (by cases h), fun _ => ⟨fun h => (by cases h), fun h => absurd h key⟩, fun _ => rfl⟩
        | ub => exact ⟨fun h => (by cases h), fun _ => ⟨fun h => (by cases h), fun h => absurd h key⟩, fun _ => rfl⟩
    | _ =>
      refine ⟨fun h => (by cases h), fun _ => ⟨fun _ o' ho' => ?_, fun _ => rfl⟩, fun h => absurd rfl h⟩
      cases ho'
      rw [hg]
      exact fun h => by cases h
  · refine ⟨fun h => ?_, fun _ => ⟨fun _ o h => ?_, fun _ => rfl⟩, fun h => absurd rfl h⟩
    · simp [fillMCDataSimple] at h
    · cases h

end

/-- **C39 for fits.**  Whatever step of `fitTo(data)` throws, the PDF has the old dataset or the one given, both the user's. -/
theorem C39_fit (old data : DataRef) (k : Nat) :
    dataAfter old (fitToSteps old data) k = old ∨ dataAfter old (fitToSteps old data) k = data := by
  match k with
  | 0 | 1 | 5 + 1 | 6 + 1 => left; rfl
  | 2 | 3 | 4 | 5 => right; rfl
  | k + 8 => left; simp [dataAfter, fitToSteps, setDataSteps]

/-- **C39, exactly when it fails.**  A call of `evaluateAtPoints` or `getValue` left by an exception in step `k` leaves the PDF
with a dead local dataset exactly if the step lies after the assignment of the local dataset and not after the assignment of
the old one. -/
theorem C39_evaluate_partial (old : DataRef) (hold : old ≠ .localVar) (k : Nat) :
    dataAfter old (evaluateSteps old) k = (if 3 ≤ k ∧ k ≤ 6 then .localVar else old) := by
  match k with
  | 0 | 1 | 2 | 3 | 4 | 5 | 6 | 7 => simp [dataAfter, evaluateSteps, setDataSteps]
  | k + 8 =>
    rw [if_neg (by omega)]
    simp [dataAfter, evaluateSteps, setDataSteps]

/-- The same for the constructor of `DalitzPlotter`. -/
theorem C39_plotter_partial (old : DataRef) (k : Nat) :
    dataAfter old (plotterSteps old) k = (if 3 ≤ k ∧ k ≤ 7 then .localVar else old) := by
  match k with
  | 0 | 1 | 2 | 3 | 4 | 5 | 6 | 7 | 8 => simp [dataAfter, plotterSteps, setDataSteps]
  | k + 9 =>
    rw [if_neg (by omega)]
    simp [dataAfter, plotterSteps, setDataSteps]

/-- The same for Python's `evaluatePdf`. -/
theorem C39_evaluate_pdf_partial (old : DataRef) (k : Nat) :
    dataAfter old (evaluatePdfSteps old) k = (if 3 ≤ k ∧ k ≤ 13 then .localVar else old) := by
  by_cases hk : 15 ≤ k
  · rw [if_neg (by omega)]
    unfold dataAfter
    rw [List.take_of_length_le (by simpa [evaluatePdfSteps, evaluateSteps, setDataSteps] using hk)]
    rfl
  · interval_cases k <;> simp [dataAfter, evaluatePdfSteps, evaluateSteps, setDataSteps]

/-- All four calls restore the dataset if nothing throws. -/
theorem C39_restored (old data : DataRef) :
    dataAfter old (fitToSteps old data) (fitToSteps old data).length = old
      ∧ dataAfter old (evaluateSteps old) (evaluateSteps old).length = old
      ∧ dataAfter old (plotterSteps old) (plotterSteps old).length = old
      ∧ dataAfter old (evaluatePdfSteps old) (evaluatePdfSteps old).length = old := ⟨rfl, rfl, rfl, rfl⟩

/-! ### Concrete cases -/

deriving instance DecidableEq for Out
deriving instance DecidableEq for UDS

namespace ToyDemo
/-- Observable 0 in `[0, 4]` with two bins; observable 1 in `[0, 1]`, out of range in `bad`. -/
def store : Store ℚ := fun o => if o = 0 then ⟨1, 0, 4, 2, false⟩ else ⟨1 / 2, 0, 1, 5, false⟩
def bad : Store ℚ := fun o => if o = 0 then ⟨1, 0, 4, 2, false⟩ else ⟨3, 0, 1, 5, false⟩
def data : UDS ℚ := ⟨[0, 1], [[3], [1 / 4]], 1⟩
/-- Values of a PDF at the two points of the grid. -/
def pdf : UDS ℚ → Option (List ℚ) := fun _ => some [0, 1 / 2]
end ToyDemo

open ToyDemo in
/-- A case of `C33_toy_partial`: two draws, two events, in the second bin. -/
example : fillMCDataSimple [0] pdf (some (7, data)) store [(1 / 3, 1 / 4), (9 / 10, -1 / 2)]
    = ((fillMCDataSimple [0] pdf (some (7, data)) store [(1 / 3, 1 / 4), (9 / 10, -1 / 2)]).1,
        some ⟨[0, 1], [[3, 7 / 2, 2], [1 / 4, 1 / 2, 1 / 2]], 3⟩, .done, .user 7) := by
  refine Prod.ext rfl (Prod.ext ?_ (Prod.ext ?_ ?_)) <;> decide +kernel

open ToyDemo in
/-- **Violation of C33.**  If the number drawn is exactly zero the first bin is chosen, even if its probability is zero. -/
theorem C33_violation_zero_draw :
    (fillMCDataSimple [0] pdf (some (7, data)) store [(0, 0)]).2.1 = some ⟨[0, 1], [[3, 1], [1 / 4, 1 / 2]], 2⟩ := by
  decide +kernel

open ToyDemo in
/-- **Violation of C33.**  If another observable of the dataset is out of range, no event is added, the call throws, and the PDF
is left with the dead grid as its dataset. -/
theorem C33_violation_other_observable :
    (fillMCDataSimple [0] pdf (some (7, data)) bad [(1 / 2, 0)]).2 = (some data, .threw .outOfRange, .localVar) := by
  refine Prod.ext ?_ (Prod.ext ?_ ?_) <;> decide +kernel

/-- **Violation of C39.**  If evaluating a PDF throws, after the local dataset was installed, the PDF keeps a pointer to it. -/
theorem C39_violation_evaluate : dataAfter (.user 7) (evaluateSteps (.user 7)) 4 = .localVar
    ∧ dataAfter (.user 7) (plotterSteps (.user 7)) 5 = .localVar
    ∧ (fillMCDataSimple (K := ℚ) [0] (fun _ => none) (some (7, ToyDemo.data)) ToyDemo.store []).2.2 = (.threw .general, .localVar) := by
  refine ⟨rfl, rfl, Prod.ext ?_ ?_⟩ <;> decide +kernel

end GooFit
