import Verif.Spec.Plotter
import Verif.Props.Toy
import Verif.Props.Dalitz3
/-!
# C91: the Dalitz plotter
-/
set_option autoImplicit false
namespace GooFit
open Spec

section
variable {K : Type} [Field K] [LinearOrder K] [IsStrictOrderedRing K]

/-- What holds after the bins `cs` have been found allowed, starting from the observables `s0`. -/
structure PlotInv (s0 : Store K) (m12 m13 ev : Nat) (cs : List (Nat × Nat)) (p : PlotSt K) : Prop where
  xs : p.xbins = cs.map (·.1)
  ys : p.ybins = cs.map (·.2)
  obs : p.st.ds.obs = [m12, m13, ev]
  holds : Holds p.st.ds (cs.zipIdx.map fun c => cellEvent (s0 m12) (s0 m13) m12 m13 c.1 c.2)
  num : (p.st.store ev).value = (cs.length : K)
  like : ∀ o, { p.st.store o with value := (s0 o).value } = s0 o
  others : ∀ o, o ≠ m12 → o ≠ m13 → o ≠ ev → p.st.store o = s0 o

omit [Field K] [LinearOrder K] [IsStrictOrderedRing K] in
theorem cell_lower {c d : ObsCell K} {v : K} (h : { c with value := v } = d) :
    c.lower = d.lower ∧ c.upper = d.upper ∧ c.numBins = d.numBins := by
  subst h; exact ⟨rfl, rfl, rfl⟩

omit [LinearOrder K] [IsStrictOrderedRing K] in
theorem toBin_value (s s0 : Store K) (o i : Nat) (h : { s o with value := (s0 o).value } = s0 o) :
    (s.toBin o i o).value = binCentre (s0 o) i := by
  obtain ⟨h1, h2, h3⟩ := cell_lower h
  unfold Store.toBin Store.setValue
  simp only [if_true, ObsCell.binSize, binCentre, h1, h2, h3]
  ring

omit [LinearOrder K] [IsStrictOrderedRing K] in
theorem toBin_like (s s0 : Store K) (o i : Nat) (h : ∀ q, { s q with value := (s0 q).value } = s0 q) (q : Nat) :
    { s.toBin o i q with value := (s0 q).value } = s0 q := by
  rw [← h q]
  unfold Store.toBin Store.setValue
  dsimp only
  split <;> rfl

omit [LinearOrder K] [IsStrictOrderedRing K] in
theorem toBin_other (s : Store K) (o i q : Nat) (h : q ≠ o) : s.toBin o i q = s q := by
  simp [Store.toBin, Store.setValue, h]

theorem centre_limits (c : ObsCell K) (i : Nat) (hi : i < c.numBins) (h : c.lower ≤ c.upper) :
    c.lower ≤ binCentre c i ∧ binCentre c i ≤ c.upper := by
  have hn : (0 : K) < c.numBins := Nat.cast_pos.mpr (by omega)
  have hb : 0 ≤ (c.upper - c.lower) / (c.numBins : K) := div_nonneg (sub_nonneg.2 h) hn.le
  have hf : (c.numBins : K) * ((c.upper - c.lower) / (c.numBins : K)) = c.upper - c.lower := by field_simp
  have hi' : (i : K) + 1 ≤ c.numBins := by exact_mod_cast hi
  unfold binCentre
  constructor
  · have : (0 : K) ≤ i := Nat.cast_nonneg _
    nlinarith
  · nlinarith

theorem inLimits_of (c : ObsCell K) (h1 : c.lower ≤ c.value) (h2 : c.value ≤ c.upper) : InLimits c :=
  Or.inr ⟨decide_eq_true h1, decide_eq_true h2⟩

/-- One pass of the inner loop. -/
theorem plotCell_inv (s0 : Store K) (m12 m13 ev : Nat) (inside : K → K → Bool) (h23 : m12 ≠ m13) (h2e : m12 ≠ ev)
    (h3e : m13 ≠ ev) (hl2 : (s0 m12).lower ≤ (s0 m12).upper) (hl3 : (s0 m13).lower ≤ (s0 m13).upper)
    (i j : Nat) (hi : i < (s0 m12).numBins) (hj : j < (s0 m13).numBins) (cs : List (Nat × Nat))
    (hev : InLimits { s0 ev with value := (cs.length : K) } ∨ inside (binCentre (s0 m12) i) (binCentre (s0 m13) j) = false)
    (p : PlotSt K) (hp : PlotInv s0 m12 m13 ev cs p) (hx : (p.st.store m12).value = binCentre (s0 m12) i) :
    ∃ p', plotCell m12 m13 ev inside i j p = (p', .done) ∧
      PlotInv s0 m12 m13 ev (cs ++ if inside (binCentre (s0 m12) i) (binCentre (s0 m13) j) then [(i, j)] else []) p' ∧
      (p'.st.store m12).value = binCentre (s0 m12) i := by
  let st : USt K := { p.st with store := p.st.store.toBin m13 j }
  have hv3 : (st.store m13).value = binCentre (s0 m13) j := toBin_value _ s0 m13 j (hp.like m13)
  have hs2 : st.store m12 = p.st.store m12 := toBin_other _ _ _ _ h23
  have hse : st.store ev = p.st.store ev := toBin_other _ _ _ _ (Ne.symm h3e)
  have hv2 : (st.store m12).value = binCentre (s0 m12) i := by rw [hs2]; exact hx
  have hlike : ∀ o, { st.store o with value := (s0 o).value } = s0 o := toBin_like _ s0 m13 j hp.like
  have hoth : ∀ o, o ≠ m12 → o ≠ m13 → o ≠ ev → st.store o = s0 o := fun o a b c => by
    show p.st.store.toBin m13 j o = _
    rw [toBin_other _ _ _ _ b]
    exact hp.others o a b c
  unfold plotCell
  show ∃ p', (if inside (st.store m12).value (st.store m13).value then _ else _) = _ ∧ _
  rw [hv2, hv3]
  cases hin : inside (binCentre (s0 m12) i) (binCentre (s0 m13) j) with
  | false =>
    simp only [Bool.false_eq_true, if_false, List.append_nil]
    exact ⟨_, rfl, ⟨hp.xs, hp.ys, hp.obs, hp.holds, by show (st.store ev).value = _; rw [hse]; exact hp.num, hlike, hoth⟩, hv2⟩
  | true =>
    simp only [if_true]
    have hev' : InLimits { s0 ev with value := (cs.length : K) } := by
      rcases hev with h | h
      · exact h
      · rw [hin] at h; exact absurd h (by simp)
    have hall : AllInRange st.ds.obs st.store := by
      have hobs : st.ds.obs = [m12, m13, ev] := hp.obs
      rw [hobs]
      intro o ho
      simp only [List.mem_cons, List.not_mem_nil, or_false] at ho
      rcases ho with rfl | rfl | rfl
      · obtain ⟨a, b, -⟩ := cell_lower (hlike o)
        obtain ⟨c, d⟩ := centre_limits (s0 o) i hi hl2
        exact inLimits_of _ (by rw [hv2, a]; exact c) (by rw [hv2, b]; exact d)
      · obtain ⟨a, b, -⟩ := cell_lower (hlike o)
        obtain ⟨c, d⟩ := centre_limits (s0 o) j hj hl3
        exact inLimits_of _ (by rw [hv3, a]; exact c) (by rw [hv3, b]; exact d)
      · have : st.store o = { s0 o with value := (cs.length : K) } := by
          rw [← hlike o, hse, ← hp.num]
        rw [this]; exact hev'
    obtain ⟨a1, a2, a3, a4⟩ := (holds_addEvent st _ hp.holds).1 hall
    have hpair : st.addEvent = (st.addEvent.1, .done) := by rw [← a1]
    rw [hpair]
    refine ⟨_, rfl, ⟨by simp [hp.xs], by simp [hp.ys], a3.trans hp.obs, ?_, ?_, ?_, ?_⟩, ?_⟩
    · obtain ⟨b1, b2⟩ := a4
      refine ⟨by rw [b1]; simp, ?_⟩
      have hobs : st.ds.obs = [m12, m13, ev] := hp.obs
      rw [b2, a3, hobs]
      simp only [List.map_cons, List.map_nil, List.map_append, List.zipIdx_append, List.zipIdx_singleton, List.map_map]
      have e1 : cellEvent (s0 m12) (s0 m13) m12 m13 (i, j) (0 + cs.length) m12 = (st.store m12).value := by
        rw [hv2]; simp [cellEvent]
      have e2 : cellEvent (s0 m12) (s0 m13) m12 m13 (i, j) (0 + cs.length) m13 = (st.store m13).value := by
        rw [hv3]; simp [cellEvent, Ne.symm h23]
      have e3 : cellEvent (s0 m12) (s0 m13) m12 m13 (i, j) (0 + cs.length) ev = (st.store ev).value := by
        rw [hse, hp.num]; simp [cellEvent, Ne.symm h2e, Ne.symm h3e]
      rw [← e1, ← e2, ← e3]
    · show ((st.addEvent.1.store.setValue ev ((st.addEvent.1.store ev).value + 1)) ev).value = _
      rw [a2, hse, hp.num]
      simp [Store.setValue]
    · intro o
      refine Eq.trans ?_ (hlike o)
      dsimp only
      rw [a2]
      unfold Store.setValue
      split <;> rfl
    · intro o h1 h2 h3
      show (st.addEvent.1.store.setValue ev _) o = _
      rw [a2]
      simp only [Store.setValue, if_neg h3]
      exact hoth o h1 h2 h3
    · show ((st.addEvent.1.store.setValue ev _) m12).value = _
      rw [a2]
      simp only [Store.setValue, if_neg h2e]
      exact hv2

/-- A loop: if pass `i` adds the bins `f i`, the loop adds them one after the other. -/
theorem plotLoop_inv (body : Nat → PlotSt K → PlotSt K × Out K) (I : List (Nat × Nat) → PlotSt K → Prop)
    (f : Nat → List (Nat × Nat)) (N : Nat) (total : Nat)
    (hb : ∀ i < N, ∀ cs p, (cs.length + (f i).length ≤ total) → I cs p → ∃ p', body i p = (p', .done) ∧ I (cs ++ f i) p') :
    ∀ (n i : Nat) (cs : List (Nat × Nat)) (p : PlotSt K), i + n ≤ N →
      cs.length + ((List.range' i n).flatMap f).length ≤ total → I cs p →
      ∃ p', plotLoop body n i p = (p', .done) ∧ I (cs ++ (List.range' i n).flatMap f) p' := by
  intro n
  induction n with
  | zero => intro i cs p _ _ h; exact ⟨p, rfl, by simpa using h⟩
  | succ n ih =>
    intro i cs p hi ht h
    rw [List.range'_succ, List.flatMap_cons, List.length_append] at ht
    obtain ⟨p1, h1, h2⟩ := hb i (by omega) cs p (by omega) h
    obtain ⟨p2, h3, h4⟩ := ih (i + 1) (cs ++ f i) p1 (by omega) (by rw [List.length_append]; omega) h2
    refine ⟨p2, ?_, ?_⟩
    · unfold plotLoop
      rw [h1]
      exact h3
    · rw [List.range'_succ, List.flatMap_cons, ← List.append_assoc]
      exact h4

omit [IsStrictOrderedRing K] in
theorem allowed_eq (c12 c13 : ObsCell K) (inside : K → K → Bool) :
    allowedCells c12 c13 inside = (List.range c12.numBins).flatMap fun i => (List.range c13.numBins).flatMap fun j =>
      if inside (binCentre c12 i) (binCentre c13 j) then [(i, j)] else [] := by
  unfold allowedCells
  rw [List.filter_flatMap]
  congr 1
  funext i
  rw [List.filter_map]
  induction List.range c13.numBins with
  | nil => rfl
  | cons j l ih =>
    rw [List.flatMap_cons, ← ih, List.filter_cons]
    simp only [Function.comp]
    split <;> simp

/-- The loops of the constructor. -/
theorem plot_loops (s : Store K) (m12 m13 ev : Nat) (inside : K → K → Bool) (h23 : m12 ≠ m13) (h2e : m12 ≠ ev)
    (h3e : m13 ≠ ev) (hl2 : (s m12).lower ≤ (s m12).upper) (hl3 : (s m13).lower ≤ (s m13).upper)
    (hev : ∀ k < (allowedCells (s m12) (s m13) inside).length, InLimits { s ev with value := (k : K) }) :
    ∃ p, plotLoop (plotColumn m12 m13 ev inside) (s m12).numBins 0 ⟨[], [], ⟨s.setValue ev 0, UDS.new K [m12, m13, ev]⟩⟩
        = (p, .done) ∧ PlotInv s m12 m13 ev (allowedCells (s m12) (s m13) inside) p := by
  have h0 : PlotInv s m12 m13 ev [] ⟨[], [], ⟨s.setValue ev 0, UDS.new K [m12, m13, ev]⟩⟩ := by
    refine ⟨rfl, rfl, rfl, ⟨rfl, rfl⟩, by simp [Store.setValue], ?_, ?_⟩
    · intro o
      show { s.setValue ev 0 o with value := (s o).value } = s o
      unfold Store.setValue
      split <;> rfl
    · intro o _ _ h
      simp [Store.setValue, h]
  set total := (allowedCells (s m12) (s m13) inside).length with htot
  have main := plotLoop_inv (plotColumn m12 m13 ev inside) (PlotInv s m12 m13 ev)
    (fun i => (List.range (s m13).numBins).flatMap fun j =>
      if inside (binCentre (s m12) i) (binCentre (s m13) j) then [(i, j)] else []) (s m12).numBins total ?_
    (s m12).numBins 0 [] _ (by omega) (by
      rw [htot, allowed_eq, List.range_eq_range' (n := (s m12).numBins)]; simp) h0
  · obtain ⟨p, hp, hq⟩ := main
    refine ⟨p, hp, ?_⟩
    rw [allowed_eq, List.range_eq_range' (n := (s m12).numBins)]
    simpa using hq
  · intro i hi cs p ht hp
    let p1 : PlotSt K := { p with st := { p.st with store := p.st.store.toBin m12 i } }
    have hv : (p1.st.store m12).value = binCentre (s m12) i := toBin_value _ s m12 i (hp.like m12)
    have hp1 : PlotInv s m12 m13 ev cs p1 := by
      refine ⟨hp.xs, hp.ys, hp.obs, hp.holds, ?_, toBin_like _ s m12 i hp.like, ?_⟩
      · show (p.st.store.toBin m12 i ev).value = _
        rw [toBin_other _ _ _ _ (Ne.symm h2e)]
        exact hp.num
      · intro o a b c
        show p.st.store.toBin m12 i o = _
        rw [toBin_other _ _ _ _ a]
        exact hp.others o a b c
    have hn : (p1.st.store m13).numBins = (s m13).numBins := (cell_lower (hp1.like m13)).2.2
    obtain ⟨p2, h1, h2, -⟩ := plotLoop_inv (plotCell m12 m13 ev inside i)
      (fun cs p => PlotInv s m12 m13 ev cs p ∧ (p.st.store m12).value = binCentre (s m12) i)
      (fun j => if inside (binCentre (s m12) i) (binCentre (s m13) j) then [(i, j)] else []) (s m13).numBins total
      (by
        intro j hj cs p ht hp
        refine plotCell_inv s m12 m13 ev inside h23 h2e h3e hl2 hl3 i j hi hj cs ?_ p hp.1 hp.2
        cases hin : inside (binCentre (s m12) i) (binCentre (s m13) j) with
        | false => exact Or.inr rfl
        | true =>
          rw [hin] at ht
          simp only [if_true, List.length_singleton] at ht
          exact Or.inl (hev _ (by omega)))
      (s m13).numBins 0 cs p1 (by omega) (by
        rw [← List.range_eq_range']; exact ht) ⟨hp1, hv⟩
    refine ⟨p2, ?_, ?_⟩
    · unfold plotColumn
      show plotLoop _ (p1.st.store m13).numBins 0 p1 = _
      rw [hn]
      exact h1
    · rw [List.range_eq_range']
      exact h2

omit [LinearOrder K] [IsStrictOrderedRing K] in
theorem plot_getValue (m12 m13 ev : Nat) (h23 : m12 ≠ m13) (h2e : m12 ≠ ev) (h3e : m13 ≠ ev) (d : UDS K)
    (hobs : d.obs = [m12, m13, ev]) (es : List (Event K)) (hd : Holds d es) (o : Nat) (ho : o = m12 ∨ o = m13 ∨ o = ev) :
    (∀ (k : Nat) e, es[k]? = some e → d.getValue o k = .val (e o)) ∧
    ∀ k, es.length ≤ k → d.getValue o k = .threw .general := by
  obtain ⟨h1, h2⟩ := hd
  rw [hobs] at h2
  constructor
  · intro k e hk
    have hlt : k < es.length := (List.getElem?_eq_some_iff.mp hk).1
    unfold UDS.getValue
    rw [if_neg (by omega), hobs, h2]
    rcases ho with rfl | rfl | rfl
    · simp [indexOfVariable, hk]
    · simp [indexOfVariable, Ne.symm h23, hk]
    · simp [indexOfVariable, Ne.symm h2e, Ne.symm h3e, hk]
  · intro k hk
    unfold UDS.getValue
    rw [if_pos (by omega)]

/-- A plotter as constructed from the observables `s`, with the densities `dens` of the PDF and its components. -/
structure PlotterOK (s : Store K) (m12 m13 ev : Nat) (inside : K → K → Bool) (dens : List (K → K → K)) (mother : K)
    (P : Plotter K) : Prop where
  o2 : P.m12 = m12
  o3 : P.m13 = m13
  oe : P.ev = ev
  xs : P.xbins = (allowedCells (s m12) (s m13) inside).map (·.1)
  ys : P.ybins = (allowedCells (s m12) (s m13) inside).map (·.2)
  obs : P.data.obs = [m12, m13, ev]
  holds : Holds P.data ((allowedCells (s m12) (s m13) inside).zipIdx.map fun c =>
    cellEvent (s m12) (s m13) m12 m13 c.1 c.2)
  vals : P.pdfValues = dens.map fun p => (allowedCells (s m12) (s m13) inside).map fun c =>
    p (binCentre (s m12) c.1) (binCentre (s m13) c.2)
  mass : P.mother = mother

theorem construct_ok (s : Store K) (m12 m13 ev : Nat) (inside : K → K → Bool) (hr : PlotReady s m12 m13 ev inside)
    (dens : List (K → K → K)) (pdf : UDS K → Option (List (List K))) (hpdf : PlotValues m12 m13 ev dens pdf) (mother : K) :
    ∃ s' P, Plotter.construct m12 m13 ev inside mother pdf s = (s', .done, some P) ∧
      PlotterOK s m12 m13 ev inside dens mother P ∧
      (∀ o, { s' o with value := (s o).value } = s o) ∧ ∀ o, o ≠ m12 → o ≠ m13 → o ≠ ev → s' o = s o := by
  obtain ⟨p, hp, hi⟩ := plot_loops s m12 m13 ev inside hr.h23 hr.h2e hr.h3e hr.hl2 hr.hl3 hr.numbers
  have hv := hpdf p.st.ds _ hi.obs hi.holds (by
    intro k e hk
    rw [List.getElem?_map, List.getElem?_zipIdx] at hk
    cases hc : (allowedCells (s m12) (s m13) inside)[k]? with
    | none => rw [hc] at hk; simp at hk
    | some c =>
      rw [hc] at hk
      simp only [Option.map_some, Option.some.injEq, Nat.zero_add] at hk
      rw [← hk]
      simp [cellEvent, Ne.symm hr.h2e, Ne.symm hr.h3e])
  obtain ⟨vs, hvs, hv⟩ : ∃ vs, vs = _ ∧ pdf p.st.ds = some vs := ⟨_, rfl, hv⟩
  refine ⟨p.st.store, ⟨m12, m13, ev, p.xbins, p.ybins, vs, p.st.ds, mother⟩, ?_,
    ⟨rfl, rfl, rfl, hi.xs, hi.ys, hi.obs, hi.holds, ?_, rfl⟩, hi.like, hi.others⟩
  · unfold Plotter.construct
    simp only [hp, hv]
  · show vs = _
    rw [hvs]
    congr 1
    funext q
    rw [List.map_map]
    have : ∀ (l : List (Nat × Nat)) (n : Nat), (l.zipIdx n).map ((fun e : Event K => q (e m12) (e m13)) ∘ fun c =>
        cellEvent (s m12) (s m13) m12 m13 c.1 c.2) = l.map fun c => q (binCentre (s m12) c.1) (binCentre (s m13) c.2) := by
      intro l
      induction l with
      | nil => intro n; rfl
      | cons a l ih =>
        intro n
        rw [List.zipIdx_cons, List.map_cons, ih, List.map_cons]
        simp [cellEvent, Ne.symm hr.h23]
    exact this _ 0

theorem ok_event (s : Store K) (m12 m13 ev : Nat) (inside : K → K → Bool) (hr : PlotReady s m12 m13 ev inside)
    (dens : List (K → K → K)) (mother : K) (P : Plotter K) (hP : PlotterOK s m12 m13 ev inside dens mother P) :
    (∀ (k : Nat) c, (allowedCells (s m12) (s m13) inside)[k]? = some c →
      P.data.getValue m12 k = .val (binCentre (s m12) c.1) ∧ P.data.getValue m13 k = .val (binCentre (s m13) c.2) ∧
      P.data.getValue ev k = .val (k : K)) ∧
    ∀ k, (allowedCells (s m12) (s m13) inside).length ≤ k →
      P.data.getValue m12 k = .threw .general ∧ P.data.getValue m13 k = .threw .general := by
  have g := fun o ho => plot_getValue m12 m13 ev hr.h23 hr.h2e hr.h3e P.data hP.obs _ hP.holds o ho
  constructor
  · intro k c hc
    have hk : ((allowedCells (s m12) (s m13) inside).zipIdx.map fun c => cellEvent (s m12) (s m13) m12 m13 c.1 c.2)[k]?
        = some (cellEvent (s m12) (s m13) m12 m13 c k) := by
      rw [List.getElem?_map, List.getElem?_zipIdx, hc]
      simp
    refine ⟨?_, ?_, ?_⟩
    · rw [(g m12 (by simp)).1 k _ hk]; simp [cellEvent]
    · rw [(g m13 (by simp)).1 k _ hk]; simp [cellEvent, Ne.symm hr.h23]
    · rw [(g ev (by simp)).1 k _ hk]; simp [cellEvent, Ne.symm hr.h2e, Ne.symm hr.h3e]
  · intro k hk
    exact ⟨(g m12 (by simp)).2 k (by simpa using hk), (g m13 (by simp)).2 k (by simpa using hk)⟩

/-- **C91, points and values.**  For every pair of binned observables with an event number, every region `inside` and every
PDF: the plotter has one point for each bin whose centre is in the region, column by column; point `k` has the numbers and
the centre of its bin and carries the event number `k`; the value of the PDF or component `num` there is its density at the
centre; asking for more points throws.  Everything but the values of the three observables is as before. -/
theorem C91_points (s : Store K) (m12 m13 ev : Nat) (inside : K → K → Bool) (hr : PlotReady s m12 m13 ev inside)
    (dens : List (K → K → K)) (pdf : UDS K → Option (List (List K))) (hpdf : PlotValues m12 m13 ev dens pdf) (mother : K) :
    let cells := allowedCells (s m12) (s m13) inside
    ∃ s' P, Plotter.construct m12 m13 ev inside mother pdf s = (s', .done, some P) ∧
      P.getNumEvents = cells.length ∧
      (∀ (k : Nat) c, cells[k]? = some c → P.getX k = some c.1 ∧ P.getY k = some c.2 ∧
        P.getXval k = .val (binCentre (s m12) c.1) ∧ P.getYval k = .val (binCentre (s m13) c.2) ∧
        P.data.getValue ev k = .val (k : K) ∧
        ∀ (num : Nat) p, dens[num]? = some p → P.getVal k num = some (p (binCentre (s m12) c.1) (binCentre (s m13) c.2))) ∧
      (∀ k, cells.length ≤ k → P.getX k = none ∧ P.getY k = none ∧ P.getXval k = .threw .general ∧
        P.getYval k = .threw .general ∧ ∀ num, P.getVal k num = none) ∧
      (∀ o, { s' o with value := (s o).value } = s o) ∧ ∀ o, o ≠ m12 → o ≠ m13 → o ≠ ev → s' o = s o := by
  intro cells
  obtain ⟨s', P, hc, hP, hl, ho⟩ := construct_ok s m12 m13 ev inside hr dens pdf hpdf mother
  obtain ⟨g1, g2⟩ := ok_event s m12 m13 ev inside hr dens mother P hP
  refine ⟨s', P, hc, by unfold Plotter.getNumEvents; rw [hP.holds.1]; simp [cells], ?_, ?_, hl, ho⟩
  · intro k c hk
    obtain ⟨a, b, e⟩ := g1 k c hk
    refine ⟨?_, ?_, ?_, ?_, e, ?_⟩
    · unfold Plotter.getX; rw [hP.xs, List.getElem?_map, hk]; rfl
    · unfold Plotter.getY; rw [hP.ys, List.getElem?_map, hk]; rfl
    · unfold Plotter.getXval; rw [hP.o2]; exact a
    · unfold Plotter.getYval; rw [hP.o3]; exact b
    · intro num p hp
      unfold Plotter.getVal
      rw [hP.vals, List.getElem?_map, hp, Option.map_some, Option.bind_some, List.getElem?_map, hk]
      rfl
  · intro k hk
    obtain ⟨a, b⟩ := g2 k hk
    have hn : (allowedCells (s m12) (s m13) inside)[k]? = none := List.getElem?_eq_none hk
    refine ⟨?_, ?_, ?_, ?_, ?_⟩
    · unfold Plotter.getX; rw [hP.xs, List.getElem?_map, hn]; rfl
    · unfold Plotter.getY; rw [hP.ys, List.getElem?_map, hn]; rfl
    · unfold Plotter.getXval; rw [hP.o2]; exact a
    · unfold Plotter.getYval; rw [hP.o3]; exact b
    · intro num
      unfold Plotter.getVal
      rw [hP.vals, List.getElem?_map]
      cases dens[num]? with
      | none => rfl
      | some p => simp [hn]

omit [IsStrictOrderedRing K] in
theorem make2D_loop (P : Plotter K) (cells : List (Nat × Nat)) (v : Nat × Nat → K) (hx : P.xbins = cells.map (·.1))
    (hy : P.ybins = cells.map (·.2)) (hv : ∃ l, P.pdfValues = cells.map v :: l) :
    ∀ (n j : Nat) (h : Nat → Nat → K), j + n = cells.length → ∃ h', P.make2DLoop n j h = some h' ∧
      (∀ c ∈ cells.drop j, h' (1 + c.1) (1 + c.2) = v c) ∧
      ∀ a b, (∀ c ∈ cells.drop j, ¬ (a = 1 + c.1 ∧ b = 1 + c.2)) → h' a b = h a b := by
  obtain ⟨l, hv⟩ := hv
  intro n
  induction n with
  | zero =>
    intro j h hj
    have : cells.drop j = [] := List.drop_eq_nil_of_le (by omega)
    exact ⟨h, rfl, by simp [this], fun _ _ _ => rfl⟩
  | succ n ih =>
    intro j h hj
    have hlt : j < cells.length := by omega
    have hdrop : cells.drop j = cells[j] :: cells.drop (j + 1) := List.drop_eq_getElem_cons hlt
    obtain ⟨h', h1, h2, h3⟩ := ih (j + 1) (Plotter.setBin h (1 + cells[j].1) (1 + cells[j].2) (v cells[j])) (by omega)
    have e1 : P.getX j = some cells[j].1 := by
      unfold Plotter.getX; rw [hx, List.getElem?_map, List.getElem?_eq_getElem hlt]; rfl
    have e2 : P.getY j = some cells[j].2 := by
      unfold Plotter.getY; rw [hy, List.getElem?_map, List.getElem?_eq_getElem hlt]; rfl
    have e3 : P.getVal j 0 = some (v cells[j]) := by
      unfold Plotter.getVal; rw [hv, List.getElem?_cons_zero, Option.bind_some, List.getElem?_map, List.getElem?_eq_getElem hlt]; rfl
    refine ⟨h', ?_, ?_, ?_⟩
    · unfold Plotter.make2DLoop
      rw [e1, e2, e3]
      exact h1
    · intro c hc
      rw [hdrop, List.mem_cons] at hc
      by_cases hc' : c ∈ cells.drop (j + 1)
      · exact h2 c hc'
      · rcases hc with rfl | hc
        · rw [h3]
          · simp [Plotter.setBin]
          · rintro d hd ⟨q1, q2⟩
            have : cells[j] = d := Prod.ext (by omega) (by omega)
            rw [this] at hc'
            exact hc' hd
        · exact absurd hc hc'
    · intro a b hab
      rw [h3 a b (fun c hc => hab c (by rw [hdrop]; exact List.mem_cons_of_mem _ hc))]
      have := hab cells[j] (by rw [hdrop]; exact List.mem_cons_self)
      simp [Plotter.setBin, this]

/-- **C91, histogram.**  The histogram of `make2D` has in the bin `(i, j)` (ROOT counts from 1) the density at its centre if that
is in the region, and zero in all other bins, including under- and overflow. -/
theorem C91_histogram (s : Store K) (m12 m13 ev : Nat) (inside : K → K → Bool) (hr : PlotReady s m12 m13 ev inside)
    (p : K → K → K) (dens : List (K → K → K)) (pdf : UDS K → Option (List (List K)))
    (hpdf : PlotValues m12 m13 ev (p :: dens) pdf) (mother : K) :
    ∃ s' P h, Plotter.construct m12 m13 ev inside mother pdf s = (s', .done, some P) ∧ P.make2D = some h ∧
      (∀ i j, i < (s m12).numBins → j < (s m13).numBins → h (1 + i) (1 + j) =
        if inside (binCentre (s m12) i) (binCentre (s m13) j) then p (binCentre (s m12) i) (binCentre (s m13) j) else 0) ∧
      (∀ a b, a = 0 ∨ b = 0 ∨ (s m12).numBins < a ∨ (s m13).numBins < b → h a b = 0) := by
  obtain ⟨s', P, hc, hP, -, -⟩ := construct_ok s m12 m13 ev inside hr (p :: dens) pdf hpdf mother
  set cells := allowedCells (s m12) (s m13) inside with hcells
  have hmem : ∀ c, c ∈ cells ↔ c.1 < (s m12).numBins ∧ c.2 < (s m13).numBins ∧
      inside (binCentre (s m12) c.1) (binCentre (s m13) c.2) = true := by
    intro c
    rw [hcells]
    unfold allowedCells
    rw [List.mem_filter, List.mem_flatMap]
    constructor
    · rintro ⟨⟨i, hi, hj⟩, hin⟩
      obtain ⟨j, hj', rfl⟩ := List.mem_map.1 hj
      exact ⟨List.mem_range.1 hi, List.mem_range.1 hj', hin⟩
    · rintro ⟨a, b, d⟩
      exact ⟨⟨c.1, List.mem_range.2 a, List.mem_map.2 ⟨c.2, List.mem_range.2 b, rfl⟩⟩, d⟩
  obtain ⟨h, h1, h2, h3⟩ := make2D_loop P cells (fun c => p (binCentre (s m12) c.1) (binCentre (s m13) c.2)) hP.xs hP.ys
    ⟨_, hP.vals⟩ cells.length 0 (fun _ _ => 0) (by omega)
  refine ⟨s', P, h, hc, ?_, ?_, ?_⟩
  · unfold Plotter.make2D Plotter.getNumEvents
    rw [hP.holds.1]
    simpa using h1
  · intro i j hi hj
    split
    · rename_i hin
      exact h2 (i, j) (by simpa using (hmem (i, j)).2 ⟨hi, hj, hin⟩)
    · rename_i hin
      apply h3
      rintro c hcm ⟨q1, q2⟩
      have := (hmem c).1 (by simpa using hcm)
      rw [show i = c.1 by omega, show j = c.2 by omega] at hin
      exact hin this.2.2
  · intro a b hab
    apply h3
    rintro c hcm ⟨q1, q2⟩
    have := (hmem c).1 (by simpa using hcm)
    omega

theorem inBin_centre (c : ObsCell K) (i : Nat) (hi : i < c.numBins) (h : c.lower < c.upper) (u : K) (hu1 : -(1 / 2) ≤ u) (hu2 : u < 1 / 2) :
    InBin c i (binCentre c i + (c.upper - c.lower) / (c.numBins : K) * u) ∧
    c.lower ≤ binCentre c i + (c.upper - c.lower) / (c.numBins : K) * u ∧
    binCentre c i + (c.upper - c.lower) / (c.numBins : K) * u ≤ c.upper := by
  have hn : (0 : K) < c.numBins := Nat.cast_pos.mpr (by omega)
  have hf : (c.numBins : K) * ((c.upper - c.lower) / (c.numBins : K)) = c.upper - c.lower := by field_simp
  unfold InBin binCentre
  have hb : 0 < (c.upper - c.lower) / (c.numBins : K) := div_pos (sub_pos.2 h) hn
  generalize (c.upper - c.lower) / (c.numBins : K) = b at hf hb
  have h1 := mul_le_mul_of_nonneg_left hu1 hb.le
  have h2 := mul_lt_mul_of_pos_left hu2 hb
  have hi' : ((i : K) + 1) * b ≤ (c.numBins : K) * b := mul_le_mul_of_nonneg_right (by exact_mod_cast hi) hb.le
  have h0 : 0 ≤ (i : K) * b := mul_nonneg (Nat.cast_nonneg _) hb.le
  refine ⟨⟨?_, ?_⟩, ?_, ?_⟩ <;> linarith

theorem allowed_lt (c12 c13 : ObsCell K) (inside : K → K → Bool) (c : Nat × Nat) (h : c ∈ allowedCells c12 c13 inside) :
    c.1 < c12.numBins ∧ c.2 < c13.numBins := by
  unfold allowedCells at h
  rw [List.mem_filter, List.mem_flatMap] at h
  obtain ⟨⟨i, hi, hj⟩, -⟩ := h
  obtain ⟨j, hj', rfl⟩ := List.mem_map.1 hj
  exact ⟨List.mem_range.1 hi, List.mem_range.1 hj'⟩

theorem mcLoop_spec (s : Store K) (m12 m13 ev : Nat) (inside : K → K → Bool) (hr : PlotReady s m12 m13 ev inside)
    (hl2 : (s m12).lower < (s m12).upper) (hl3 : (s m13).lower < (s m13).upper)
    (dens : List (K → K → K)) (mother : K) (P : Plotter K) (hP : PlotterOK s m12 m13 ev inside dens mother P)
    (p : K → K → K)
    (hnn : ∀ c ∈ allowedCells (s m12) (s m13) inside, 0 ≤ p (binCentre (s m12) c.1) (binCentre (s m13) c.2))
    (hsum : 0 < ((allowedCells (s m12) (s m13) inside).map fun c => p (binCentre (s m12) c.1) (binCentre (s m13) c.2)).sum)
    (t : Store K) (total : Nat) (obs : List Nat)
    (hothers : ∀ q ∈ obs, q ≠ m12 → q ≠ m13 → q ≠ ev → InLimits (t q))
    (hevs : ev ∈ obs → ∀ k < total, InLimits { t ev with value := (k : K) })
    (hlike : ∀ o, o = m12 ∨ o = m13 → { t o with value := (s o).value } = s o) :
    ∀ (stream : List (K × K × K)) (i : Nat) (st : USt K) (es : List (Event K)), i + stream.length = total →
      (∀ q ∈ stream, 0 ≤ q.1 ∧ q.1 < 1 ∧ -(1 / 2) ≤ q.2.1 ∧ q.2.1 < 1 / 2 ∧ -(1 / 2) ≤ q.2.2 ∧ q.2.2 < 1 / 2) →
      st.ds.obs = obs → Holds st.ds es →
      (∀ o, { st.store o with value := (t o).value } = t o) → (∀ o, o ≠ m12 → o ≠ m13 → o ≠ ev → st.store o = t o) →
      ∃ st' new, P.mcLoop (cumulative ((allowedCells (s m12) (s m13) inside).map fun c =>
          p (binCentre (s m12) c.1) (binCentre (s m13) c.2))) stream i st = (st', .done) ∧ st'.ds.obs = obs ∧
        Holds st'.ds (es ++ new) ∧ new.length = stream.length ∧
        ∀ (k : Nat) q e, stream[k]? = some q → new[k]? = some e →
          ToyPoint (s m12) (s m13) m12 m13 ev t (allowedCells (s m12) (s m13) inside) p (i + k) q.1 q.2.1 q.2.2 e := by
  set cells := allowedCells (s m12) (s m13) inside with hcells
  set probs := cells.map fun c => p (binCentre (s m12) c.1) (binCentre (s m13) c.2) with hprobs
  obtain ⟨g1, -⟩ := ok_event s m12 m13 ev inside hr dens mother P hP
  intro stream
  induction stream with
  | nil => intro i st es _ _ h1 h2 _ _; exact ⟨st, [], rfl, h1, by simpa using h2, rfl, by simp⟩
  | cons q rest ih =>
    intro i st es hi hst hobs hholds hstl hsto
    obtain ⟨r, u, v⟩ := q
    obtain ⟨hr0, hr1, hu1, hu2, hv1, hv2⟩ := hst (r, u, v) (by simp)
    dsimp only at hr0 hr1 hu1 hu2 hv1 hv2
    obtain ⟨pj, hpj, hp0, -⟩ := lowerBound_spec probs hsum r hr1
    have hshare := C33_shares probs hsum (by
      intro y hy
      obtain ⟨c, hc, rfl⟩ := List.mem_map.1 hy
      exact hnn c hc) r
    generalize hj : lowerBound (cumulative probs) r = j at hpj hshare
    have hjl : j < probs.length := (List.getElem?_eq_some_iff.mp hpj).1
    have hjc : j < cells.length := by rw [hprobs, List.length_map] at hjl; exact hjl
    obtain ⟨c, hc⟩ : ∃ c, cells[j]? = some c := ⟨_, List.getElem?_eq_getElem hjc⟩
    have hpc : pj = p (binCentre (s m12) c.1) (binCentre (s m13) c.2) := by
      rw [hprobs, List.getElem?_map, hc] at hpj
      exact (Option.some.inj hpj).symm
    obtain ⟨ga, gb, -⟩ := g1 j c hc
    obtain ⟨hc1, hc2⟩ := allowed_lt _ _ _ c (List.mem_of_getElem? hc)
    have hmeta : ∀ o, o = m12 ∨ o = m13 → (st.store o).lower = (s o).lower ∧ (st.store o).upper = (s o).upper ∧
        (st.store o).numBins = (s o).numBins := by
      intro o ho
      obtain ⟨a, b, d⟩ := cell_lower (hstl o)
      obtain ⟨a', b', d'⟩ := cell_lower (hlike o ho)
      exact ⟨a.trans a', b.trans b', d.trans d'⟩
    have hbs : ∀ o, o = m12 ∨ o = m13 → (st.store o).binSize = ((s o).upper - (s o).lower) / ((s o).numBins : K) := by
      intro o ho
      obtain ⟨a, b, d⟩ := hmeta o ho
      unfold ObsCell.binSize
      rw [a, b, d]
    set x := binCentre (s m12) c.1 + ((s m12).upper - (s m12).lower) / ((s m12).numBins : K) * u with hx
    set y := binCentre (s m13) c.2 + ((s m13).upper - (s m13).lower) / ((s m13).numBins : K) * v with hy
    obtain ⟨bx, lx, ux⟩ := inBin_centre (s m12) c.1 hc1 hl2 u hu1 hu2
    obtain ⟨by', ly, uy⟩ := inBin_centre (s m13) c.2 hc2 hl3 v hv1 hv2
    rw [← hx] at bx lx ux
    rw [← hy] at by' ly uy
    let s1 : USt K := { st with store := ((st.store.setValue m12 x).setValue m13 y).setValue ev (i : K) }
    have e2 : s1.store m12 = { st.store m12 with value := x } := by
      show ((st.store.setValue m12 x).setValue m13 y).setValue ev (i : K) m12 = _
      simp [Store.setValue, hr.h2e, hr.h23]
    have e3 : s1.store m13 = { st.store m13 with value := y } := by
      show ((st.store.setValue m12 x).setValue m13 y).setValue ev (i : K) m13 = _
      simp [Store.setValue, hr.h3e, Ne.symm hr.h23]
    have ee : s1.store ev = { st.store ev with value := (i : K) } := by
      show ((st.store.setValue m12 x).setValue m13 y).setValue ev (i : K) ev = _
      simp [Store.setValue, Ne.symm hr.h2e, Ne.symm hr.h3e]
    have eo : ∀ o, o ≠ m12 → o ≠ m13 → o ≠ ev → s1.store o = t o := by
      intro o h1 h2 h3
      rw [← hsto o h1 h2 h3]
      show ((st.store.setValue m12 x).setValue m13 y).setValue ev (i : K) o = _
      simp [Store.setValue, h1, h2, h3]
    have hlike1 : ∀ o, { s1.store o with value := (t o).value } = t o := by
      intro o
      by_cases h1 : o = m12
      · subst h1; rw [e2]; exact hstl o
      · by_cases h2 : o = m13
        · subst h2; rw [e3]; exact hstl o
        · by_cases h3 : o = ev
          · subst h3; rw [ee]; exact hstl o
          · rw [eo o h1 h2 h3]
    have hall : AllInRange s1.ds.obs s1.store := by
      intro o ho
      by_cases h1 : o = m12
      · subst h1
        obtain ⟨a, b, -⟩ := hmeta o (Or.inl rfl)
        rw [e2]
        exact inLimits_of _ (by show (st.store o).lower ≤ x; rw [a]; exact lx) (by show x ≤ (st.store o).upper; rw [b]; exact ux)
      · by_cases h2 : o = m13
        · subst h2
          obtain ⟨a, b, -⟩ := hmeta o (Or.inr rfl)
          rw [e3]
          exact inLimits_of _ (by show (st.store o).lower ≤ y; rw [a]; exact ly) (by show y ≤ (st.store o).upper; rw [b]; exact uy)
        · by_cases h3 : o = ev
          · subst h3
            have : s1.store o = { t o with value := (i : K) } := by rw [ee, ← hstl o]
            rw [this]
            exact hevs (hobs ▸ ho) i (by rw [← hi, List.length_cons]; omega)
          · rw [eo o h1 h2 h3]
            exact hothers o (hobs ▸ ho) h1 h2 h3
    obtain ⟨a1, a2, a3, a4⟩ := (holds_addEvent s1 es hholds).1 hall
    obtain ⟨st', new, b1, b2, b3, b4, b5⟩ := ih (i + 1) s1.addEvent.1 (es ++ [fun o => (s1.store o).value])
      (by rw [← hi, List.length_cons]; omega) (fun q hq => hst q (List.mem_cons_of_mem _ hq)) (a3.trans hobs) a4
      (by rw [a2]; exact hlike1) (by rw [a2]; exact eo)
    refine ⟨st', (fun o => (s1.store o).value) :: new, ?_, b2, by simpa using b3, by simp [b4], ?_⟩
    · unfold Plotter.mcLoop
      dsimp only
      rw [hj, hP.o2, hP.o3, hP.oe, ga, gb]
      dsimp only
      rw [hbs m12 (Or.inl rfl), hbs m13 (Or.inr rfl)]
      have hpair : s1.addEvent = (s1.addEvent.1, .done) := by rw [← a1]
      show (match USt.addEvent s1 with
        | (st', .done) => P.mcLoop (cumulative probs) rest (i + 1) st'
        | res => res) = _
      rw [hpair]
      exact b1
    · intro k q e hq he
      cases k with
      | zero =>
        simp only [List.getElem?_cons_zero, Option.some.injEq] at hq he
        subst hq; subst he
        refine ⟨j, c, hc, ?_, by dsimp only; rw [e2], by dsimp only; rw [e2]; exact bx, by dsimp only; rw [e3],
          by dsimp only; rw [e3]; exact by', by dsimp only; rw [ee]; simp, fun o h1 h2 h3 => by dsimp only; rw [eo o h1 h2 h3]⟩
        rcases hr0.lt_or_eq with h | h
        · left
          obtain ⟨w1, w2⟩ := (hshare h j hjl).1.1 rfl
          dsimp only
          rw [List.map_take, List.map_take]
          exact ⟨w1, w2, hpc ▸ hp0 h⟩
        · right; exact h.symm
      | succ k =>
        simp only [List.getElem?_cons_succ] at hq he
        have := b5 k q e hq he
        rw [show i + 1 + k = i + (k + 1) by omega] at this
        exact this

/-- **C91, toy data** (what is missing: a number drawn exactly zero gives the first point whatever its density, see
`C33_violation_zero_draw`; the bin may stick out of the region, see `C91_violation_outside`; the limits of the two observables
must be those the plotter was made with).  If the densities at the points are not negative and not all zero, and the
observables are in range, `fillDataSetMC` adds one event per draw to the user's dataset, each in a bin whose centre is in the
region, chosen with probability proportional to the density at its centre, evenly within the bin; the events are numbered from
0, and the other observables keep their values. -/
theorem C91_toys_partial (s : Store K) (m12 m13 ev : Nat) (inside : K → K → Bool) (hr : PlotReady s m12 m13 ev inside)
    (hl2 : (s m12).lower < (s m12).upper) (hl3 : (s m13).lower < (s m13).upper)
    (p : K → K → K) (dens : List (K → K → K)) (pdf : UDS K → Option (List (List K)))
    (hpdf : PlotValues m12 m13 ev (p :: dens) pdf) (mother : K)
    (hnn : ∀ c ∈ allowedCells (s m12) (s m13) inside, 0 ≤ p (binCentre (s m12) c.1) (binCentre (s m13) c.2))
    (hsum : ∃ c ∈ allowedCells (s m12) (s m13) inside, p (binCentre (s m12) c.1) (binCentre (s m13) c.2) ≠ 0) :
    ∃ s' P, Plotter.construct m12 m13 ev inside mother pdf s = (s', .done, some P) ∧
      ∀ (t : Store K) (d : UDS K) (es : List (Event K)) (stream : List (K × K × K)), Holds d es →
        (∀ o, o = m12 ∨ o = m13 → { t o with value := (s o).value } = s o) →
        (∀ q ∈ d.obs, q ≠ m12 → q ≠ m13 → q ≠ ev → InLimits (t q)) →
        (ev ∈ d.obs → ∀ k < stream.length, InLimits { t ev with value := (k : K) }) →
        (∀ q ∈ stream, 0 ≤ q.1 ∧ q.1 < 1 ∧ -(1 / 2) ≤ q.2.1 ∧ q.2.1 < 1 / 2 ∧ -(1 / 2) ≤ q.2.2 ∧ q.2.2 < 1 / 2) →
        ∃ st' new, P.fillDataSetMC stream ⟨t, d⟩ = (st', .done) ∧ st'.ds.obs = d.obs ∧ Holds st'.ds (es ++ new) ∧
          new.length = stream.length ∧
          ∀ (k : Nat) q e, stream[k]? = some q → new[k]? = some e →
            ToyPoint (s m12) (s m13) m12 m13 ev t (allowedCells (s m12) (s m13) inside) p k q.1 q.2.1 q.2.2 e := by
  obtain ⟨s', P, hc, hP, -, -⟩ := construct_ok s m12 m13 ev inside hr (p :: dens) pdf hpdf mother
  refine ⟨s', P, hc, ?_⟩
  intro t d es stream hd hlike hoth hevs hst
  have hpos : 0 < ((allowedCells (s m12) (s m13) inside).map fun c => p (binCentre (s m12) c.1) (binCentre (s m13) c.2)).sum := by
    obtain ⟨c, hc, hne⟩ := hsum
    have h1 : ∀ y ∈ (allowedCells (s m12) (s m13) inside).map fun c => p (binCentre (s m12) c.1) (binCentre (s m13) c.2), 0 ≤ y := by
      intro y hy
      obtain ⟨c, hc, rfl⟩ := List.mem_map.1 hy
      exact hnn c hc
    exact lt_of_lt_of_le (lt_of_le_of_ne (hnn c hc) (Ne.symm hne)) (List.single_le_sum h1 _ (List.mem_map.2 ⟨c, hc, rfl⟩))
  obtain ⟨st', new, h1, h2, h3, h4, h5⟩ := mcLoop_spec s m12 m13 ev inside hr hl2 hl3 (p :: dens) mother P hP p hnn hpos t
    stream.length d.obs hoth hevs hlike stream 0 ⟨t, d⟩ es (by omega) hst rfl hd (fun _ => rfl) (fun _ _ _ _ => rfl)
  refine ⟨st', new, ?_, h2, h3, h4, fun k q e hq he => by simpa using h5 k q e hq he⟩
  unfold Plotter.fillDataSetMC
  rw [hP.vals]
  exact h1

end
/-! ### The amplitude of a three-body decay -/

theorem mapM_get {α β : Type} (f : α → Option β) (l : List α) (r : List β) (hl : l.length = r.length)
    (h : ∀ (k : Nat) a b, l[k]? = some a → r[k]? = some b → f a = some b) : l.mapM f = some r := by
  induction l generalizing r with
  | nil =>
    cases r with
    | nil => rfl
    | cons b r => simp at hl
  | cons a l ih =>
    cases r with
    | nil => simp at hl
    | cons b r =>
      have h0 : f a = some b := h 0 a b rfl rfl
      have := ih r (by simpa using hl) (fun k a b ha hb => h (k + 1) a b (by simpa using ha) (by simpa using hb))
      rw [List.mapM_cons, h0, this]
      rfl

theorem readUDS_eq (m12 m13 ev : Nat) (h23 : m12 ≠ m13) (h2e : m12 ≠ ev) (h3e : m13 ≠ ev) (d : UDS ℝ)
    (hobs : d.obs = [m12, m13, ev]) (es : List (Event ℝ)) (hd : Holds d es) :
    readUDS m12 m13 ev d = some (es.map fun e => ⟨e m12, e m13, e ev⟩) := by
  unfold readUDS
  refine mapM_get _ _ _ (by simp [hd.1]) ?_
  intro k a b ha hb
  have hka : a = k := by
    rw [List.getElem?_eq_some_iff] at ha
    obtain ⟨h, hh⟩ := ha
    rw [List.getElem_range] at hh
    exact hh.symm
  subst hka
  rw [List.getElem?_map] at hb
  cases he : es[a]? with
  | none => rw [he] at hb; simp at hb
  | some e =>
    rw [he] at hb
    have hb' : b = ⟨e m12, e m13, e ev⟩ := (Option.some.inj hb).symm
    have g := fun o ho => (plot_getValue m12 m13 ev h23 h2e h3e d hobs es hd o ho).1 a e he
    rw [g m12 (by simp), g m13 (by simp), g ev (by simp), hb']

/-- The values the plotter gets from a three-body amplitude. -/
theorem plot_values (d : DalitzCtx) (hd : GoodMasses d) (table : Nat → ℝ) (rs : List (ResUse ResNew))
    (built : List (ResUse ResObj)) (hb : resBuildAll rs = some built) (hs : ∀ r ∈ rs, ¬ IsSplineRes r.res)
    (h16 : rs.length ≤ 16) (eff : (Nat → ℝ) → ℝ → ℝ → ℝ) (s : D3State) (hbins : s.grid.nb12 = s.grid.nb13)
    (hpos : 0 < s.grid.nb12) (parent : Bool) (marks : ResObj → Bool) (h : Nat → ℝ) (old : List Ev3) (m12 m13 ev : Nat)
    (h23 : m12 ≠ m13) (h2e : m12 ≠ ev) (h3e : m13 ≠ ev) :
    PlotValues m12 m13 ev [fun x y => density3 d rs eff h x y /
        gridIntegral2 (density3 d rs eff h) s.grid.lo12 s.grid.hi12 s.grid.nb12 s.grid.lo13 s.grid.hi13 s.grid.nb13]
      fun ds => ((d3Pdf d table built eff).plot s parent marks h old m12 m13 ev ds).map fun r => [r.1] := by
  intro ds es hobs hds hnum
  set D := d3Pdf d table built eff with hD
  set evs : List Ev3 := es.map fun e => ⟨e m12, e m13, e ev⟩ with hevs
  have hlen : D.res.length ≤ 16 := by have := built_length rs built hb; simp only [hD, d3Pdf]; omega
  have hnumbered : Numbered evs := by
    intro k e he
    rw [hevs, List.getElem?_map] at he
    cases hk : es[k]? with
    | none => rw [hk] at he; simp at he
    | some e' =>
      rw [hk] at he
      have : e = ⟨e' m12, e' m13, e' ev⟩ := (Option.some.inj he).symm
      rw [this]
      dsimp only
      rw [hnum k e' hk]
      constructor <;> linarith
  have hgive : GivesData evs [if parent then .parentData evs else .setData evs, .setDataSize evs.length] := by
    cases parent
    · exact .own
    · exact .parent
  have hm : MarksFrom3 none ([] ++ [(marks, h)]) := ⟨fun _ h => absurd h (by simp), trivial⟩
  obtain ⟨s1, s2, r1, r2⟩ := C81_normalization_partial d hd table rs built hb hs h16 eff s hbins hpos evs _ hgive [] marks h hm
    (by simp)
  obtain ⟨s3, r3, r4⟩ := C81_value_partial d hd table rs built hb hs h16 eff s evs _ hgive hnumbered [] marks h hm
  rw [List.map_nil, List.append_nil, ← hD] at r1
  rw [← hD] at r2
  have h3 : s3 = s2 := by
    have e : D.run s ([if parent then D3Op.parentData evs else .setData evs, .setDataSize evs.length] ++ [.eval marks h])
        = some s3 := r3
    rw [run_append3, r1] at e
    have e' : (D.step s1 (.eval marks h)).bind (fun s => some s) = some s3 := e
    rw [show D.step s1 (.eval marks h) = (D.normalize s1 marks h).map (·.1) from rfl, r2] at e'
    exact (Option.some.inj e').symm
  rw [h3] at r4
  set n := gridIntegral2 (density3 d rs eff h) s.grid.lo12 s.grid.hi12 s.grid.nb12 s.grid.lo13 s.grid.hi13 s.grid.nb13
  have hvals : ((List.range evs.length).mapM fun k => (D.value s2 h k).map (· * (1 / n)))
      = some (es.map fun e => density3 d rs eff h (e m12) (e m13) / n) := by
    refine mapM_get _ _ _ (by simp [hevs]) ?_
    intro k a b ha hb
    have hka : a = k := by
      rw [List.getElem?_eq_some_iff] at ha
      obtain ⟨h, hh⟩ := ha
      rw [List.getElem_range] at hh
      exact hh.symm
    subst hka
    rw [List.getElem?_map] at hb
    cases hk : es[a]? with
    | none => rw [hk] at hb; simp at hb
    | some e =>
      rw [hk] at hb
      rw [r4 a ⟨e m12, e m13, e ev⟩ (by rw [hevs, List.getElem?_map, hk]; rfl)]
      have hb' : density3 d rs eff h (e m12) (e m13) / n = b := Option.some.inj hb
      rw [← hb', Option.map_some]
      exact congrArg some (div_eq_mul_one_div _ _).symm
  have hold : ∃ s4, D.run s2 [if parent then D3Op.parentData old else .setData old] = some s4 := by
    cases parent <;> exact ⟨_, rfl⟩
  obtain ⟨s4, hold⟩ := hold
  show (D.plot s parent marks h old m12 m13 ev ds).map _ = _
  unfold D3.plot
  rw [readUDS_eq m12 m13 ev h23 h2e h3e ds hobs es hds]
  simp only [Option.bind_some]
  rw [← hevs, r1]
  simp only [Option.bind_some]
  rw [r2]
  simp only [Option.bind_some]
  rw [hvals]
  simp only [Option.bind_some, hold, Option.map_some]
  rfl

theorem sum_flatMap_ite {α β : Type} (l : List α) (m : List β) (q : α → β → Bool) (g : α × β → ℝ)
    (hz : ∀ a b, q a b = false → g (a, b) = 0) :
    ((l.flatMap fun a => m.flatMap fun b => if q a b then [(a, b)] else []).map g).sum =
      (l.map fun a => (m.map fun b => g (a, b)).sum).sum := by
  have inner : ∀ (a : α) (m : List β), ((m.flatMap fun b => if q a b then [(a, b)] else []).map g).sum =
      (m.map fun b => g (a, b)).sum := by
    intro a m
    induction m with
    | nil => rfl
    | cons b m ih =>
      rw [List.flatMap_cons, List.map_append, List.sum_append, ih, List.map_cons, List.sum_cons]
      cases hq : q a b with
      | false => simp [hz a b hq]
      | true => simp
  induction l with
  | nil => rfl
  | cons a l ih => rw [List.flatMap_cons, List.map_append, List.sum_append, ih, inner, List.map_cons, List.sum_cons]

/-- **C91 for an amplitude** (what is missing: splines, more than 16 resonances and different numbers of bins, as in C81).  The
plotter of a three-body decay, in whatever state the amplitude is, has a point for every bin whose centre is a point of the
decay, and the value there is the density the user has described divided by its integral: with the size of the bins
the values add up to one. -/
theorem C91_amplitude_partial (d : DalitzCtx) (hd : GoodMasses d) (table : Nat → ℝ) (rs : List (ResUse ResNew))
    (built : List (ResUse ResObj)) (hb : resBuildAll rs = some built) (hs : ∀ r ∈ rs, ¬ IsSplineRes r.res)
    (h16 : rs.length ≤ 16) (eff : (Nat → ℝ) → ℝ → ℝ → ℝ) (store : Store ℝ) (m12 m13 ev : Nat)
    (hr : PlotReady store m12 m13 ev (d3Pdf d table built eff).inside)
    (hbins : (store m12).numBins = (store m13).numBins) (hpos : 0 < (store m12).numBins)
    (s : D3State) (hg : s.grid = ⟨(store m12).lower, (store m12).upper, (store m12).numBins, (store m13).lower, (store m13).upper,
      (store m13).numBins⟩) (parent : Bool) (marks : ResObj → Bool) (h : Nat → ℝ) (old : List Ev3) :
    let D := d3Pdf d table built eff
    let total := gridIntegral2 (density3 d rs eff h) (store m12).lower (store m12).upper (store m12).numBins (store m13).lower
      (store m13).upper (store m13).numBins
    ∃ s' P, Plotter.construct m12 m13 ev D.inside d.mother
        (fun ds => (D.plot s parent marks h old m12 m13 ev ds).map fun r => [r.1]) store = (s', .done, some P) ∧
      (∀ i j, i < (store m12).numBins → j < (store m13).numBins →
        ((∃ k, P.getX k = some i ∧ P.getY k = some j) ↔
          CanDecay d.mother d.d1 d.d2 d.d3 (binCentre (store m12) i) (binCentre (store m13) j))) ∧
      (∀ k i j, P.getX k = some i → P.getY k = some j →
        P.getXval k = .val (binCentre (store m12) i) ∧ P.getYval k = .val (binCentre (store m13) j) ∧
        P.getVal k 0 = some (density3 d rs eff h (binCentre (store m12) i) (binCentre (store m13) j) / total)) ∧
      (total ≠ 0 → ((List.range P.getNumEvents).map fun k => (P.getVal k 0).getD 0 *
        ((store m12).binSize * (store m13).binSize)).sum = 1) := by
  intro D total
  have hv := plot_values d hd table rs built hb hs h16 eff s (by rw [hg]; exact hbins) (by rw [hg]; exact hpos) parent marks h old
    m12 m13 ev hr.h23 hr.h2e hr.h3e
  rw [hg] at hv
  dsimp only at hv
  obtain ⟨s', P, hc, hn, hpt, hout, -, -⟩ := C91_points store m12 m13 ev D.inside hr _ _ hv d.mother
  set cells := allowedCells (store m12) (store m13) D.inside with hcells
  have hlt : ∀ k i, P.getX k = some i → k < cells.length := by
    intro k i hk
    by_contra hge
    have := (hout k (by omega)).1
    rw [this] at hk
    exact absurd hk (by simp)
  have hmem : ∀ i j, i < (store m12).numBins → j < (store m13).numBins →
      ((i, j) ∈ cells ↔ CanDecay d.mother d.d1 d.d2 d.d3 (binCentre (store m12) i) (binCentre (store m13) j)) := by
    classical
    intro i j hi hj
    have hin := d3_inside D hd (binCentre (store m12) i) (binCentre (store m13) j)
    rw [hcells]
    unfold allowedCells
    rw [List.mem_filter, hin]
    simp only [decide_eq_true_eq]
    constructor
    · rintro ⟨-, h⟩; exact h
    · intro h
      exact ⟨List.mem_flatMap.2 ⟨i, List.mem_range.2 hi, List.mem_map.2 ⟨j, List.mem_range.2 hj, rfl⟩⟩, h⟩
  refine ⟨s', P, hc, ?_, ?_, ?_⟩
  · intro i j hi hj
    rw [← hmem i j hi hj]
    constructor
    · rintro ⟨k, hx, hy⟩
      have hk := hlt k i hx
      obtain ⟨a, b, -⟩ := hpt k cells[k] (List.getElem?_eq_getElem hk)
      rw [hx] at a
      rw [hy] at b
      have : (i, j) = cells[k] := Prod.ext (Option.some.inj a) (Option.some.inj b)
      rw [this]
      exact List.getElem_mem hk
    · intro hm
      obtain ⟨k, hk⟩ := List.getElem?_of_mem hm
      obtain ⟨a, b, -⟩ := hpt k _ hk
      exact ⟨k, a, b⟩
  · intro k i j hx hy
    have hk := hlt k i hx
    obtain ⟨a, b, c, e, -, f⟩ := hpt k cells[k] (List.getElem?_eq_getElem hk)
    rw [hx] at a
    rw [hy] at b
    rw [← Option.some.inj a] at c
    rw [← Option.some.inj b] at e
    have f0 := f 0 _ rfl
    rw [← Option.some.inj a, ← Option.some.inj b] at f0
    exact ⟨c, e, f0⟩
  · intro hne
    rw [hn]
    have e1 : ((List.range cells.length).map fun k => (P.getVal k 0).getD 0 * ((store m12).binSize * (store m13).binSize))
        = cells.map fun c => density3 d rs eff h (binCentre (store m12) c.1) (binCentre (store m13) c.2) *
            ((store m12).binSize * (store m13).binSize) / total := by
      refine range_map_eq cells _ _ ?_
      intro k c hk
      obtain ⟨-, -, -, -, -, f⟩ := hpt k c hk
      rw [f 0 _ rfl]
      show _ / total * _ = _
      ring
    rw [e1, hcells, allowed_eq, sum_flatMap_ite _ _ _ (fun c : Nat × Nat => density3 d rs eff h (binCentre (store m12) c.1)
      (binCentre (store m13) c.2) * ((store m12).binSize * (store m13).binSize) / total)]
    · have e2 : total = ((List.range (store m12).numBins).map fun i => ((List.range (store m13).numBins).map fun j =>
          density3 d rs eff h (binCentre (store m12) i) (binCentre (store m13) j) *
            ((store m12).binSize * (store m13).binSize)).sum).sum := by
        have fin : ∀ (n : Nat) (f : Nat → ℝ), ((List.range n).map f).sum = ∑ i ∈ Finset.range n, f i := by
          intro n f
          induction n with
          | zero => rfl
          | succ n ih => rw [List.range_succ, List.map_append, List.sum_append, ih, Finset.sum_range_succ]; simp
        simp only [fin]
        rw [Finset.sum_comm]
        show gridIntegral2 _ _ _ _ _ _ _ = _
        unfold gridIntegral2
        refine Finset.sum_congr rfl fun j _ => Finset.sum_congr rfl fun i _ => ?_
        rw [mul_assoc]
        rfl
      have e3 : ∀ (f : Nat → Nat → ℝ), ((List.range (store m12).numBins).map fun i => ((List.range (store m13).numBins).map fun j =>
          f i j / total).sum).sum = ((List.range (store m12).numBins).map fun i => ((List.range (store m13).numBins).map fun j =>
          f i j).sum).sum / total := by
        intro f
        have : ∀ (l : List Nat) (g : Nat → ℝ), (l.map fun j => g j / total).sum = (l.map g).sum / total := by
          intro l g
          induction l with
          | nil => simp
          | cons a l ih => simp only [List.map_cons, List.sum_cons, ih]; ring
        simp only [this]
      rw [e3 fun i j => density3 d rs eff h (binCentre (store m12) i) (binCentre (store m13) j) *
            ((store m12).binSize * (store m13).binSize), ← e2, div_self hne]
    · classical
      intro i j hf
      rw [d3_inside D hd] at hf
      have hz : density3 d rs eff h (binCentre (store m12) i) (binCentre (store m13) j) = 0 :=
        if_neg (of_decide_eq_false hf)
      show density3 d rs eff h (binCentre (store m12) i) (binCentre (store m13) j) * _ / _ = 0
      rw [hz]
      simp

/-! ### Concrete cases, and what the code does otherwise -/

namespace PlotDemo
open Demo3
/-- Two squared masses from 3 to 5 in one bin (observables 0 and 1) and an event number (observable 2). -/
def store : Store ℝ := fun o => if o = 2 then ⟨0, 0, 100, 1, true⟩ else ⟨0, 3, 5, 1, false⟩

theorem centre (o : Nat) (h : o ≠ 2) : binCentre (store o) 0 = 4 := by
  unfold binCentre store
  rw [if_neg h]
  norm_num

theorem oneCell : allowedCells (store 0) (store 1) pdf.inside = [(0, 0)] := by
  have h0 : (store 0).numBins = 1 := rfl
  have h1 : (store 1).numBins = 1 := rfl
  unfold allowedCells
  rw [h0, h1]
  simp [centre 0 (by decide), centre 1 (by decide), inside_centre]

theorem ready : PlotReady store 0 1 2 pdf.inside := by
  refine ⟨by decide, by decide, by decide, by norm_num [store], by norm_num [store], ?_⟩
  rw [oneCell]
  intro k hk
  refine inLimits_of _ ?_ ?_ <;> (simp only [List.length_singleton, Nat.lt_one_iff] at hk; subst hk; norm_num [store])

/-- Density one. -/
def flat (d : UDS ℝ) : Option (List (List ℝ)) := some [List.replicate d.num 1]

theorem flat_values : PlotValues 0 1 2 [fun _ _ => 1] flat := by
  intro d es _ hd _
  unfold flat
  rw [hd.1]
  simp [List.map_const']

end PlotDemo

open Demo3 PlotDemo in
/-- A case of `C91_points`, `C91_histogram` and `C91_toys_partial`: the demonstration decay, one bin, density one. -/
example : PlotReady store 0 1 2 pdf.inside ∧ PlotValues 0 1 2 [fun _ _ => (1 : ℝ)] flat ∧
    (store 0).lower < (store 0).upper ∧ (∃ c ∈ allowedCells (store 0) (store 1) pdf.inside, (fun _ _ => (1 : ℝ))
      (binCentre (store 0) c.1) (binCentre (store 1) c.2) ≠ 0) :=
  ⟨ready, flat_values, by norm_num [store], (0, 0), by rw [oneCell]; simp, by norm_num⟩

open Demo3 PlotDemo in
/-- A case of `C91_amplitude_partial`: the value at the one point is 1 over the size of the bin. -/
example (s : D3State) (hg : s.grid = demoGrid) (old : List Ev3) :
    ∃ s' P, Plotter.construct 0 1 2 pdf.inside 3
        (fun ds => (pdf.plot s true (fun _ => false) h0 old 0 1 2 ds).map fun r => [r.1]) store = (s', .done, some P) ∧
      P.getX 0 = some 0 ∧ P.getY 0 = some 0 ∧ P.getVal 0 0 = some (1 / 4) := by
  obtain ⟨s', P, h1, h2, h3, -⟩ := C91_amplitude_partial decay good (fun _ => 0) rs built built_eq
    (by intro r hr; simp only [rs, List.mem_singleton] at hr; subst hr; exact fun h => h) (by decide) eff store 0 1 2 ready rfl
    (by decide) s (by rw [hg]; simp [demoGrid, store]) true (fun _ => false) h0 old
  refine ⟨s', P, h1, ?_⟩
  have hcan : CanDecay decay.mother decay.d1 decay.d2 decay.d3 (binCentre (store 0) 0) (binCentre (store 1) 0) := by
    classical
    have := inside_centre
    rw [d3_inside pdf good] at this
    rw [centre 0 (by decide), centre 1 (by decide)]
    exact of_decide_eq_true this
  obtain ⟨k, hx, hy⟩ := (h2 0 0 (by decide) (by decide)).2 hcan
  have hk : k = 0 := by
    obtain ⟨s2, P2, g1, g2, -, g4, -⟩ := C91_points store 0 1 2 pdf.inside ready _ _ (plot_values decay good (fun _ => 0) rs built built_eq
      (by intro r hr; simp only [rs, List.mem_singleton] at hr; subst hr; exact fun h => h) (by decide) eff s
      (by rw [hg]; rfl) (by rw [hg]; decide) true (fun _ => false) h0 old 0 1 2 (by decide) (by decide) (by decide)) 3
    have hPP : P2 = P := by
      have := g1.symm.trans h1
      simp only [Prod.mk.injEq, Option.some.injEq, true_and] at this
      exact this.2
    rw [oneCell] at g4
    by_contra hne
    have := (g4 k (by simp only [List.length_singleton]; omega)).1
    rw [hPP, hx] at this
    exact absurd this (by simp)
  subst hk
  refine ⟨hx, hy, ?_⟩
  rw [(h3 0 0 0 hx hy).2.2]
  have hgrid := described_grid h0
  have e1 : gridIntegral2 (density3 decay rs eff h0) (store 0).lower (store 0).upper (store 0).numBins (store 1).lower
      (store 1).upper (store 1).numBins = 4 := by
    refine Eq.trans ?_ (hgrid.trans (by norm_num [h0]))
    simp [demoGrid, store]
  rw [e1, centre 0 (by decide), centre 1 (by decide), described_centre, if_pos inside_centre]
  norm_num [h0]

open Demo3 PlotDemo in
/-- **Violation of C91.**  `getZval` is to be the third squared mass, `M² + m₁² + m₂² + m₃² - x - y`; the plotter squares the squared
masses once more and forgets the daughters: -23 instead of 4. -/
theorem C91_violation_z : ∃ s' P, Plotter.construct 0 1 2 pdf.inside decay.mother flat store = (s', .done, some P) ∧
    P.getXval 0 = .val 4 ∧ P.getYval 0 = .val 4 ∧ P.getZval 0 = .val (-23) ∧
    decay.mother ^ 2 + decay.d1 ^ 2 + decay.d2 ^ 2 + decay.d3 ^ 2 - 4 - 4 = (4 : ℝ) := by
  obtain ⟨s', P, h1, hP, -⟩ := construct_ok store 0 1 2 pdf.inside ready _ _ flat_values decay.mother
  obtain ⟨g1, -⟩ := ok_event store 0 1 2 pdf.inside ready _ _ P hP
  obtain ⟨a, b, -⟩ := g1 0 (0, 0) (by rw [oneCell]; rfl)
  rw [centre 0 (by decide)] at a
  rw [centre 1 (by decide)] at b
  have hx : P.getXval 0 = .val 4 := by unfold Plotter.getXval; rw [hP.o2]; exact a
  have hy : P.getYval 0 = .val 4 := by unfold Plotter.getYval; rw [hP.o3]; exact b
  refine ⟨s', P, h1, hx, hy, ?_, by norm_num [decay]⟩
  unfold Plotter.getZval
  rw [hx, hy, hP.mass]
  simp only [decay]
  norm_num

open Demo3 PlotDemo in
/-- **Violation of C91.**  A toy event may lie where the decay is impossible, although the centre of its bin does not. -/
theorem C91_violation_outside : ∃ s' P st, Plotter.construct 0 1 2 pdf.inside decay.mother flat store = (s', .done, some P) ∧
    P.fillDataSetMC [(1 / 2, -1 / 4, 0)] ⟨store, UDS.new ℝ [0, 1, 2]⟩ = (st, .done) ∧ st.ds.num = 1 ∧
    ∃ x y, st.ds.getValue 0 0 = .val x ∧ st.ds.getValue 1 0 = .val y ∧ ¬ CanDecay 3 1 1 1 x y := by
  obtain ⟨s', P, h1, h2⟩ := C91_toys_partial store 0 1 2 pdf.inside ready (by norm_num [store]) (by norm_num [store]) _ _ _ flat_values
    decay.mother (by simp) ⟨(0, 0), by rw [oneCell]; simp, by norm_num⟩
  obtain ⟨st, new, a, b, c, e, f⟩ := h2 store (UDS.new ℝ [0, 1, 2]) [] [(1 / 2, -1 / 4, 0)] ⟨rfl, rfl⟩ (fun _ _ => rfl)
    (by
      intro q hq h0 h1 h2
      simp only [UDS.new, List.mem_cons, List.not_mem_nil, or_false] at hq
      omega)
    (by
      intro _ k hk
      simp only [List.length_singleton, Nat.lt_one_iff] at hk
      subst hk
      exact inLimits_of _ (by norm_num [store]) (by norm_num [store]))
    (by
      intro q hq
      simp only [List.mem_singleton] at hq
      subst hq
      norm_num)
  cases new with
  | nil => simp at e
  | cons ev l =>
    have hl : l = [] := by simpa using e
    subst hl
    obtain ⟨j, cc, hc, -, hx, -, hy, -⟩ := f 0 (1 / 2, -1 / 4, 0) ev rfl rfl
    have hcc : cc = (0, 0) := by
      rw [oneCell] at hc
      have := List.mem_of_getElem? hc
      simpa using this
    subst hcc
    rw [centre 0 (by decide)] at hx
    have g := fun o ho => (plot_getValue 0 1 2 (by decide) (by decide) (by decide) st.ds b _ c o ho).1 0 ev rfl
    refine ⟨s', P, st, h1, a, by rw [c.1]; rfl, ev 0, ev 1, g 0 (by simp), g 1 (by simp), ?_⟩
    have hlow : ev 0 < 4 := by
      rw [hx]
      norm_num [store]
    classical
    have ho := outside_low (ev 1) (ev 0) hlow
    rw [d3_inside pdf good] at ho
    exact of_decide_eq_false ho

open Demo3 PlotDemo in
/-- **Violation of C91.**  After the plotter has been made, the amplitude has its data again, but the cache holds the points of the
plot and is as long: with two events and a plot of one point, evaluating the second event reads past the end. -/
theorem C91_violation_left_behind (s : D3State) (hg : s.grid = demoGrid) :
    let old : List Ev3 := [⟨4, 4, 0⟩, ⟨4, 4, 1⟩]
    ∃ vs s' s'', pdf.plot s false (fun _ => false) h0 old 0 1 2 ⟨[0, 1, 2], [[4], [4], [0]], 1⟩ = some (vs, s') ∧
      pdf.step s' (.eval changed2 h0) = some s'' ∧ s''.data = old ∧ pdf.value s'' h0 1 = none := by
  intro old
  obtain ⟨s1, hr, hf, hi, hgr, ha, hd, hw⟩ := after_first s hg [⟨4, 4, 0⟩] (fun _ => false)
  have hr' : ((pdf.normalize (withData s [⟨4, 4, 0⟩]) (fun _ => false) h0).map (·.1)).bind (fun s => some s) = some s1 := hr
  obtain ⟨n, hn⟩ : ∃ n, pdf.normalize (withData s [⟨4, 4, 0⟩]) (fun _ => false) h0 = some (s1, n) := by
    cases hq : pdf.normalize (withData s [⟨4, 4, 0⟩]) (fun _ => false) h0 with
    | none => rw [hq] at hr'; exact absurd hr' (by simp)
    | some q =>
      rw [hq] at hr'
      have : q.1 = s1 := Option.some.inj hr'
      exact ⟨q.2, by rw [← this]⟩
  have hread : readUDS 0 1 2 ⟨[0, 1, 2], [[4], [4], [0]], 1⟩ = some [⟨4, 4, 0⟩] := rfl
  have hval : ∃ v, pdf.value s1 h0 0 = some v := by
    unfold D3.value
    rw [hd]
    simp only [List.getElem?_cons_zero, Option.bind_some, inside_centre, Bool.not_true, Bool.false_eq_true, if_false, ha]
    have hfl : ⌊(0.5 : ℝ) + 0⌋ = 0 := by norm_num
    rw [hfl, if_neg (by simp [pdf, d3Pdf, built])]
    exact ⟨_, rfl⟩
  obtain ⟨v, hv⟩ := hval
  let s2 : D3State := { s1 with data := old, entries := 2 }
  have hplot : pdf.plot s false (fun _ => false) h0 old 0 1 2 ⟨[0, 1, 2], [[4], [4], [0]], 1⟩ = some ([v * (1 / n)], s2) := by
    unfold D3.plot
    rw [hread]
    simp only [Option.bind_some]
    rw [show pdf.run s [if false = true then D3Op.parentData [⟨4, 4, 0⟩] else .setData [⟨4, 4, 0⟩],
      .setDataSize [(⟨4, 4, 0⟩ : Ev3)].length] = some (withData s [⟨4, 4, 0⟩]) from rfl]
    simp only [Option.bind_some]
    rw [hn]
    simp only [Option.bind_some]
    have : (List.range [(⟨4, 4, 0⟩ : Ev3)].length).mapM (fun k => (pdf.value s1 h0 k).map (· * (1 / n))) = some [v * (1 / n)] := by
      show ([0] : List Nat).mapM _ = _
      simp [hv]
    rw [this]
    rfl
  have hsec := second s2 hf hi h0 rfl rfl
  refine ⟨_, s2, { s2 with force := false }, hplot, ?_, rfl, ?_⟩
  · show (pdf.normalize s2 changed2 h0).map (·.1) = _
    rw [hsec]
    rfl
  · unfold D3.value
    show (old[1]?).bind _ = none
    simp only [old, List.getElem?_cons_succ, List.getElem?_cons_zero, Option.bind_some, inside_centre, Bool.not_true,
      Bool.false_eq_true, if_false]
    have hfl : ⌊(0.5 : ℝ) + 1⌋ = 1 := by norm_num
    rw [hfl, if_pos]
    refine ⟨by simp [pdf, d3Pdf, built], Or.inr (Or.inr ?_)⟩
    show ((s1.alloc.getD 0 : Nat) : ℤ) ≤ 1
    rw [ha]
    simp

end GooFit
