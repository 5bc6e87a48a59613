import Verif.Props.Likelihood
import Verif.Lemmas.Numpy
import Verif.Props.Binned
import Verif.Model.BinnedFit
import Verif.Spec.BinnedFit
/-!
# Lemmas for C103: sums over cells
-/
set_option autoImplicit false
namespace GooFit
open Spec
section
variable {K : Type} [Field K] [LinearOrder K] [IsStrictOrderedRing K] [FloorRing K]
attribute [local instance] FpOps.ofField
variable {L : Lib K}

/-- Sum over `n` cells times the size of a cell. -/
def cellSum (n : Nat) (w : K) (g : Nat → K) : K := ((List.range n).map fun b => g b * w).sum

theorem cellSum_congr (n : Nat) (w : K) (g g' : Nat → K) (h : ∀ b < n, g b = g' b) : cellSum n w g = cellSum n w g' := by
  unfold cellSum
  congr 1
  apply List.map_congr_left
  intro b hb
  rw [h b (List.mem_range.1 hb)]

theorem cellSum_zero (n : Nat) (w : K) : cellSum n w (fun _ => 0) = 0 := by
  unfold cellSum
  simp

theorem cellSum_add (n : Nat) (w : K) (g g' : Nat → K) :
    cellSum n w (fun b => g b + g' b) = cellSum n w g + cellSum n w g' := by
  unfold cellSum
  induction List.range n with
  | nil => simp
  | cons b l ih =>
    simp only [List.map_cons, List.sum_cons, ih]
    ring

theorem cellSum_mul (n : Nat) (w a : K) (g : Nat → K) : cellSum n w (fun b => a * g b) = a * cellSum n w g := by
  unfold cellSum
  induction List.range n with
  | nil => simp
  | cons b l ih =>
    simp only [List.map_cons, List.sum_cons, ih]
    ring

theorem cellSum_div (n : Nat) (w a : K) (g : Nat → K) : cellSum n w (fun b => g b / a) = cellSum n w g / a := by
  have : (fun b => g b / a) = fun b => a⁻¹ * g b := by
    funext b
    rw [div_eq_inv_mul]
  rw [this, cellSum_mul, div_eq_inv_mul]

/-- a combination of functions -/
theorem cellSum_combine (n : Nat) (w : K) : ∀ (ws : List K) (gs : List (Nat → K)),
    cellSum n w (fun b => combine ws (gs.map fun g => g b)) = combine ws (gs.map (cellSum n w))
  | [], gs => by simp [combine, cellSum_zero]
  | a :: ws, [] => by simp [combine, cellSum_zero]
  | a :: ws, g :: gs => by
    have ih := cellSum_combine n w ws gs
    simp only [combine, List.map_cons, List.zipWith_cons_cons, List.sum_cons] at ih ⊢
    rw [cellSum_add, cellSum_mul, ih]

theorem combine_ones : ∀ (ws : List K) (n : Nat), ws.length = n → combine ws (List.replicate n (1 : K)) = ws.sum
  | [], n, h => by subst h; simp [combine]
  | a :: ws, 0, h => by simp at h
  | a :: ws, n + 1, h => by
    have ih := combine_ones ws n (by simpa using h)
    simp only [combine, List.replicate_succ, List.zipWith_cons_cons, List.sum_cons] at ih ⊢
    rw [ih, mul_one]

theorem fractions_sum (ws : List K) : (fractions ws).sum = 1 := by
  unfold fractions
  rw [List.sum_append, List.sum_singleton]
  ring

theorem densities_eq (cfg : NormSetup L) (val : Nat → K) (f : Nat → K → K) (x : Nat → K) :
    ∀ cs : List (Pdf L), densities cfg val f cs x = cs.map fun c => density cfg val f c x
  | [] => by simp [densities]
  | c :: cs => by rw [densities, densities_eq cfg val f x cs]; rfl

/-- the integral of one observable is a sum over the cells -/
theorem gridOver_cells (cfg : NormSetup L) (oid o n : Nat) (h : gridCells cfg oid o = n) (g : K → K) :
    gridOver cfg oid o g =
      cellSum n (((cfg.range o).2.1 - (cfg.range o).1) / n) (fun b => g (cellCenter (cfg.range o).1 (cfg.range o).2.1 n b)) := by
  unfold gridOver gridIntegral1 cellSum
  rw [h]

/-- the density of a PDF that is normalised on cells has sum one over them -/
theorem density_cells (cfg : NormSetup L) (sem : LeafSem K L) (val : Nat → K) (idx : Nat → Int) (f : Nat → K → K)
    (o n : Nat) (pt : Nat → Nat → K)
    (hpt : ∀ b < n, pt b o = cellCenter (cfg.range o).1 (cfg.range o).2.1 n b) :
    ∀ t : Pdf L, SumProduct cfg sem val idx f [o] t → OnCells cfg o n t →
      cellSum n (((cfg.range o).2.1 - (cfg.range o).1) / n) (fun b => density cfg val f t (pt b)) = 1 := by
  have leaf : ∀ (m : Node L) (k : L.Leaf) (o' : Nat), BasicOK sem val idx f [o] k m o' →
      (∀ ps, cfg.analytic k ps m.consts = none) → gridCells cfg m.oid o = n →
      o' = o ∧ m.obs = [o] ∧ basicIntegral cfg val f m k o =
        cellSum n (((cfg.range o).2.1 - (cfg.range o).1) / n) (fun b => f m.oid (pt b o)) := by
    intro m k o' hb ha hg
    have ho : o' = o := by simpa using hb.2.1
    subst ho
    refine ⟨rfl, hb.1, ?_⟩
    unfold basicIntegral
    rw [ha]
    dsimp only
    rw [gridOver_cells cfg m.oid o' n hg]
    apply cellSum_congr
    intro b hb
    rw [hpt b hb]
  -- components of sums
  have ones : ∀ (w : K) (cs : List (Pdf L)),
      (∀ c ∈ cs, cellSum n w (fun b => density cfg val f c (pt b)) = 1) → ∀ ws : List K, ws.length = cs.length →
      cellSum n w (fun b => combine ws (densities cfg val f cs (pt b))) = ws.sum := by
    intro w cs h ws hl
    have e : (fun b => combine ws (densities cfg val f cs (pt b))) =
        fun b => combine ws ((cs.map fun c => fun b => density cfg val f c (pt b)).map fun g => g b) := by
      funext b
      rw [densities_eq, List.map_map]
      rfl
    rw [e, cellSum_combine, List.map_map,
      show cs.map (cellSum n w ∘ fun c => fun b => density cfg val f c (pt b)) = List.replicate cs.length 1 from
        List.eq_replicate_iff.2 ⟨by simp, by
          intro y hy
          obtain ⟨c, hc, rfl⟩ := List.mem_map.1 hy
          exact h c hc⟩]
    exact combine_ones ws cs.length hl
  -- sums with common normalisation
  have common : ∀ (w : K) (cs : List (Pdf L)) (ws : List K),
      (∀ c ∈ cs, cellSum n w (fun b => Spec.basicValue f (pt b) c) = integralOf cfg val f c) →
      cellSum n w (fun b => combine ws (cs.map (Spec.basicValue f (pt b)))) = combine ws (cs.map (integralOf cfg val f)) := by
    intro w cs ws h
    have e : (fun b => combine ws (cs.map (Spec.basicValue f (pt b)))) =
        fun b => combine ws ((cs.map fun c => fun b => Spec.basicValue f (pt b) c).map fun g => g b) := by
      funext b
      rw [List.map_map]
      rfl
    rw [e, cellSum_combine, List.map_map]
    congr 1
    exact List.map_congr_left h
  have basic : ∀ c : Pdf L, IsBasic c → SumProduct cfg sem val idx f [o] c → OnCells cfg o n c →
      cellSum n (((cfg.range o).2.1 - (cfg.range o).1) / n) (fun b => Spec.basicValue f (pt b) c) = integralOf cfg val f c := by
    rintro ⟨m, cs⟩ ⟨k, hk⟩ ht hc
    have hk' : m.fn = .leaf k := hk
    rw [SumProduct.eq_def] at ht
    rw [OnCells.eq_def] at hc
    simp only [hk'] at ht hc
    obtain ⟨-, o', hb, -, -⟩ := ht
    obtain ⟨-, hob, hi⟩ := leaf m k o' hb hc.1 hc.2
    have e : (fun b => Spec.basicValue f (pt b) (Pdf.mk m cs)) = fun b => f m.oid (pt b o) := by
      funext b
      unfold Spec.basicValue
      simp only [Pdf.node, hob]
    rw [e]
    unfold integralOf
    simp only [Pdf.node, hk', hob]
    exact hi.symm
  have all : ∀ (cs : List (Pdf L)), SumProducts cfg sem val idx f [o] cs → OnCellsAll cfg o n cs → ∀ c ∈ cs,
      SumProduct cfg sem val idx f [o] c ∧ OnCells cfg o n c := by
    intro cs
    induction cs with
    | nil => intro _ _ c hc; exact absurd hc (by simp)
    | cons c cs ih =>
      intro h1 h2 c' hc'
      rw [SumProducts] at h1
      rw [OnCellsAll] at h2
      rcases List.mem_cons.1 hc' with rfl | hc'
      · exact ⟨h1.1, h2.1⟩
      · exact ih h1.2 h2.2 c' hc'
  have main : ∀ (N : Nat) (t : Pdf L), sizeOf t ≤ N → SumProduct cfg sem val idx f [o] t → OnCells cfg o n t →
      cellSum n (((cfg.range o).2.1 - (cfg.range o).1) / n) (fun b => density cfg val f t (pt b)) = 1 := by
    intro N
    induction N with
    | zero =>
      rintro ⟨m, cs⟩ h _ _
      simp at h
    | succ N ih =>
      rintro ⟨m, cs⟩ hN ht hc
      have hcs : ∀ c ∈ cs, sizeOf c ≤ N := by
        intro c hc
        have := List.sizeOf_lt_of_mem hc
        simp at hN
        omega
      rw [SumProduct.eq_def] at ht
      rw [OnCells.eq_def] at hc
      cases hk : m.fn with
      | leaf k =>
        simp only [hk] at ht hc
        obtain ⟨-, o', hb, -, hpos⟩ := ht
        obtain ⟨ho, hob, hi⟩ := leaf m k o' hb hc.1 hc.2
        subst ho
        have e : (fun b => density cfg val f (Pdf.mk m cs) (pt b)) = fun b => f m.oid (pt b o') / basicIntegral cfg val f m k o' := by
          funext b
          rw [density.eq_def]
          simp only [hk, hob]
        rw [e, cellSum_div, ← hi]
        exact div_self hpos.ne'
      | add =>
        simp only [hk] at ht hc
        obtain ⟨hl, hcom, hts⟩ := ht
        have hall := all cs hts hc
        have hlen : (fractions (m.params.map val)).length = cs.length := by
          simp only [fractions, List.length_append, List.length_map, List.length_singleton]
          exact hl
        cases hfl : cfg.flags.common m.oid with
        | true =>
          obtain ⟨hbas, hne⟩ := hcom hfl
          have e : (fun b => density cfg val f (Pdf.mk m cs) (pt b)) = fun b =>
              combine (fractions (m.params.map val)) (cs.map (Spec.basicValue f (pt b))) /
                combine (fractions (m.params.map val)) (cs.map (integralOf cfg val f)) := by
            funext b
            rw [density.eq_def]
            simp only [hk, hfl, if_true]
          rw [e, cellSum_div, common _ cs _ (fun c hc => basic c (hbas c hc) (hall c hc).1 (hall c hc).2)]
          exact div_self hne
        | false =>
          have e : (fun b => density cfg val f (Pdf.mk m cs) (pt b)) = fun b =>
              combine (fractions (m.params.map val)) (densities cfg val f cs (pt b)) := by
            funext b
            rw [density.eq_def]
            simp only [hk, hfl, Bool.false_eq_true, if_false]
          rw [e, ones _ cs (fun c hc => ih c (hcs c hc) (hall c hc).1 (hall c hc).2) _ hlen, fractions_sum]
      | addExt =>
        simp only [hk] at ht hc
        obtain ⟨hl, hcom, hsum, hts⟩ := ht
        have hall := all cs hts hc
        cases hfl : cfg.flags.common m.oid with
        | true =>
          obtain ⟨hbas, hne⟩ := hcom hfl
          have e : (fun b => density cfg val f (Pdf.mk m cs) (pt b)) = fun b =>
              combine (m.params.map val) (cs.map (Spec.basicValue f (pt b))) /
                combine (m.params.map val) (cs.map (integralOf cfg val f)) := by
            funext b
            rw [density.eq_def]
            simp only [hk, hfl, if_true]
          rw [e, cellSum_div, common _ cs _ (fun c hc => basic c (hbas c hc) (hall c hc).1 (hall c hc).2)]
          exact div_self hne
        | false =>
          have e : (fun b => density cfg val f (Pdf.mk m cs) (pt b)) = fun b =>
              combine (m.params.map val) (densities cfg val f cs (pt b)) / (m.params.map val).sum := by
            funext b
            rw [density.eq_def]
            simp only [hk, hfl, Bool.false_eq_true, if_false]
          rw [e, cellSum_div, ones _ cs (fun c hc => ih c (hcs c hc) (hall c hc).1 (hall c hc).2) _ (by simpa using hl)]
          exact div_self hsum
      | prod =>
        simp only [hk] at ht hc
        obtain ⟨hob, h2, hg⟩ := hc
        obtain ⟨-, -, ht⟩ := ht
        rw [if_pos ⟨by rw [hob]; rfl, h2⟩] at ht
        obtain ⟨o', ho', -, -, hpos⟩ := ht
        have : o' = o := by
          rw [hob] at ho'
          simpa using ho'.symm
        subst this
        have e : (fun b => density cfg val f (Pdf.mk m cs) (pt b)) = fun b =>
            (cs.map fun c => f c.node.oid (pt b o')).prod / gridOver cfg m.oid o' fun X => (cs.map fun c => f c.node.oid X).prod := by
          funext b
          rw [density.eq_def]
          simp only [hk, hob, if_pos h2]
        rw [e, cellSum_div]
        rw [gridOver_cells cfg m.oid o' n hg] at hpos ⊢
        rw [cellSum_congr n _ (fun b => (cs.map fun c => f c.node.oid (pt b o')).prod) _ (fun b hb => by rw [hpt b hb])]
        exact div_self hpos.ne'
      | composite =>
        simp only [hk] at ht hc
        obtain ⟨⟨o', core, shell, hob, hcs', hco, -, hbc, -, -, hpos⟩, hts⟩ := ht
        have ho : o' = o := by
          have h1 := hts
          rw [hcs', SumProducts] at h1
          replace h1 := h1.1
          obtain ⟨m', cs''⟩ := core
          obtain ⟨k, hk'⟩ := hbc
          replace hk' : m'.fn = .leaf k := hk'
          rw [SumProduct.eq_def] at h1
          simp only [hk'] at h1
          obtain ⟨-, o'', hb, -, -⟩ := h1
          have e1 : o'' = o := by simpa using hb.2.1
          have e2 : ([o'] : List Nat) = [o''] := hco.symm.trans hb.1
          rw [← e1]
          simpa using e2
        subst ho
        have e : (fun b => density cfg val f (Pdf.mk m cs) (pt b)) = fun b =>
            f shell.node.oid (f core.node.oid (pt b o')) /
              gridOver cfg m.oid o' fun X => f shell.node.oid (f core.node.oid X) := by
          funext b
          rw [density.eq_def]
          simp only [hk, hob, hcs']
        rw [e, cellSum_div]
        rw [gridOver_cells cfg m.oid o' n hc] at hpos ⊢
        rw [cellSum_congr n _ (fun b => f shell.node.oid (f core.node.oid (pt b o'))) _ (fun b hb => by rw [hpt b hb])]
        exact div_self hpos.ne'
      | _ => simp only [hk] at hc
  intro t
  exact main (sizeOf t) t (le_refl _)
end

theorem addWeighted_obs {K : Type} [Field K] [LinearOrder K] [IsStrictOrderedRing K] [FloorRing K] (st : BSt K) (w : K) :
    (st.addWeightedEvent w).1.ds.obs = st.ds.obs := by
  unfold BSt.addWeightedEvent
  split
  · split
    · rfl
    · split <;> rfl
  · rfl

theorem addWeighted_sizes {K : Type} [Field K] [LinearOrder K] [IsStrictOrderedRing K] [FloorRing K] (st : BSt K) (w : K) :
    (st.addWeightedEvent w).1.ds.binsizes = st.ds.binsizes := by
  unfold BSt.addWeightedEvent
  split
  · split
    · rfl
    · split <;> rfl
  · rfl

section
attribute [local instance] FpOps.ofField

theorem brun_append {K : Type} [Field K] [LinearOrder K] [IsStrictOrderedRing K] [FloorRing K] :
    ∀ (ops ops' : List (BOp K)) (st : BSt K), (st.run (ops ++ ops')).1 = ((st.run ops).1.run ops').1
  | [], _, _ => rfl
  | op :: ops, ops', st => by
    simp only [List.cons_append, BSt.run]
    exact brun_append ops ops' (st.step op).1

theorem breach_step {K : Type} [Field K] [LinearOrder K] [IsStrictOrderedRing K] [FloorRing K] (st : BSt K) (h : BReach st)
    (op : BOp K) : BReach (st.step op).1 := by
  obtain ⟨s0, obs, d0, ops, h1, h2, h3, rfl⟩ := h
  exact ⟨s0, obs, d0, ops ++ [op], h1, h2, h3, by rw [brun_append]; rfl⟩

/-- a histogram of one observable being filled -/
structure Filling (lo hi : ℝ) (o n : Nat) (xs : List ℝ) (st : BSt ℝ) : Prop where
  reach : BReach st
  obs : st.ds.obs = [o]
  sizes : st.ds.binsizes = [n]
  lower : (st.store o).lower = lo
  upper : (st.store o).upper = hi
  content : ∀ b < n, st.ds.getBinContent b = .val (countIn lo hi n b xs : ℝ)

theorem countIn_append (lo hi : ℝ) (n b : Nat) (xs ys : List ℝ) :
    countIn lo hi n b (xs ++ ys) = countIn lo hi n b xs + countIn lo hi n b ys := by
  unfold countIn
  rw [List.filter_append, List.length_append]

theorem Filling.add {lo hi : ℝ} {o n : Nat} {xs : List ℝ} {st : BSt ℝ} (h : Filling lo hi o n xs st) (x : ℝ)
    (h1 : lo ≤ x) (h2 : x < hi) : Filling lo hi o n (xs ++ [x]) (st.step (.addEventV x [])).1 := by
  have hnd : st.ds.obs.Nodup := by rw [h.obs]; simp
  have e := (C09_add_event_values st hnd x []).1 (by rw [h.obs]; rfl)
  have hst : assign st.ds.obs [x] st.store = fun p => if p = o then { st.store o with value := x } else st.store p := by
    funext p
    rw [h.obs]
    unfold assign
    by_cases hp : p = o
    · subst hp
      simp
    · have : ¬ o = p := fun h => hp h.symm
      simp [hp, this]
  rw [hst] at e
  have hreach := breach_step st h.reach (.setObs o { st.store o with value := x })
  have hB : (st.step (.setObs o { st.store o with value := x })).1 =
      { st with store := fun p => if p = o then { st.store o with value := x } else st.store p } := rfl
  rw [hB] at hreach
  set st1 : BSt ℝ := { st with store := fun p => if p = o then { st.store o with value := x } else st.store p } with hst1
  have hs1 : st1.store o = { st.store o with value := x } := by simp [hst1]
  have ho1 : st1.ds.obs = [o] := h.obs
  have hax : axesOf st1 = [⟨lo, hi, n⟩] := by
    unfold axesOf
    rw [ho1, show st1.ds.binsizes = [n] from h.sizes]
    simp [hs1, h.lower, h.upper]
  obtain ⟨-, hstore, -, -, g, hg, huniq, hcont⟩ := C09_event_lands_in_its_cell_partial st1 hreach (by
    intro p hp
    rw [ho1] at hp
    obtain rfl : p = o := by simpa using hp
    rw [hs1]
    exact ⟨h.lower ▸ h1, h.upper ▸ h2⟩) 1
  have hval : st1.ds.obs.map (fun p => (st1.store p).value) = [x] := by
    rw [ho1]
    simp [hs1]
  rw [hax, hval] at huniq
  rw [hax] at hg
  have hcells : cells [(⟨lo, hi, n⟩ : Axis ℝ)] = n := by simp [cells]
  rw [hcells] at hg huniq
  have hstep : (st.step (.addEventV x [])).1 = (st1.addWeightedEvent 1).1 := by
    show (st.addEventV x []).1 = _
    rw [e]
  refine ⟨breach_step st h.reach _, ?_, ?_, ?_, ?_, ?_⟩
  · rw [hstep, addWeighted_obs]; exact ho1
  · rw [hstep, addWeighted_sizes]; exact h.sizes
  · rw [hstep, hstore, hs1]; exact h.lower
  · rw [hstep, hstore, hs1]; exact h.upper
  · intro b hb
    rw [hstep, hcont b _ (h.content b hb), countIn_append]
    congr 1
    have hin : InCell [(⟨lo, hi, n⟩ : Axis ℝ)] b [x] ↔
        lo + (b : ℝ) * ((hi - lo) / n) ≤ x ∧ x < lo + ((b : ℝ) + 1) * ((hi - lo) / n) := by
      have hd : digit [n] 0 b = b := by
        unfold digit
        simp [Nat.mod_eq_of_lt hb]
      constructor
      · intro hc
        have := hc 0 _ _ rfl rfl
        simp only [List.map_cons, List.map_nil] at this
        rw [hd] at this
        exact this
      · intro hc j a v ha hv
        cases j with
        | zero =>
          simp only [List.getElem?_cons_zero, Option.some.injEq] at ha hv
          subst ha hv
          simp only [List.map_cons, List.map_nil]
          rw [hd]
          exact hc
        | succ j => simp at ha
    have hone : (countIn lo hi n b [x] : ℝ) = if b = g then 1 else 0 := by
      unfold countIn
      rw [List.filter_cons]
      by_cases hbg : b = g
      · have := hin.1 ((huniq b hb).2 hbg)
        simp [this, hbg]
        rw [hbg] at this
        simp [this]
      · have hn := fun hc => hbg ((huniq b hb).1 (hin.2 hc))
        rw [if_neg hbg, if_neg (by simpa using hn)]
        simp
    push_cast
    rw [hone]
    split <;> simp

theorem Filling.run {lo hi : ℝ} {o n : Nat} : ∀ (ys xs : List ℝ) (st : BSt ℝ), Filling lo hi o n xs st →
    (∀ y ∈ ys, lo ≤ y ∧ y < hi) → Filling lo hi o n (xs ++ ys) (st.run (ys.map fun y => .addEventV y [])).1
  | [], xs, st, h, _ => by rw [List.append_nil]; exact h
  | y :: ys, xs, st, h, hy => by
    have h1 := h.add y (hy y (by simp)).1 (hy y (by simp)).2
    have := Filling.run ys (xs ++ [y]) _ h1 (fun z hz => hy z (by simp [hz]))
    rw [List.append_assoc] at this
    exact this

/-- what `setData` reads of the histogram -/
theorem Filling.read {lo hi : ℝ} {o n : Nat} {xs : List ℝ} {st : BSt ℝ} (h : Filling lo hi o n xs st) (sqrt : ℝ → ℝ) :
    ∃ (c : Nat → Nat → ℝ) (a e v : Nat → ℝ), readBinned sqrt st [o] = some (.binned n c a e v) ∧ ∀ b < n,
      c b = (fun p => if p = o then cellCenter lo hi n b else 0) ∧ a b = countIn lo hi n b xs ∧ v b = (hi - lo) / n := by
  have hwf := breach_wf st h.reach
  have hN : getNumBins st.ds.binsizes = n := by
    rw [getNumBins_eq _ hwf.pos hwf.small, h.sizes]
    simp
  have hrow : ∀ b ∈ List.range n, readBin st [o] b = some ([cellCenter lo hi n b], (countIn lo hi n b xs : ℝ)) := by
    intro b hb
    have hb := List.mem_range.1 hb
    obtain ⟨c, hc, hceq, -, -⟩ := C12_bin_center st h.reach b 0 o n (by rw [h.obs]; rfl) (by rw [h.sizes]; rfl)
    have hd : digit st.ds.binsizes 0 b = b := by
      rw [h.sizes]
      unfold digit
      simp [Nat.mod_eq_of_lt hb]
    have hcc : c = cellCenter lo hi n b := by
      rw [hceq, hd]
      simp only [Axis.width, h.lower, h.upper, cellCenter]
      ring
    unfold readBin
    rw [h.obs, h.content b hb]
    simp [indexOfVariable, hc, Out.number?, hcc]
  let rows := (List.range n).map fun b => ([cellCenter lo hi n b], (countIn lo hi n b xs : ℝ))
  have hread : readBinned sqrt st [o] = some (.binned n
      (fun i o' => ((rows[i]?).bind fun r => (indexOfVariable [o] o').bind fun j => r.1[j]?).getD 0)
      (fun i => ((rows[i]?).map fun r => r.2).getD 0)
      (fun i => ((st.ds.getBinError sqrt i).number?).getD 0)
      (fun _ => st.getBinVolume)) := by
    unfold readBinned
    rw [hN, mapM_some _ (fun b => ([cellCenter lo hi n b], (countIn lo hi n b xs : ℝ))) _ hrow]
    rfl
  refine ⟨_, _, _, _, hread, ?_⟩
  · intro b hb
    have hr : rows[b]? = some ([cellCenter lo hi n b], (countIn lo hi n b xs : ℝ)) := by
      simp only [rows]
      rw [List.getElem?_map, List.getElem?_range hb]
      rfl
    refine ⟨?_, ?_, ?_⟩
    · funext p
      simp only [hr, Option.bind_some]
      by_cases hp : p = o
      · subst hp
        simp [indexOfVariable]
      · simp [indexOfVariable, hp]
    · simp only [hr]
      rfl
    · unfold BSt.getBinVolume
      rw [h.obs, h.sizes]
      simp [binSize, h.lower, h.upper]

end

end GooFit
