import Verif.Lemmas.Norm
import Verif.Props.Fit
import Mathlib.Tactic.IntervalCases
import Mathlib.Tactic.NormNum
import Mathlib.Data.List.Forall2
/-!
# Normalisation: C24, C25, C26, C27
-/
set_option autoImplicit false
namespace GooFit
open Spec
variable {K : Type} [Field K] [LinearOrder K] [IsStrictOrderedRing K] [FloorRing K]
attribute [local instance] FpOps.ofField

/-! ### C24 -/

/-- **C24, partial.** Take any PDF `u` of one observable, anywhere in a flattened tree, with a value
`f x` at the centre of every cell of its grid and a positive sum of them.  The grid has as
many cells as `setIntegrationFineness` says, or as the observable has bins.  Then `normalize()` finds the
grid integral of `f` and stores a normalisation with which the grid integral of value times
normalisation is one.  Missing: more than one observable and an event position beyond 9, where the code
is wrong (see the violations). -/
theorem C24_one_observable_partial {L : Lib K} (sem : LeafSem K L) (env : Env K) (t : Pdf L)
    (m : L.Metric) (h₀ : Host L) (hwf : WellFormed sem env t)
    (k : Nat) (u : Pdf L) (hk : (subtrees t)[k]? = some u) (o : Nat) (hobs : u.node.obs = [o])
    (hidx : 0 ≤ env.idx o ∧ env.idx o < 10)
    (lower upper : K) (hlt : lower < upper) (numBins : Nat) (integrationBins : Int)
    (N : Nat) (hN' : N = if integrationBins > 0 then integrationBins.toNat else numBins)
    (hbins : 0 < N) (f : K → K)
    (hf : ∀ b < N,
      denote sem env u
        (onlyAt (env.idx o) (cellCenter lower upper N b)) =
        some (f (cellCenter lower upper N b)))
    (hpos : 0 < gridIntegral1 lower upper N f)
    (fuel : Nat) (hfuel : u.size ≤ fuel) :
    ∃ norm, normalizeGrid integrationBins [(lower, upper, numBins)]
        (gridOperator L (h₀.setIndices env t m) fuel k
          (normRanges integrationBins [(lower, upper, numBins)])) =
        .ok (gridIntegral1 lower upper N f) norm ∧
      gridIntegral1 lower upper N (fun x => f x * norm) = 1 := by
  have hN : gridBins integrationBins numBins = N := hN'.symm
  have hNK : (N : K) ≠ 0 := by exact_mod_cast hbins.ne'
  obtain ⟨c, hc, hat, hw, _, _⟩ := subtrees_at t Cursor.zero (treeAt_setIndices t m h₀) hwf k u hk
  have hop : ∀ b < N, gridOperator L (h₀.setIndices env t m) fuel k
      (normRanges integrationBins [(lower, upper, numBins)]) b =
      some (f (cellCenter lower upper N b)) := by
    intro b hb
    have hid : c.getObservable (h₀.setIndices env t m).bufs 0 = some (FpOps.ofInt (env.idx o)) := by
      obtain ⟨n, cs⟩ := u
      rw [TreeAt] at hat
      have e1 := hat.1.obs_get 0 (by
        have : n.obs = [o] := hobs
        simp [this])
      have : n.obs = [o] := hobs
      rw [e1, this]; rfl
    have hloop : gridPointLoop (env.idx o) (normRanges integrationBins [(lower, upper, numBins)]) b
        (fun _ => none) = some (onlyAt (env.idx o) (cellCenter lower upper N b)) := by
      simp only [normRanges, List.map_cons, List.map_nil, gridPointLoop, hN]
      rw [if_neg hbins.ne', if_pos hidx, Nat.mod_eq_of_lt hb]
      congr 1
      funext j
      unfold onlyAt
      split
      · congr 1
        unfold cellCenter
        ring
      · rfl
    have hcall := callFunction_works fuel u hfuel hw c _ _ hat (hf b hb)
    simp only [gridOperator, hc, hid, bind, Option.bind, exact_field, hloop, hcall]
    rfl
  have hsum := gridSum_eq _ (fun b => f (cellCenter lower upper N b)) N hop
  have hI : gridIntegral1 lower upper N f =
      (upper - lower) / N * ((List.range N).map fun b => f (cellCenter lower upper N b)).sum := by
    unfold gridIntegral1
    rw [List.sum_map_mul_right, mul_comm]
  have hcell : 0 < (upper - lower) / (N : K) :=
    div_pos (sub_pos.2 hlt) (by exact_mod_cast hbins)
  have hspos : 0 < ((List.range N).map fun b => f (cellCenter lower upper N b)).sum := by
    rw [hI] at hpos
    exact (mul_pos_iff_of_pos_left hcell).1 hpos
  refine ⟨1 / gridIntegral1 lower upper N f, ?_, ?_⟩
  · unfold normalizeGrid
    have hsize : gridSize integrationBins [(lower, upper, numBins)] = N := by
      simp [gridSize, hN]
    have hvol : gridVolume [(lower, upper, numBins)] = upper - lower := by
      simp [gridVolume]
    simp only [hsize, hvol, hsum]
    rw [if_neg (not_le.2 hspos), ← hI, if_neg hpos.ne']
  · rw [gridIntegral1_mul_right]
    exact mul_one_div_cancel hpos.ne'

namespace Demo

/-- Grid of the demo PDFs: observable between 0 and 4, four bins. -/
def obs1 : List (ℚ × ℚ × Nat) := [(0, 4, 4)]

/-- The hypotheses are met by `lin` inside the demo tree: `2·x` on `[0, 4]` integrates to 16. -/
example : (subtrees tree)[1]? = some (lin 1 1 0 (1/2)) ∧
    (∀ b < 4, denote sem env (lin 1 1 0 (1/2)) (onlyAt 0 (cellCenter 0 4 4 b)) =
      some (2 * cellCenter 0 4 4 b)) ∧
    gridIntegral1 (0 : ℚ) 4 4 (fun x => 2 * x) = 16 ∧
    normalizeGrid (-1) obs1 (gridOperator lib (host.setIndices env tree true) 5 1
      (normRanges (-1) obs1)) = .ok 16 (1/16) := by
  refine ⟨rfl, ?_, by decide +kernel, by decide +kernel⟩
  intro b hb
  interval_cases b <;> decide +kernel

/-- `lin(v1;x)·lin(v1;x)·lin(v2;y)`: the first two components share `x`, so the product is integrated
as a whole. -/
def prodXXY : Pdf lib :=
  .mk ⟨0, .prod, [], [3], [0, 1], 1⟩ [lin 1 1 0 1, lin 2 1 0 1, lin 3 2 1 1]

end Demo

/-- **C24 (violated by the code).** With two observables the grid operator writes the coordinates of
both into the first one's slot (the position is read once, before the loop over observables), and the
second one's slot stays uninitialised: the sum is undefined although the PDF has a value everywhere. -/
theorem C24_violation_two_observables :
    WellFormed Demo.sem Demo.env Demo.prodXXY ∧
    varOverlaps (Demo.prodXXY.comps.map fun c => (c.getObservables, false)) = true ∧
    (∀ x y : ℚ, denote Demo.sem Demo.env Demo.prodXXY
      (fun k => if k = 0 then some x else if k = 1 then some y else none) =
        some (2 * x * (2 * x) * (3 * y))) ∧
    normalizeGrid (-1) [(0, 4, 4), (0, 6, 3)]
      (gridOperator Demo.lib (Demo.host.setIndices Demo.env Demo.prodXXY true) 5 0
        (normRanges (-1) [(0, 4, 4), (0, 6, 3)])) = .ub := by
  refine ⟨⟨Demo.sto _ _ _, ⟨rfl, rfl, exact_rat _⟩, Demo.lin_wf _ _ _ _ _, Demo.lin_wf _ _ _ _ _,
    Demo.lin_wf _ _ _ _ _, trivial⟩, by decide, ?_, by rfl⟩
  intro x y
  show some ((((1 : ℚ) : ℚ) * (2 * x * 1)) * (2 * x * 1) * (3 * y * 1)) = _
  simp

/-- **C24 (violated by the code).** In general: whatever the number of observables, limits and bins, the
operator's buffer has a value at the first observable's position only. -/
theorem C24_violation_only_first_slot (id : Int) (rs : List (Range K)) (b : Nat) (e : Evt K)
    (h : gridPointLoop id rs b (fun _ => none) = some e) (k : Nat) (hk : (k : Int) ≠ id) : e k = none := by
  have key : ∀ (rs : List (Range K)) (b : Nat) (e₀ e : Evt K), gridPointLoop id rs b e₀ = some e →
      e₀ k = none → e k = none := by
    intro rs
    induction rs with
    | nil => intro b e₀ e h h0; simp only [gridPointLoop, Option.some.injEq] at h; rw [← h]; exact h0
    | cons r rs ih =>
      intro b e₀ e h h0
      unfold gridPointLoop at h
      split at h
      · exact absurd h (by simp)
      · split at h
        · exact ih _ _ _ h (by rw [if_neg hk]; exact h0)
        · exact absurd h (by simp)
  exact key rs b _ e h rfl

/-- **C24 (violated by the code).** And that slot holds the last observable's coordinate: at grid point
1 of two cells of `[0, 2]` and two cells of `[0, 40]` the first observable is `1.5` and the second `10`;
the buffer has 10 at the first one's position. -/
theorem C24_violation_wrong_coordinate :
    (gridPointLoop 0 (normRanges (-1) [((0 : ℚ), 2, 2), (0, 40, 2)]) 1 (fun _ => none)).map
      (fun e => (e 0, e 1)) = some (some 10, none) := by
  decide +kernel

/-- **C24 (violated by the code).** A single observable at event position 10 or beyond (an eleventh
observable of the tree) is written outside the ten-entry buffer. -/
theorem C24_violation_position_ten (r : Range K) (rs : List (Range K)) (b : Nat) (e : Evt K) :
    gridPointLoop 10 (r :: rs) b e = none := by
  unfold gridPointLoop
  split
  · rfl
  · rw [if_neg (by decide)]

/-! ### C25 -/

section mixtures
variable {L : Lib K} {sem : LeafSem K L} {env : Env K} {D : Evt K → Prop}
  {I : (Evt K → K) →ₗ[K] K}

/-- A list of fractions, the last being one minus the others. -/
theorem mixture_as_weighted (ws vs ns : List K) (v n : K) (hv : vs.getLast? = some v)
    (hn : ns.getLast? = some n) (hl : ws.length + 1 = vs.length) (hl' : vs.length = ns.length) :
    mixture ws vs ns v n =
      (((ws ++ [1 - ws.sum]).zip (vs.zip ns)).map fun p => p.1 * p.2.1 * p.2.2).sum := by
  rw [spec_mixture]
  obtain ⟨vs', rfl⟩ := List.getLast?_eq_some_iff.1 hv
  obtain ⟨ns', rfl⟩ := List.getLast?_eq_some_iff.1 hn
  simp only [List.length_append, List.length_singleton] at hl hl'
  rw [List.zip_append (by omega : vs'.length = ns'.length)]
  have h1 : ws.length = (vs'.zip ns').length := by simp; omega
  rw [List.zip_append h1, List.map_append, List.sum_append]
  congr 1
  · have := List.zip_append (l₁ := ws) (r₁ := []) (l₂ := vs'.zip ns') (r₂ := [v].zip [n]) h1
    simp only [List.append_nil, List.zip_nil_left] at this
    rw [this]
  · simp

/-- Value of an AddPdf node from the values of its components. -/
theorem denote_add (n : Node L) (cs : List (Pdf L)) (gs : List (Evt K → K)) (e : Evt K)
    (hfn : n.fn = .add) (hl : n.params.length + 1 = cs.length)
    (h : List.Forall₂ (fun c g => denote sem env c e = some (g e)) cs gs) :
    denote sem env (.mk n cs) e = some
      (((((n.params.map env.val) ++ [1 - (n.params.map env.val).sum]).zip
        ((gs.map fun g => g e).zip (cs.map fun c => c.node.norm))).map
          fun p => p.1 * p.2.1 * p.2.2).sum) := by
  have hv := denoteList_values e cs gs h
  have hlen := h.length_eq
  have hg : (gs.map fun g => g e) ≠ [] := by
    intro hc
    have : gs.length = 0 := by simpa using hc
    omega
  have hc : (cs.map fun c => c.node.norm) ≠ [] := by
    intro hc
    have : cs.length = 0 := by simpa using hc
    omega
  have hv' := List.getLast?_eq_some_getLast hg
  have hk' := List.getLast?_eq_some_getLast hc
  rw [denote, hfn]
  simp only [meaning, hv, denoteList_norms, hv', hk', bind, Option.bind]
  show some _ = _
  rw [mixture_as_weighted _ _ _ _ _ hv' hk' (by simp; omega) (by simp; omega)]

/-- Value of an extended AddPdf node from the values of its components. -/
theorem denote_addExt (n : Node L) (cs : List (Pdf L)) (gs : List (Evt K → K)) (e : Evt K)
    (hfn : n.fn = .addExt)
    (h : List.Forall₂ (fun c g => denote sem env c e = some (g e)) cs gs) :
    denote sem env (.mk n cs) e = some
      ((((n.params.map env.val).zip
        ((gs.map fun g => g e).zip (cs.map fun c => c.node.norm))).map
          fun p => p.1 * p.2.1 * p.2.2).sum / (n.params.map env.val).sum) := by
  have hv := denoteList_values e cs gs h
  rw [denote, hfn]
  simp only [meaning, hv, denoteList_norms, bind, Option.bind]
  show some _ = _
  rw [spec_mixtureExt]

theorem forall₂_norms {cs : List (Pdf L)} {gs : List (Evt K → K)}
    (h : List.Forall₂ (fun c g => I g * c.node.norm = 1) cs gs) :
    List.Forall₂ (fun n g => I g * n = 1) (cs.map fun c => c.node.norm) gs := by
  induction h with
  | nil => exact .nil
  | cons h1 _ ih => exact .cons h1 ih

/-- **C25.** A sum whose components are normalised is normalised, for fractions whose last is one minus
the others, whatever the integral is. -/
theorem C25_fractions (n : Node L) (cs : List (Pdf L)) (hfn : n.fn = .add)
    (hl : n.params.length + 1 = cs.length) (hnorm : n.norm = 1)
    (hcs : ∀ c ∈ cs, Normalised sem env D I c) : Normalised sem env D I (.mk n cs) := by
  obtain ⟨gs, h1, h2⟩ := choose_functions (sem := sem) (env := env) D
    (fun c g => I g * c.node.norm = 1) cs hcs
  refine ⟨_, fun e he => denote_add n cs gs e hfn hl (h2 e he), ?_⟩
  rw [integral_weighted, weighted_normalised I _ _ _ (forall₂_norms h1)
    (by have := h1.length_eq; simp; omega)]
  rw [show (Pdf.mk n cs).node.norm = 1 from hnorm, mul_one, List.sum_append]
  simp

/-- **C25**, extended sums: weights divided by their sum. -/
theorem C25_extended (n : Node L) (cs : List (Pdf L)) (hfn : n.fn = .addExt)
    (hl : n.params.length = cs.length) (hnorm : n.norm = 1) (hw : (n.params.map env.val).sum ≠ 0)
    (hcs : ∀ c ∈ cs, Normalised sem env D I c) : Normalised sem env D I (.mk n cs) := by
  obtain ⟨gs, h1, h2⟩ := choose_functions (sem := sem) (env := env) D
    (fun c g => I g * c.node.norm = 1) cs hcs
  refine ⟨_, fun e he => denote_addExt n cs gs e hfn (h2 e he), ?_⟩
  have e1 : ∀ (W : K) (f : Evt K → K), (fun e => f e / W) = W⁻¹ • f := by
    intro W f; funext e; simp [div_eq_inv_mul]
  rw [e1, I.map_smul, integral_weighted, weighted_normalised I _ _ _ (forall₂_norms h1)
    (by have := h1.length_eq; simp; omega)]
  rw [show (Pdf.mk n cs).node.norm = 1 from hnorm, smul_eq_mul, mul_one]
  exact inv_mul_cancel₀ hw

mutual
/-- **C25**, every nesting: after `normalize()` a sum of sums of ... of basic PDFs is normalised,
provided no common normalisation was requested. -/
theorem C25_nested_partial (flags : NormFlags) (numeric : Pdf L → K)
    (hnum : Integrates sem env D I numeric) :
    ∀ t : Pdf L, Mixture sem env D I flags t →
      Normalised sem env D I (t.normalize flags env.val numeric).2
  | .mk n cs, h => by
    unfold Mixture at h
    unfold Pdf.normalize
    split at h
    next k hfn =>
      obtain ⟨g, hg, hI⟩ := h
      simp only [hfn]
      refine ⟨g, fun e he => ?_, ?_⟩
      · have := hg e he
        rw [denote, hfn] at this
        rw [denote]
        simpa only [hfn] using this
      · rw [hnum _ g hg]
        exact mul_one_div_cancel hI
    next hfn =>
      obtain ⟨hl, hc, hm⟩ := h
      simp only [hfn, hc, Bool.false_eq_true, if_false]
      refine C25_fractions _ _ rfl ?_ rfl ?_
      · rw [normalizeList_length]; exact hl
      · exact nested_list flags numeric hnum cs hm
    next hfn =>
      obtain ⟨hl, hc, hw, hm⟩ := h
      simp only [hfn, hc, Bool.false_eq_true, if_false]
      refine C25_extended _ _ rfl ?_ rfl hw ?_
      · rw [normalizeList_length]; exact hl
      · exact nested_list flags numeric hnum cs hm
    next => exact absurd h (by simp)
theorem nested_list (flags : NormFlags) (numeric : Pdf L → K)
    (hnum : Integrates sem env D I numeric) :
    ∀ cs : List (Pdf L), MixtureList sem env D I flags cs →
      ∀ c ∈ (normalizeList flags env.val numeric cs).map (·.2), Normalised sem env D I c
  | [], _, c, hc => by simp [normalizeList] at hc
  | t :: ts, h, c, hc => by
    unfold MixtureList at h
    rw [normalizeList, List.map_cons, List.mem_cons] at hc
    rcases hc with hc | hc
    · rw [hc]; exact C25_nested_partial flags numeric hnum t h.1
    · exact nested_list flags numeric hnum ts h.2 c hc
end

omit [LinearOrder K] [IsStrictOrderedRing K] [FloorRing K] in
theorem node_setNorm (x : K) (c : Pdf L) : (c.setNorm x).node.norm = x := by
  cases c; rfl

theorem denote_setNorm (x : K) (c : Pdf L) (e : Evt K) :
    denote sem env (c.setNorm x) e = denote sem env c e := by
  cases c; simp only [Pdf.setNorm, denote]

/-- A basic PDF's `normalize()`. -/
theorem normalize_basic (flags : NormFlags) (w : Nat → K) (numeric : Pdf L → K) (c : Pdf L)
    (k : L.Leaf) (hk : c.node.fn = .leaf k) :
    c.normalize flags w numeric = (numeric c, c.setNorm (1 / numeric c)) := by
  obtain ⟨n, cs⟩ := c
  have : n.fn = .leaf k := hk
  unfold Pdf.normalize
  simp only [this]
  cases n
  simp only at this
  subst this
  rfl

theorem normalizeList_basic (flags : NormFlags) (w : Nat → K) (numeric : Pdf L → K) :
    ∀ cs : List (Pdf L), (∀ c ∈ cs, ∃ k, c.node.fn = .leaf k) →
      normalizeList flags w numeric cs = cs.map fun c => (numeric c, c.setNorm (1 / numeric c))
  | [], _ => rfl
  | c :: cs, h => by
    obtain ⟨k, hk⟩ := h c (by simp)
    rw [normalizeList, normalize_basic flags w numeric c k hk,
      normalizeList_basic flags w numeric cs (fun c' hc' => h c' (by simp [hc']))]
    rfl

omit [LinearOrder K] [IsStrictOrderedRing K] [FloorRing K] in
theorem ret_fractions (ws rs : List K) (hl : ws.length + 1 = rs.length) :
    ((ws.zip rs).map fun p => p.2 * p.1).sum + (1 - ws.sum) * rs.getLastD 0 =
      (((ws ++ [1 - ws.sum]).zip rs).map fun p => p.1 * p.2).sum := by
  have hne : rs ≠ [] := by
    intro h; rw [h] at hl; simp at hl
  obtain ⟨rs', r, rfl⟩ : ∃ rs' r, rs = rs' ++ [r] :=
    ⟨rs.dropLast, rs.getLast hne, (List.dropLast_concat_getLast hne).symm⟩
  have h1 : ws.length = rs'.length := by simpa using hl
  rw [List.zip_append h1]
  have := List.zip_append (l₁ := ws) (r₁ := []) (l₂ := rs') (r₂ := [r]) h1
  simp only [List.append_nil, List.zip_nil_left] at this
  rw [this, List.map_append, List.sum_append]
  congr 1
  · congr 1
    apply List.map_congr_left
    intro p _; ring
  · simp

omit [LinearOrder K] [IsStrictOrderedRing K] [FloorRing K] in
theorem weighted_common (ws rs : List K) (x : K) :
    ((ws.zip (rs.zip (rs.map fun _ => x))).map fun p => p.1 * (p.2.1 * p.2.2)).sum =
      ((ws.zip rs).map fun p => p.1 * p.2).sum * x := by
  induction ws generalizing rs with
  | nil => simp
  | cons w ws ih =>
    cases rs with
    | nil => simp
    | cons r rs =>
      simp only [List.map_cons, List.zip_cons_cons, List.sum_cons, ih]
      ring

theorem forall₂_congr_map {cs : List (Pdf L)} {gs : List (Evt K → K)} (e : Evt K) (x : K)
    (h : List.Forall₂ (fun c g => denote sem env c e = some (g e)) cs gs) :
    List.Forall₂ (fun c g => denote sem env c e = some (g e)) (cs.map (Pdf.setNorm x)) gs := by
  induction h with
  | nil => exact .nil
  | cons h1 _ ih => exact .cons (by rw [denote_setNorm]; exact h1) ih

/-- **C25**, common normalisation of basic PDFs: if the weighted sum of the components has an integral
that is not zero, the sum is normalised after `normalize()`.  Missing: components that are sums
themselves, see `C25_violation_nested_common`. -/
theorem C25_common_partial (flags : NormFlags) (numeric : Pdf L → K)
    (hnum : Integrates sem env D I numeric) (n : Node L) (cs : List (Pdf L))
    (hcommon : flags.common n.oid = true)
    (hcs : ∀ c ∈ cs, (∃ k, c.node.fn = .leaf k) ∧
      ∃ g : Evt K → K, ∀ e, D e → denote sem env c e = some (g e))
    (weights : List K)
    (hfn : (n.fn = .add ∧ n.params.length + 1 = cs.length ∧
        weights = n.params.map env.val ++ [1 - (n.params.map env.val).sum]) ∨
      (n.fn = .addExt ∧ n.params.length = cs.length ∧ weights = n.params.map env.val ∧
        weights.sum ≠ 0))
    (hint : ((weights.zip (cs.map numeric)).map fun p => p.1 * p.2).sum ≠ 0) :
    Normalised sem env D I (Pdf.normalize flags env.val numeric (.mk n cs)).2 := by
  obtain ⟨gs, h1, h2⟩ := choose_functions (sem := sem) (env := env) D
    (fun c g => I g = numeric c) cs (fun c hc => by
      obtain ⟨_, g, hg⟩ := hcs c hc
      exact ⟨g, hg, (hnum c g hg).symm⟩)
  have hI : gs.map I = cs.map numeric := by
    clear hcs hfn hint h2
    induction h1 with
    | nil => rfl
    | cons h _ ih => rw [List.map_cons, List.map_cons, h, ih]
  have hlen := h1.length_eq
  have hrs := normalizeList_basic flags env.val numeric cs (fun c hc => (hcs c hc).1)
  have hret : (normalizeList flags env.val numeric cs).map (·.1) = cs.map numeric := by
    rw [hrs, List.map_map]; rfl
  have hsets : ∀ x : K, (List.map (·.2) (normalizeList flags env.val numeric cs)).map
      (Pdf.setNorm x) = cs.map (Pdf.setNorm x) := by
    intro x
    rw [hrs, List.map_map, List.map_map]
    apply List.map_congr_left
    intro c _
    cases c; rfl
  have hnorms : ∀ x : K, (cs.map (Pdf.setNorm x)).map (fun c => c.node.norm) =
      (cs.map numeric).map fun _ => x := by
    intro x
    rw [List.map_map, List.map_map]
    apply List.map_congr_left
    intro c _
    exact node_setNorm x c
  unfold Pdf.normalize
  rcases hfn with ⟨hf, hl, rfl⟩ | ⟨hf, hl, rfl, hw⟩
  · simp only [hf, hcommon, if_true, hsets, hret]
    rw [ret_fractions _ _ (by simpa using hl)]
    refine ⟨_, fun e he => denote_add _ _ gs e rfl (by simpa using hl)
      (forall₂_congr_map e _ (h2 e he)), ?_⟩
    simp only [hnorms]
    rw [integral_weighted, hI, weighted_common]
    show _ * (1 : K) = 1
    rw [mul_one]
    exact mul_one_div_cancel hint
  · simp only [hf, hcommon, if_true, hsets, hret]
    refine ⟨_, fun e he => denote_addExt _ _ gs e rfl (forall₂_congr_map e _ (h2 e he)), ?_⟩
    have e1 : ∀ (W : K) (f : Evt K → K), (fun e => f e / W) = W⁻¹ • f := by
      intro W f; funext e; simp [div_eq_inv_mul]
    have e2 : (((n.params.map env.val).zip (cs.map numeric)).map fun p => p.2 * p.1) =
        (((n.params.map env.val).zip (cs.map numeric)).map fun p => p.1 * p.2) := by
      apply List.map_congr_left
      intro p _; ring
    rw [e1, I.map_smul]
    simp only [hnorms]
    rw [integral_weighted, hI, weighted_common, e2, smul_eq_mul]
    show _ * (1 : K) = 1
    field_simp

end mixtures

namespace Demo

/-- The four grid points of the demo observable. -/
def gridEvt : Evt ℚ → Prop := fun e => ∃ b < 4, e = onlyAt 0 (cellCenter 0 4 4 b)

/-- The grid integral over them, as a linear functional. -/
def gridI : (Evt ℚ → ℚ) →ₗ[ℚ] ℚ where
  toFun g := gridIntegral1 0 4 4 fun v => g (onlyAt 0 v)
  map_add' f g := by
    unfold gridIntegral1
    rw [← List.sum_map_add]
    congr 1
    apply List.map_congr_left
    intro b _
    simp only [Pi.add_apply]
    ring
  map_smul' c f := by
    exact gridIntegral1_mul_left _ _ _ c _

/-- The grid integral of a PDF's value. -/
def numeric (t : Pdf lib) : ℚ := gridIntegral1 0 4 4 fun v => (denote sem env t (onlyAt 0 v)).getD 0

theorem numeric_integrates : Integrates sem env gridEvt gridI numeric := by
  intro t g h
  unfold numeric
  show _ = gridIntegral1 0 4 4 fun v => g (onlyAt 0 v)
  unfold gridIntegral1
  congr 1
  apply List.map_congr_left
  intro b hb
  show (denote sem env t (onlyAt 0 (cellCenter 0 4 4 b))).getD 0 * _ = g _ * _
  rw [h _ ⟨b, by simpa using hb, rfl⟩]
  rfl

/-- A sum inside a sum. -/
def nested : Pdf lib :=
  .mk ⟨0, .add, [0], [], [0], 1⟩
    [.mk ⟨1, .addExt, [1, 2], [], [0], 1⟩ [lin 2 1 0 1, val 3 0], lin 4 2 0 1]

theorem lin_has (oid v : Nat) (norm : ℚ) (e : Evt ℚ) (he : gridEvt e) :
    denote sem env (lin oid v 0 norm) e = some (env.val v * (at_ e 0).getD 0) := by
  obtain ⟨b, _, rfl⟩ := he
  rfl

theorem val_has (oid : Nat) (e : Evt ℚ) (he : gridEvt e) :
    denote sem env (val oid 0) e = some ((at_ e 0).getD 0) := by
  obtain ⟨b, _, rfl⟩ := he
  rfl

/-- The hypotheses of C25 are met by the nested sum. -/
example : Mixture sem env gridEvt gridI ⟨fun _ => false, fun _ => false⟩ nested := by
  refine ⟨rfl, rfl, ⟨rfl, rfl, by decide +kernel, ⟨_, lin_has _ _ _, by decide +kernel⟩,
    ⟨_, val_has _, by decide +kernel⟩, trivial⟩, ⟨_, lin_has _ _ _, by decide +kernel⟩, trivial⟩

/-- The hypotheses of C25 with common normalisation are met by `1/4·lin + 3/4·val`. -/
example : ((([1/4, 3/4] : List ℚ).zip ([lin 1 1 0 1, val 2 0].map numeric)).map
    fun p => p.1 * p.2).sum = 10 := by
  decide +kernel

end Demo

/-- **C25 (violated by the code).** With a common normalisation of a sum that has a sum among its
components the result is not normalised: the inner sum reports the weighted sum of its components'
integrals, although its value is already divided by them. -/
theorem C25_violation_nested_common :
    let t := (Demo.nested.normalize ⟨fun o => o = 0, fun _ => false⟩ Demo.env.val Demo.numeric).2
    t.node.norm = 1 ∧ Demo.numeric t * t.node.norm = 365/416 := by
  decide +kernel

/-- `(v0·lin(v1;x) + (1-v0)·val(x)) · val(x)`. -/
def Demo.sumInProduct : Pdf Demo.lib :=
  .mk ⟨0, .prod, [], [2], [0], 1⟩
    [.mk ⟨1, .add, [0], [], [0], 1⟩ [Demo.lin 2 1 0 1, Demo.val 3 0], Demo.val 4 0]

/-- **C25 (violated by the code).** A sum inside a product with shared observables is no longer a
mixture of normalised components: the product sets all normalisations below it to one and integrates
once.  With integrals 16 and 8 the components' normalisations should be `1/16` and `1/8`. -/
theorem C25_violation_sum_in_product :
    let flags : NormFlags := ⟨fun _ => false, fun _ => false⟩
    let t := (Demo.sumInProduct.normalize flags Demo.env.val Demo.numeric).2
    ((subtrees t).map fun u => u.node.norm).drop 1 = [1, 1, 1, 1] ∧
    Demo.numeric (Demo.lin 2 1 0 1) = 16 ∧ Demo.numeric (Demo.val 3 0) = 8 ∧
    ((subtrees t)[1]?.map Demo.numeric) = some 10 := by
  decide +kernel

/-! ### C26 -/

theorem denote_prod {L : Lib K} {sem : LeafSem K L} {env : Env K} (n : Node L) (cs : List (Pdf L))
    (vs : List K) (e : Evt K) (hfn : n.fn = .prod)
    (h : List.Forall₂ (fun c v => denote sem env c e = some v) cs vs) :
    denote sem env (.mk n cs) e =
      some ((vs.zip (cs.map fun c => c.node.norm)).map fun p => p.1 * p.2).prod := by
  have hv := denoteList_values (sem := sem) (env := env) e cs (vs.map fun v _ => v) (by
    induction h with
    | nil => exact .nil
    | cons h1 _ ih => exact .cons h1 ih)
  rw [List.map_map] at hv
  simp only [Function.comp_def, List.map_id'] at hv
  rw [denote, hfn]
  simp only [meaning, hv, denoteList_norms, bind, Option.bind]
  show some _ = _
  rw [spec_product]

/-- The code never integrates a product of independent components as a whole. -/
theorem varOverlaps_disjoint (comps : List (List Nat × Bool))
    (h : (comps.map (·.1)).Pairwise (fun a b => ∀ o ∈ a, o ∉ b)) : varOverlaps comps = false := by
  unfold varOverlaps
  rw [Bool.and_eq_false_iff]
  left
  rw [Bool.eq_false_iff]
  intro hc
  obtain ⟨k, a, b, h1, h2, o, ho1, ho2⟩ := (overlapLoop_iff _ _).1 hc
  cases k with
  | zero =>
    simp only [List.getElem?_cons_zero, Option.some.injEq] at h1
    subst h1
    simp at ho2
  | succ k =>
    rw [List.getElem?_cons_succ] at h1 h2
    obtain ⟨hk1, rfl⟩ := List.getElem?_eq_some_iff.1 h1
    obtain ⟨hk2, rfl⟩ := List.getElem?_eq_some_iff.1 h2
    exact List.pairwise_iff_getElem.1 h k (k + 1) hk1 hk2 (by omega) o ho2 ho1

/-- **C26**, independent components: if no two components share an observable, then after `normalize()`
the product of the components' normalised values integrates to one over the grid of all observables,
whenever each normalised component does over the grid of its own. -/
theorem C26_independent {L : Lib K} (sem : LeafSem K L) (env : Env K) (flags : NormFlags)
    (numeric : Pdf L → K) (range : Nat → Range K) (n : Node L) (cs : List (Pdf L))
    (hfn : n.fn = .prod)
    (hdisj : (cs.map fun c => c.getObservables).Pairwise fun a b => ∀ o ∈ a, o ∉ b)
    (os : List Nat) (hos : os = cs.flatMap fun c => c.getObservables)
    (gs : List ((Nat → K) → K))
    (hcs : List.Forall₂ (fun (c : Pdf L) (g : (Nat → K) → K) =>
      (∀ x, denote sem env (c.normalize flags env.val numeric).2 (eventOf os env.idx x) =
        some (g x)) ∧
      LooksOnlyAt c.getObservables g ∧
      ∀ x, gridIntegral (c.getObservables.map fun o => (o, range o)) g x *
        (c.normalize flags env.val numeric).2.node.norm = 1) cs gs) :
    let t := (Pdf.normalize flags env.val numeric (.mk n cs)).2
    ∃ g, (∀ x, denote sem env t (eventOf os env.idx x) = some (g x)) ∧
      ∀ x, gridIntegral (os.map fun o => (o, range o)) g x * t.node.norm = 1 := by
  intro t
  have hov : varOverlaps (cs.map fun c => (c.getObservables, flags.separate c.node.oid)) = false :=
    varOverlaps_disjoint _ (by rw [List.map_map]; exact hdisj)
  have hlist : ∀ cs : List (Pdf L), (normalizeList flags env.val numeric cs).map (·.2) =
      cs.map fun c => (c.normalize flags env.val numeric).2 := by
    intro cs
    induction cs with
    | nil => rfl
    | cons c cs ih => rw [normalizeList, List.map_cons, List.map_cons, ih]
  have ht : t = .mk { n with norm := 1 } (cs.map fun c => (c.normalize flags env.val numeric).2) := by
    have : Pdf.normalize flags env.val numeric (.mk n cs) = (1, .mk { n with norm := 1 }
        ((normalizeList flags env.val numeric cs).map (·.2))) := by
      unfold Pdf.normalize
      simp only [hfn, hov, Bool.false_eq_true, if_false]
    show (Pdf.normalize flags env.val numeric (.mk n cs)).2 = _
    rw [this, hlist]
  -- the normalised functions
  let fs : List (List Nat × ((Nat → K) → K)) := (cs.zip gs).map fun p =>
    (p.1.getObservables, fun x => p.2 x * (p.1.normalize flags env.val numeric).2.node.norm)
  have hfs1 : fs.map (·.1) = cs.map fun c => c.getObservables := by
    show List.map _ (List.map _ _) = _
    rw [List.map_map]
    have hl := hcs.length_eq
    have : (cs.zip gs).map Prod.fst = cs := List.map_fst_zip (by omega)
    calc _ = ((cs.zip gs).map Prod.fst).map fun c => c.getObservables := by
            rw [List.map_map]; rfl
      _ = _ := by rw [this]
  have hos' : os = fs.flatMap (·.1) := by
    rw [hos, List.flatMap_def, List.flatMap_def, hfs1]
  have hmem : ∀ p ∈ cs.zip gs, LooksOnlyAt p.1.getObservables p.2 ∧
      ∀ x, gridIntegral (p.1.getObservables.map fun o => (o, range o)) p.2 x *
        (p.1.normalize flags env.val numeric).2.node.norm = 1 := by
    intro p hp
    obtain ⟨a, b⟩ := p
    exact ((List.forall₂_iff_zip.1 hcs).2 hp).2
  refine ⟨fun x => (fs.map fun p => p.2 x).prod, fun x => ?_, fun x => ?_⟩
  · rw [ht]
    rw [denote_prod { n with norm := 1 } _ (gs.map fun g => g x) _ hfn]
    · congr 2
      show _ = List.map _ (List.map _ _)
      rw [List.map_map]
      clear hos' hfs1 fs hmem ht t hov hdisj hos
      induction hcs with
      | nil => rfl
      | cons _ _ ih => simpa using ih
    · clear hos' hfs1 fs hmem ht t hov hdisj hos
      induction hcs with
      | nil => exact .nil
      | cons h1 _ ih => exact .cons (h1.1 x) ih
  · rw [ht, hos', gridIntegral_prod range fs x ?_ (by rw [hfs1]; exact hdisj)]
    · show _ * (1 : K) = 1
      rw [mul_one]
      apply List.prod_eq_one
      intro y hy
      obtain ⟨p, hp, rfl⟩ := List.mem_map.1 hy
      obtain ⟨q, hq, rfl⟩ := List.mem_map.1 hp
      have := (hmem q hq).2 x
      have hm : gridIntegral (q.1.getObservables.map fun o => (o, range o))
          (fun z => q.2 z * (q.1.normalize flags env.val numeric).2.node.norm) x =
          (q.1.normalize flags env.val numeric).2.node.norm *
            gridIntegral (q.1.getObservables.map fun o => (o, range o)) q.2 x := by
        rw [← gridIntegral_const_mul _ (fun _ => _) q.2 x (fun _ _ _ => rfl)]
        congr 1
        funext z
        ring
      show gridIntegral _ _ x = 1
      rw [hm, mul_comm]
      exact this
    · intro p hp
      obtain ⟨q, hq, rfl⟩ := List.mem_map.1 hp
      intro x y hxy
      show q.2 x * _ = q.2 y * _
      rw [(hmem q hq).1 x y hxy]

/-- **C26**, detection, partial: the product is integrated as a whole exactly if some component shares
an observable with the component right before it and no component has a separate normalisation.
Missing: components that share an observable without being neighbours, see the violation. -/
theorem C26_detection_partial (comps : List (List Nat × Bool)) :
    varOverlaps comps = true ↔
      (∀ c ∈ comps, c.2 = false) ∧
      ∃ (k : Nat) (a b : List Nat × Bool), comps[k]? = some a ∧ comps[k + 1]? = some b ∧
        ∃ o, o ∈ a.1 ∧ o ∈ b.1 := by
  unfold varOverlaps
  rw [Bool.and_eq_true, overlapLoop_iff, and_comm]
  have h2 : (!(comps.any (·.2))) = true ↔ ∀ c ∈ comps, c.2 = false := by simp
  rw [h2]
  apply and_congr_right
  intro _
  constructor
  · rintro ⟨k, a, b, h1, h3, o, ho1, ho2⟩
    cases k with
    | zero =>
      simp only [List.getElem?_cons_zero, Option.some.injEq] at h1
      subst h1
      simp at ho2
    | succ k =>
      rw [List.getElem?_cons_succ, List.getElem?_map, Option.map_eq_some_iff] at h1 h3
      obtain ⟨a', h1, rfl⟩ := h1
      obtain ⟨b', h3, rfl⟩ := h3
      exact ⟨k, a', b', h1, h3, o, ho2, ho1⟩
  · rintro ⟨k, a, b, h1, h3, o, ho1, ho2⟩
    refine ⟨k + 1, a.1, b.1, ?_, ?_, o, ho2, ho1⟩
    · rw [List.getElem?_cons_succ, List.getElem?_map, h1]; rfl
    · rw [List.getElem?_cons_succ, List.getElem?_map, h3]; rfl

/-- **C26**, dependent components: when the overlap is detected, the whole product is normalised. -/
theorem C26_overlapping {L : Lib K} {sem : LeafSem K L} {env : Env K} {D : Evt K → Prop}
    {I : (Evt K → K) →ₗ[K] K} (flags : NormFlags) (numeric : Pdf L → K)
    (hnum : Integrates sem env D I numeric) (n : Node L) (cs : List (Pdf L)) (hfn : n.fn = .prod)
    (hov : varOverlaps (cs.map fun c => (c.getObservables, flags.separate c.node.oid)) = true)
    (g : Evt K → K) (hg : ∀ e, D e → denote sem env (.mk n (setNormsList 1 cs)) e = some (g e))
    (hI : I g ≠ 0) :
    Normalised sem env D I (Pdf.normalize flags env.val numeric (.mk n cs)).2 := by
  unfold Pdf.normalize
  simp only [hfn, hov, if_true]
  have hd : ∀ (x : K) (e : Evt K), denote sem env (.mk { n with norm := x } (setNormsList 1 cs)) e =
      denote sem env (.mk n (setNormsList 1 cs)) e := fun x e => denote_setNorm x (.mk n _) e
  have hn : ({ n with fn := Fn.prod, norm := (1 : K) } : Node L) = { n with norm := 1 } := by
    rw [← hfn]
  have h1 : numeric (.mk { n with norm := 1 } (setNormsList 1 cs)) = I g :=
    hnum _ g (fun e he => by rw [hd]; exact hg e he)
  refine ⟨g, fun e he => ?_, ?_⟩
  · rw [← hfn]
    exact (hd _ e).trans (hg e he)
  · rw [← hfn, h1]
    exact mul_one_div_cancel hI

namespace Demo
/-- `lin(x)·lin(y)`, and `val(x)·lin(y)·val(x)`. -/
def prodXY : Pdf lib := .mk ⟨0, .prod, [], [2], [0, 1], 1⟩ [lin 1 1 0 1, lin 2 2 1 1]
def prodXYX : Pdf lib := .mk ⟨0, .prod, [], [3], [0, 1], 1⟩ [val 1 0, lin 2 2 1 1, val 3 0]

/-- Ranges of the two observables. -/
def range (o : Nat) : Range ℚ := if o = 0 then ⟨0, 4, 4⟩ else ⟨0, 6, 3⟩

/-- Grid integral of a PDF's value over given observables. -/
def integral (os : List Nat) (t : Pdf lib) : ℚ :=
  gridIntegral (os.map fun o => (o, range o))
    (fun x => (denote sem env t (eventOf os env.idx x)).getD 0) (fun _ => 0)

/-- What `normalize()` finds for a PDF of one observable. -/
def numeric2 (t : Pdf lib) : ℚ := integral t.getObservables t

/-- The product of independent components is normalised ... -/
example : (prodXY.comps.map fun c => c.getObservables) = [[0], [1]] ∧
    integral [0, 1] (prodXY.normalize ⟨fun _ => false, fun _ => false⟩ env.val numeric2).2 = 1 := by
  decide +kernel

/-- ... and meets the hypotheses of `C26_independent`. -/
example : List.Forall₂ (fun (c : Pdf lib) (g : (Nat → ℚ) → ℚ) =>
      (∀ x, denote sem env (c.normalize ⟨fun _ => false, fun _ => false⟩ env.val numeric2).2
        (eventOf [0, 1] env.idx x) = some (g x)) ∧
      LooksOnlyAt c.getObservables g ∧
      ∀ x, gridIntegral (c.getObservables.map fun o => (o, range o)) g x *
        (c.normalize ⟨fun _ => false, fun _ => false⟩ env.val numeric2).2.node.norm = 1)
    prodXY.comps [fun x => 2 * x 0, fun x => 3 * x 1] := by
  refine .cons ⟨fun x => rfl, fun x y h => ?_, fun x => ?_⟩
    (.cons ⟨fun x => rfl, fun x y h => ?_, fun x => ?_⟩ .nil)
  · show 2 * x 0 = 2 * y 0
    rw [h 0 (by decide)]
  · show gridIntegral1 (0 : ℚ) 4 4 (fun v => 2 * v) * (1 / numeric2 (lin 1 1 0 1)) = 1
    decide +kernel
  · show 3 * x 1 = 3 * y 1
    rw [h 1 (by decide)]
  · show gridIntegral1 (0 : ℚ) 6 3 (fun v => 3 * v) * (1 / numeric2 (lin 2 2 1 1)) = 1
    decide +kernel
end Demo

/-- **C26 (violated by the code).** If the first and the third component share an observable, the
overlap is not noticed, and the product of the normalised components does not integrate to one. -/
theorem C26_violation_not_adjacent :
    (Demo.prodXYX.comps.map fun c => c.getObservables) = [[0], [1], [0]] ∧
    varOverlaps (Demo.prodXYX.comps.map fun c => (c.getObservables, false)) = false ∧
    let t := (Demo.prodXYX.normalize ⟨fun _ => false, fun _ => false⟩ Demo.env.val Demo.numeric2).2
    t.node.norm = 1 ∧ Demo.integral [0, 1] t = 21/64 := by
  decide +kernel

/-! ### C27 -/

omit [IsStrictOrderedRing K] [FloorRing K] in
theorem binSum_eq (content : Nat → K) :
    ∀ n, ExtSess.binSum content n = ((List.range n).map content).sum
  | 0 => rfl
  | n + 1 => by
    rw [ExtSess.binSum, binSum_eq content n, List.range_succ, List.map_append, List.sum_append]
    simp

omit [IsStrictOrderedRing K] [FloorRing K] in
theorem ExtSess.setData_numEvents (s : ExtSess K) (d : Data K) :
    (s.setData (some d)).numEvents = Spec.numEvents d := by
  cases d with
  | unbinned num v => rfl
  | binned num c a e v => exact binSum_eq a num

omit [IsStrictOrderedRing K] [FloorRing K] in
/-- The bookkeeping of the extended term does not disturb the rest. -/
theorem ExtSess.run_sess (o : FitOp K) (s : ExtSess K) : (s.run o).sess = o.run s.sess := by
  cases o with
  | setData d => rfl
  | setFitControl c => rfl
  | query q => cases q <;> rfl

omit [IsStrictOrderedRing K] [FloorRing K] in
theorem ExtSess.numEvents_of (ops : List (FitOp K)) (s : ExtSess K)
    (h : ∀ d, s.sess.data = some d → s.numEvents = Spec.numEvents d) :
    ∀ d, (s.runAll ops).sess.data = some d → (s.runAll ops).numEvents = Spec.numEvents d := by
  induction ops generalizing s with
  | nil => exact h
  | cons o ops ih =>
    refine ih (s.run o) ?_
    have hset : ∀ (d : Option (Data K)) (s : ExtSess K) (d' : Data K),
        (s.setData d).sess.data = some d' → (s.setData d).numEvents = Spec.numEvents d' := by
      intro d s d' hd
      have : d = some d' := (setData_data d s.sess).symm.trans hd
      subst this
      exact s.setData_numEvents d'
    intro d hd
    cases o with
    | setData d' => exact hset _ _ _ hd
    | setFitControl c => exact h d hd
    | query q =>
      cases q with
      | getValue f p => exact hset _ _ _ hd
      | evaluateAtPoints n g => exact hset _ _ _ hd
      | compProbs => exact h d hd
      | normalize => exact h d hd

omit [IsStrictOrderedRing K] [FloorRing K] in
/-- **C27.** After any history of calls, if the PDF has data `d` and the shape's negative
log-likelihood is `r`, an extended sum with weights `ws` adds `N_exp - N_obs·log N_exp`, where `N_exp` is
the sum of the weights and `N_obs` the number of events in `d`; any other PDF adds nothing.  Aborts and
undefined behaviour of the shape are those of the sum. -/
theorem C27_extended_term (log : K → K) (pdf : Evt K → Option K) (norm : K)
    (obs : List Nat) (idx₀ : Nat → Int) (ops : List (FitOp K)) (d : Data K) (ws : List K)
    (hd : ((Sess.fresh obs idx₀).runAll ops).data = some d) :
    let nll := ((Sess.fresh obs idx₀).runAll ops).calculateNLL log pdf norm
    let s := (ExtSess.fresh obs idx₀).runAll ops
    (∀ r, nll = .value r →
      s.calculateNLL log pdf norm true ws ws.length =
        .value (r + (ws.sum - numEvents d * log ws.sum))) ∧
    (nll = .aborted → s.calculateNLL log pdf norm true ws ws.length = .aborted) ∧
    (nll = .ub → s.calculateNLL log pdf norm true ws ws.length = .ub) ∧
    ∀ comps, s.calculateNLL log pdf norm false ws comps = nll := by
  intro nll s
  have hsess : s.sess = (Sess.fresh obs idx₀).runAll ops := by
    have : ∀ (ops : List (FitOp K)) (s : ExtSess K), (s.runAll ops).sess = s.sess.runAll ops := by
      intro ops
      induction ops with
      | nil => intro s; rfl
      | cons o ops ih =>
        intro s
        show ((s.run o).runAll ops).sess = (o.run s.sess).runAll ops
        rw [ih, ExtSess.run_sess]
    exact this ops _
  have hnum : s.numEvents = numEvents d :=
    ExtSess.numEvents_of ops (ExtSess.fresh obs idx₀) (by intro d h; simp [ExtSess.fresh, Sess.fresh] at h) d
      (by rw [show ((ExtSess.fresh obs idx₀).runAll ops).sess = _ from hsess]; exact hd)
  have hsum : ∀ (l : List K) (a : K), l.foldl (· + ·) a = a + l.sum := by
    intro l
    induction l with
    | nil => intro a; simp
    | cons x l ih => intro a; rw [List.foldl_cons, ih, List.sum_cons]; ring
  refine ⟨fun r hr => ?_, fun hr => ?_, fun hr => ?_, fun comps => ?_⟩
  · unfold ExtSess.calculateNLL
    rw [hsess, show Sess.calculateNLL log pdf norm _ = .value r from hr]
    simp only [if_true, hnum, List.take_length, hsum, zero_add]
  · unfold ExtSess.calculateNLL
    rw [hsess, show Sess.calculateNLL log pdf norm _ = .aborted from hr]
  · unfold ExtSess.calculateNLL
    rw [hsess, show Sess.calculateNLL log pdf norm _ = .ub from hr]
  · unfold ExtSess.calculateNLL
    rw [hsess]
    show (match nll with | .value r => _ | x => x) = nll
    cases nll <;> simp

/-- Which sums are extended: those built with as many weights as components. -/
theorem C27_which_are_extended (weights comps : Nat) (hc : comps ≠ 0) :
    addPdfCtor weights comps =
      if weights = comps then .built true else if weights + 1 = comps then .built false else .threw := by
  unfold addPdfCtor
  by_cases h1 : weights = comps
  · subst h1
    simp [hc]
  · by_cases h2 : weights + 1 = comps
    · subst h2
      simp
    · simp [h1, h2]

/-- The extended term with two weights 3 and 4 and two events, for an arbitrary logarithm `log`; the
shape's NLL is `-log 10 - log 11`. -/
example (log : ℚ → ℚ) (h : -log 10 + -log 11 ≠ 0) :
    ((ExtSess.fresh [0] (fun _ => -1)).runAll [.setData (some Demo.twoEvents)]).calculateNLL log
      (fun e => e 0) 1 true [3, 4] 2 =
      .value (-log 10 + -log 11 + (7 - 2 * log 7)) := by
  have := (C27_extended_term log (fun e : Evt ℚ => e 0) 1 [0] (fun _ => -1)
    [.setData (some Demo.twoEvents)] Demo.twoEvents [3, 4] rfl).1 (-log 10 + -log 11) ?_
  · rw [show ([3, 4] : List ℚ).length = 2 from rfl] at this
    rw [this]
    have h7 : ([3, 4] : List ℚ).sum = 7 := by decide +kernel
    have h2 : numEvents Demo.twoEvents = (2 : ℚ) := by decide +kernel
    rw [h7, h2]
  · unfold Sess.calculateNLL
    have hr : ((Sess.fresh [0] (fun _ => -1)).runAll
        [FitOp.setData (some Demo.twoEvents)]).reduce log (fun e : Evt ℚ => e 0) 1 =
        some (-log 10 + -log 11) := by
      show Option.map List.sum (some [if (10 + ((0 : Nat) : ℚ)) * 1 > 0 then -log ((10 + ((0 : Nat) : ℚ)) * 1) else 0,
        if (10 + ((1 : Nat) : ℚ)) * 1 > 0 then -log ((10 + ((1 : Nat) : ℚ)) * 1) else 0]) = _
      norm_num
    have h1 : ((Sess.fresh [0] (fun _ => -1)).runAll
        [FitOp.setData (some Demo.twoEvents)]).normOf (1 : ℚ) = 1 := rfl
    rw [h1, hr, if_neg (by norm_num)]
    simp only
    rw [if_neg h]

end GooFit
