import Verif.Props.LikelihoodReal
import Verif.Props.Poly
import Verif.Model.Coefficient
import Verif.Spec.Coefficient
/-!
# C92: the coefficients a polynomial PDF reports
-/
set_option autoImplicit false
namespace GooFit
open Spec FpOps

/-! ### The polynomial -/

theorem polynomialOf_eval (low : Nat) (cs : List ℝ) (X : ℝ) :
    (polynomialOf low cs).eval X = (cs.zipIdx.map fun t => t.1 * X ^ (low + t.2)).sum := by
  unfold polynomialOf
  rw [Polynomial.eval_listSum, List.map_map]
  congr 1
  apply List.map_congr_left
  intro t _
  simp

private theorem polynomialOf_coeff_aux (low k : Nat) : ∀ (cs : List ℝ) (m : Nat),
    ((cs.zipIdx m).map fun t => if k = low + t.2 then t.1 else 0).sum =
      if low + m ≤ k then (cs[k - low - m]?).getD 0 else 0
  | [], m => by simp
  | c :: cs, m => by
    rw [List.zipIdx_cons, List.map_cons, List.sum_cons, polynomialOf_coeff_aux low k cs (m + 1)]
    by_cases h1 : k = low + m
    · subst h1
      simp
    · rw [if_neg h1, zero_add]
      by_cases h2 : low + m ≤ k
      · rw [if_pos (by omega : low + (m + 1) ≤ k), if_pos h2,
          show k - low - m = (k - low - (m + 1)) + 1 by omega, List.getElem?_cons_succ]
      · rw [if_neg (by omega), if_neg h2]

/-- Its coefficients are the given ones, in order from the lowest power. -/
theorem polynomialOf_coeff (low : Nat) (cs : List ℝ) (k : Nat) :
    (polynomialOf low cs).coeff k = if low ≤ k then (cs[k - low]?).getD 0 else 0 := by
  have h := polynomialOf_coeff_aux low k cs 0
  simp only [Nat.add_zero, Nat.sub_zero] at h
  rw [← h]
  unfold polynomialOf
  have : ∀ l : List (ℝ × Nat), ((l.map fun (t : ℝ × Nat) => Polynomial.C t.1 * Polynomial.X ^ (low + t.2)).sum).coeff k =
      (l.map fun t => if k = low + t.2 then t.1 else 0).sum := by
    intro l
    induction l with
    | nil => simp
    | cons a l ih =>
      rw [List.map_cons, List.sum_cons, Polynomial.coeff_add, ih, List.map_cons, List.sum_cons,
        Polynomial.coeff_C_mul_X_pow]
  exact this _

/-! ### Reading the arrays -/

section
variable {K : Type} [Field K] [LinearOrder K] [IsStrictOrderedRing K] [FloorRing K]
attribute [local instance] FpOps.ofField
variable {L : Lib K} {env : Env K} {t : Pdf L} {m : L.Metric} {ν δ : Nat → K} {s : Machine L}

theorem Holds.nodeAt (h : Holds env t m ν δ s) (u : Pdf L) (hu : u ∈ subtrees t) :
    NodeAt env s.host.bufs s.host.table (s.host.slots u.node.oid) { u.node with norm := ν u.node.oid } := by
  have hs : SlotsAt s.host.slots Cursor.zero (t.mapNorm ν) := (slotsAt_mapNorm ν _ t _).2 h.slots
  have hm : u.mapNorm ν ∈ subtrees (t.mapNorm ν) := by
    rw [subtrees_mapNorm]; exact List.mem_map_of_mem hu
  have hat := slots_treeAt env _ _ s.host.slots _ _ hs h.treeAt _ hm
  have hno := hat.node
  rw [mapNorm_node] at hno
  exact hno

theorem normalizeOwn_par (cfg : NormSetup L) (fuel : Nat) (n : Node L) (r : K) (s' : Machine L)
    (he : s.normalizeOwn cfg fuel n = .done (r, s')) : s'.host.bufs.par = s.host.bufs.par := by
  have key : ∀ x : NormResult K, (match x with
      | .ok ret norm => Ran.done (ret, s.setNorm n.oid norm)
      | .aborted => .aborted
      | .ub => .ub) = .done (r, s') → s'.host.bufs.par = s.host.bufs.par := by
    intro x hx
    cases x with
    | ok ret norm =>
      simp only [Ran.done.injEq, Prod.mk.injEq] at hx
      rw [← hx.2]
      rfl
    | aborted => exact absurd hx (by simp)
    | ub => exact absurd hx (by simp)
  unfold Machine.normalizeOwn at he
  dsimp only at he
  split at he
  · split at he
    · exact absurd he (by simp)
    · split at he
      · exact key (normalizeGrid _ _ _) he
      · exact key (normalizeAnalytic _ _) he
  · exact key (normalizeGrid _ _ _) he

/-- what `getCoefficient` returns, from any arrays that hold the tree -/
theorem getCoefficient_holds (h : Holds env t m ν δ s) (cfg : NormSetup L) (isPdf : Bool) (fuel : Nat) (n : Node L)
    (hu : Pdf.mk n [] ∈ subtrees t) (o low : Nat) (ho : n.obs = [o]) (hc : n.consts = [(low : K)]) (N : K)
    (s' : Machine L) (hN : s.normalizeUnder cfg isPdf fuel n = .done (N, s')) (coef : Int) :
    ((coef < low ∨ (low + n.params.length : Int) ≤ coef) → s.getCoefficient cfg isPdf fuel n coef = .done (0, s)) ∧
    (∀ i : Nat, coef = low + i → i + 1 < n.params.length →
      s.getCoefficient cfg isPdf fuel n coef = .done (1 / N * ((n.params.map env.val)[i + 1]?).getD 0, s')) ∧
    (∀ i : Nat, coef = low + i → i + 1 = n.params.length →
      s.getCoefficient cfg isPdf fuel n coef =
        match s.host.bufs.par[(s.host.slots n.oid).par + n.params.length + 1]? with
        | none => .ub
        | some y => .done (1 / N * y, s')) := by
  have hat := h.nodeAt (.mk n []) hu
  have hpar : s'.host.bufs.par = s.host.bufs.par := by
    unfold Machine.normalizeUnder at hN
    split at hN
    · exact normalizeOwn_par cfg fuel n N s' hN
    · simp only [Ran.done.injEq, Prod.mk.injEq] at hN
      rw [← hN.2]; rfl
  have hcon : s.host.bufs.con[(s.host.slots n.oid).con + 1]? = some (low : K) := by
    have := hat.con_get 0 (by show 0 < n.consts.length; rw [hc]; simp)
    have e : (Cursor.getConstant (s.host.slots n.oid) s.host.bufs 0) =
      s.host.bufs.con[(s.host.slots n.oid).con + 1]? := rfl
    rw [← e]
    refine Eq.trans this ?_
    show n.consts[0]? = _
    rw [hc]; rfl
  have hcnt : s.host.bufs.par[(s.host.slots n.oid).par]? = some (n.params.length : K) := by
    have := hat.par.get_zero
    refine Eq.trans this ?_
    show some (FpOps.ofNat n.params.length) = _
    rw [ofNat_field]
  have htoInt : FpOps.toInt ((low : K)) = low := by
    have := storable_field (K := K) low 0 []
    have h1 := this.1
    rw [← ofNat_field]
    exact h1
  have hrange : ∀ i : Nat, coef = low + i → i + 1 ≤ n.params.length →
      s.getCoefficient cfg isPdf fuel n coef =
        match s.host.bufs.par[(s.host.slots n.oid).par + i + 2]? with
        | none => .ub
        | some y => .done (1 / N * y, s') := by
    intro i hi hlt
    unfold Machine.getCoefficient
    rw [ho, if_neg (by simp)]
    dsimp only
    rw [hcon, hcnt]
    dsimp only
    have h1 : ¬ ((coef : K) < (low : K)) := by
      rw [hi]; push_cast; rw [not_lt]
      exact le_add_of_nonneg_right (Nat.cast_nonneg i)
    have h2 : ¬ ((coef : K) > (low : K) + ((n.params.length : K) - 1)) := by
      rw [hi]; push_cast; rw [gt_iff_lt, not_lt]
      have : ((i + 1 : Nat) : K) ≤ (n.params.length : K) := Nat.cast_le.2 hlt
      push_cast at this
      linarith
    rw [if_neg h1, if_neg h2, hN]
    show (match s'.hostParameter _ with
      | none => Ran.ub
      | some param => Ran.done (1 / N * param, s')) = _
    unfold Machine.hostParameter
    rw [htoInt, hpar, if_pos (by omega), show
      (((s.host.slots n.oid).par : Int) + 2 + coef - low).toNat = (s.host.slots n.oid).par + i + 2 by omega]
  refine ⟨?_, ?_, ?_⟩
  · intro hout
    unfold Machine.getCoefficient
    rw [ho, if_neg (by simp)]
    dsimp only
    rw [hcon, hcnt]
    dsimp only
    rcases hout with h1 | h1
    · rw [if_pos]
      have : ((coef : Int) : K) < ((low : Int) : K) := Int.cast_lt.2 h1
      simpa using this
    · by_cases h0 : (coef : K) < (low : K)
      · rw [if_pos h0]
      · rw [if_neg h0, if_pos]
        have : (((low + n.params.length : Int)) : K) ≤ ((coef : Int) : K) := Int.cast_le.2 h1
        push_cast at this
        linarith
  · intro i hi hlt
    rw [hrange i hi (by omega)]
    have := hat.par_get (i + 1) hlt
    have e : s.host.bufs.par[(s.host.slots n.oid).par + i + 2]? = (n.params.map env.val)[i + 1]? := this
    rw [e]
    have hs : (n.params.map env.val)[i + 1]? = some ((n.params.map env.val)[i + 1]'(by simpa using hlt)) :=
      List.getElem?_eq_getElem _
    rw [hs]
    rfl
  · intro i hi hlt
    rw [hrange i hi (by omega), show (s.host.slots n.oid).par + i + 2 = (s.host.slots n.oid).par + n.params.length + 1 by
      omega]

end

/-! ### GooFit's polynomial PDF -/

variable (base : Lib ℝ) (T : HistTables ℝ)

/-- The object `PolynomialPdf(name, o, weights, low)` creates. -/
noncomputable def polynomialNode (total oid o : Nat) (weights : List Nat) (low : Nat) :
    Node ((basicLib base T).metrics Real.log total) :=
  BasicCall.node (base.metrics Real.log total) T oid 1 (.polynomial o weights low)

/-- the integral of the polynomial on the grid of the object, over the observable's range -/
private theorem polynomial_basic (total oid o : Nat) (weights : List Nat) (low : Nat)
    (cfg : NormSetup ((basicLib base T).metrics Real.log total)) (ha : cfg.analytic = basicAnalytic)
    (val : Nat → ℝ) (idx : Nat → Int) (f : Nat → ℝ → ℝ) (os : List Nat) (ho : o ∈ os)
    (hf : f oid = fun X => (polynomialOf low (weights.map val)).eval X) :
    BasicOK (basicSem (base.metrics Real.log total) T) val idx f os BasicLeaf.polynomial
      (polynomialNode base T total oid o weights low) o ∧
    basicIntegral cfg val f (polynomialNode base T total oid o weights low) BasicLeaf.polynomial o =
      gridOver cfg oid o fun X => (polynomialOf low (weights.map val)).eval X := by
  constructor
  · refine basic_ok (base.metrics Real.log total) T (.polynomial o weights low) trivial (by simp [BasicCall.leaf])
      (by simp [BasicCall.leaf]) oid o 1 rfl val idx f os ho ?_
    intro X
    show some ((List.range' 0 (weights.map val).length).foldl (fun s i => add s (mul
      (nth (weights.map val) i) (FpMath.pow X (ofNat ((toInt (ofNat low : ℝ)).toNat + i)))))
      (lit 0)) = _
    rw [show (toInt (ofNat low : ℝ)).toNat = low by rw [exact_real_nat]; rfl, hf]
    dsimp only
    rw [polynomialOf_eval]
    simp only [real_add, real_mul, real_pow_nat, real_lit]
    rw [foldl_add_sum, map_range_eq_zipIdx (weights.map val) (fun c i => c * X ^ (low + i))]
    simp
  · unfold basicIntegral
    rw [ha]
    show gridOver cfg oid o (f oid) = _
    rw [hf]

/-- **C92, partial.** A `PolynomialPdf` of one observable `o` with any coefficients from the power `low` on is part
of any PDF tree of C86; the tree got data and the minimiser made any calls, the last one at the
values `val`.  The density is `p / N`, with `p` the polynomial at these values and `N` its
integral over the range of the observable.  Then `getCoefficient(k)` returns 0 for
powers that `p` has not; and otherwise, instead of the coefficient of the power `k` divided by `N`, that of
the power `k + 1`; asked for the highest power of a polynomial that is the whole tree, it reads
outside the array.  Missing: the right coefficient (`C92_violation_getCoefficient`). -/
theorem C92_getCoefficient_partial (x₀ : ExtSess ℝ) (hnd : x₀.sess.obs.Nodup) (hlen : x₀.sess.obs.length ≤ 10)
    (d : Data ℝ) :
    let x := x₀.setData (some d)
    ∀ (cfg : NormSetup ((basicLib base T).metrics Real.log x.sess.total)) (_ : cfg.analytic = basicAnalytic)
      (t : Pdf ((basicLib base T).metrics Real.log x.sess.total))
      (h₀ : Host ((basicLib base T).metrics Real.log x.sess.total)) (fuel : Nat) (val₀ : Nat → ℝ)
      (vals : List (Nat → ℝ)) (val : Nat → ℝ) (rs : List ℝ) (r : ℝ)
      (s s₁ : Machine ((basicLib base T).metrics Real.log x.sess.total)),
    ((nodes t).map Node.oid).Nodup → t.size ≤ fuel →
    (Machine.start Real.log x val₀ t h₀).fcnAll Real.log x cfg fuel t vals = .done (rs, s₁) →
    s₁.fcn Real.log x cfg fuel t val = .done (r, s) →
    ∀ f, SumProduct cfg (basicSem (base.metrics Real.log x.sess.total) T) val x.sess.idx f x.sess.obs t →
    ∀ (oid o : Nat) (weights : List Nat) (low : Nat), o ∈ x.sess.obs →
    let n := polynomialNode base T x.sess.total oid o weights low
    let p := polynomialOf low (weights.map val)
    let N := gridOver cfg oid o fun X => p.eval X
    Pdf.mk n [] ∈ subtrees t → HasGrid cfg oid o → 0 < N → (f oid = fun X => p.eval X) →
    (∀ k : Int, (k < low ∨ (low + weights.length : Int) ≤ k) →
      s.getCoefficient cfg true fuel n k = .done (0, s)) ∧
    (∀ k : Nat, low ≤ k → k + 1 < low + weights.length →
      ∃ s', s.getCoefficient cfg true fuel n k = .done (p.coeff (k + 1) / N, s')) ∧
    (t = Pdf.mk n [] → ∀ k : Nat, k + 1 = low + weights.length → low ≤ k →
      s.getCoefficient cfg true fuel n k = .ub) := by
  intro x cfg ha t h₀ fuel val₀ vals val rs r s s₁ hobj hfuel hall hlast f ht oid o weights low ho n p N hu hg hN hf
  have hn : t.oids.Nodup := by
    rw [oids_eq_map]
    simpa [nodes, List.map_map, Function.comp_def] using hobj
  obtain ⟨ν, hν⟩ := Holds.start ⟨val₀, x.sess.idx⟩ t x.sess.ctl.metric h₀ hn
  obtain ⟨val₁, ν1, δ1, h1⟩ := fcnAll_holds Real.log x cfg fuel t hn vals val₀ ν ν _ hν rs s₁ hall
  obtain ⟨ν2, δ2, h2⟩ := fcn_holds Real.log x cfg fuel t hn val val₁ ν1 δ1 s₁ h1 r s hlast
  obtain ⟨hb, hi⟩ := polynomial_basic base T x.sess.total oid o weights low cfg ha val x.sess.idx f x.sess.obs ho hf
  have hidx : ∀ o ∈ x.sess.obs, 0 ≤ x.sess.idx o ∧ x.sess.idx o < 10 := idx_small x₀.sess hnd hlen d
  have hnorm : s.normalizeOwn cfg fuel n = .done (_, s.setNorm n.oid _) :=
    normalize_basic_sound hn ht hidx fuel hfuel h2 n hu BasicLeaf.polynomial o rfl hb hg (hi.symm ▸ hN)
  have hnorm' : ∃ s', s.normalizeUnder cfg true fuel n = .done (N, s') := ⟨_, hnorm.trans (by rw [hi])⟩
  obtain ⟨s', hnorm'⟩ := hnorm'
  have hw : n.params = weights := rfl
  have g := fun k => getCoefficient_holds h2 cfg true fuel n hu o low rfl
    (show [ofNat low] = [(low : ℝ)] by rw [real_ofNat]) N s' hnorm' k
  refine ⟨fun k hk => (g k).1 hk, ?_, ?_⟩
  · intro k h1 h2
    refine ⟨s', ((g k).2.1 (k - low) (by omega) (by rw [hw]; omega)).trans ?_⟩
    rw [polynomialOf_coeff, if_pos (by omega), show k + 1 - low = k - low + 1 by omega, one_div, inv_mul_eq_div]
    rfl
  · intro htn k h1 h3
    rw [(g k).2.2 (k - low) (by omega) (by rw [hw]; omega)]
    have : s.host.bufs.par[(s.host.slots n.oid).par + n.params.length + 1]? = none := by
      rw [h2.par, htn]
      apply List.getElem?_eq_none
      simp [Pdf.flat, Pdf.flatList, parOf]
    rw [this]

/-- **C92, partial**, for a control whose metric takes no PDF (a fit of a curve to points with errors): there `N` is one.
The tree got data and the parameters were then set to any values `val`.  Missing: as above. -/
theorem C92_curve_partial (x : ExtSess ℝ) (cfg : NormSetup ((basicLib base T).metrics Real.log x.sess.total))
    (t : Pdf ((basicLib base T).metrics Real.log x.sess.total))
    (h₀ : Host ((basicLib base T).metrics Real.log x.sess.total)) (fuel : Nat) (val₀ val : Nat → ℝ)
    (hobj : ((nodes t).map Node.oid).Nodup) (oid o : Nat) (weights : List Nat) (low : Nat) :
    let n := polynomialNode base T x.sess.total oid o weights low
    let p := polynomialOf low (weights.map val)
    let s := (Machine.start Real.log x val₀ t h₀).updateParameters ⟨val, x.sess.idx⟩ t
    Pdf.mk n [] ∈ subtrees t →
    (∀ k : Int, (k < low ∨ (low + weights.length : Int) ≤ k) →
      s.getCoefficient cfg false fuel n k = .done (0, s)) ∧
    (∀ k : Nat, low ≤ k → k + 1 < low + weights.length →
      ∃ s', s.getCoefficient cfg false fuel n k = .done (p.coeff (k + 1), s')) ∧
    (t = Pdf.mk n [] → ∀ k : Nat, k + 1 = low + weights.length → low ≤ k →
      s.getCoefficient cfg false fuel n k = .ub) := by
  intro n p s hu
  have hn : t.oids.Nodup := by
    rw [oids_eq_map]
    simpa [nodes, List.map_map, Function.comp_def] using hobj
  obtain ⟨ν, hν⟩ := Holds.start ⟨val₀, x.sess.idx⟩ t x.sess.ctl.metric h₀ hn
  have h2 : Holds ⟨val, x.sess.idx⟩ t x.sess.ctl.metric ν ν s := hν.update ⟨val, x.sess.idx⟩ rfl
  have hw : n.params = weights := rfl
  have g := fun k => getCoefficient_holds h2 cfg false fuel n hu o low rfl
    (show [ofNat low] = [(low : ℝ)] by rw [real_ofNat]) 1 (s.setNorm n.oid 1) rfl k
  refine ⟨fun k hk => (g k).1 hk, ?_, ?_⟩
  · intro k h1 h3
    refine ⟨s.setNorm n.oid 1, ((g k).2.1 (k - low) (by omega) (by rw [hw]; omega)).trans ?_⟩
    rw [polynomialOf_coeff, if_pos (by omega), show k + 1 - low = k - low + 1 by omega, one_div, inv_one, one_mul]
    rfl
  · intro htn k h1 h3
    rw [(g k).2.2 (k - low) (by omega) (by rw [hw]; omega)]
    have : s.host.bufs.par[(s.host.slots n.oid).par + n.params.length + 1]? = none := by
      rw [h2.par, htn]
      apply List.getElem?_eq_none
      simp [Pdf.flat, Pdf.flatList, parOf]
    rw [this]

/-- **C92, violated.** The polynomial `1 + 2x`, fitted as a curve: `getCoefficient(0)` returns 2, and
`getCoefficient(1)` reads outside the array. -/
theorem C92_violation_getCoefficient (x : ExtSess ℝ) (cfg : NormSetup ((basicLib base T).metrics Real.log x.sess.total))
    (h₀ : Host ((basicLib base T).metrics Real.log x.sess.total)) (fuel : Nat) (val₀ : Nat → ℝ) :
    let n := polynomialNode base T x.sess.total 0 0 [0, 1] 0
    let val : Nat → ℝ := fun v => v + 1
    let s := (Machine.start Real.log x val₀ (.mk n []) h₀).updateParameters ⟨val, x.sess.idx⟩ (.mk n [])
    (∀ X, (polynomialOf 0 ([0, 1].map val)).eval X = 1 + 2 * X) ∧
    (polynomialOf 0 ([0, 1].map val)).coeff 0 = 1 ∧
    (∃ s', s.getCoefficient cfg false fuel n 0 = .done (2, s')) ∧
    s.getCoefficient cfg false fuel n 1 = .ub := by
  intro n val s
  obtain ⟨-, h1, h2⟩ := C92_curve_partial base T x cfg (.mk n []) h₀ fuel val₀ val
    (by simp [nodes, subtrees, subtreesList]) 0 0 [0, 1] 0 (node_mem_subtrees _)
  refine ⟨?_, ?_, ?_, h2 rfl 1 rfl (Nat.zero_le _)⟩
  · intro X
    rw [polynomialOf_eval]
    simp [val]
    norm_num
  · rw [polynomialOf_coeff]
    simp [val]
  · obtain ⟨s', hs⟩ := h1 0 (Nat.zero_le _) (by simp)
    refine ⟨s', hs.trans ?_⟩
    rw [polynomialOf_coeff]
    simp [val]
    norm_num

/-- The hypotheses of `C92_getCoefficient_partial` are met by the polynomial `1 + 2x` on the range from 0 to 1, with one
event at 0, after a first call of the minimiser. -/
example :
    let x₀ : ExtSess ℝ := ExtSess.fresh [0] (fun _ => -1)
    let d : Data ℝ := .unbinned 1 (fun _ _ => 0)
    let x := x₀.setData (some d)
    let n := polynomialNode base T x.sess.total 0 0 [0, 1] 0
    let val : Nat → ℝ := fun v => v + 1
    let cfg := plainSetup base T x.sess.total 0 1 1
    ∀ h₀, ∃ r s, (Machine.start Real.log x val (.mk n []) h₀).fcn Real.log x cfg 1 (.mk n []) val = .done (r, s) ∧
      ∃ s', s.getCoefficient cfg true 1 n 0 = .done (2 / 2, s') := by
  intro x₀ d x n val cfg h₀
  let f : Nat → ℝ → ℝ := fun _ X => (polynomialOf 0 ([0, 1].map val)).eval X
  have hp : ∀ X, (polynomialOf 0 ([0, 1].map val)).eval X = 1 + 2 * X := by
    intro X
    rw [polynomialOf_eval]
    simp [val]
    norm_num
  have hN : gridOver cfg 0 0 (fun X => (polynomialOf 0 ([0, 1].map val)).eval X) = 2 := by
    simp only [hp]
    show gridIntegral1 (0 : ℝ) 1 1 _ = _
    unfold gridIntegral1 cellCenter
    norm_num
  have hg : HasGrid cfg 0 0 := ⟨by show (0 : ℝ) < 1; norm_num, by show 0 < 1; decide⟩
  obtain ⟨hb, hi⟩ := polynomial_basic base T x.sess.total 0 0 [0, 1] 0 cfg rfl val x.sess.idx f x.sess.obs
    (by show 0 ∈ [0]; simp) rfl
  have ht : SumProduct cfg (basicSem (base.metrics Real.log x.sess.total) T) val x.sess.idx f x.sess.obs (.mk n []) :=
    ⟨rfl, 0, hb, hg, hi.symm ▸ hN.symm ▸ two_pos⟩
  have hdens : ∀ X, density cfg val f (.mk n []) X = (1 + 2 * X 0) / 2 := by
    intro X
    show f 0 (X 0) / basicIntegral cfg val f n BasicLeaf.polynomial 0 = _
    rw [hi, hN]
    show (polynomialOf 0 ([0, 1].map val)).eval (X 0) / 2 = _
    rw [hp]
  have hnd : ((nodes (Pdf.mk n [])).map Node.oid).Nodup := by simp [nodes, subtrees, subtreesList]
  obtain ⟨s, hs⟩ := C86_every_call_partial (L := basicLib base T) Real.log x₀ (by decide) (by decide) d
    (by rfl) (by exact ⟨by decide, by decide⟩) (by intro h; rcases h with h | h <;> exact absurd h (by decide))
    cfg (.mk n []) h₀ 1 val [val] hnd (le_refl 1) (basicSem (base.metrics Real.log x.sess.total) T) (fun _ => f) (by
      intro v hv
      rw [List.mem_singleton] at hv
      subst hv
      refine ⟨ht, fun _ _ => trivial, ?_⟩
      show ((List.range 1).map fun i => entryTerm Real.log .unbinnedNll d i
        (density cfg val f (.mk n []) (coord d i)) 0).sum ≠ 0
      have h1 : coord d 0 0 = 0 := rfl
      simp only [List.range, List.range.loop, List.map_cons, List.map_nil, List.sum_cons, List.sum_nil, hdens, h1]
      show (if (1 + 2 * (0 : ℝ)) / 2 > 0 then -(Real.log ((1 + 2 * 0) / 2)) else _) + 0 ≠ 0
      rw [if_pos (by norm_num)]
      have := Real.log_neg (show (0 : ℝ) < (1 + 2 * 0) / 2 by norm_num) (by norm_num)
      linarith)
  rw [Machine.fcnAll] at hs
  obtain ⟨q, hq, hs⟩ := Ran.andThen_done hs
  refine ⟨q.1, q.2, hq, ?_⟩
  obtain ⟨-, h2, -⟩ := C92_getCoefficient_partial base T x₀ (by decide) (by decide) d cfg rfl (.mk n []) h₀ 1 val []
    val [] q.1 q.2 _ hnd (le_refl 1) rfl hq f ht 0 0 [0, 1] 0 (by show 0 ∈ [0]; simp) (node_mem_subtrees _) hg
    (by rw [hN]; norm_num) rfl
  obtain ⟨s', hs'⟩ := h2 0 (Nat.zero_le _) (by simp)
  refine ⟨s', hs'.trans ?_⟩
  rw [hN, polynomialOf_coeff]
  simp [val]

end GooFit
