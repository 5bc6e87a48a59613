import Verif.Lemmas.Basic
import Verif.Props.Tree
/-!
# Properties of the basic PDFs: C15

The number type is generic: nothing is assumed about arithmetic or the mathematical library.
-/
set_option autoImplicit false
namespace GooFit
open Spec FpOps

/-! ### A number type for the examples -/
namespace Demo

/-- Exact rationals with stand-ins for the mathematical library. -/
@[reducible] def fpq : FpMath ℚ where
  neg x := -x
  exp x := 1 + x
  log x := x - 1
  sqrt x := x
  sin x := x
  sinh x := x
  erfc x := 1 - x
  fabs x := |x|
  pow x _ := x
  atan2 _ _ := 1
  faddeeva x y := (x, y)
  lt a b := decide (a < b)
  le a b := decide (a ≤ b)
  eq a b := decide (a = b)

attribute [local instance] fpq

/-- No histograms. -/
def noHist : HistTables ℚ := ⟨fun _ => none, fun _ => none⟩

/-- One histogram in each table. -/
def someHist : HistTables ℚ := ⟨fun i => if i = 0 then some [5, 6, 7] else none,
  fun i => if i = 0 then some [5, 6, 7] else none⟩

end Demo

section
variable {F : Type} [FpMath F]

/-! ### C15 -/

/-- **C15, partial.** One function of a PDF's own parameter values, constants and observable values
says what each basic PDF evaluates to: started at the PDF's own data, whatever else the arrays hold,
the device function returns that value and leaves the cursor just behind the PDF's own data.  The
value always exists, except for a histogram (whose bin number may be outside the histogram).
Missing: `InterHistPdf` and `VariableBinTransform1DPdf`, which break the rule (below). -/
theorem C15_protocol_partial (base : Lib F) (T : HistTables F) :
    ∃ f : BasicLeaf → List F → List F → List F → Option F,
      (∀ k ps ks xs, k ≠ .evalHistogram → k ≠ .interHist → k ≠ .varBin → (f k ps ks xs).isSome) ∧
      ∀ (a : BasicCall F), SoundCall a → a.leaf ≠ .interHist → a.leaf ≠ .varBin →
      ∀ (oid : Nat) (norm : F) (env : Env F) (B : Bufs F) (c : Cursor) (e : Evt F) (xs : List F),
        let n := a.node base T oid norm
        let ps := n.params.map env.val
        let os := n.obs.map env.idx
        Storable F ps.length n.consts.length os → OwnData B c ps n.consts os norm →
        allSome (os.map (at_ e)) = some xs →
        (basicLib base T).dev a.leaf B c e =
          (f a.leaf ps n.consts xs).map
            (·, c.incrementIndex 1 ps.length n.consts.length os.length 1) := by
  refine ⟨basicValue T, fun k ps ks xs h1 h2 h3 => basicValue_isSome T k ps ks xs h1 h2 h3, ?_⟩
  intro a ha hi hv oid norm env B c e xs n ps os hs ho hx
  have hn : n = _ := node_eq base T oid norm a
  have hlen : os.length = xs.length := by
    simpa using congrArg List.length (allSome_get _ _ hx)
  have hps : ps = a.params.map env.val := by show n.params.map env.val = _; rw [hn]
  have hks : n.consts = a.consts := by rw [hn]
  have hshape : Shape a.leaf ps n.consts xs := by
    rw [hps, hks]
    apply shape_of_call a env xs ha hi hv
    rw [← hlen]
    show (n.obs.map env.idx).length = _
    rw [hn, List.length_map]
  have := basicDev_eq T a.leaf (view_of B c e ps n.consts xs os norm hs ho hx) hshape
  rw [hlen]
  exact this

/-- **C15, partial**, in the form C13 needs: there is a meaning of the basic PDFs under which every
PDF built by a sound constructor call is well-formed, so trees over GooFit's own basic PDFs evaluate
to their recursive definition. -/
theorem C15_wellformed_partial (base : Lib F) (T : HistTables F) :
    ∃ sem : LeafSem F (basicLib base T),
      (∀ (k : BasicLeaf) ps ks (os : List Int) (e : Evt F), k ≠ .evalHistogram → k ≠ .interHist →
        k ≠ .varBin → (∀ o ∈ os, (at_ e o).isSome) → (sem k ps ks os e).isSome) ∧
      ∀ (a : BasicCall F), SoundCall a → a.leaf ≠ .interHist → a.leaf ≠ .varBin →
      ∀ (oid : Nat) (norm : F) (env : Env F),
        Storable F (a.node base T oid norm).params.length (a.node base T oid norm).consts.length
          ((a.node base T oid norm).obs.map env.idx) →
        WellFormed sem env (.mk (a.node base T oid norm) []) := by
  obtain ⟨f, hf, hd⟩ := C15_protocol_partial base T
  refine ⟨fun k ps ks os e => (allSome (os.map (at_ e))).bind (f k ps ks), ?_, ?_⟩
  · intro k ps ks os e h1 h2 h3 ho
    have : ∃ xs, allSome (os.map (at_ e)) = some xs := by
      induction os with
      | nil => exact ⟨[], rfl⟩
      | cons o os ih =>
        obtain ⟨xs, hxs⟩ := ih (fun o' h => ho o' (by simp [h]))
        obtain ⟨y, hy⟩ := Option.isSome_iff_exists.mp (ho o (by simp))
        exact ⟨y :: xs, by simp [allSome, hy, hxs]⟩
    obtain ⟨xs, hxs⟩ := this
    simp only [hxs, Option.bind_some]
    exact hf k ps ks xs h1 h2 h3
  · intro a ha hi hv oid norm env hs
    rw [WellFormed]
    refine ⟨hs, ?_, trivial⟩
    rw [Registered, show (a.node base T oid norm).fn = .leaf a.leaf by rw [node_eq]]
    refine ⟨rfl, ?_⟩
    intro B c norm' e v hs' ho hv'
    have hv' : (allSome (((a.node base T oid norm).obs.map env.idx).map (at_ e))).bind
      (f a.leaf ((a.node base T oid norm).params.map env.val) (a.node base T oid norm).consts) =
        some v := hv'
    rw [Option.bind_eq_some_iff] at hv'
    obtain ⟨xs, hxs, hv'⟩ := hv'
    have hn := fun norm => node_eq base T oid norm a
    have := hd a ha hi hv oid norm' env B c e xs
    rw [hn] at this
    rw [hn] at hs' ho hxs hv'
    rw [hn]
    have := this hs' ho hxs
    rw [hv'] at this
    exact this

/-- **C15 (violated by the code).** Whenever `VariableBinTransform1DPdf` or `InterHistPdf` returns a
value, it leaves the cursor at its own data, so the next PDF is evaluated with this one's data. -/
theorem C15_violation_cursor_unmoved (T : HistTables F) (k : BasicLeaf)
    (hk : k = .varBin ∨ k = .interHist) (B : Bufs F) (c c' : Cursor) (e : Evt F) (v : F)
    (h : basicDev T k B c e = some (v, c')) :
    c' = c ∧ ∀ np nk no, c' ≠ c.incrementIndex 1 np nk no 1 := by
  have hc : c' = c := by
    rcases hk with rfl | rfl
    · simp only [basicDev, devVarBin, bind, Option.bind_eq_some_iff] at h
      obtain ⟨_, _, _, _, _, _, _, _, h⟩ := h
      exact (congrArg Prod.snd (Option.some.inj h)).symm
    · simp only [basicDev, devInterHist, bind, Option.bind_eq_some_iff] at h
      obtain ⟨_, _, _, _, _, _, _, _, _, _, h⟩ := h
      exact (congrArg Prod.snd (Option.some.inj h)).symm
  refine ⟨hc, fun np nk no hcc => ?_⟩
  rw [hc] at hcc
  have := congrArg Cursor.fn hcc
  simp [Cursor.incrementIndex] at this

/-- **C15 (violated by the code).** An `InterHistPdf` over one to four observables ignores the event:
it always returns `0·(first bin) / 0`. -/
theorem C15_violation_interhist_constant (base : Lib F) (T : HistTables F) (number : Nat)
    (axes : List (Axis F)) (haxes : 1 ≤ axes.length) (haxes' : axes.length ≤ 4)
    (h0 : Exact F number) (h1 : toInt (sub (ofNat axes.length) (lit 1) : F) = axes.length - 1)
    (hlt : FpMath.lt (lit 0 : F) (lit 0) = false) (first : F) (rest : List F)
    (hT : T.inter number = some (first :: rest))
    (oid : Nat) (norm : F) (env : Env F) (B : Bufs F) (c : Cursor)
    (ho : OwnData B c [] (BasicCall.interHist number axes).consts
      (((BasicCall.interHist number axes).node base T oid norm).obs.map env.idx) norm) (e : Evt F) :
    basicDev T .interHist B c e =
      some (div (add (lit 0) (mul (lit 0) first)) (add (lit 0) (lit 0)), c) := by
  obtain ⟨-, h2, -, -⟩ := ho
  have k0 := h2 1 (by simp [BasicCall.consts])
  have k1 := h2 2 (by simp [BasicCall.consts])
  have k0 : c.getConstant B 0 = some (ofNat number) := by
    simpa [BasicCall.consts, Cursor.getConstant] using k0
  have k1 : c.getConstant B 1 = some (ofNat axes.length) := by
    simpa [BasicCall.consts, Cursor.getConstant] using k1
  have hz : (((axes.length : Int) - 1).tdiv 4).toNat = 0 := by
    have : axes.length = 1 ∨ axes.length = 2 ∨ axes.length = 3 ∨ axes.length = 4 := by omega
    rcases this with h | h | h | h <;> rw [h] <;> rfl
  simp only [basicDev, devInterHist, k0, k1, bind, Option.bind, h1, hz, interBins, interAxes, forUpto,
    exact_ofNat _ h0, Int.toNat_natCast, hT, pow_zero, gt, hlt]
  rfl

end

section
attribute [local instance] Demo.fpq

/-- **C15 (violated by the code) for an observable passed twice.** `registerObservable` drops the
second one, the device function still reads two: with the same own data, the value depends on what
happens to be stored behind it. -/
theorem C15_violation_duplicate_observable :
    let a : BasicCall ℚ := .corrGaussian 7 7 0 1 2 3 4
    let n := a.node Demo.lib Demo.noHist 0 1
    let ps : List ℚ := n.params.map fun v => (v : ℚ) + 1
    ∃ B B' : Bufs ℚ, OwnData B Cursor.zero ps n.consts [0] 1 ∧ OwnData B' Cursor.zero ps n.consts [0] 1 ∧
      (basicDev Demo.noHist a.leaf B Cursor.zero Demo.evt).map Prod.fst ≠
        (basicDev Demo.noHist a.leaf B' Cursor.zero Demo.evt).map Prod.fst := by
  refine ⟨⟨[5, 1, 2, 3, 4, 5], [0], [1, 0, 0], [1, 1]⟩, ⟨[5, 1, 2, 3, 4, 5], [0], [1, 0, 1], [1, 1]⟩,
    ?_, ?_, ?_⟩
  · refine ⟨?_, ?_, ?_, ?_⟩ <;> intro k hk <;> revert k <;> decide +kernel
  · refine ⟨?_, ?_, ?_, ?_⟩ <;> intro k hk <;> revert k <;> decide +kernel
  · decide +kernel

/-- The hypotheses of C15 are met by a three-dimensional polynomial of degree 2 (13 parameters: three
offsets and ten coefficients) and by a Dalitz veto with two windows. -/
example : SoundCall (.multiPolynomial [0, 1, 2] [3, 4] [] 2 100 : BasicCall ℚ) ∧
    (BasicCall.multiPolynomial [0, 1, 2] [3, 4] [] 2 100 : BasicCall ℚ).params.length = 13 ∧
    SoundCall (.dalitzVeto 0 1 2 3 4 5 [⟨6, 7, 0⟩, ⟨8, 9, 2⟩] : BasicCall ℚ) := by
  refine ⟨⟨by decide, by decide +kernel⟩, by decide +kernel, ⟨by decide, exact_rat _⟩⟩

/-- `v0·Gaussian(x; v1, v2) + (1-v0)·Step(x; v1)`, a tree over GooFit's own basic PDFs, meets the
hypotheses of C13 and evaluates in full. -/
example : ∃ sem : LeafSem ℚ (basicLib Demo.lib Demo.noHist),
    let t : Pdf (basicLib Demo.lib Demo.noHist) := .mk ⟨0, .add, [0], [], [0], 1⟩
      [.mk ((BasicCall.gaussian 0 1 2).node Demo.lib Demo.noHist 1 (1/2)) [],
       .mk ((BasicCall.step 0 1 1).node Demo.lib Demo.noHist 2 (1/3)) []]
    WellFormed sem Demo.env t ∧ (denote sem Demo.env t Demo.evt).isSome ∧
    (callFunction (basicLib Demo.lib Demo.noHist)
      ((⟨⟨[], [], [], []⟩, [], fun _ => Cursor.zero⟩ : Host _).setIndices Demo.env t true).bufs
      ((⟨⟨[], [], [], []⟩, [], fun _ => Cursor.zero⟩ : Host _).setIndices Demo.env t true).table 3
      Cursor.zero Demo.evt).map Prod.fst = some (1/4 * (1 + (-1/2) * 8 * 8 / (3 * 3)) * (1/2) + 3/4 * 1 * (1/3)) := by
  obtain ⟨sem, h1, h2⟩ := C15_wellformed_partial Demo.lib Demo.noHist
  have hg := h2 (.gaussian 0 1 2) trivial (by decide) (by decide) 1 (1/2) Demo.env (Demo.sto _ _ _)
  have hs := h2 (.step 0 1 1) trivial (by decide) (by decide) 2 (1/3) Demo.env (Demo.sto _ _ _)
  refine ⟨sem, ⟨Demo.sto _ _ _, rfl, hg, hs, trivial⟩, ?_, by decide +kernel⟩
  have dg := h1 .gaussian [2, 3] [] [0] Demo.evt (by decide) (by decide) (by decide) (by decide)
  have ds := h1 .step [2] [1] [0] Demo.evt (by decide) (by decide) (by decide) (by decide)
  obtain ⟨vg, dg⟩ := Option.isSome_iff_exists.mp dg
  obtain ⟨vs, ds⟩ := Option.isSome_iff_exists.mp ds
  have e1 : denote sem Demo.env (.mk ((BasicCall.gaussian 0 1 2).node Demo.lib Demo.noHist 1 (1/2)) [])
      Demo.evt = some vg := dg
  have e2 : denote sem Demo.env (.mk ((BasicCall.step 0 1 1).node Demo.lib Demo.noHist 2 (1/3)) [])
      Demo.evt = some vs := ds
  show (Option.bind (allSome
    [denote sem Demo.env (.mk ((BasicCall.gaussian 0 1 2).node Demo.lib Demo.noHist 1 (1/2)) []) Demo.evt,
     denote sem Demo.env (.mk ((BasicCall.step 0 1 1).node Demo.lib Demo.noHist 2 (1/3)) []) Demo.evt])
    _).isSome
  rw [e1, e2]
  rfl

end
end GooFit
