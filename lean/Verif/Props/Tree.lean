import Verif.Lemmas.TreeHost
import Verif.Model.FpField
import Verif.Model.DataSet
import Mathlib.Tactic.Linarith
/-!
# Properties of PDF trees: C13, C14, C16, C17, C18, C28, C42, C46

The statements use `Spec.denote` (the recursive definition of a tree's value) and
`Spec.WellFormed` (every PDF was built by its constructor and basic PDFs meet C15).
-/
set_option autoImplicit false
namespace GooFit
open Spec FpOps
variable {F : Type} [FpOps F] {L : Lib F}

/-! ### A small library used in the examples: two basic PDFs over exact rationals -/
namespace Demo

/-- `lin`: parameter times observable; `val`: the observable itself. -/
inductive Leaf where
  | lin
  | val
  deriving DecidableEq

/-- Device functions written like those of `src/PDFs/basic`. -/
def dev : Leaf → Dev ℚ
  | .lin => fun B c e => do
    let p ← c.getParameter B 0
    let id ← c.getObservable B 0
    let x ← e.read id
    return (p * x, c.incrementIndex 1 1 0 1 1)
  | .val => fun B c e => do
    let id ← c.getObservable B 0
    let x ← e.read id
    return (x, c.incrementIndex 1 0 0 1 1)

/-- The example library. -/
def lib : Lib ℚ where
  Leaf := Leaf
  dev := dev
  conv := fun _ x => some (x + 1)
  inDalitz := fun a b => decide (a + b < 5)
  wave := fun i _ _ => some ((i : ℚ) + 1, 0)
  Metric := Bool
  metric := fun m v _ norm => some (if m then v * norm else 1000)

/-- What the two basic PDFs compute. -/
def sem : LeafSem ℚ lib := fun k ps ks os e =>
  match k, ps, ks, os with
  | .lin, [p], [], [o] => (at_ e o).map (p * ·)
  | .val, [], [], [o] => at_ e o
  | _, _, _, _ => none

/-- A `lin` PDF of variable `v` and observable `o`. -/
def lin (oid v o : Nat) (norm : ℚ) : Pdf lib := .mk ⟨oid, .leaf .lin, [v], [], [o], norm⟩ []
/-- A `val` PDF of observable `o`. -/
def val (oid o : Nat) : Pdf lib := .mk ⟨oid, .leaf .val, [], [], [o], 1⟩ []

theorem lin_ok (p : ℚ) (o : Int) : LeafOK sem Leaf.lin [p] [] [o] := by
  intro B c norm e v hs ho hv
  obtain ⟨h1, h2, h3, h4⟩ := ho
  have hp := h1 1 (by simp)
  have hq := h3 1 (by simp)
  have hx : toInt (ofInt o : ℚ) = o := exact_rat o
  simp only [sem, at_, Option.map_eq_some_iff] at hv
  obtain ⟨x, hx1, hx2⟩ := hv
  subst hx2
  show dev Leaf.lin B c e = _
  simp only [List.getElem?_cons_succ, List.getElem?_cons_zero, List.map_cons] at hp hq
  simp only [dev, Cursor.getParameter, Cursor.getObservable, Evt.read, bind, Option.bind,
    Nat.add_zero]
  rw [hp, hq]
  simp only [hx, hx1]
  rfl

theorem val_ok (o : Int) : LeafOK sem Leaf.val [] [] [o] := by
  intro B c norm e v hs ho hv
  obtain ⟨h1, h2, h3, h4⟩ := ho
  have hq := h3 1 (by simp)
  have hx : toInt (ofInt o : ℚ) = o := exact_rat o
  simp only [sem, at_] at hv
  show dev Leaf.val B c e = _
  simp only [List.getElem?_cons_succ, List.getElem?_cons_zero, List.map_cons] at hq
  simp only [dev, Cursor.getObservable, Evt.read, bind, Option.bind, Nat.add_zero]
  rw [hq]
  simp only [hx, hv]
  rfl

theorem sto (np nk : Nat) (os : List Int) : Storable ℚ np nk os :=
  ⟨exact_rat _, exact_rat _, exact_rat _, exact_rat _, fun _ _ => exact_rat _⟩

theorem lin_wf (env : Env ℚ) (oid v o : Nat) (norm : ℚ) : WellFormed sem env (lin oid v o norm) :=
  ⟨sto _ _ _, ⟨rfl, lin_ok _ _⟩, trivial⟩
theorem val_wf (env : Env ℚ) (oid o : Nat) : WellFormed sem env (val oid o) :=
  ⟨sto _ _ _, ⟨rfl, val_ok _⟩, trivial⟩

/-- `v0·lin(v1;x) + (1-v0)·(lin(v1;x)·lin(v2;y))` with some normalisations. -/
def tree : Pdf lib :=
  .mk ⟨0, .add, [0], [], [0, 1], 1⟩
    [lin 1 1 0 (1/2), .mk ⟨2, .prod, [], [2], [0, 1], 1/3⟩ [lin 3 1 0 (1/5), lin 4 2 1 (1/7)]]

/-- `v0 = 1/4`, `v1 = 2`, `v2 = 3`; observable `o` at event position `o`. -/
def env : Env ℚ := ⟨fun v => if v = 0 then 1/4 else if v = 1 then 2 else 3, fun o => o⟩

/-- The event `x = 10, y = 11`. -/
def evt : Evt ℚ := fun k => if k = 0 then some 10 else if k = 1 then some 11 else none

theorem tree_wf (env : Env ℚ) : WellFormed sem env tree :=
  ⟨sto _ _ _, rfl, lin_wf _ _ _ _ _, ⟨sto _ _ _, ⟨rfl, rfl, exact_rat _⟩,
    lin_wf _ _ _ _ _, lin_wf _ _ _ _ _, trivial⟩, trivial⟩

/-- Empty global arrays. -/
def host : Host lib := ⟨⟨[], [], [], []⟩, [], fun _ => Cursor.zero⟩

end Demo

/-! ### C13 -/

/-- **C13.** After the tree has been flattened into the global arrays, evaluating the top PDF at
an event returns the value of the recursive definition, whatever was in the arrays before. -/
theorem C13_tree_value (sem : LeafSem F L) (env : Env F) (t : Pdf L) (m : L.Metric) (h₀ : Host L)
    (e : Evt F) (v : F) (fuel : Nat) (hfuel : t.size ≤ fuel)
    (hwf : WellFormed sem env t) (hv : denote sem env t e = some v) :
    (callFunction L (h₀.setIndices env t m).bufs (h₀.setIndices env t m).table fuel Cursor.zero e).map
      Prod.fst = some v := by
  rw [callFunction_works fuel t hfuel hwf Cursor.zero e v (treeAt_setIndices t m h₀) hv]
  rfl

/-- **C13**, for every PDF inside the tree: the `k`-th PDF in storage order, reached by stepping the
cursor `k` times, evaluates to its own definition. -/
theorem C13_component_value (sem : LeafSem F L) (env : Env F) (t : Pdf L) (m : L.Metric)
    (h₀ : Host L) (k : Nat) (u : Pdf L) (hk : (subtrees t)[k]? = some u)
    (e : Evt F) (v : F) (fuel : Nat) (hfuel : u.size ≤ fuel)
    (hwf : WellFormed sem env t) (hv : denote sem env u e = some v) :
    ∃ c, Cursor.skip (h₀.setIndices env t m).bufs k Cursor.zero = some c ∧
      (callFunction L (h₀.setIndices env t m).bufs (h₀.setIndices env t m).table fuel c e).map
        Prod.fst = some v ∧
      c.getNormalization (h₀.setIndices env t m).bufs 0 = some u.node.norm := by
  obtain ⟨c, h1, h2, h3, _, _⟩ := subtrees_at t Cursor.zero (treeAt_setIndices t m h₀) hwf k u hk
  refine ⟨c, h1, ?_, ?_⟩
  · rw [callFunction_works fuel u hfuel h3 c e v h2 hv]
    rfl
  · obtain ⟨n, cs⟩ := u
    rw [TreeAt] at h2
    exact h2.1.nrm_get

/-- The hypotheses of C13 are met by a nested tree, whose value is
`1/4·(2·10)·(1/2) + 3/4·((2·10)·(1/5)·(3·11)·(1/7))·(1/3)`. -/
example : WellFormed Demo.sem Demo.env Demo.tree ∧
    denote Demo.sem Demo.env Demo.tree Demo.evt =
      some (1/4 * (2*10) * (1/2) + 3/4 * ((2*10) * (1/5) * ((3*11) * (1/7))) * (1/3)) ∧
    (subtrees Demo.tree).length = 5 := by
  refine ⟨Demo.tree_wf _, ?_, rfl⟩
  decide +kernel

/-! ### C14 -/

/-- **C14.** The event operator applies the metric chosen by the fit control to the value of the
whole tree, with the top PDF's normalisation. -/
theorem C14_metric_applied (sem : LeafSem F L) (env : Env F) (t : Pdf L) (m : L.Metric) (h₀ : Host L)
    (e tail : Evt F) (v : F) (fuel : Nat) (hfuel : t.size ≤ fuel)
    (hwf : WellFormed sem env t) (hv : denote sem env t e = some v) :
    metricTaker L (h₀.setIndices env t m) fuel e tail = L.metric m v tail t.node.norm := by
  have hat := treeAt_setIndices (env := env) t m h₀
  have hc := callFunction_works fuel t hfuel hwf Cursor.zero e v hat hv
  have hn : Cursor.zero.getNormalization (h₀.setIndices env t m).bufs 0 = some t.node.norm := by
    obtain ⟨n, cs⟩ := t
    rw [TreeAt] at hat
    exact hat.1.nrm_get
  have hl : (h₀.setIndices env t m).table[(Cursor.zero.adv t).fn]? = some (.metric m) := by
    rw [table_setIndices, Cursor.adv_fn, List.getElem?_append_right]
    · have : (t.flat (fnOf (L := L))).length = t.size := Pdf.flat_length_one _ (fun _ => rfl) t
      simp [this, Cursor.zero]
    · have : (t.flat (fnOf (L := L))).length = t.size := Pdf.flat_length_one _ (fun _ => rfl) t
      simp [this, Cursor.zero]
  simp only [metricTaker, hn, hc, bind, Option.bind, hl]

example : metricTaker Demo.lib (Demo.host.setIndices Demo.env Demo.tree true) 5 Demo.evt Demo.evt =
    some ((1/4 * (2*10) * (1/2) + 3/4 * ((2*10) * (1/5) * ((3*11) * (1/7))) * (1/3)) * 1) := by
  rw [C14_metric_applied Demo.sem Demo.env Demo.tree true Demo.host Demo.evt Demo.evt
    (1/4 * (2*10) * (1/2) + 3/4 * ((2*10) * (1/5) * ((3*11) * (1/7))) * (1/3)) 5 (by decide)
    (Demo.tree_wf _) (by decide +kernel)]
  rfl

/-! ### C46: the sharing form of ConvolutionPdf -/

/-- A lone convolution built with the sharing constructor (`numOthers = 0`): workspace number 0 is
registered twice (`src/PDFs/combine/ConvolutionPdf.cu:204-210`). -/
def Demo.sharedConv : Pdf Demo.lib :=
  .mk ⟨0, .convShared, [], [-10, 10, 1/100, 0, 0], [0], 1⟩ [Demo.lin 1 0 0 (1/2), Demo.lin 2 1 0 (1/3)]

/-- **C46 (violated by the code).** The definition gives the convolution (here `x + 1 = 11`) times
the two components' normalisations `1/2` and `1/3`; the sharing form multiplies by its own
normalisation and by the `1` stored after it instead. -/
theorem C46_violation_shared_value :
    denote Demo.sem Demo.env Demo.sharedConv Demo.evt = some (11 * (1/2) * (1/3)) ∧
    (callFunction Demo.lib (Demo.host.setIndices Demo.env Demo.sharedConv true).bufs
      (Demo.host.setIndices Demo.env Demo.sharedConv true).table 3 Cursor.zero Demo.evt).map Prod.fst =
        some 11 := by
  constructor <;> decide +kernel

/-- **C46 (violated by the code).** Because the sharing form leaves the cursor where it was, the
function looked up as the metric is the convolution itself: calling it as a metric is undefined. -/
theorem C46_violation_shared_metric :
    metricTaker Demo.lib (Demo.host.setIndices Demo.env Demo.sharedConv true) 3 Demo.evt Demo.evt =
      none := by
  decide +kernel

/-- **C46, partial.** What does hold of the sharing form, at the top of a tree: the sum over its own
workspaces, multiplied by its own normalisation.  Missing: the components' normalisations and the
cursor, see the violations. -/
theorem C46_shared_value_partial (env : Env F) (n : Node L) (a b : Pdf L) (m : L.Metric)
    (h₀ : Host L) (e : Evt F) (lo hi step ws : F) (rest : List F) (o : Nat) (x v : F) (fuel : Nat)
    (hfn : n.fn = .convShared) (hk : n.consts = lo :: hi :: step :: ws :: rest) (ho : n.obs = [o])
    (hx : Exact F (env.idx o)) (he : at_ e (env.idx o) = some x)
    (hv : L.conv [lo, hi, step, ws] x = some v) :
    (callFunction L (h₀.setIndices env (.mk n [a, b]) m).bufs
      (h₀.setIndices env (.mk n [a, b]) m).table (fuel + 1) Cursor.zero e).map Prod.fst =
      some (mul (mul v n.norm) (lit 1)) := by
  have hat := treeAt_setIndices (env := env) (.mk n [a, b]) m h₀
  rw [TreeAt, TreesAt, TreesAt] at hat
  obtain ⟨hn, ha, -, -⟩ := hat
  have hna := ha.node
  have e0 := hn.fn_get
  have e1 := hn.obs_get 0 (by simp [ho])
  have k0 := hn.con_get 0 (by simp [hk])
  have k1 := hn.con_get 1 (by simp [hk])
  have k2 := hn.con_get 2 (by simp [hk])
  have k3 := hn.con_get 3 (by simp [hk])
  have n1 := hn.nrm_get
  have n2 := hna.nrm.get_zero
  simp only [hk, List.getElem?_cons_zero, List.getElem?_cons_succ] at k0 k1 k2 k3
  rw [ho] at e1
  simp only [List.map_cons, List.map_nil, List.getElem?_cons_zero] at e1
  have er : e.read (ofInt (env.idx o)) = some x := by
    unfold Evt.read; rw [hx]; exact he
  simp only [Cursor.getNormalization, Nat.add_zero] at n1
  have n2' : (h₀.setIndices env (.mk n [a, b]) m).bufs.nrm[Cursor.zero.nrm + 2]? = some (lit 1) := by
    simpa [Cursor.advN, Cursor.incrementIndex, nrmOf] using n2
  rw [callFunction, e0, hfn]
  simp only [deviceConvShared, e1, k0, k1, k2, k3, er, hv, n1, n2', bind, Option.bind]
  rfl

/-! ### C16 -/

/-- **C16, partial.** If no PDF object is used twice in the tree, then after `updateParameters` the
arrays are exactly those a fresh flattening with the new values would give: every use of every
variable has its new value and nothing else changed.  Missing: trees in which one PDF object occurs
at two places, see `C16_violation_shared_component`. -/
theorem C16_update_equals_reflatten_partial (env env' : Env F) (hidx : env'.idx = env.idx)
    (t : Pdf L) (m : L.Metric) (h₀ : Host L) (hobj : ((nodes t).map Node.oid).Nodup) :
    ((h₀.setIndices env t m).updateParameters env' t).bufs = (h₀.setIndices env' t m).bufs ∧
    ((h₀.setIndices env t m).updateParameters env' t).table = (h₀.setIndices env' t m).table := by
  have hnd : t.oids.Nodup := by
    have : t.oids = (nodes t).map Node.oid := by
      have h := flat_eq_nodes (fun n : Node L => [n.oid]) t.size t (Nat.le_refl _)
      rw [Pdf.oids, h]
      generalize nodes t = l
      induction l with
      | nil => rfl
      | cons a l ih => simpa using ih
    rw [this]; exact hobj
  have hs := populate_slotsAt env t h₀.clear hnd
  obtain ⟨b1, t1⟩ := populate_eq (env := env) t h₀.clear
  obtain ⟨b2, t2⟩ := populate_eq (env := env') t h₀.clear
  have hu := updateParameters_eq env env' (Host.populate env t h₀.clear).slots t.size t
    (Nat.le_refl _) _ [] [] hs rfl
  have hobs : t.flat (obsOf env') = t.flat (obsOf env) := by
    rw [flat_eq_nodes _ t.size t (Nat.le_refl _), flat_eq_nodes _ t.size t (Nat.le_refl _)]
    unfold obsOf; rw [hidx]
  constructor
  · simp only [Host.updateParameters, Host.setIndices]
    rw [b1, b2]
    simp only [Host.clear, List.nil_append, hobs]
    simpa [Host.clear] using hu
  · simp only [Host.updateParameters, Host.setIndices, t1, t2]

/-- **C16, partial.** The evaluation that follows an update therefore uses the new values
everywhere. -/
theorem C16_update_evaluates_partial (sem : LeafSem F L) (env env' : Env F)
    (hidx : env'.idx = env.idx) (t : Pdf L) (m : L.Metric) (h₀ : Host L)
    (hobj : ((nodes t).map Node.oid).Nodup) (e : Evt F) (v : F) (fuel : Nat) (hfuel : t.size ≤ fuel)
    (hwf : WellFormed sem env' t) (hv : denote sem env' t e = some v) :
    (callFunction L ((h₀.setIndices env t m).updateParameters env' t).bufs
      ((h₀.setIndices env t m).updateParameters env' t).table fuel Cursor.zero e).map Prod.fst =
      some v := by
  obtain ⟨h1, h2⟩ := C16_update_equals_reflatten_partial env env' hidx t m h₀ hobj
  rw [h1, h2]
  exact C13_tree_value sem env' t m h₀ e v fuel hfuel hwf hv

/-- New values `v0 = 0`, `v1 = 5`, `v2 = 3`. -/
def Demo.env' : Env ℚ := ⟨fun v => if v = 0 then 0 else if v = 1 then 5 else 3, fun o => o⟩

/-- In the demo tree variable 1 occurs in two PDFs, all objects are distinct, and the update changes
both occurrences. -/
example : ((nodes Demo.tree).map Node.oid).Nodup ∧ Demo.env'.idx = Demo.env.idx ∧
    denote Demo.sem Demo.env' Demo.tree Demo.evt ≠ denote Demo.sem Demo.env Demo.tree Demo.evt := by
  refine ⟨by decide, rfl, by decide +kernel⟩

/-- The product of one PDF object with itself. -/
def Demo.square : Pdf Demo.lib :=
  .mk ⟨0, .prod, [], [2], [0], 1⟩ [Demo.lin 1 1 0 1, Demo.lin 1 1 0 1]

/-- **C16 (violated by the code).** When one PDF object is used at two places, its index members
describe only the last place, so an update writes only there: the square of `v1·x` with `v1`
changed from 2 to 5 at `x = 10` evaluates to `20·50` instead of `50·50`. -/
theorem C16_violation_shared_component :
    WellFormed Demo.sem Demo.env' Demo.square ∧
    denote Demo.sem Demo.env' Demo.square Demo.evt = some 2500 ∧
    (callFunction Demo.lib
      ((Demo.host.setIndices Demo.env Demo.square true).updateParameters Demo.env' Demo.square).bufs
      ((Demo.host.setIndices Demo.env Demo.square true).updateParameters Demo.env' Demo.square).table
      3 Cursor.zero Demo.evt).map Prod.fst = some 1000 := by
  refine ⟨⟨Demo.sto _ _ _, ⟨rfl, rfl, exact_rat _⟩, Demo.lin_wf _ _ _ _ _, Demo.lin_wf _ _ _ _ _,
    trivial⟩, ?_, ?_⟩ <;> decide +kernel

/-! ### C17 -/

omit [FpOps F] in
theorem gather_nodup (own : Node L → List Nat) (t : Pdf L) (h : (own t.node).Nodup) :
    (gather own t).Nodup := by
  obtain ⟨n, cs⟩ := t
  rw [gather]
  exact nodup_gatherList own cs _ h

/-- **C17** for observables: whatever observables were registered, in whatever order and however
often, `getObservables` lists every observable used in the tree, nothing else, each once. -/
theorem C17_getObservables (n₀ : Node L) (hfresh : n₀.obs = []) (history : List Nat)
    (cs : List (Pdf L)) :
    let root := history.foldl Node.registerObservable n₀
    (Pdf.getObservables (.mk root cs)).Nodup ∧
    ∀ o, o ∈ Pdf.getObservables (.mk root cs) ↔
      o ∈ history ∨ ∃ t ∈ cs, ∃ n ∈ nodes t, o ∈ n.obs := by
  have key : ∀ (hs : List Nat) (n : Node L),
      (hs.foldl Node.registerObservable n).obs = hs.foldl pushNew n.obs := by
    intro hs
    induction hs with
    | nil => intro n; rfl
    | cons a hs ih =>
      intro n
      rw [List.foldl_cons, List.foldl_cons, ih]
      congr 1
      unfold Node.registerObservable pushNew
      split <;> rfl
  intro root
  have hroot : root.obs = history.foldl pushNew [] := by
    show (history.foldl Node.registerObservable n₀).obs = _
    rw [key, hfresh]
  constructor
  · apply gather_nodup
    show root.obs.Nodup
    rw [hroot]
    exact nodup_foldl_pushNew history List.nodup_nil
  · intro o
    rw [Pdf.getObservables, gather, mem_gatherList, hroot, mem_foldl_pushNew]
    have hfl : ∀ ts : List (Pdf L), o ∈ Pdf.flatList Node.obs ts ↔
        ∃ t ∈ ts, ∃ n ∈ nodes t, o ∈ n.obs := by
      intro ts
      induction ts with
      | nil => simp [Pdf.flatList]
      | cons a ts ih => rw [Pdf.flatList, List.mem_append, ih, mem_flat_iff]; simp
    rw [hfl]
    simp

/-- **C17, partial**, for parameters: `getParameters` lists exactly the variables used in the tree,
and each once provided the top PDF itself does not use a variable in two roles.  Missing: that case,
see the violation. -/
theorem C17_getParameters_partial (t : Pdf L) :
    (t.node.params.Nodup → t.getParameters.Nodup) ∧
    ∀ p, p ∈ t.getParameters ↔ ∃ n ∈ nodes t, p ∈ n.params :=
  ⟨gather_nodup Node.params t, fun p => by rw [Pdf.getParameters, mem_gather, mem_flat_iff]⟩

example : Demo.tree.getParameters = [0, 1, 2] ∧ Demo.tree.getObservables = [0, 1] := by decide

/-- **C17 (violated by the code).** A PDF given the same variable for two of its parameters lists it
twice (registering does not check, `src/goofit/PdfBase.cpp:41`). -/
theorem C17_violation_repeated_parameter (n₀ : Node L) (hfresh : n₀.params = []) (v : Nat) :
    (Pdf.mk ((n₀.registerParameter v).registerParameter v) []).getParameters = [v, v] := by
  simp [Pdf.getParameters, gather, gatherList, Node.registerParameter, hfresh]

/-! ### C18 -/

omit [FpOps F] in
theorem idx_facts (os : List Nat) (hnd : os.Nodup) (idx₀ : Nat → Int) :
    ∀ o ∈ os, ∃ k : Nat, k < os.length ∧ os[k]? = some o ∧ setupObservables os 0 idx₀ o = (k : Int) := by
  intro o ho
  obtain ⟨k, hk, rfl⟩ := List.getElem_of_mem ho
  exact ⟨k, hk, by simp [hk], by simpa using setupObservables_get os hnd 0 idx₀ k hk⟩

/-- **C18.** Let every observable used in the tree be one of the top PDF's (true of every class that
gathers its components' observables, next theorem), and let the dataset know them.  After
`setData`, event `i` gives every PDF of the tree, for each of its observables, the value the dataset
has for that observable in row `i`, whatever the order of the observables in the dataset and
whatever indices they had before. -/
theorem C18_own_observable (t : Pdf L) (d : UDS F) (idx₀ : Nat → Int) (data : Nat → Nat → F)
    (hnd : t.node.obs.Nodup) (hall : ∀ n ∈ nodes t, ∀ o ∈ n.obs, o ∈ t.node.obs)
    (hdata : ∀ o ∈ t.node.obs, ∀ i, i < d.num → d.getValue o i = .val (data i o))
    (n : Node L) (hn : n ∈ nodes t) (o : Nat) (ho : o ∈ n.obs) (i : Nat) (hi : i < d.num) :
    let idx := setupObservables t.node.obs 0 idx₀
    ∃ x, at_ (eventView (eventArray idx t.node.obs data d.num) t.node.obs.length i) (idx o) = some x ∧
      d.getValue o i = .val x := by
  intro idx
  have hmem := hall n hn o ho
  obtain ⟨k, hk, hko, hki⟩ := idx_facts t.node.obs hnd idx₀ o hmem
  refine ⟨data i o, ?_, hdata o hmem i hi⟩
  have hinj : ∀ p ∈ t.node.obs, (idx p).toNat = (idx o).toNat → p = o := by
    intro p hp hpo
    obtain ⟨k', hk', hko', hki'⟩ := idx_facts t.node.obs hnd idx₀ p hp
    have e1 : (idx p).toNat = k' := by show (setupObservables _ _ _ _).toNat = _; rw [hki']; simp
    have e2 : (idx o).toNat = k := by show (setupObservables _ _ _ _).toNat = _; rw [hki]; simp
    rw [e1, e2] at hpo
    subst hpo
    rw [hko] at hko'
    exact (Option.some.inj hko').symm
  have hlt : ∀ p ∈ t.node.obs, (idx p).toNat < t.node.obs.length := by
    intro p hp
    obtain ⟨k', hk', hko', hki'⟩ := idx_facts t.node.obs hnd idx₀ p hp
    have e1 : (idx p).toNat = k' := by show (setupObservables _ _ _ _).toNat = _; rw [hki']; simp
    omega
  have hpos : 0 ≤ idx o := by show 0 ≤ setupObservables _ _ _ _; rw [hki]; omega
  have := fillEvents_get idx t.node.obs data o hmem hinj hlt d.num
    (List.replicate (d.num * t.node.obs.length) none) i hi (by simp)
  unfold at_
  rw [if_pos hpos]
  unfold eventView eventArray
  rw [this]
  rfl

/-- The observables gathered by a constructor (`observablesList = getObservables()`:
`AddPdf.cu:99,134`, `ProdPdf.cu:39`, `MappedPdf.cu:72`, `CompositePdf.cu:47`,
`EventWeightedAddPdf.cu:133`) cover the whole tree and repeat nothing, as `C18_own_observable`
requires. -/
theorem C18_gathering_covers (n : Node L) (cs : List (Pdf L)) (own : List Nat) (hown : own.Nodup)
    (hg : n.obs = gatherList Node.obs cs own) :
    (Pdf.mk n cs).node.obs.Nodup ∧
    ∀ n' ∈ nodes (.mk n cs), ∀ o ∈ n'.obs, o ∈ (Pdf.mk n cs).node.obs := by
  constructor
  · show n.obs.Nodup
    rw [hg]
    exact nodup_gatherList _ cs _ hown
  · intro n' hn' o ho
    show o ∈ n.obs
    have : o ∈ (Pdf.mk n cs).flat Node.obs := (mem_flat_iff _ _ _).2 ⟨n', hn', ho⟩
    rw [Pdf.flat, List.mem_append] at this
    rcases this with h | h
    · exact h
    · rw [hg, mem_gatherList]
      exact Or.inr h

/-- A dataset listing the demo tree's observables in the opposite order. -/
def Demo.data : UDS ℚ := ⟨[1, 0], [[11, 21], [10, 20]], 2⟩

example : Demo.tree.node.obs.Nodup ∧ (∀ n ∈ nodes Demo.tree, ∀ o ∈ n.obs, o ∈ Demo.tree.node.obs) ∧
    Demo.data.getValue 0 1 = .val 20 ∧ Demo.data.getValue 1 1 = .val 21 ∧
    Demo.tree.node.obs = gatherList Node.obs Demo.tree.comps [] := by
  refine ⟨by decide, by decide, rfl, rfl, by decide⟩

/-- A convolution in observable 0 whose resolution PDF also uses observable 1: the constructor gathers
the observables before it has components (`src/PDFs/combine/ConvolutionPdf.cu:163-166`), so the top
PDF knows only observable 0. -/
def Demo.convolution : Pdf Demo.lib :=
  .mk ⟨0, .conv, [], [-10, 10, 1/100, 0], [0], 1⟩ [Demo.lin 1 0 0 1, Demo.lin 2 1 1 1]

/-- **C18 (violated by the code)** when the top PDF is such a convolution: after `setData` the second
component's observable still has no position in the event (index -1), and evaluating the PDF reads
outside the event. -/
theorem C18_violation_convolution :
    let idx := setupObservables Demo.convolution.node.obs 0 (fun _ => -1)
    (∃ n ∈ nodes Demo.convolution, 1 ∈ n.obs ∧ idx 1 = -1) ∧
    callFunction Demo.lib
      (Demo.host.setIndices ⟨Demo.env.val, idx⟩ Demo.convolution true).bufs
      (Demo.host.setIndices ⟨Demo.env.val, idx⟩ Demo.convolution true).table 3 Cursor.zero Demo.evt =
        none := by
  intro idx
  refine ⟨⟨⟨2, .leaf .lin, [1], [], [1], 1⟩, by simp [nodes, subtrees, subtreesList,
    Demo.convolution, Demo.lin, Pdf.node], by simp, by decide⟩, ?_⟩
  decide +kernel

/-! ### C28 -/

/-- **C28**, rounding: with exact numbers the target chosen for the map's value is the integer nearest to it, the upper
one of two equally near. -/
theorem C28_nearest (K : Type) [Field K] [LinearOrder K] [IsStrictOrderedRing K] [FloorRing K] (x : K) :
    letI := FpOps.ofField K
    |x - (nearest x : ℤ)| ≤ 1 / 2 ∧ ∀ j : ℤ, |x - j| ≤ 1 / 2 → j ≤ nearest x := by
  letI := FpOps.ofField K
  have hn : nearest x = ⌊1 / 2 + x⌋ := by
    have h1 : nearest x = truncK ((⌊((1 / 2 : ℚ) : K) + x⌋ : ℤ) : K) := rfl
    rw [h1, show ((1 / 2 : ℚ) : K) = 1 / 2 by norm_num]
    unfold truncK
    split <;> simp
  rw [hn]
  constructor
  · rw [abs_le]
    have h1 := Int.floor_le (1 / 2 + x)
    have h2 := Int.lt_floor_add_one (1 / 2 + x)
    constructor <;> linarith
  · intro j hj
    rw [Int.le_floor]
    have := (abs_le.1 hj).1
    linarith

example : nearest (5 / 2 : ℚ) = 3 ∧ nearest (-1 / 4 : ℚ) = 0 := by constructor <;> decide +kernel

/-- **C28, partial.** When the map's value rounds to the number of a target, `MappedPdf` (with
arbitrarily nested targets) returns that target's value times its normalisation.  Missing: map values
out of range are not reported, see the violations. -/
theorem C28_branch_partial (sem : LeafSem F L) (env : Env F) (n : Node L) (map : Pdf L)
    (targets : List (Pdf L)) (m : L.Metric) (h₀ : Host L) (hfn : n.fn = .mapped)
    (hwf : WellFormed sem env (.mk n (map :: targets)))
    (e : Evt F) (r v : F) (k : Nat) (u : Pdf L) (fuel : Nat)
    (hfuel : (Pdf.mk n (map :: targets)).size ≤ fuel)
    (hr : denote sem env map e = some r) (hk : nearest r = (k : Int)) (hu : targets[k]? = some u)
    (hv : denote sem env u e = some v) :
    (callFunction L (h₀.setIndices env (.mk n (map :: targets)) m).bufs
      (h₀.setIndices env (.mk n (map :: targets)) m).table fuel Cursor.zero e).map Prod.fst =
      some (mul v u.node.norm) := by
  refine C13_tree_value sem env _ m h₀ e _ fuel hfuel hwf ?_
  rw [denote, hfn]
  simp only [meaning]
  rw [denoteList_eq]
  simp only [List.map_cons, compOf, hr, bind, Option.bind, hk]
  rw [if_pos (by omega)]
  simp [hu, compOf, hv]

/-- Map `val(x)`, targets `lin(v1;y)` and `lin(v1;y)·lin(v2;y)`. -/
def Demo.mapped : Pdf Demo.lib :=
  .mk ⟨0, .mapped, [], [2, 1, 3], [0, 1], 1⟩
    [Demo.val 1 0, Demo.lin 2 1 1 (1/2),
     .mk ⟨3, .prod, [], [2], [1], 1/3⟩ [Demo.lin 4 1 1 1, Demo.lin 5 2 1 1]]

theorem Demo.mapped_wf (env : Env ℚ) : WellFormed Demo.sem env Demo.mapped := by
  refine ⟨Demo.sto _ _ _, ⟨_, _, rfl, ?_, fun t _ => exact_rat _⟩, Demo.val_wf _ _ _,
    Demo.lin_wf _ _ _ _ _, ⟨Demo.sto _ _ _, ⟨rfl, rfl, exact_rat _⟩,
    Demo.lin_wf _ _ _ _ _, Demo.lin_wf _ _ _ _ _, trivial⟩, trivial⟩
  rfl

/-- The event with the given map value and `y = 10`. -/
def Demo.mapEvt (x : ℚ) : Evt ℚ := fun k => if k = 0 then some x else if k = 1 then some 10 else none

/-- Map value 0.9 selects target 1, the product `(2·10)·(3·10)` with normalisation `1/3`. -/
example : WellFormed Demo.sem Demo.env Demo.mapped ∧ nearest (9/10 : ℚ) = 1 ∧
    denote Demo.sem Demo.env Demo.mapped (Demo.mapEvt (9/10)) = some 200 := by
  refine ⟨Demo.mapped_wf _, by decide +kernel, by decide +kernel⟩

/-- **C28 (violated by the code).** A negative map value (-3) is evaluated with target 0 and no
error. -/
theorem C28_violation_negative :
    (callFunction Demo.lib (Demo.host.setIndices Demo.env Demo.mapped true).bufs
      (Demo.host.setIndices Demo.env Demo.mapped true).table 6 Cursor.zero
      (Demo.mapEvt (-3))).map Prod.fst = some 10 := by
  decide +kernel

/-- **C28 (violated by the code).** A map value beyond the last target (2, with targets 0 and 1)
steps the cursor past the whole PDF and reads outside its data. -/
theorem C28_violation_too_large :
    callFunction Demo.lib (Demo.host.setIndices Demo.env Demo.mapped true).bufs
      (Demo.host.setIndices Demo.env Demo.mapped true).table 6 Cursor.zero (Demo.mapEvt 2) = none := by
  decide +kernel

/-- **C28 (violated by the code).** Inside a larger tree the same map value is silently evaluated with
a PDF that is not one of the targets: the sibling after the `MappedPdf`. -/
theorem C28_violation_other_pdf :
    ∃ t : Pdf Demo.lib, t.comps = [Demo.mapped, Demo.lin 7 2 1 1, Demo.lin 8 0 1 1] ∧
      (callFunction Demo.lib (Demo.host.setIndices Demo.env t true).bufs
        (Demo.host.setIndices Demo.env t true).table 9 ⟨1, 1, 2, 3, 2⟩
        (Demo.mapEvt 2)).map Prod.fst = some 30 :=
  ⟨.mk ⟨9, .prod, [], [3], [0, 1], 1⟩ [Demo.mapped, Demo.lin 7 2 1 1, Demo.lin 8 0 1 1], rfl,
    by decide +kernel⟩

/-! ### C42 -/

/-- **C42, partial.** Evaluating a three-body amplitude gives its defined value, leaves the cursor
after all its PDFs (resonances and efficiency), and so the metric is applied next, for every
efficiency tree if the event is in the Dalitz region, and for every event if the efficiency is a
single PDF.  Missing: events outside the region with a composite efficiency, see the violation. -/
theorem C42_amplitude_cursor_partial (sem : LeafSem F L) (env : Env F) (n : Node L)
    (res : List (Pdf L)) (eff : Pdf L) (cache : F) (m : L.Metric) (h₀ : Host L)
    (hfn : n.fn = .amp3) (hres : ∀ r ∈ res, r.comps = [])
    (hp : n.params.length = 2 * res.length) (hc : n.consts = [ofNat res.length, cache])
    (hx : Exact F res.length) (ho : 3 ≤ n.obs.length)
    (hsto : Storable F n.params.length n.consts.length (n.obs.map env.idx))
    (hwf : WellFormedList sem env (res ++ [eff]))
    (e tail : Evt F) (v : F) (fuel : Nat) (hfuel : (Pdf.mk n (res ++ [eff])).size ≤ fuel)
    (hv : denote sem env (.mk n (res ++ [eff])) e = some v)
    (hcase : eff.comps = [] ∨ ∃ (o12 o13 : Nat) (os : List Nat) (m12 m13 : F),
      n.obs = o12 :: o13 :: os ∧ at_ e (env.idx o12) = some m12 ∧ at_ e (env.idx o13) = some m13 ∧
      L.inDalitz m12 m13 = true) :
    let h := h₀.setIndices env (.mk n (res ++ [eff])) m
    (∃ c, callFunction L h.bufs h.table fuel Cursor.zero e = some (v, c) ∧
      c.fn = (nodes (.mk n (res ++ [eff]))).length) ∧
    metricTaker L h fuel e tail = L.metric m v tail n.norm := by
  intro h
  have hat := treeAt_setIndices (env := env) (.mk n (res ++ [eff])) m h₀
  have hwl' := (wellFormedList_iff (sem := sem) (env := env) (res ++ [eff])).1 hwf
  cases fuel with
  | zero => simp [Pdf.size] at hfuel
  | succ fuel =>
    have hc1 : callFunction L h.bufs h.table (fuel + 1) Cursor.zero e =
        some (v, Cursor.zero.adv (.mk n (res ++ [eff]))) := by
      rw [TreeAt] at hat
      obtain ⟨hn, ht⟩ := hat
      have hw : Works sem env h.bufs h.table (callFunction L h.bufs h.table fuel) (res ++ [eff]) := by
        intro t htm c' e' v' hat' hd'
        refine callFunction_works fuel t ?_ (hwl' t htm) c' e' v' hat' hd'
        have := size_le_of_mem htm
        simp only [Pdf.size] at hfuel; omega
      rw [denote, denoteList_eq, hfn] at hv
      rw [callFunction, hn.fn_get, Cursor.adv, hfn]
      refine deviceAmp3_works hn hsto ht hwf rfl hres hp hc hx ho hw ?_ hv
      rcases hcase with h1 | ⟨o12, o13, os, m12, m13, h1, h2, h3, h4⟩
      · exact Or.inl h1
      · exact Or.inr ⟨m12, m13, by simp [h1, h2], by simp [h1, h3], h4⟩
    have hfl : ((Pdf.mk n (res ++ [eff])).flat (fnOf (L := L))).length = (Pdf.mk n (res ++ [eff])).size :=
      Pdf.flat_length_one _ (fun _ => rfl) _
    refine ⟨⟨_, hc1, ?_⟩, ?_⟩
    · rw [nodes, List.length_map, subtrees_length, Cursor.adv_fn]; simp [Cursor.zero]
    · have hn : Cursor.zero.getNormalization h.bufs 0 = some n.norm := by
        rw [TreeAt] at hat
        exact hat.1.nrm_get
      have hl : h.table[(Cursor.zero.adv (.mk n (res ++ [eff]))).fn]? = some (.metric m) := by
        show (h₀.setIndices env (.mk n (res ++ [eff])) m).table[_]? = _
        rw [table_setIndices, Cursor.adv_fn, List.getElem?_append_right]
        · simp [hfl, Cursor.zero]
        · simp [hfl, Cursor.zero]
      simp only [metricTaker, hn, hc1, bind, Option.bind, hl]

/-- An amplitude with two resonances and efficiency `lin(v1;m12)·lin(v2;m13)`; the last observable is
the event number. -/
def Demo.amp : Pdf Demo.lib :=
  .mk ⟨0, .amp3, [0, 1, 2, 0], [2, 0], [0, 1, 2], 1⟩
    [Demo.val 1 0, Demo.val 2 0,
     .mk ⟨3, .prod, [], [2], [0, 1], 1⟩ [Demo.lin 4 1 0 1, Demo.lin 5 2 1 1]]

/-- The event at `m12 = 1`, `m13 = y`, number 0. -/
def Demo.ampEvt (y : ℚ) : Evt ℚ :=
  fun k => if k = 0 then some 1 else if k = 1 then some y else if k = 2 then some 0 else none

/-- The hypotheses of C42 are met with a composite efficiency inside the region (`1 + 3 < 5`):
amplitude `(1/4 + 2i)·1 + (3 + i/4)·2`, efficiency `(2·1)·(3·3)`. -/
example : WellFormedList Demo.sem Demo.env Demo.amp.comps ∧
    denote Demo.sem Demo.env Demo.amp (Demo.ampEvt 3) =
      some (((1/4 + 6)^2 + (2 + 1/2)^2) * ((2*1) * (3*3))) ∧
    Demo.lib.inDalitz (1 : ℚ) (3 : ℚ) = true ∧ Demo.lib.inDalitz (1 : ℚ) (7 : ℚ) = false := by
  refine ⟨⟨Demo.val_wf _ _ _, Demo.val_wf _ _ _, ⟨Demo.sto _ _ _, ⟨rfl, rfl, exact_rat _⟩,
    Demo.lin_wf _ _ _ _ _, Demo.lin_wf _ _ _ _ _, trivial⟩, trivial⟩, ?_, ?_, ?_⟩ <;> decide +kernel

/-- **C42 (violated by the code).** Outside the Dalitz region (`m13 = 7`) the code steps over one PDF
only where the efficiency has three (`src/PDFs/physics/Amp3Body.cu:72-81`): the definition gives 0, but
the cursor ends inside the efficiency, and the function then called as the metric is one of the
efficiency's PDFs, which is undefined. -/
theorem C42_violation_composite_efficiency :
    denote Demo.sem Demo.env Demo.amp (Demo.ampEvt 7) = some 0 ∧
    (callFunction Demo.lib (Demo.host.setIndices Demo.env Demo.amp true).bufs
      (Demo.host.setIndices Demo.env Demo.amp true).table 6 Cursor.zero
      (Demo.ampEvt 7)).map (fun r => (r.1, r.2.fn)) = some (0, 4) ∧
    (nodes Demo.amp).length = 6 ∧
    metricTaker Demo.lib (Demo.host.setIndices Demo.env Demo.amp true) 6 (Demo.ampEvt 7)
      (Demo.ampEvt 7) = none := by
  refine ⟨?_, ?_, ?_, ?_⟩ <;> decide +kernel

end GooFit
