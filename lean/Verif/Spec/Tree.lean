import Verif.Model.Tree
/-!
# What a PDF tree means

The recursive mathematical definition of a tree's value at an event, with no arrays and no cursor.
`none` means the definition gives no value (an observable missing from the event, a map value that
is no valid target number, ...).
-/
set_option autoImplicit false
namespace GooFit.Spec
variable {F : Type} [FpOps F]
open FpOps

/-- Left-to-right sum. -/
def sum (xs : List F) : F := xs.foldl add (lit 0)
/-- Left-to-right product. -/
def prod (xs : List F) : F := xs.foldl mul (lit 1)

/-- Every element defined: the list of values. -/
def allSome {α : Type} : List (Option α) → Option (List α)
  | [] => some []
  | none :: _ => none
  | some x :: xs => (allSome xs).map (x :: ·)

/-- `w₁·v₁·n₁ + ... + w_k·v_k·n_k`, for weights, values and normalisations. -/
def weighted (ws vs ns : List F) : F :=
  sum ((ws.zip (vs.zip ns)).map fun p => mul (mul p.1 p.2.1) p.2.2)

/-- Mixture with the last weight `1 - Σ w`. -/
def mixture (ws vs ns : List F) (vLast nLast : F) : F :=
  add (weighted ws vs ns) (mul (mul (sub (lit 1) (sum ws)) vLast) nLast)

/-- Mixture divided by the sum of the weights. -/
def mixtureExt (ws vs ns : List F) : F := div (weighted ws vs ns) (sum ws)

/-- Product of normalised values. -/
def product (vs ns : List F) : F := prod ((vs.zip ns).map fun p => mul p.1 p.2)

/-- Complex `Σ (aᵢ + i bᵢ)(wᵢ + i vᵢ)`, accumulated left to right. -/
def coherent (cs ws : List (F × F)) : F × F :=
  (cs.zip ws).foldl (fun t p =>
    (add t.1 (sub (mul p.1.1 p.2.1) (mul p.1.2 p.2.2)),
     add t.2 (add (mul p.1.1 p.2.2) (mul p.1.2 p.2.1)))) (lit 0, lit 0)

/-- Consecutive pairs of a list. -/
def pairs {α : Type} : List α → List (α × α)
  | a :: b :: r => (a, b) :: pairs r
  | _ => []

/-- What a component offers to the PDF above it: its value as a function of the event, its
normalisation, and the event positions of its observables. -/
structure Comp (F : Type) where
  value : Evt F → Option F
  norm : F
  obs : List Int

/-- Value of observable at event position `i`. -/
def at_ (e : Evt F) (i : Int) : Option F := if 0 ≤ i then e i.toNat else none

/-- Values of all components at an event. -/
def values (cs : List (Comp F)) (e : Evt F) : Option (List F) := allSome (cs.map (·.value e))

/-- What a basic PDF computes from its own parameters, constants and observables. -/
abbrev LeafSem (F : Type) (L : Lib F) := L.Leaf → List F → List F → List Int → Evt F → Option F

/-- The meaning of one PDF given its own parameter values, constants, observable positions and
components. -/
def meaning {L : Lib F} (sem : LeafSem F L) (fn : Fn L) (ps ks : List F) (os : List Int)
    (cs : List (Comp F)) (e : Evt F) : Option F :=
  match fn with
  | .leaf k => sem k ps ks os e
  | .add => do
    let vs ← values cs e
    let last ← vs.getLast?
    let nLast ← (cs.map (·.norm)).getLast?
    return mixture ps vs (cs.map (·.norm)) last nLast
  | .addExt => do
    let vs ← values cs e
    return mixtureExt ps vs (cs.map (·.norm))
  | .prod => do
    let vs ← values cs e
    return product vs (cs.map (·.norm))
  | .mapped =>
    match cs with
    | [] => none
    | m :: targets => do
      let r ← m.value e
      if 0 ≤ nearest r then
        let c ← targets[(nearest r).toNat]?
        let v ← c.value e
        return mul v c.norm
      else none
  | .composite =>
    match cs with
    | [core, shell] => do
      let v ← core.value e
      let i ← shell.obs.head?
      -- the shell is evaluated at the core's value
      if 0 ≤ i ∧ i < 10 then
        shell.value (fun k => if (k : Int) = i then some v else none)
      else none
    | _ => none
  | .evtAdd => do
    let vs ← values cs e
    let ws ← allSome ((os.take (cs.length - 1)).map (at_ e))
    let last ← vs.getLast?
    let nLast ← (cs.map (·.norm)).getLast?
    return mixture ws vs (cs.map (·.norm)) last nLast
  | .evtAddExt => do
    let vs ← values cs e
    let ws ← allSome ((os.take cs.length).map (at_ e))
    return mixtureExt ws vs (cs.map (·.norm))
  | .conv =>
    match cs, os with
    | [model, resolution], [o] => do
      let _ ← model.value e
      let _ ← resolution.value e
      let x ← at_ e o
      let v ← L.conv ks x
      return mul (mul v model.norm) resolution.norm
    | _, _ => none
  | .convShared =>
    match cs, os with
    | [model, resolution], [o] => do
      let x ← at_ e o
      let v ← L.conv (ks.take 4) x
      return mul (mul v model.norm) resolution.norm
    | _, _ => none
  | .amp3 =>
    match os, ks, cs.getLast? with
    | o12 :: o13 :: oNum :: _, [_, cache], some eff => do
      let m12 ← at_ e o12
      let m13 ← at_ e o13
      if L.inDalitz m12 m13 then
        let num ← at_ e oNum
        let ws ← allSome ((List.range (cs.length - 1)).map fun i => L.wave i cache (nearest num))
        let a := coherent (pairs ps) ws
        let ε ← eff.value e
        return mul (add (mul a.1 a.1) (mul a.2 a.2)) ε
      else return lit 0
    | _, _, _ => none
  | .metric _ => none

mutual
/-- The value of a PDF tree at an event, for given values of the variables and positions of the
observables in the event. -/
def denote {L : Lib F} (sem : LeafSem F L) (env : Env F) : Pdf L → Evt F → Option F
  | .mk n cs => meaning sem n.fn (n.params.map env.val) n.consts (n.obs.map env.idx)
      (denoteList sem env cs)
/-- The components' values. -/
def denoteList {L : Lib F} (sem : LeafSem F L) (env : Env F) : List (Pdf L) → List (Comp F)
  | [] => []
  | .mk n cs :: rest =>
    ⟨denote sem env (.mk n cs), n.norm, n.obs.map env.idx⟩ :: denoteList sem env rest
end

mutual
/-- All PDFs of a tree, in the order they are stored: a PDF before its components. -/
def subtrees {L : Lib F} : Pdf L → List (Pdf L)
  | .mk n cs => .mk n cs :: subtreesList cs
/-- All PDFs below a list of components. -/
def subtreesList {L : Lib F} : List (Pdf L) → List (Pdf L)
  | [] => []
  | c :: cs => subtrees c ++ subtreesList cs
end

/-- The PDF objects of a tree. -/
def nodes {L : Lib F} (t : Pdf L) : List (Node L) := (subtrees t).map Pdf.node

/-! ### What the constructors guarantee -/

/-- An integer survives being stored as an `fptype` and read back as an `int` (for doubles: every
32-bit integer). -/
def Exact (F : Type) [FpOps F] (n : Int) : Prop := toInt (ofInt n : F) = n

/-- `xs` is stored in `l` from position `i` on. -/
def Slice {α : Type} (l : List α) (i : Nat) (xs : List α) : Prop :=
  ∀ k : Nat, k < xs.length → l[i + k]? = xs[k]?

/-- The four arrays hold, at the cursor, a PDF's counts followed by its parameters, constants and
observable positions, and its normalisation. -/
def OwnData (B : Bufs F) (c : Cursor) (ps ks : List F) (os : List Int) (norm : F) : Prop :=
  Slice B.par c.par (ofNat ps.length :: ps) ∧
  Slice B.con c.con (ofNat ks.length :: ks) ∧
  Slice B.obs c.obs (ofNat os.length :: os.map ofInt) ∧
  Slice B.nrm c.nrm [lit 1, norm]

/-- The counts and positions of a PDF survive storage. -/
def Storable (F : Type) [FpOps F] (np nk : Nat) (os : List Int) : Prop :=
  Exact F np ∧ Exact F nk ∧ Exact F os.length ∧ Exact F 1 ∧ ∀ o ∈ os, Exact F o

/-- A basic PDF's device function, started at its own data, returns what it should compute and
leaves the cursor right after its own data (property C15 for one PDF). -/
def LeafOK {L : Lib F} (sem : LeafSem F L) (k : L.Leaf) (ps ks : List F) (os : List Int) : Prop :=
  ∀ (B : Bufs F) (c : Cursor) (norm : F) (e : Evt F) (v : F),
    Storable F ps.length ks.length os → OwnData B c ps ks os norm → sem k ps ks os e = some v →
    L.dev k B c e = some (v, c.incrementIndex 1 ps.length ks.length os.length 1)

/-- What the constructor of each class registers (`src/PDFs/combine/AddPdf.cu:88-113`,
`ProdPdf.cu:33-42`, `MappedPdf.cu:57-77`, `CompositePdf.cu:44-47`,
`EventWeightedAddPdf.cu:98-135`, `ConvolutionPdf.cu:163-171`,
`src/PDFs/physics/Amp3Body.cu:154-168`). -/
def Registered {L : Lib F} (sem : LeafSem F L) (env : Env F) (n : Node L) (cs : List (Pdf L)) :
    Prop :=
  match n.fn with
  | .leaf k => cs = [] ∧ LeafOK sem k (n.params.map env.val) n.consts (n.obs.map env.idx)
  | .add => n.params.length + 1 = cs.length
  | .addExt => n.params.length = cs.length
  | .prod => n.params = [] ∧ n.consts = [ofNat cs.length] ∧ Exact F cs.length
  | .mapped => ∃ m ts, cs = m :: ts ∧
      n.consts = ofNat ts.length :: ts.map (fun t => ofNat t.size) ∧
      ∀ t ∈ ts, Exact F t.size
  | .composite => cs.length = 2
  | .evtAdd => n.params = [] ∧ n.consts = [ofNat cs.length] ∧ Exact F cs.length ∧
      cs ≠ [] ∧ cs.length ≤ n.obs.length + 1
  | .evtAddExt => n.params = [] ∧ n.consts = [ofNat cs.length] ∧ Exact F cs.length ∧
      cs.length ≤ n.obs.length
  | .conv => n.params = [] ∧ n.consts.length = 4 ∧ n.obs.length = 1 ∧ cs.length = 2
  | .convShared => False -- its device function does not follow the protocol, see C14
  | .amp3 => ∃ res eff cache, cs = res ++ [eff] ∧ (∀ r ∈ res, r.comps = []) ∧ eff.comps = [] ∧
      n.params.length = 2 * res.length ∧ n.consts = [ofNat res.length, cache] ∧
      Exact F res.length ∧ 3 ≤ n.obs.length
  | .metric _ => False

mutual
/-- Every PDF in the tree was built by its constructor. -/
def WellFormed {L : Lib F} (sem : LeafSem F L) (env : Env F) : Pdf L → Prop
  | .mk n cs => Storable F n.params.length n.consts.length (n.obs.map env.idx) ∧
      Registered sem env n cs ∧ WellFormedList sem env cs
/-- Every component was built by its constructor. -/
def WellFormedList {L : Lib F} (sem : LeafSem F L) (env : Env F) : List (Pdf L) → Prop
  | [] => True
  | c :: cs => WellFormed sem env c ∧ WellFormedList sem env cs
end

end GooFit.Spec
