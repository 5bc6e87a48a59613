import Verif.Spec.Norm
import Verif.Spec.Fit
import Verif.Model.Likelihood
/-!
# The density that a tree of sums and products of basic PDFs stands for

`f oid X` is the (unnormalised) value at `X` of the basic PDF object `oid`, a function of one
observable.
-/
set_option autoImplicit false
namespace GooFit.Spec
variable {K : Type} [Field K] [LinearOrder K] [IsStrictOrderedRing K] [FloorRing K]
attribute [local instance] FpOps.ofField
variable {L : Lib K}

/-- Number of cells of PDF object `oid`'s grid in observable `o`. -/
def gridCells (cfg : NormSetup L) (oid o : Nat) : Nat :=
  if cfg.fineness oid > 0 then (cfg.fineness oid).toNat else (cfg.range o).2.2

/-- Integral of a function over the range of observable `o`, on PDF object `oid`'s grid. -/
def gridOver (cfg : NormSetup L) (oid o : Nat) (g : K → K) : K :=
  gridIntegral1 (cfg.range o).1 (cfg.range o).2.1 (gridCells cfg oid o) g

/-- The integral a basic PDF of observable `o` is divided by: its analytic integral over the range of the
observable if it has one, otherwise the integral on its grid. -/
def basicIntegral (cfg : NormSetup L) (val : Nat → K) (f : Nat → K → K) (n : Node L) (k : L.Leaf)
    (o : Nat) : K :=
  match cfg.analytic k (n.params.map val) n.consts with
  | some integral => integral (cfg.range o).1 (cfg.range o).2.1
  | none => gridOver cfg n.oid o (f n.oid)

/-- `Σ wᵢ dᵢ`. -/
def combine (ws ds : List K) : K := (List.zipWith (· * ·) ws ds).sum

/-- Fractions: the given ones, and for the last component one minus the others. -/
def fractions (ws : List K) : List K := ws ++ [1 - ws.sum]

/-- The PDF is a basic one. -/
def IsBasic (c : Pdf L) : Prop := ∃ k, c.node.fn = .leaf k

/-- Value of a basic PDF of one observable, without normalisation. -/
def basicValue (f : Nat → K → K) (x : Nat → K) (c : Pdf L) : K :=
  match c.node.obs with
  | [o] => f c.node.oid (x o)
  | _ => 0

/-- The integral of a basic PDF of one observable. -/
def integralOf (cfg : NormSetup L) (val : Nat → K) (f : Nat → K → K) (c : Pdf L) : K :=
  match c.node.fn, c.node.obs with
  | .leaf k, [o] => basicIntegral cfg val f c.node k o
  | _, _ => 0

/-- The number of the component a map function chooses at the point: its value, rounded. -/
def chosen (f : Nat → K → K) (x : Nat → K) (m : Pdf L) : Int := ⌊basicValue f x m + 1 / 2⌋

mutual
/-- The normalised density at the point where observable `o` has the value `x o`:
a basic PDF divided by its integral; a sum of densities with the given fractions, the last being one
minus the others; a sum of densities with yields, divided by the total yield; such sums whose weights are
observables; a sum with common normalisation, basic PDFs divided by the integral of the sum; the density
that a map function chooses; the product of densities of different observables; the product of basic PDFs
of one observable divided by the integral of that product; a function of a function divided by its integral. -/
def density (cfg : NormSetup L) (val : Nat → K) (f : Nat → K → K) : Pdf L → (Nat → K) → K
  | .mk n cs, x =>
    match n.fn with
    | .leaf k =>
      match n.obs with
      | [o] => f n.oid (x o) / basicIntegral cfg val f n k o
      | _ => 0
    | .add =>
      if cfg.flags.common n.oid then
        combine (fractions (n.params.map val)) (cs.map (basicValue f x)) /
          combine (fractions (n.params.map val)) (cs.map (integralOf cfg val f))
      else combine (fractions (n.params.map val)) (densities cfg val f cs x)
    | .addExt =>
      if cfg.flags.common n.oid then
        combine (n.params.map val) (cs.map (basicValue f x)) /
          combine (n.params.map val) (cs.map (integralOf cfg val f))
      else combine (n.params.map val) (densities cfg val f cs x) / (n.params.map val).sum
    | .evtAdd => combine (fractions ((n.obs.take (cs.length - 1)).map x)) (densities cfg val f cs x)
    | .evtAddExt =>
      combine ((n.obs.take cs.length).map x) (densities cfg val f cs x) / ((n.obs.take cs.length).map x).sum
    | .mapped =>
      match cs with
      | [] => 0
      | m :: ts => ((densities cfg val f ts x)[(chosen f x m).toNat]?).getD 0
    | .composite =>
      match n.obs, cs with
      | [o], [core, shell] => f shell.node.oid (f core.node.oid (x o)) /
          gridOver cfg n.oid o fun X => f shell.node.oid (f core.node.oid X)
      | _, _ => 0
    | .prod =>
      match n.obs with
      | [o] =>
        if 2 ≤ cs.length then
          (cs.map fun c => f c.node.oid (x o)).prod /
            gridOver cfg n.oid o fun X => (cs.map fun c => f c.node.oid X).prod
        else (densities cfg val f cs x).prod
      | _ => (densities cfg val f cs x).prod
    | _ => 0
/-- The components' densities. -/
def densities (cfg : NormSetup L) (val : Nat → K) (f : Nat → K → K) :
    List (Pdf L) → (Nat → K) → List K
  | [], _ => []
  | c :: cs, x => density cfg val f c x :: densities cfg val f cs x
end

/-- A basic PDF of one observable `o`, one of `os`: its device function follows the protocol of C15,
and its value is `f` of the observable. -/
def BasicOK (sem : LeafSem K L) (val : Nat → K) (idx : Nat → Int) (f : Nat → K → K) (os : List Nat)
    (k : L.Leaf) (n : Node L) (o : Nat) : Prop :=
  n.obs = [o] ∧ o ∈ os ∧ LeafOK sem k (n.params.map val) n.consts [idx o] ∧
  ∀ (e : Evt K) (X : K), at_ e (idx o) = some X →
    sem k (n.params.map val) n.consts [idx o] e = some (f n.oid X)

/-- The grid of PDF object `oid` in observable `o` has cells. -/
def HasGrid (cfg : NormSetup L) (oid o : Nat) : Prop :=
  (cfg.range o).1 < (cfg.range o).2.1 ∧ 0 < gridCells cfg oid o

mutual
/-- The density is defined at the point: every map function that is evaluated chooses an existing component,
and weights that are observables and are divided by do not add up to zero. -/
def DefinedAt (f : Nat → K → K) (x : Nat → K) : Pdf L → Prop
  | .mk n cs =>
    match n.fn with
    | .mapped =>
      match cs with
      | [] => False
      | m :: ts => 0 ≤ chosen f x m ∧ DefinedNth f x (chosen f x m).toNat ts
    | .evtAddExt => ((n.obs.take cs.length).map x).sum ≠ 0 ∧ DefinedAll f x cs
    | .add | .addExt | .prod | .evtAdd => DefinedAll f x cs
    | _ => True
/-- Every component's density is. -/
def DefinedAll (f : Nat → K → K) (x : Nat → K) : List (Pdf L) → Prop
  | [] => True
  | c :: cs => DefinedAt f x c ∧ DefinedAll f x cs
/-- There is a component with this number, and its density is. -/
def DefinedNth (f : Nat → K → K) (x : Nat → K) : Nat → List (Pdf L) → Prop
  | _, [] => False
  | 0, c :: _ => DefinedAt f x c
  | i + 1, _ :: cs => DefinedNth f x i cs
end

mutual
/-- The tree is built from basic PDFs of one observable each by sums, extended sums, sums whose weights are
observables, products of PDFs of different observables, products of basic PDFs of the same observable,
maps with a basic PDF as map function, and composites of two basic PDFs of one observable.  Sums with common
normalisation have basic PDFs as components.  No separate normalisation is requested in a product of basic PDFs of the same
observable; what is divided by is positive; yields do not add up to zero. -/
def SumProduct (cfg : NormSetup L) (sem : LeafSem K L) (val : Nat → K) (idx : Nat → Int) (f : Nat → K → K)
    (os : List Nat) : Pdf L → Prop
  | .mk n cs =>
    match n.fn with
    | .leaf k => cs = [] ∧ ∃ o, BasicOK sem val idx f os k n o ∧ HasGrid cfg n.oid o ∧
        0 < basicIntegral cfg val f n k o
    | .add => n.params.length + 1 = cs.length ∧
        (cfg.flags.common n.oid = true → (∀ c ∈ cs, IsBasic c) ∧
          combine (fractions (n.params.map val)) (cs.map (integralOf cfg val f)) ≠ 0) ∧
        SumProducts cfg sem val idx f os cs
    | .addExt => n.params.length = cs.length ∧
        (cfg.flags.common n.oid = true → (∀ c ∈ cs, IsBasic c) ∧
          combine (n.params.map val) (cs.map (integralOf cfg val f)) ≠ 0) ∧
        (n.params.map val).sum ≠ 0 ∧ SumProducts cfg sem val idx f os cs
    | .prod => n.params = [] ∧ n.consts = [(cs.length : K)] ∧
        if n.obs.length = 1 ∧ 2 ≤ cs.length then
          ∃ o, n.obs = [o] ∧ HasGrid cfg n.oid o ∧
            (∀ c ∈ cs, cfg.flags.separate c.node.oid = false ∧
              ∃ k, c.node.fn = .leaf k ∧ c.comps = [] ∧ BasicOK sem val idx f os k c.node o) ∧
            0 < gridOver cfg n.oid o fun X => (cs.map fun c => f c.node.oid X).prod
        else (cs.map Pdf.getObservables).Pairwise List.Disjoint ∧ SumProducts cfg sem val idx f os cs
    | .evtAdd => n.params = [] ∧ n.consts = [(cs.length : K)] ∧ cs ≠ [] ∧ cs.length ≤ n.obs.length + 1 ∧
        (∀ o ∈ n.obs, o ∈ os) ∧ SumProducts cfg sem val idx f os cs
    | .evtAddExt => n.params = [] ∧ n.consts = [(cs.length : K)] ∧ cs.length ≤ n.obs.length ∧
        (∀ o ∈ n.obs, o ∈ os) ∧ SumProducts cfg sem val idx f os cs
    | .mapped =>
      match cs with
      | [] => False
      | m :: ts =>
        n.consts = (ts.length : K) :: ts.map (fun t => (t.size : K)) ∧
        (∃ k o, m.node.fn = .leaf k ∧ m.comps = [] ∧ BasicOK sem val idx f os k m.node o) ∧
        SumProducts cfg sem val idx f os ts
    | .composite =>
        (∃ o core shell, n.obs = [o] ∧ cs = [core, shell] ∧ core.node.obs = [o] ∧ shell.node.obs = [o] ∧
          IsBasic core ∧ IsBasic shell ∧ HasGrid cfg n.oid o ∧
          0 < gridOver cfg n.oid o fun X => f shell.node.oid (f core.node.oid X)) ∧
        SumProducts cfg sem val idx f os cs
    | _ => False
/-- Every component is. -/
def SumProducts (cfg : NormSetup L) (sem : LeafSem K L) (val : Nat → K) (idx : Nat → Int)
    (f : Nat → K → K) (os : List Nat) : List (Pdf L) → Prop
  | [] => True
  | c :: cs => SumProduct cfg sem val idx f os c ∧ SumProducts cfg sem val idx f os cs
end

/-- What the minimiser should get: the sum over the entries of the data of the control's formula
(C23) with the density there, and for an extended sum the Poisson term of the total yield. -/
def objective (log : K → K) (ctl : Control) (d : Data K) (p : (Nat → K) → K)
    (yields : Option (List K)) : K :=
  ((List.range (entries d)).map fun i => entryTerm log ctl d i (p (coord d i)) 0).sum +
    match yields with
    | none => 0
    | some ws => ws.sum - numEvents d * log ws.sum

/-- The yields, if the PDF at the root is an extended sum. -/
def yieldsOf (val : Nat → K) (t : Pdf L) : Option (List K) :=
  match t.node.fn with
  | .addExt => some (t.node.params.map val)
  | _ => none

end GooFit.Spec
