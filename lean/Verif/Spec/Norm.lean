import Verif.Spec.Tree
import Verif.Model.Norm
import Mathlib.Algebra.Module.LinearMap.Basic
import Mathlib.Algebra.Module.Pi
/-!
# What it means to be normalised
-/
set_option autoImplicit false
namespace GooFit.Spec
variable {K : Type} [Field K]

/-- Centre of cell `b` when `[lower, upper]` is cut into `n` equal cells. -/
def cellCenter (lower upper : K) (n b : Nat) : K := lower + ((b : K) + 1 / 2) * ((upper - lower) / n)

/-- Integral of a function over a grid in one observable: sum over the cells of the value at the
centre times the cell size. -/
def gridIntegral1 (lower upper : K) (n : Nat) (f : K → K) : K :=
  ((List.range n).map fun b => f (cellCenter lower upper n b) * ((upper - lower) / n)).sum

/-- Integral over a grid in several observables, one after the other; a point gives each observable
(by number) a value. -/
def gridIntegral : List (Nat × Range K) → ((Nat → K) → K) → (Nat → K) → K
  | [], f, x => f x
  | (o, r) :: rest, f, x =>
    gridIntegral1 r.lower r.upper r.bins fun v =>
      gridIntegral rest f (fun p => if p = o then v else x p)

/-- The event in which only the observable at position `i` has a value. -/
def onlyAt (i : Int) (v : K) : Evt K := fun k => if (k : Int) = i then some v else none

/-- The event at a point: observable `o` of the list `os` sits at position `idx o`. -/
def eventOf (os : List Nat) (idx : Nat → Int) (x : Nat → K) : Evt K := fun k =>
  (os.find? fun o => idx o = (k : Int)).map x

/-- The function depends only on the observables in the list. -/
def LooksOnlyAt {α : Type} (os : List Nat) (f : (Nat → K) → α) : Prop :=
  ∀ x y : Nat → K, (∀ o ∈ os, x o = y o) → f x = f y

section normalised
variable [FpOps K] {L : Lib K}

/-- A PDF is normalised with respect to an integral `I` over the events of `D`: it has a value at each
of them, and value times normalisation integrates to one.  (`I` looks at a function only on `D`.) -/
def Normalised (sem : LeafSem K L) (env : Env K) (D : Evt K → Prop) (I : (Evt K → K) →ₗ[K] K)
    (t : Pdf L) : Prop :=
  ∃ g : Evt K → K, (∀ e, D e → denote sem env t e = some (g e)) ∧ I g * t.node.norm = 1

mutual
/-- A sum of sums of ... of basic PDFs, each with as many weights as its constructor demands; no common
normalisation requested; every basic PDF has a value everywhere and an integral that is not zero; the
weights of an extended sum do not add up to zero. -/
def Mixture (sem : LeafSem K L) (env : Env K) (D : Evt K → Prop) (I : (Evt K → K) →ₗ[K] K)
    (flags : NormFlags) : Pdf L → Prop
  | .mk n cs =>
    match n.fn with
    | .leaf _ => ∃ g : Evt K → K, (∀ e, D e → denote sem env (.mk n cs) e = some (g e)) ∧ I g ≠ 0
    | .add => n.params.length + 1 = cs.length ∧ flags.common n.oid = false ∧
        MixtureList sem env D I flags cs
    | .addExt => n.params.length = cs.length ∧ flags.common n.oid = false ∧
        (n.params.map env.val).sum ≠ 0 ∧ MixtureList sem env D I flags cs
    | _ => False
/-- All components are such mixtures. -/
def MixtureList (sem : LeafSem K L) (env : Env K) (D : Evt K → Prop) (I : (Evt K → K) →ₗ[K] K)
    (flags : NormFlags) : List (Pdf L) → Prop
  | [] => True
  | c :: cs => Mixture sem env D I flags c ∧ MixtureList sem env D I flags cs
end

/-- `numeric` is the integral of a PDF's value, wherever the PDF has one. -/
def Integrates (sem : LeafSem K L) (env : Env K) (D : Evt K → Prop) (I : (Evt K → K) →ₗ[K] K)
    (numeric : Pdf L → K) : Prop :=
  ∀ (t : Pdf L) (g : Evt K → K), (∀ e, D e → denote sem env t e = some (g e)) → numeric t = I g

end normalised
end GooFit.Spec
