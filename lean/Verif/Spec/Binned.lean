import Verif.Model.Binned
/-!
# Specification for C08-C12: cells of a box

A box is a list of axes `(lower, upper, n)`.  Bins are numbered with the first axis running fastest.
-/
set_option autoImplicit false
namespace GooFit.Spec
open GooFit

/-- Position of global bin `g` on axis `j` when the axes have `ns` bins. -/
def digit (ns : List Nat) (j g : Nat) : Nat := g / (ns.take j).prod % ns[j]!

/-- Global number of a tuple of local bins: `Σ l_j ∏_{i<j} n_i`. -/
def globalOf : List Nat → List Nat → Nat
  | n :: ns, l :: ls => l + n * globalOf ns ls
  | _, _ => 0

/-- A tuple of valid local bins. -/
def ValidLocals (ns ls : List Nat) : Prop :=
  ls.length = ns.length ∧ ∀ (j n l : Nat), ns[j]? = some n → ls[j]? = some l → l < n

/-- One axis. -/
structure Axis (K : Type) where
  lower : K
  upper : K
  n : Nat

variable {K : Type} [Field K] [LinearOrder K]

/-- Width of the bins of an axis. -/
def Axis.width (a : Axis K) : K := (a.upper - a.lower) / (a.n : K)

/-- `v` lies in the half-open bin `b` of the axis. -/
def Axis.InBin (a : Axis K) (b : Nat) (v : K) : Prop :=
  a.lower + (b : K) * a.width ≤ v ∧ v < a.lower + ((b : K) + 1) * a.width

/-- The point `vs` lies in the half-open cell number `g` of the box. -/
def InCell (axes : List (Axis K)) (g : Nat) (vs : List K) : Prop :=
  ∀ (j : Nat) (a : Axis K) (v : K), axes[j]? = some a → vs[j]? = some v →
    a.InBin (digit (axes.map (·.n)) j g) v

/-- Number of cells. -/
def cells (axes : List (Axis K)) : Nat := (axes.map (·.n)).prod

/-- The axes of a binned dataset: limits of its observables now, bin counts at construction. -/
def axesOf (st : BSt K) : List (Axis K) :=
  (st.ds.obs.zip st.ds.binsizes).map fun p => ⟨(st.store p.1).lower, (st.store p.1).upper, p.2⟩

end GooFit.Spec

namespace GooFit.Spec
open GooFit
variable {K : Type} [Field K] [LinearOrder K] [IsStrictOrderedRing K] [FloorRing K]

/-- States a program can reach from a newly built binned dataset whose observables all have at least
one bin and whose number of cells fits in an `int`. -/
def BReach (st : BSt K) : Prop :=
  ∃ (s0 : Store K) (obs : List Nat) (d0 : BDS K) (ops : List (BOp K)),
    BDS.new s0 obs = .ok d0 ∧ (∀ o ∈ obs, 0 < (s0 o).numBins) ∧
    (obs.map fun o => (s0 o).numBins).prod < 2 ^ 31 ∧ st = (BSt.run ⟨s0, d0⟩ ops).1

/-- The weights accepted by a program, given the results of its calls. -/
def acceptedWeights : List (BOp K) → List (Out K) → List K
  | .addEvent :: ops, .done :: rs => 1 :: acceptedWeights ops rs
  | .addEventV _ _ :: ops, .done :: rs => 1 :: acceptedWeights ops rs
  | .addWeightedEvent w :: ops, .done :: rs => w :: acceptedWeights ops rs
  | _ :: ops, _ :: rs => acceptedWeights ops rs
  | _, _ => []

/-- The error last set for bin `i` by a program, if any. -/
def lastError (i : Nat) : List (BOp K) → Option K
  | [] => none
  | op :: ops =>
    match lastError i ops with
    | some x => some x
    | none =>
      match op with
      | .setBinError j x => if j.toNat = i then some x else none
      | _ => none

end GooFit.Spec
