import Verif.Model.Amp4Body
/-!
# Specification for C49 and C50: a four-body decay
-/
set_option autoImplicit false
namespace GooFit.Spec
variable {K : Type} [Field K]

/-- Permutation number `p` of a list that holds `n` permutations one after the other. -/
def part {α : Type} (n : Nat) (l : List α) (p : Nat) : List α := (l.drop (p * (l.length / n))).take (l.length / n)

/-- An amplitude: for every permutation the product of its line shapes and spin factors, summed over the `n`
permutations, divided by `√n`. -/
def amplitude4 (sqrt : K → K) (n : Nat) (lineShapes : List (Cx K)) (spinFactors : List K) : Cx K :=
  ((List.range n).map fun p => (part n lineShapes p).prod * Cx.ofReal (part n spinFactors p).prod).sum
    * Cx.ofReal (1 / sqrt (n : K))

/-- The squared modulus of the coherent sum. -/
def intensity4 (terms : List (Cx K × Cx K)) : K := (terms.map fun t : Cx K × Cx K => t.1 * t.2).sum.norm

end GooFit.Spec

namespace GooFit.A4
open Spec
variable {K : Type} [Field K] (sqrt : K → K) {A S P Ev : Type} [DecidableEq A] [DecidableEq S]

/-- The marks handed to `normalize` are honest: a line shape that is not marked is the same function as at the evaluation
before (what C30 establishes for the fit manager). -/
def HonestFrom (m : A4 K A S P Ev) : Option P → List (Op A P Ev) → Prop
  | _, [] => True
  | q, .setData _ :: ops => HonestFrom m q ops
  | q, .eval c p :: ops =>
    (∀ p0, q = some p0 → ∀ x, c x = false → m.lineShape x p = m.lineShape x p0) ∧ HonestFrom m (some p) ops
  | q, .generate _ c p :: ops =>
    (∀ p0, q = some p0 → ∀ x, c x = false → m.lineShape x p = m.lineShape x p0) ∧ HonestFrom m (some p) ops

/-- The parameters of the last evaluation. -/
def lastP : Option P → List (Op A P Ev) → Option P
  | q, [] => q
  | q, .setData _ :: ops => lastP q ops
  | _, .eval _ p :: ops => lastP (some p) ops
  | _, .generate _ _ p :: ops => lastP (some p) ops

/-- The amplitude of a kinematic point. -/
def ampAt (m : A4 K A S P Ev) (a : Amp4 A S) (p : P) (ev : Ev) : Cx K :=
  amplitude4 sqrt a.nPerm (a.ls.map fun x => m.lineShape x p ev) (a.sf.map fun x => m.spinFactor x ev)

/-- Amplitude number `i` uses line shape number `i` only, or its number is not that of a line shape. -/
def Aligned (m : A4 K A S P Ev) (i : Nat) (a : Amp4 A S) : Prop :=
  m.LS.length ≤ i ∨ ∀ x ∈ a.ls, m.LS.idxOf x = i

/-- The data the PDF was given last. -/
def currentData : List Ev → List (Op A P Ev) → List Ev
  | d, [] => d
  | _, .setData d :: ops => currentData d ops
  | d, .eval _ _ :: ops => currentData d ops
  | _, .generate d _ _ :: ops => currentData d ops

end GooFit.A4
