import Verif.Spec.TimeDalitz
import Verif.Spec.Amp4Body
import Verif.Model.TimeFourBody

/-!
# Time-dependent four-body decay: what an analyst expects
-/

set_option autoImplicit false

namespace GooFit.Spec

/-- An amplitude: for every permutation the product of its line shapes and spin factors, summed over the `n`
permutations, divided by `√n`. -/
noncomputable def amplitudeC (n : Nat) (lineShapes : List ℂ) (spinFactors : List ℝ) : ℂ :=
  ((List.range n).map fun p => (part n lineShapes p).prod * ((part n spinFactors p).prod : ℂ)).sum / (√(n : ℝ) : ℂ)

end GooFit.Spec

namespace GooFit.T4
open Spec
variable {A S V T P Ev : Type}

/-- The amplitude of a kinematic point. -/
noncomputable def ampAt (m : T4 A S V T P Ev) (p : P) (ev : Ev) (a : TAmp A S V T) : ℂ :=
  amplitudeC a.amp.nPerm (a.amp.ls.map fun x => m.lineShape x p ev) (a.amp.sf.map fun x => m.spinFactor x ev)

/-- The coherent sum of a list of amplitudes. -/
noncomputable def coherent (m : T4 A S V T P Ev) (p : P) (ev : Ev) (l : List (TAmp A S V T)) : ℂ :=
  (l.map fun a => (⟨m.value p a.ar, m.value p a.ai⟩ : ℂ) * m.ampAt p ev a).sum

/-- The decay amplitudes of the two flavours; the first is scaled. -/
noncomputable def decayA (m : T4 A S V T P Ev) (p : P) (ev : Ev) : ℂ := (m.value p m.rate : ℂ) * m.coherent p ev m.ampsA
noncomputable def decayB (m : T4 A S V T P Ev) (p : P) (ev : Ev) : ℂ := m.coherent p ev m.ampsB

/-- The rate at a point and time. -/
noncomputable def rateAt (m : T4 A S V T P Ev) (p : P) (ev : Ev) (t : ℝ) : ℝ :=
  decayRate (m.decayA p ev) (m.decayB p ev) (m.value p m.tau) (m.value p m.x) (m.value p m.y) t

/-- The marks are honest: a line shape that is not marked is the same function as at the evaluation before. -/
def HonestFrom (m : T4 A S V T P Ev) : Option P → List (Op A P Ev) → Prop
  | _, [] => True
  | q, .setData _ :: ops => HonestFrom m q ops
  | q, .force :: ops => HonestFrom m q ops
  | q, .eval c p :: ops =>
    (∀ p0, q = some p0 → ∀ x, c x = false → m.lineShape x p = m.lineShape x p0) ∧ HonestFrom m (some p) ops
  | q, .generate _ c p :: ops =>
    (∀ p0, q = some p0 → ∀ x, c x = false → m.lineShape x p = m.lineShape x p0) ∧ HonestFrom m (some p) ops

/-- The parameters of the last evaluation. -/
def lastP : Option P → List (Op A P Ev) → Option P
  | q, [] => q
  | q, .setData _ :: ops => lastP q ops
  | q, .force :: ops => lastP q ops
  | _, .eval _ p :: ops => lastP (some p) ops
  | _, .generate _ _ p :: ops => lastP (some p) ops

/-- The data the PDF was given last. -/
def currentData : List (Ev × ℝ × ℝ) → List (Op A P Ev) → List (Ev × ℝ × ℝ)
  | d, [] => d
  | _, .setData d :: ops => currentData d ops
  | d, .eval _ _ :: ops => currentData d ops
  | d, .force :: ops => currentData d ops
  | _, .generate d _ _ :: ops => currentData d ops

/-- The history contains no generation of events. -/
def NoGenerate (ops : List (Op A P Ev)) : Prop := ∀ op ∈ ops, ∀ d c p, op ≠ Op.generate d c p

end GooFit.T4

namespace GooFit.T4
open Spec MeasureTheory
variable {A S V T P Ev : Type}

/-- What a batch of normalisation events contributes: every plain point the integral of the rate over the decay time,
every weighted event its weight times the rate at its decay time. -/
noncomputable def batchTotal (m : T4 A S V T P Ev) (p : P) : NormBatch Ev → ℝ
  | .plain mc => (mc.map fun ev => ∫ t in Set.Ioi 0, m.rateAt p ev t).sum
  | .weighted mc => (mc.map fun e => e.2.2.2 * m.rateAt p e.1 e.2.1).sum

/-- The weight that belongs to a point: efficiency times rate at time zero. -/
noncomputable def weightAt (m : T4 A S V T P Ev) (p : P) (ev : Ev) : ℝ :=
  m.efficiency p (ev, 0, 0) * (2 * ‖m.decayA p ev‖ ^ 2)

end GooFit.T4

namespace GooFit.Spec

/-- The weight of a batch: the number of plain points, or the sum of the weights. -/
def batchWeight {Ev : Type} : NormBatch Ev → ℝ
  | .plain mc => (mc.length : ℝ)
  | .weighted mc => (mc.map fun e => e.2.2.2).sum

/-- All weights of a batch are whole numbers. -/
def WholeWeights {Ev : Type} : NormBatch Ev → Prop
  | .plain _ => True
  | .weighted mc => ∀ e ∈ mc, ∃ k : ℤ, e.2.2.2 = (k : ℝ)

end GooFit.Spec
