import Verif.Spec.Component4
import Verif.Spec.TimeFourBody
import Verif.Model.TimeComponent4
/-!
# The time-dependent four-body decay a list of constructor calls describes
-/
set_option autoImplicit false
namespace GooFit.Spec

/-- The decay amplitude at an event: over the amplitudes, coefficient times the sum over permutations of the products of line
shapes and spin factors (a component that is not defined at the event counts as zero). -/
noncomputable def describedAmplitude (d : Decay4) (amps : List AmpNew) (h : Nat → ℝ) (ev : Ev4) : ℂ :=
  (amps.map fun a : AmpNew => (⟨h a.ar, h a.ai⟩ : ℂ) *
    amplitudeC a.nPerm (a.ls.map fun c => (lineShape4 d c h ev).getD 0)
      (a.sf.map fun s => (spinFactor4 d s ev).getD 0)).sum

/-- The rate of the decay with mixing at time `t`: the amplitudes of the first list have the common factor `rate`. -/
noncomputable def describedRate (d : Decay4) (v : MixVars) (ampsA ampsB : List AmpNew) (h : Nat → ℝ) (ev : Ev4) (t : ℝ) : ℝ :=
  decayRate ((h v.rate : ℂ) * describedAmplitude d ampsA h ev) (describedAmplitude d ampsB h ev) (h v.tau) (h v.x) (h v.y) t

/-- As `MarksFrom`: every line shape one of whose variables has a new value is marked. -/
def MarksFromTD : Option (Nat → ℝ) → List (T4.Op LsObj (Nat → ℝ) Ev4) → Prop
  | _, [] => True
  | q, .setData _ :: ops => MarksFromTD q ops
  | q, .force :: ops => MarksFromTD q ops
  | q, .eval c p :: ops => (∀ p0, q = some p0 → ∀ x : LsObj, c x = false → ∀ v ∈ x.params, p v = p0 v) ∧ MarksFromTD (some p) ops
  | q, .generate _ c p :: ops =>
    (∀ p0, q = some p0 → ∀ x : LsObj, c x = false → ∀ v ∈ x.params, p v = p0 v) ∧ MarksFromTD (some p) ops

/-- What a batch of normalisation events contributes: every plain point the integral of the rate over the decay time, every
weighted event its weight times the rate at its decay time. -/
noncomputable def describedTotal (rate : Ev4 → ℝ → ℝ) : NormBatch Ev4 → ℝ
  | .plain mc => (mc.map fun ev => ∫ t in Set.Ioi 0, rate ev t).sum
  | .weighted mc => (mc.map fun e => e.2.2.2 * rate e.1 e.2.1).sum

end GooFit.Spec
