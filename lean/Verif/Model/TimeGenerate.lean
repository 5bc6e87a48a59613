import Verif.Model.TimeFourBody

/-!
# Generation of events with a decay time

Models `Amp4Body_TD::GenerateSig` (`src/PDFs/physics/Amp4Body_TD.cu:825-1018`) with `genExp` (56-74) and `exp_functor`
(76-117).  The random numbers are arguments: the number that the engine with the user's seed, or with the fixed seed of the
accept-reject step, gives after `k` draws have been discarded.  The kinematic points that the phase-space library accepted
are an argument as well.
-/

set_option autoImplicit false

namespace GooFit

/-- `genExp::operator()`, Amp4Body_TD.cu:66-73; `u` is `dist(rand)`. -/
noncomputable def genTime (gamma u : ℝ) : ℝ := -Real.log u / gamma

/-- `exp_functor::operator()`, Amp4Body_TD.cu:87-116; `u` is `rand_uniform`.  The message when the envelope is too low does
not change the result. -/
noncomputable def genAccept (gammamin wmax time pdf u : ℝ) : Bool := decide (u * (Real.exp (-time * gammamin) * wmax) < pdf)

/-- `thrust::max_element`, dereferenced; nothing for an empty range (Amp4Body_TD.cu:962). -/
noncomputable def maxElement : List ℝ → Option ℝ
  | [] => none
  | w :: ws => some (ws.foldl max w)

/-- How a call ends (Amp4Body_TD.cu:825-1018). -/
inductive GenOutcome (Ev : Type) where
  /-- decay times, weights and flags that are returned; the new `maxWeight` and the state of the PDF -/
  | ok (times weights : List ℝ) (flags : List Bool) (maxWeight : ℝ) (s : T4State Ev)
  /-- `GeneralError`, Amp4Body_TD.cu:964-971 -/
  | thrown
  /-- the maximum of nothing is read, Amp4Body_TD.cu:962 -/
  | undefined

namespace T4
section
variable {A S V T P Ev : Type} [DecidableEq A] [DecidableEq S] [DecidableEq V] [DecidableEq T]

/-- `gammamin`, Amp4Body_TD.cu:874-876. -/
noncomputable def gammamin (m : T4 A S V T P Ev) (p : P) : ℝ := 1 / m.par p 0 - |m.par p 2| / m.par p 0

/-- The value at every event, Amp4Body_TD.cu:954-960 and 979-984: the metric of `ProbFit` with a normalisation of 1. -/
noncomputable def values (m : T4 A S V T P Ev) (p : P) (s : T4State Ev) : List ℝ :=
  (List.range s.data.length).map fun e => (m.valueAt p s e).getD 0

/-- `GenerateSig`.  The eighth number of an event, the error of the decay time, is zero: `DS` is only filled with the other
seven (Amp4Body_TD.cu:922-938). -/
noncomputable def generateSig (m : T4 A S V T P Ev) (changed : A → Bool) (p : P) (maxWeight : ℝ) (s : T4State Ev)
    (pts : List Ev) (rngTime rngAccept : Nat → ℝ) (offset : Nat) : GenOutcome Ev :=
  let times := (List.range pts.length).map fun x => genTime (m.gammamin p) (rngTime (x + offset))
  let s := m.step s (.generate (pts.map fun ev => (ev, 0, 0)) changed p)
  let weights := m.values p s
  match maxElement weights with
  | none => .undefined
  | some w =>
    let wmax := 1.1 * w
    if maxWeight < wmax ∧ maxWeight ≠ 0 then .thrown
    else
      let maxWeight := if maxWeight < wmax then wmax else maxWeight
      let s := { s with data := (pts.zip times).map fun e => (e.1, e.2, 0) }
      let results := m.values p s
      let flags := ((results.zip times).zipIdx).map fun e =>
        genAccept (m.gammamin p) maxWeight e.1.2 e.1.1 (rngAccept (offset + e.2))
      .ok times weights flags maxWeight s

end
end T4
end GooFit
