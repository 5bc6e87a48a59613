import Verif.Model.Generate3
import Verif.Model.TimeFourBody
/-!
# The events with which four-body PDFs are normalised

`PhaseSpace` of mcbooster is outside the repository: its events and flags are given.
-/
set_option autoImplicit false
namespace GooFit

/-- What `PhaseSpace` holds after `Generate` and `Unweight`: the momenta of the daughters with the weights, and for every event
whether it is accepted (`src/PDFs/physics/detail/NormEvents_4Body_Base.cu:32-41`, `src/PDFs/physics/Amp4Body.cu:244-253`). -/
structure PhspRun where
  events : List Gen4
  flags : List Bool

/-- `GetNAccepted()` (`src/PDFs/physics/detail/NormEvents_4Body_Base.cu:36`, `src/PDFs/physics/Amp4Body.cu:248`). -/
def PhspRun.nAcc (r : PhspRun) : Nat := r.flags.count true

/-- `thrust::remove_if` with the flags as stencil and `logical_not`, and the `erase` of what is left over
(`src/PDFs/physics/detail/NormEvents_4Body_Base.cu:43-50`).  The four lists are one list of events. -/
def keepFlagged {α : Type} : List α → List Bool → List α
  | a :: as, b :: bs => if (!b) = true then keepFlagged as bs else a :: keepFlagged as bs
  | _, _ => []

/-- The five variables of an event (`Dim5`, `include/goofit/PDFs/physics/detail/Dim5.h:14-38`). -/
noncomputable def Gen4.vars (g : Gen4) : Ev4 :=
  let v := dim5 g.p1 g.p2 g.p3 g.p4
  ⟨v.1, v.2.1, v.2.2.1, v.2.2.2.1, v.2.2.2.2⟩

/-- `EvaluateArray<Dim5>` into lists of `n` numbers: the numbers at a position are computed from the momenta at this position;
without momenta they stay zero (`src/PDFs/physics/detail/NormEvents_4Body_Base.cu:52-73`, `src/PDFs/physics/Amp4Body.cu:265-285`).
The function is in mcbooster; if it is not bounded by the lists it fills, it writes behind their end when there are more than `n`
momenta. -/
noncomputable def evaluateArray5 (n : Nat) (ps : List Gen4) : List Ev4 :=
  (List.range n).map fun k => ((ps[k]?).map Gen4.vars).getD ⟨0, 0, 0, 0, 0⟩

/-- `NormEvents_4Body_Base::generate4BodyNormEvents` and the constructors with it
(`src/PDFs/physics/detail/NormEvents_4Body_Base.cu:23-78`, `NormEvents_4Body_HostCached.cu:29-60`,
`NormEvents_4Body_DeviceCached.cu:20-42`). -/
noncomputable def normBatch (r : PhspRun) : NormBatch Ev4 :=
  .plain (evaluateArray5 r.nAcc (keepFlagged r.events r.flags))

/-- `buildBatches` (`src/PDFs/physics/detail/NormEvents_4Body_HostCached.cu:16-27`, `NormEvents_4Body_DeviceCached.cu:6-17`), as the
constructors of `Amp4Body_TD` call it (`src/PDFs/physics/Amp4Body_TD.cu:269-307`): one batch for every seed.  `phsp` is what
mcbooster generates for a seed and a number of events. -/
noncomputable def buildBatches (phsp : Int → Nat → PhspRun) (seeds : List Int) (n : Nat) : List (NormBatch Ev4) :=
  seeds.map fun seed => normBatch (phsp seed n)

/-- The normalisation events of `Amp4Body` (`src/PDFs/physics/Amp4Body.cu:243-289`): the `remove_if` is commented out
(`src/PDFs/physics/Amp4Body.cu:255-257`), and `shrink_to_fit` does not remove anything. -/
noncomputable def ampNormEvents (r : PhspRun) : List Ev4 := evaluateArray5 r.nAcc r.events

end GooFit
