import Verif.Model.TimeFourBody
/-!
# The listing of the amplitudes that a time-dependent four-body PDF prints when it is constructed

`src/PDFs/physics/Amp4Body_TD.cu:119-151, 560`, `src/PDFs/physics/detail/AmpCalc_TD.cu:91-173`,
`src/PDFs/utilities/DebugTools.cu:39-45`.  Undefined behaviour is `none`.
-/
set_option autoImplicit false
namespace GooFit

/-- `hostAmpIndices[k]` (`src/PDFs/physics/detail/AmpCalc_TD.cu:96, 116`), a copy of 500 entries
(`src/PDFs/utilities/DebugTools.cu:39-45`) of the device array; those that were not written are zero. -/
def hostIndex (idx : List Nat) (k : Nat) : Option Nat :=
  if k < 500 then some (idx.getD k 0) else none

/-- `AmpCalc_TD::getLineshapeIndices` (`src/PDFs/physics/detail/AmpCalc_TD.cu:91-129`). -/
def lineshapeIndices (idx : List Nat) (totalAMP nPerm start : Nat) : Option (List Nat) := do
  let numLS ← hostIndex idx (totalAMP + start)
  if nPerm = 0 then none else
  let step := numLS / nPerm
  ((List.range nPerm).flatMap fun i => (List.range' (i * step) step)).mapM
    fun j => hostIndex idx (totalAMP + start + 4 + j)

/-- `AmpCalc_TD::getSpinFactorIndices` (`src/PDFs/physics/detail/AmpCalc_TD.cu:131-173`). -/
def spinFactorIndices (idx : List Nat) (totalAMP nPerm start : Nat) : Option (List Nat) := do
  let numLS ← hostIndex idx (totalAMP + start)
  let numSF ← hostIndex idx (totalAMP + start + 1)
  if nPerm = 0 then none else
  let step := numSF / nPerm
  ((List.range nPerm).flatMap fun i => (List.range' (i * step) step)).mapM
    fun j => hostIndex idx (totalAMP + start + 4 + numLS + j)

/-- What is printed about one amplitude: its name, and the number and the object of each line shape and spin factor
(`src/PDFs/physics/Amp4Body_TD.cu:119-133, 141`). -/
structure AmpEntry (A S T : Type) where
  name : T
  shapes : List (Nat × A)
  spins : List (Nat × S)
deriving DecidableEq

namespace T4
section
variable {A S V T P Ev : Type} [DecidableEq A] [DecidableEq S] [DecidableEq V] [DecidableEq T]

/-- One turn of the loop of `Amp4Body_TD::printAmpMappings` (`src/PDFs/physics/Amp4Body_TD.cu:138-150`); the members of the
`AmpCalc_TD` are those given at 546-548. -/
def entry (m : T4 A S V T P Ev) (i : Nat) : Option (AmpEntry A S T) := do
  let a ← m.comps[i]?
  let ls ← lineshapeIndices m.idx m.comps.length a.1.amp.nPerm (m.start i)
  let shapes ← ls.mapM fun k => (m.LS[k]?).map fun x => (k, x)
  let sf ← spinFactorIndices m.idx m.comps.length a.1.amp.nPerm (m.start i)
  let spins ← sf.mapM fun k => (m.SF[k]?).map fun x => (k, x)
  return ⟨a.1.tag, shapes, spins⟩

/-- `Amp4Body_TD::printAmpMappings` (`src/PDFs/physics/Amp4Body_TD.cu:135-151`). -/
def listing (m : T4 A S V T P Ev) : Option (List (AmpEntry A S T)) := (List.range m.comps.length).mapM m.entry

end
end T4
end GooFit
