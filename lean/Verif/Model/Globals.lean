import Mathlib.Data.List.Basic
import Mathlib.Data.Rat.Defs

/-!
# What amplitude PDFs share

The constructors of the amplitude PDFs copy their decay to variables of the device that exist once per program, and each
PDF is given a number under which it stores pointers to its caches in arrays of fixed size.  Models

* `Amp3Body` (`src/PDFs/physics/Amp3Body.cu:127-196`), array `cResonances[16 * 20]` (54);
* `Amp3Body_TD` (`src/PDFs/physics/Amp3Body_TD.cu:263-319, 392-409, 542-580`), array `cWaves[16 * 20]` (32);
* `Amp3Body_IS` (`src/PDFs/physics/Amp3Body_IS.cu:57-142`), array `cResonanceValues[10]` (18);
* `Amp4Body` (`src/PDFs/physics/Amp4Body.cu:94-292`, `setDataSize`), arrays `cResSF[10]`, `Amps_DP[10]`
  (`src/PDFs/physics/Amp4BodyGlobals.cu:18-20`);
* `Amp4Body_TD` (`src/PDFs/physics/Amp4Body_TD.cu:338-349, 534-540, 575-604`), arrays `cResSF_TD[10]`, `Amps_TD[10]` (157).

Simplifications.  The two arrays of a four-body PDF are written together at the same place and modelled as one.  Only what
concerns these variables is modelled.  A pointer is the PDF, the wave and the call of `setDataSize` it comes from.
-/

set_option autoImplicit false

namespace GooFit

/-- The classes (`Amp3Body`, `Amp3Body_TD`, `Amp3Body_IS`, `Amp4Body`, `Amp4Body_TD` of `include/goofit/PDFs/physics/`). -/
inductive AmpKind where
  | amp3 | amp3TD | amp3IS | amp4 | amp4TD
deriving DecidableEq, Repr

/-- How many pointers belong to one PDF (Amp3Body.cu:221, Amp3Body_TD.cu:565; one in the others). -/
def AmpKind.width : AmpKind → Nat
  | .amp3 => 16
  | .amp3TD => 16
  | _ => 1

/-- The length of the array
(Amp3Body.cu:54, Amp3Body_TD.cu:32, Amp3Body_IS.cu:18, Amp4BodyGlobals.cu:18-20, Amp4Body_TD.cu:157). -/
def AmpKind.capacity : AmpKind → Nat
  | .amp3 => 320
  | .amp3TD => 320
  | _ => 10

/-- `DecayInfo3` (`include/goofit/PDFs/physics/DalitzPlotHelpers.h:88-97`), and `meson_radius` of `DecayInfo4`. -/
structure DecayConsts (F : Type) where
  mother : F
  daug1 : F
  daug2 : F
  daug3 : F
  radius : F
  motherRadius : F
deriving DecidableEq

/-- A pointer to a cache (the elements of the arrays cited at `AmpKind.capacity`). -/
structure WavePtr where
  pdf : Nat
  wave : Nat
  call : Nat
deriving DecidableEq, Repr

/-- A PDF, as far as it matters here (no counterpart in the code). -/
structure AmpObj (F : Type) where
  kind : AmpKind
  decay : DecayConsts F
  /-- `amp_idx_start` followed by `amp_idx`; empty for three-body PDFs -/
  index : List Nat
  /-- `cacheToUse` -/
  cache : Nat

/-- The state of the program
(the arrays cited at `AmpKind.capacity`, `include/goofit/PDFs/detail/Globals.h:36-41`, Amp4BodyGlobals.h:8). -/
structure AmpWorld (F : Type) where
  /-- the PDFs in the order of construction -/
  pdfs : List (AmpObj F)
  /-- `cacheCount` of each class -/
  count : AmpKind → Nat
  /-- `c_motherMass` to `c_mother_meson_radius` (`src/PDFs/detail/Globals.cu:29-34`) -/
  consts : DecayConsts F
  /-- `AmpIndices[500]` (`src/PDFs/physics/Amp4BodyGlobals.cu:11`) -/
  index : List Nat
  /-- the arrays of pointers -/
  slots : AmpKind → Nat → Option WavePtr
  /-- calls of `setDataSize` so far -/
  calls : Nat
  /-- something was written behind the end of an array -/
  overflow : Bool

/-- What a program does (no counterpart in the code). -/
inductive AmpOp (F : Type) where
  | construct (kind : AmpKind) (decay : DecayConsts F) (index : List Nat)
  | setDataSize (pdf : Nat)
  /-- `resetCacheCounter`, `include/goofit/PDFs/physics/Amp3Body.h:72`, `Amp3Body_TD.h:131` -/
  | reset (td : Bool)

section
variable {F : Type}

/-- The constants after a constructor: Amp3Body.cu:146-151, Amp3Body_TD.cu:292-297 and 392-397, Amp3Body_IS.cu:77-81 (not
the radius of the mother), Amp4Body.cu:110; `Amp4Body_TD` writes none. -/
def constsAfter (kind : AmpKind) (d c : DecayConsts F) : DecayConsts F :=
  match kind with
  | .amp3 => d
  | .amp3TD => d
  | .amp3IS => { d with motherRadius := c.motherRadius }
  | .amp4 => { c with radius := d.radius }
  | .amp4TD => c

/-- Copying `new` to the start of an array (Amp4Body.cu:222-231, Amp4Body_TD.cu:534-540); of what does not fit nothing is
kept here, `overflow` says that it happened. -/
def copyTo (arr new : List Nat) : List Nat := new.take arr.length ++ arr.drop new.length

/-- The index array is only written by four-body PDFs (no counterpart in the code). -/
def AmpKind.isFour : AmpKind → Bool
  | .amp4 => true
  | .amp4TD => true
  | _ => false

/-- One step (no counterpart in the code). -/
def AmpWorld.step (w : AmpWorld F) : AmpOp F → AmpWorld F
  | .construct kind d index =>
    { w with
      pdfs := w.pdfs ++ [⟨kind, d, index, w.count kind⟩]
      count := fun k => if k = kind then w.count k + 1 else w.count k
      consts := constsAfter kind d w.consts
      index := if kind.isFour then copyTo w.index index else w.index
      overflow := w.overflow || (kind.isFour && decide (w.index.length < index.length)) }
  | .setDataSize p =>
    match w.pdfs[p]? with
    | none => w
    | some o =>
      { w with
        slots := fun k j =>
          if k = o.kind ∧ o.kind.width * o.cache ≤ j ∧ j < o.kind.width * o.cache + o.kind.width ∧ j < o.kind.capacity then
            some ⟨p, j - o.kind.width * o.cache, w.calls⟩
          else w.slots k j
        calls := w.calls + 1
        overflow := w.overflow || decide (o.kind.capacity < o.kind.width * o.cache + o.kind.width) }
  | .reset td =>
    let kind := if td then AmpKind.amp3TD else AmpKind.amp3
    { w with count := fun k => if k = kind then 0 else w.count k }

/-- Variables of the device are zero at the start (no counterpart in the code). -/
def AmpWorld.init [Zero F] : AmpWorld F :=
  { pdfs := [], count := fun _ => 0, consts := ⟨0, 0, 0, 0, 0, 0⟩, index := List.replicate 500 0,
    slots := fun _ _ => none, calls := 0, overflow := false }

/-- A history (no counterpart in the code). -/
def AmpWorld.run [Zero F] (ops : List (AmpOp F)) : AmpWorld F := ops.foldl AmpWorld.step AmpWorld.init

/-- The pointer that the device function of a PDF reads for its wave `i` (`cResonances[i + (16 * cacheToUse)]`,
Amp3Body.cu:106, Amp3Body_TD.cu:99-101; `cResonanceValues[cacheToUse]`, Amp3Body_IS.cu:36; `Amps_DP[cacheToUse]`,
Amp4Body.cu:69; `Amps_TD[cacheToUse]`, Amp4Body_TD.cu:195). -/
def AmpWorld.waveOf (w : AmpWorld F) (p i : Nat) : Option WavePtr :=
  match w.pdfs[p]? with
  | none => none
  | some o => w.slots o.kind (o.kind.width * o.cache + i)

end
end GooFit
