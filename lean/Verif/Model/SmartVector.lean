import Mathlib.Data.List.Basic
/-!
# `SmartVector` (`include/goofit/detail/SmartVectorGPU.h`, `SmartVectorCPU.h`)

The host array with its copy on the device.  The device reads through a pointer that `sync` stores in a
device symbol.
-/
set_option autoImplicit false
namespace GooFit
variable {T : Type}

/-- What the program does with the vector (no counterpart in the code). -/
inductive SvOp (T : Type) where
  /-- `push_back`; `realloc`: the storage moves (matters on the CPU only) -/
  | push (x : T) (realloc : Bool)
  /-- `v[i] = x` or `v.at(i) = x` -/
  | write (i : Nat) (x : T)
  /-- `std::vector::clear` -/
  | clear
  | sync
  | smartSync
  /-- `clear_device`, called by `cleanup()`, which the destructor of every PDF calls
  (`src/PDFs/detail/Globals.cu:37-43`, `src/PDFs/GooPdf.cu:40`) -/
  | clearDevice

/-- The three vectors (`include/goofit/detail/SmartVectorGPU.h:23-27`) and whether the device symbol points
to the device vector's storage. -/
structure SvGpu (T : Type) where
  host : List T
  loc : List T
  dev : List T
  ptr : Bool

/-- A fresh vector (`include/goofit/detail/SmartVectorGPU.h:30-32`). -/
def SvGpu.fresh : SvGpu T := ⟨[], [], [], false⟩

/-- `sync` (`include/goofit/detail/SmartVectorGPU.h:36-44`). -/
def SvGpu.sync (s : SvGpu T) : SvGpu T := ⟨s.host, s.host, s.host, true⟩

/-- The loop of `smart_sync` (`include/goofit/detail/SmartVectorGPU.h:53-55`) from position `i` on; `none`
is an access beyond the end of the device vector. -/
def smartLoop (ne : T → T → Bool) : List T → Nat → List T → List T → Option (List T × List T)
  | [], _, loc, dev => some (loc, dev)
  | x :: xs, i, loc, dev => do
    let l ← loc[i]?
    if ne l x then
      if i < dev.length then smartLoop ne xs (i + 1) (loc.set i x) (dev.set i x) else none
    else smartLoop ne xs (i + 1) loc dev

/-- One operation; `none` is undefined behaviour.  `ne` is the element type's `!=` (no counterpart in the code). -/
def SvGpu.step (ne : T → T → Bool) (s : SvGpu T) : SvOp T → Option (SvGpu T)
  | .push x _ => some { s with host := s.host ++ [x] }
  | .write i x => if i < s.host.length then some { s with host := s.host.set i x } else none
  | .clear => some { s with host := [] }
  | .sync => some s.sync
  | .smartSync =>
    if s.loc.length ≠ s.host.length then some s.sync
    else do
      let (loc, dev) ← smartLoop ne s.host 0 s.loc s.dev
      return { s with loc := loc, dev := dev }
  | .clearDevice => some { s with dev := [], ptr := false }

/-- A history (no counterpart in the code). -/
def SvGpu.run (ne : T → T → Bool) (ops : List (SvOp T)) : Option (SvGpu T) :=
  ops.foldlM (SvGpu.step ne) SvGpu.fresh

/-- What a kernel reads through the device symbol; `none` through a dangling or unset pointer
(`include/goofit/detail/SmartVectorGPU.h`). -/
def SvGpu.device (s : SvGpu T) : Option (List T) := if s.ptr then some s.dev else none

/-- The CPU version: the host array, the number of times its storage has moved, and the value of the
device pointer, which is the storage it was taken from (`include/goofit/detail/SmartVectorCPU.h:18-29`). -/
structure SvCpu (T : Type) where
  host : List T
  storage : Nat
  ptr : Option Nat

/-- A fresh vector (`include/goofit/detail/SmartVectorCPU.h:23-25`). -/
def SvCpu.fresh : SvCpu T := ⟨[], 0, none⟩

/-- One operation (`include/goofit/detail/SmartVectorCPU.h:26-44`). -/
def SvCpu.step (s : SvCpu T) : SvOp T → Option (SvCpu T)
  | .push x realloc => some { s with host := s.host ++ [x], storage := if realloc then s.storage + 1 else s.storage }
  | .write i x => if i < s.host.length then some { s with host := s.host.set i x } else none
  | .clear => some { s with host := [] }
  | .sync => some { s with ptr := some s.storage }
  | .smartSync => some { s with ptr := some s.storage }
  | .clearDevice => some s

/-- A history (no counterpart in the code). -/
def SvCpu.run (ops : List (SvOp T)) : Option (SvCpu T) := ops.foldlM SvCpu.step SvCpu.fresh

/-- What a kernel reads: the live host array, or freed memory (`include/goofit/detail/SmartVectorCPU.h`). -/
def SvCpu.device (s : SvCpu T) : Option (List T) := if s.ptr = some s.storage then some s.host else none

end GooFit
