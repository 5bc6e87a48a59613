import Verif.Model.FpField
import Verif.Model.Minuit
/-!
# `ConvolutionPdf`: the workspaces and the sum (`src/PDFs/combine/ConvolutionPdf.cu`)

Exact arithmetic in an ordered field; indices are integers.
-/
set_option autoImplicit false
namespace GooFit
section
variable {K : Type} [Field K] [LinearOrder K] [IsStrictOrderedRing K] [FloorRing K]

/-- Integration range and step (`setIntegrationConstants`) and the limits of the observable
(`src/PDFs/combine/ConvolutionPdf.cu:228-282`). -/
structure ConvSetup (K : Type) where
  lo : K
  hi : K
  step : K
  lower : K
  upper : K

/-- Number of entries of the model workspace (`src/PDFs/combine/ConvolutionPdf.cu:250`, and again on the device,
line 37); `int` overflow is not modelled. -/
def ConvSetup.modelBins (s : ConvSetup K) : Int := ⌊(s.hi - s.lo) / s.step + 1 / 2⌋

/-- Number of entries of the resolution workspace (`src/PDFs/combine/ConvolutionPdf.cu:263-267`). -/
def ConvSetup.resolBins (s : ConvSetup K) : Int := ⌊((s.hi - s.lower) - (s.lo - s.upper)) / s.step + 1 / 2⌋

/-- `modelOffset` (`src/PDFs/combine/ConvolutionPdf.cu:272-273`): converted to `int`, so truncated. -/
def ConvSetup.offset (s : ConvSetup K) : Int := truncK (s.upper / s.step)

/-- A workspace: the function at the centres of `n` bins between two limits, computed by the grid operator
(`src/PDFs/MetricTaker.cu:75-88`, called in `src/PDFs/combine/ConvolutionPdf.cu:330-351`). -/
def fillWorkspace (f : K → K) (lower upper : K) (n : Int) : List K :=
  (List.range n.toNat).map fun b : Nat => f ((upper - lower) / (n : K) * ((b : K) + 1 / 2) + lower)

/-- The model workspace (`src/PDFs/combine/ConvolutionPdf.cu:330-339`; limits and bins in `dev_iConsts[0..2]`). -/
def ConvSetup.modelWs (s : ConvSetup K) (M : K → K) : List K := fillWorkspace M s.lo s.hi s.modelBins

/-- The resolution workspace (`src/PDFs/combine/ConvolutionPdf.cu:341-351`; `dev_iConsts[3..5]`). -/
def ConvSetup.resolWs (s : ConvSetup K) (R : K → K) : List K :=
  fillWorkspace R (s.lo - s.upper) (s.hi - s.lower) s.resolBins

/-- `offsetInBins` (`src/PDFs/combine/ConvolutionPdf.cu:39-41`). -/
def ConvSetup.offsetInBins (s : ConvSetup K) (x0 : K) : Int :=
  ⌊x0 / s.step - (s.lo / s.step - (⌊s.lo / s.step⌋ : K))⌋

/-- The resolution entry used with model entry `i` (`src/PDFs/combine/ConvolutionPdf.cu:48`). -/
def ConvSetup.resolIndex (s : ConvSetup K) (x0 : K) (i : Nat) : Int := (i : Int) + s.offset - s.offsetInBins x0

/-- The loop (`src/PDFs/combine/ConvolutionPdf.cu:46-51`), `n` entries left starting at `i`; `none` is a read
outside a workspace. -/
def convLoop (mod res : List K) (shift : Int) : Nat → Nat → K → Option K
  | 0, _, ret => some ret
  | n + 1, i, ret => do
    let m ← mod[i]?
    let r ← atInt res ((i : Int) + shift)
    convLoop mod res shift n (i + 1) (ret + m * r)

/-- `device_ConvolvePdfs` up to the normalisations (`src/PDFs/combine/ConvolutionPdf.cu:27-51`). -/
def ConvSetup.device (s : ConvSetup K) (mod res : List K) (x0 : K) : Option K :=
  convLoop mod res (s.offset - s.offsetInBins x0) s.modelBins.toNat 0 0

/-- A `ConvolutionPdf` with model `M` and resolution `R` at `x0`, not normalised
(`src/PDFs/combine/ConvolutionPdf.cu:27-75` after `313-358`). -/
def ConvSetup.value (s : ConvSetup K) (M R : K → K) (x0 : K) : Option K := s.device (s.modelWs M) (s.resolWs R) x0

/-! ### Cooperative loading -/

/-- The model cache of `device_ConvolveSharedPdfs` after the threads of a block have filled it
(`src/PDFs/combine/ConvolutionPdf.cu:107-113`), for the bins starting at `i`: entry `w * m + t` is written by
thread `t`, from the workspace that constant `5 + w` names.  `m` is `numToLoad`; entries past the end are zero.
A read of a constant or workspace that does not exist is `none`.  All threads are assumed to take part, as the
comment in the code demands, so that after the barrier every entry is written. -/
def sharedCache (consts : List Nat) (mods : List (List K)) (numOthers m numbins i : Nat) (k : Nat) : Option K :=
  if k < numOthers * m then do
    let w ← consts[5 + k / m]?
    let ws ← mods[w]?
    if i + k % m < numbins then ws[i + k % m]? else some 0
  else none

/-- The inner loop (`src/PDFs/combine/ConvolutionPdf.cu:123-132`), `n` rounds left from `j`. -/
def sharedInner (cache : Nat → Option K) (res : List K) (shift : Int) (wsIndex m numbins i : Nat) : Nat → Nat → K → Option K
  | 0, _, ret => some ret
  | n + 1, j, ret =>
    if i + j ≥ numbins then some ret
    else do
      let model ← cache (wsIndex * m + j)
      let resol ← if model ≠ 0 then atInt res (((i + j : Nat) : Int) + shift) else some 0
      sharedInner cache res shift wsIndex m numbins i n (j + 1) (ret + model * resol)

/-- The outer loop (`src/PDFs/combine/ConvolutionPdf.cu:99-139`), with enough rounds given by `n`. -/
def sharedOuter (consts : List Nat) (mods : List (List K)) (res : List K) (shift : Int) (numOthers wsIndex m numbins : Nat) :
    Nat → Nat → K → Option K
  | 0, _, ret => some ret
  | n + 1, i, ret =>
    if i < numbins then do
      let ret ← sharedInner (sharedCache consts mods numOthers m numbins i) res shift wsIndex m numbins i m 0 ret
      sharedOuter consts mods res shift numOthers wsIndex m numbins n (i + m) ret
    else some ret

/-- `device_ConvolveSharedPdfs` up to the normalisations (`src/PDFs/combine/ConvolutionPdf.cu:77-139`).  `consts` are
the integer constants of the node (range and step, at positions 0-2, are in `s`); `mods` and `res` the model
workspaces and this PDF's resolution workspace; `blockDim` the number of threads in a block. -/
def ConvSetup.deviceShared (s : ConvSetup K) (consts : List Nat) (blockDim : Nat) (mods : List (List K)) (res : List K) (x0 : K) :
    Option K := do
  let wsIndex ← consts[3]?
  let c4 ← consts[4]?
  let numOthers := c4 + 1
  let m := min (512 / numOthers) blockDim
  if m = 0 then none -- the loop does not advance
  else
    sharedOuter consts mods res (s.offset - s.offsetInBins x0) numOthers wsIndex m s.modelBins.toNat s.modelBins.toNat 0 0

/-- The integer constants registered by the cooperative constructor (`src/PDFs/combine/ConvolutionPdf.cu:202-216`). -/
def sharedConsts (wsIndex numOthers : Nat) : List Nat :=
  [0, 0, 0, wsIndex] ++ (if numOthers = 0 then [wsIndex] else List.replicate (numOthers + 1) 0)

/-- The write loop of `registerOthers` (`src/PDFs/combine/ConvolutionPdf.cu:295-302`) from position `5 + i`; `none` is
a write past the end of `constantsList`. -/
def registerOthersLoop : List Nat → Nat → List Nat → Option (List Nat)
  | [], _, consts => some consts
  | w :: ws, i, consts => if 5 + i < consts.length then registerOthersLoop ws (i + 1) (consts.set (5 + i) w) else none

end
end GooFit
