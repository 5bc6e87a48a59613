/-!
# PDF trees, their flattening into global arrays, and evaluation through a cursor

Models `src/PDFs/PdfBase.cu` (`populateArrays`, `recursiveSetIndices`, `setIndices`,
`updateParameters`), `include/goofit/PDFs/ParameterContainer.h`,
`src/PDFs/ParameterContainer.cu`, the device functions of `src/PDFs/combine/*.cu`,
`device_DalitzPlot` of `src/PDFs/physics/Amp3Body.cu`, `callFunction` of `src/PDFs/GooPdf.cu` and
the event operator of `src/PDFs/MetricTaker.cu`.

The number type `F` is generic and no arithmetic law is assumed, so results hold for IEEE doubles
bit for bit.  A read outside an array, of an uninitialised slot of an event, or at a negative
index is `none`: undefined behaviour, never a default value.
-/
set_option autoImplicit false
namespace GooFit

/-- The operations on `fptype` used by the combining device functions.  `lit` is the value of a
literal or of an integer converted to `fptype`; `toInt` is `static_cast<int>`
(`fptype` of `include/goofit/GlobalCudaDefines.h`). -/
class FpOps (F : Type) where
  add : F → F → F
  sub : F → F → F
  mul : F → F → F
  div : F → F → F
  floor : F → F
  lit : Rat → F
  toInt : F → Int

namespace FpOps
variable {F : Type} [FpOps F]
/-- An integer stored in an array of `fptype` (`host_parameters.push_back(size)`,
`src/PDFs/PdfBase.cu:276`). -/
def ofNat (n : Nat) : F := lit (n : Rat)
/-- An `int` index stored in an array of `fptype` (`src/PDFs/PdfBase.cu:297`). -/
def ofInt (n : Int) : F := lit (n : Rat)
/-- `static_cast<int>(floor(0.5 + x))` (`src/PDFs/combine/MappedPdf.cu:15`,
`src/PDFs/physics/Amp3Body.cu:86`). -/
def nearest (x : F) : Int := toInt (floor (add (lit (1/2)) x))
end FpOps

/-- An event as seen by a device function: `fptype *evt`; `none` for a slot outside the event or
never written (`include/goofit/PDFs/detail/Globals.h:12`). -/
abbrev Evt (F : Type) := Nat → Option F

/-- `evt[id]` where `id` was stored as an `fptype` and converted to `int`
(`int id = pc.getObservable(0); ... evt[id]`, as in `src/PDFs/basic/GaussianPdf.cu:8-9`). -/
def Evt.read {F : Type} [FpOps F] (e : Evt F) (x : F) : Option F :=
  if 0 ≤ FpOps.toInt x then e (FpOps.toInt x).toNat else none

/-- The four number arrays (`include/goofit/PDFs/detail/Globals.h:26-29`). -/
structure Bufs (F : Type) where
  par : List F
  con : List F
  obs : List F
  nrm : List F

/-- The five indices of a `ParameterContainer`
(`include/goofit/PDFs/ParameterContainer.h:18-23`).  Simplification: natural numbers; a negative
count read from an array is `none` below instead of moving the cursor backwards. -/
@[ext] structure Cursor where
  fn : Nat
  par : Nat
  con : Nat
  obs : Nat
  nrm : Nat
  deriving DecidableEq, Repr

/-- A default-constructed `ParameterContainer` (`src/PDFs/ParameterContainer.cu:5-9`). -/
def Cursor.zero : Cursor := ⟨0, 0, 0, 0, 0⟩

section access
variable {F : Type} [FpOps F]

/-- `getParameter` (`include/goofit/PDFs/ParameterContainer.h:25`). -/
def Cursor.getParameter (c : Cursor) (B : Bufs F) (i : Nat) : Option F := B.par[c.par + i + 1]?
/-- `getConstant` (`include/goofit/PDFs/ParameterContainer.h:27`). -/
def Cursor.getConstant (c : Cursor) (B : Bufs F) (i : Nat) : Option F := B.con[c.con + i + 1]?
/-- `getObservable` (`include/goofit/PDFs/ParameterContainer.h:29`). -/
def Cursor.getObservable (c : Cursor) (B : Bufs F) (i : Nat) : Option F := B.obs[c.obs + i + 1]?
/-- `getNormalization` (`include/goofit/PDFs/ParameterContainer.h:31`). -/
def Cursor.getNormalization (c : Cursor) (B : Bufs F) (i : Nat) : Option F :=
  B.nrm[c.nrm + i + 1]?

/-- A count read from an array and converted to `int`; negative counts are `none`
(`include/goofit/PDFs/ParameterContainer.h:33-39`). -/
def countAt (l : List F) (i : Nat) : Option Nat :=
  match l[i]? with
  | none => none
  | some x => if 0 ≤ FpOps.toInt x then some (FpOps.toInt x).toNat else none

/-- `getNumParameters` (`include/goofit/PDFs/ParameterContainer.h:33`). -/
def Cursor.getNumParameters (c : Cursor) (B : Bufs F) : Option Nat := countAt B.par c.par
/-- `getNumConstants` (`include/goofit/PDFs/ParameterContainer.h:35`). -/
def Cursor.getNumConstants (c : Cursor) (B : Bufs F) : Option Nat := countAt B.con c.con
/-- `getNumObservables` (`include/goofit/PDFs/ParameterContainer.h:37`). -/
def Cursor.getNumObservables (c : Cursor) (B : Bufs F) : Option Nat := countAt B.obs c.obs
/-- `getNumNormalizations` (`include/goofit/PDFs/ParameterContainer.h:39`). -/
def Cursor.getNumNormalizations (c : Cursor) (B : Bufs F) : Option Nat := countAt B.nrm c.nrm

/-- `incrementIndex(funcs, params, cons, obs, norms)`
(`src/PDFs/ParameterContainer.cu:22-46`, without the trace-only check). -/
def Cursor.incrementIndex (c : Cursor) (funcs params cons obs norms : Nat) : Cursor :=
  ⟨c.fn + funcs, c.par + (params + 1), c.con + (cons + 1), c.obs + (obs + 1),
    c.nrm + (norms + 1)⟩

/-- `incrementIndex()` (`src/PDFs/ParameterContainer.cu:48-60`). -/
def Cursor.next (c : Cursor) (B : Bufs F) : Option Cursor := do
  let np ← c.getNumParameters B
  let nc ← c.getNumConstants B
  let no ← c.getNumObservables B
  let nn ← c.getNumNormalizations B
  return c.incrementIndex 1 np nc no nn

/-- `incrementIndex()` repeated `k` times: the loops of `src/PDFs/combine/MappedPdf.cu:24-25,35-36`,
`src/PDFs/MetricTaker.cu:69-70`, `src/PDFs/physics/Amp3Body.cu:76-77,115-116`. -/
def Cursor.skip (B : Bufs F) : Nat → Cursor → Option Cursor
  | 0, c => some c
  | k + 1, c => do
    let c' ← c.next B
    Cursor.skip B k c'

end access

/-- A device function: `fptype f(fptype *evt, ParameterContainer &pc)`
(`include/goofit/PDFs/detail/Globals.h:12`); returns the value and the moved cursor. -/
abbrev Dev (F : Type) := Bufs F → Cursor → Evt F → Option (F × Cursor)

/-- What lies outside the combining device functions: the basic PDFs' device functions, the
convolution sum over the workspaces, the Dalitz-region test, the cached resonance waves and the
metrics.  All are arbitrary (no counterpart in the code). -/
structure Lib (F : Type) where
  /-- names of the basic PDFs' device functions -/
  Leaf : Type
  /-- the device function -/
  dev : Leaf → Dev F
  /-- discrete convolution of the workspaces: constants of the node and the value of the
  observable (`src/PDFs/combine/ConvolutionPdf.cu:37-51`) -/
  conv : List F → F → Option F
  /-- `inDalitz(m12, m13, ...)` (`src/PDFs/physics/Amp3Body.cu:72`) -/
  inDalitz : F → F → Bool
  /-- `cResonances[i + 16 * cacheToUse][evtNum]`, real and imaginary part
  (`src/PDFs/physics/Amp3Body.cu:106`) -/
  wave : Nat → F → Int → Option (F × F)
  /-- names of the metric functions -/
  Metric : Type
  /-- `fptype metric(fptype value, fptype *evt, fptype norm)`
  (`include/goofit/PDFs/MetricPointer.h`); the event pointer may be out of range -/
  metric : Metric → F → Evt F → F → Option F

/-- An entry of the function table: which device function (or metric) the pointer denotes
(`host_function_table`, `include/goofit/PDFs/detail/Globals.h:18`). -/
inductive Fn {F : Type} (L : Lib F) where
  | leaf (k : L.Leaf)
  | add
  | addExt
  | prod
  | mapped
  | composite
  | evtAdd
  | evtAddExt
  | conv
  | convShared
  | amp3
  | metric (m : L.Metric)

section device
variable {F : Type} [FpOps F]
open FpOps

/-- How a device function calls the next one: `callFunction(evt, pc)` (`src/PDFs/GooPdf.cu:398-400`). -/
abbrev Call (F : Type) := Cursor → Evt F → Option (F × Cursor)

/-- The loop of `device_AddPdfs` and `device_AddPdfsExt` (`src/PDFs/combine/AddPdf.cu:28-40`,
`65-75`): `rem` iterations left, starting at number `i`. -/
def addLoop (call : Call F) (B : Bufs F) (localPc : Cursor) (e : Evt F) :
    Nat → Nat → Cursor → F → F → Option (F × F × Cursor)
  | 0, _, c, ret, tot => some (ret, tot, c)
  | rem + 1, i, c, ret, tot => do
    let weight ← localPc.getParameter B i
    let norm ← c.getNormalization B 0
    let (curr, c') ← call c e
    addLoop call B localPc e rem (i + 1) c' (add ret (mul (mul weight curr) norm)) (add tot weight)

/-- `device_AddPdfs` (`src/PDFs/combine/AddPdf.cu:16-51`). -/
def deviceAdd (call : Call F) : Dev F := fun B pc e => do
  let numParameters ← pc.getNumParameters B
  let c ← pc.next B
  let (ret, tot, c) ← addLoop call B pc e numParameters 0 c (lit 0) (lit 0)
  let normFactor ← c.getNormalization B 0
  let (last, c) ← call c e
  return (add ret (mul (mul (sub (lit 1) tot) last) normFactor), c)

/-- `device_AddPdfsExt` (`src/PDFs/combine/AddPdf.cu:53-80`). -/
def deviceAddExt (call : Call F) : Dev F := fun B pc e => do
  let numParameters ← pc.getNumParameters B
  let c ← pc.next B
  let (ret, tot, c) ← addLoop call B pc e numParameters 0 c (lit 0) (lit 0)
  return (div ret tot, c)

/-- The loop of `device_ProdPdfs` (`src/PDFs/combine/ProdPdf.cu:17-23`). -/
def prodLoop (call : Call F) (B : Bufs F) (e : Evt F) :
    Nat → Cursor → F → Option (F × Cursor)
  | 0, c, ret => some (ret, c)
  | rem + 1, c, ret => do
    let norm ← c.getNormalization B 0
    let (curr, c') ← call c e
    prodLoop call B e rem c' (mul ret (mul curr norm))

/-- `device_ProdPdfs` (`src/PDFs/combine/ProdPdf.cu:9-26`). -/
def deviceProd (call : Call F) : Dev F := fun B pc e => do
  let numCons ← pc.getNumConstants B
  let numComps ← countAt B.con (pc.con + 1)
  let numObs ← pc.getNumObservables B
  prodLoop call B e numComps (pc.incrementIndex 1 0 numCons numObs 1) (lit 1)

/-- `for(i = from; i < from + k; i++) sum += (int)pc.getConstant(i)`
(`src/PDFs/combine/MappedPdf.cu:18-20, 31-33`). -/
def sumConstants (B : Bufs F) (pc : Cursor) : Nat → Nat → Option Int
  | 0, _ => some 0
  | k + 1, i => do
    let x ← pc.getConstant B i
    let rest ← sumConstants B pc k (i + 1)
    return toInt x + rest

/-- `device_Mapped` (`src/PDFs/combine/MappedPdf.cu:6-38`). -/
def deviceMapped (call : Call F) : Dev F := fun B pc e => do
  let numConstants ← pc.getNumConstants B
  let c ← pc.next B
  let (m, c) ← call c e
  let target := nearest m
  let toSkip ← sumConstants B pc target.toNat 1
  let cur := c.fn
  let c ← c.skip B ((cur : Int) + toSkip - c.fn).toNat
  let norm ← c.getNormalization B 0
  let (ret, c) ← call c e
  let total ← sumConstants B pc (numConstants - 1) 1
  let c ← c.skip B ((cur : Int) + total - c.fn).toNat
  return (mul ret norm, c)

/-- The event handed to the shell of a composite: ten uninitialised slots, one of which is
written (`src/PDFs/combine/CompositePdf.cu:24-25`); writing outside the ten is undefined. -/
def fakeEvt (id : F) (v : F) : Option (Evt F) :=
  if 0 ≤ toInt id ∧ toInt id < 10 then
    some (fun k => if (k : Int) = toInt id then some v else none)
  else none

/-- `device_Composite` (`src/PDFs/combine/CompositePdf.cu:6-37`). -/
def deviceComposite (call : Call F) : Dev F := fun B pc e => do
  let c ← pc.next B
  let (core, c) ← call c e
  let id ← c.getObservable B 0
  let e' ← fakeEvt id core
  call c e'

/-- The loop of `device_EventWeightedAddPdfs` and `...Ext`
(`src/PDFs/combine/EventWeightedAddPdf.cu:21-28, 62-80`). -/
def evtAddLoop (call : Call F) (B : Bufs F) (pc : Cursor) (e : Evt F) :
    Nat → Nat → Cursor → F → F → Option (F × F × Cursor)
  | 0, _, c, ret, tot => some (ret, tot, c)
  | rem + 1, i, c, ret, tot => do
    let id ← pc.getObservable B i
    let norm ← c.getNormalization B 0
    let weight ← e.read id
    let (curr, c') ← call c e
    evtAddLoop call B pc e rem (i + 1) c' (add ret (mul (mul weight curr) norm)) (add tot weight)

/-- `device_EventWeightedAddPdfs` (`src/PDFs/combine/EventWeightedAddPdf.cu:8-44`). -/
def deviceEvtAdd (call : Call F) : Dev F := fun B pc e => do
  let numConstants ← pc.getNumConstants B
  let numObs ← pc.getNumObservables B
  let comps ← countAt B.con (pc.con + 1)
  let (ret, tot, c) ← evtAddLoop call B pc e (comps - 1) 0
    (pc.incrementIndex 1 0 numConstants numObs 1) (lit 0) (lit 0)
  let normFactor ← c.getNormalization B 0
  let (last, c) ← call c e
  return (add ret (mul (mul (sub (lit 1) tot) last) normFactor), c)

/-- `device_EventWeightedAddPdfsExt` (`src/PDFs/combine/EventWeightedAddPdf.cu:46-91`). -/
def deviceEvtAddExt (call : Call F) : Dev F := fun B pc e => do
  let numConstants ← pc.getNumConstants B
  let numObs ← pc.getNumObservables B
  let comps ← countAt B.con (pc.con + 1)
  let (ret, tot, c) ← evtAddLoop call B pc e comps 0
    (pc.incrementIndex 1 0 numConstants numObs 1) (lit 0) (lit 0)
  return (div ret tot, c)

/-- `device_ConvolvePdfs` (`src/PDFs/combine/ConvolutionPdf.cu:27-75`); the sum over the workspaces
is `L.conv`. -/
def deviceConv (L : Lib F) (call : Call F) : Dev F := fun B pc e => do
  let id ← pc.getObservable B 0
  let lo ← pc.getConstant B 0
  let hi ← pc.getConstant B 1
  let step ← pc.getConstant B 2
  let x0 ← e.read id
  let ws ← pc.getConstant B 3
  let ret ← L.conv [lo, hi, step, ws] x0
  let c := pc.incrementIndex 1 0 4 1 1
  let norm1 ← c.getNormalization B 0
  let (_, c) ← call c e
  let norm2 ← c.getNormalization B 0
  let (_, c) ← call c e
  return (mul (mul ret norm1) norm2, c)

/-- `device_ConvolveSharedPdfs` (`src/PDFs/combine/ConvolutionPdf.cu:77-146`): the same sum, then the
node's own normalisation entry and the next array entry, and the cursor is never moved
(`TODO: add increment here`).  The cooperative loading of the model cache is not modelled. -/
def deviceConvShared (L : Lib F) : Dev F := fun B pc e => do
  let id ← pc.getObservable B 0
  let lo ← pc.getConstant B 0
  let hi ← pc.getConstant B 1
  let step ← pc.getConstant B 2
  let x0 ← e.read id
  let ws ← pc.getConstant B 3
  let ret ← L.conv [lo, hi, step, ws] x0
  let norm1 ← B.nrm[pc.nrm + 1]?
  let norm2 ← B.nrm[pc.nrm + 2]?
  return (mul (mul ret norm1) norm2, pc)

/-- The amplitude sum of `device_DalitzPlot` (`src/PDFs/physics/Amp3Body.cu:90-109`), complex numbers
as pairs, `amp * me` by the schoolbook formula of `thrust::complex`. -/
def ampLoop (L : Lib F) (B : Bufs F) (pc : Cursor) (cache : F) (evtNum : Int) :
    Nat → Nat → F × F → Option (F × F)
  | 0, _, tot => some tot
  | rem + 1, i, tot => do
    let re ← pc.getParameter B (i * 2)
    let im ← pc.getParameter B (i * 2 + 1)
    let (wr, wi) ← L.wave i cache evtNum
    ampLoop L B pc cache evtNum rem (i + 1)
      (add tot.1 (sub (mul re wr) (mul im wi)), add tot.2 (add (mul re wi) (mul im wr)))

/-- `device_DalitzPlot` (`src/PDFs/physics/Amp3Body.cu:60-122`). -/
def deviceAmp3 (L : Lib F) (call : Call F) : Dev F := fun B pc e => do
  let numObs ← pc.getNumObservables B
  let idm12 ← pc.getObservable B 0
  let idm13 ← pc.getObservable B 1
  let idnum ← pc.getObservable B 2
  let m12 ← e.read idm12
  let m13 ← e.read idm13
  let numRes ← countAt B.con (pc.con + 1)
  let cache ← pc.getConstant B 1
  if L.inDalitz m12 m13 then
    let evtIndex ← e.read idnum
    let tot ← ampLoop L B pc cache (nearest evtIndex) numRes 0 (lit 0, lit 0)
    let c ← (pc.incrementIndex 1 (numRes * 2) 2 numObs 1).skip B numRes
    let (eff, c) ← call c e
    return (mul (add (mul tot.1 tot.1) (mul tot.2 tot.2)) eff, c)
  else
    let c ← (pc.incrementIndex 1 (numRes * 2) 2 numObs 1).skip B numRes
    let c ← c.next B
    return (lit 0, c)

/-- `callFunction` (`src/PDFs/GooPdf.cu:398-400`): call the function at the cursor's function
index.  `fuel` bounds the nesting of calls; the theorems hold for all large enough fuel.  Calling
a metric through a PDF's function pointer is undefined. -/
def callFunction (L : Lib F) (B : Bufs F) (T : List (Fn L)) :
    Nat → Cursor → Evt F → Option (F × Cursor)
  | 0, _, _ => none
  | fuel + 1, c, e =>
    match T[c.fn]? with
    | none => none
    | some (.leaf k) => L.dev k B c e
    | some .add => deviceAdd (callFunction L B T fuel) B c e
    | some .addExt => deviceAddExt (callFunction L B T fuel) B c e
    | some .prod => deviceProd (callFunction L B T fuel) B c e
    | some .mapped => deviceMapped (callFunction L B T fuel) B c e
    | some .composite => deviceComposite (callFunction L B T fuel) B c e
    | some .evtAdd => deviceEvtAdd (callFunction L B T fuel) B c e
    | some .evtAddExt => deviceEvtAddExt (callFunction L B T fuel) B c e
    | some .conv => deviceConv L (callFunction L B T fuel) B c e
    | some .convShared => deviceConvShared L B c e
    | some .amp3 => deviceAmp3 L (callFunction L B T fuel) B c e
    | some (.metric _) => none

end device

/-! ### Host side -/

/-- One PDF object: identity, device function, registered parameters (identities of variables),
constants, observables (identities) and cached normalisation
(`include/goofit/PdfBase.h`, members `parametersList`, `constantsList`, `observablesList`,
`cachedNormalization`, `function_ptr_`). -/
structure Node {F : Type} (L : Lib F) where
  oid : Nat
  fn : Fn L
  params : List Nat
  consts : List F
  obs : List Nat
  norm : F

/-- A PDF with its components (`include/goofit/PdfBase.h`, member `components`). -/
inductive Pdf {F : Type} (L : Lib F) where
  | mk (node : Node L) (comps : List (Pdf L))

/-- The object at the root (`include/goofit/PdfBase.h:239-281`). -/
def Pdf.node {F : Type} {L : Lib F} : Pdf L → Node L
  | .mk n _ => n
/-- The components of the root (`components`, `include/goofit/PdfBase.h:262`). -/
def Pdf.comps {F : Type} {L : Lib F} : Pdf L → List (Pdf L)
  | .mk _ cs => cs

mutual
/-- Number of PDFs in the tree (`countComponents + 1`, `src/PDFs/combine/MappedPdf.cu:42-53, 65-67`). -/
def Pdf.size {F : Type} {L : Lib F} : Pdf L → Nat
  | .mk _ cs => 1 + Pdf.sizeList cs
/-- `countComponents` (`src/PDFs/combine/MappedPdf.cu:42-53`). -/
def Pdf.sizeList {F : Type} {L : Lib F} : List (Pdf L) → Nat
  | [] => 0
  | c :: cs => Pdf.size c + Pdf.sizeList cs
end

/-- Current values of the variables and event indices of the observables (`getValue()`,
`getIndex()`; -1 until `setupObservables` sets them; `include/goofit/Variable.h:22-106`). -/
structure Env (F : Type) where
  val : Nat → F
  idx : Nat → Int

/-- Where a PDF object's data starts in each array: `functionIdx`, `parametersIdx`,
`constantsIdx`, `observablesIdx`, `normalIdx` (`include/goofit/PdfBase.h:267-272`). -/
abbrev Slots := Cursor

/-- The global host arrays and every object's own index members (`include/goofit/PDFs/detail/Globals.h:14-18`). -/
structure Host {F : Type} (L : Lib F) where
  bufs : Bufs F
  table : List (Fn L)
  slots : Nat → Slots

section host
variable {F : Type} [FpOps F] {L : Lib F}
open FpOps

/-- All arrays cleared (`src/PDFs/PdfBase.cu:315-319`). -/
def Host.clear (h : Host L) : Host L := { h with bufs := ⟨[], [], [], []⟩, table := [] }

/-- `recursiveSetIndices` and the first part of `populateArrays`
(`src/PDFs/PdfBase.cu:95-119, 275-305`): push the function pointer, then the counts and values. -/
def Host.push (env : Env F) (n : Node L) (h : Host L) : Host L where
  table := h.table ++ [n.fn]
  bufs :=
    { par := h.bufs.par ++ (ofNat n.params.length :: n.params.map env.val)
      con := h.bufs.con ++ (ofNat n.consts.length :: n.consts)
      obs := h.bufs.obs ++ (ofNat n.obs.length :: n.obs.map fun o => ofInt (env.idx o))
      nrm := h.bufs.nrm ++ [lit 1, n.norm] }
  slots := fun o => if o = n.oid then
      ⟨h.table.length, h.bufs.par.length, h.bufs.con.length, h.bufs.obs.length,
        h.bufs.nrm.length⟩
    else h.slots o

mutual
/-- `recursiveSetIndices` and `populateArrays` (`src/PDFs/PdfBase.cu:95-119, 268-311`). -/
def Host.populate (env : Env F) : Pdf L → Host L → Host L
  | .mk n cs, h => Host.populateList env cs (h.push env n)
/-- The loop over the components (`src/PDFs/PdfBase.cu:307-308`). -/
def Host.populateList (env : Env F) : List (Pdf L) → Host L → Host L
  | [], h => h
  | c :: cs, h => Host.populateList env cs (Host.populate env c h)
end

/-- `GooPdf::setIndices` (`src/PDFs/GooPdf.cu:182-200`, `src/PDFs/PdfBase.cu:313-327`): clear, flatten
the tree, and put the metric at the end of the function table. -/
def Host.setIndices (env : Env F) (t : Pdf L) (m : L.Metric) (h : Host L) : Host L :=
  let h' := Host.populate env t h.clear
  { h' with table := h'.table ++ [.metric m] }

/-- The event operator of `MetricTaker` (`src/PDFs/MetricTaker.cu:17-44`) applied to one event whose
slots are `e`; `tail` is the event as seen from `eventAddress + abs(eventSize) - 2`. -/
def metricTaker (L : Lib F) (h : Host L) (fuel : Nat) (e tail : Evt F) : Option F := do
  let norm ← Cursor.zero.getNormalization h.bufs 0
  let (ret, c) ← callFunction L h.bufs h.table fuel Cursor.zero e
  match h.table[c.fn]? with
  | some (.metric m) => L.metric m ret tail norm
  | _ => none

end host
end GooFit
