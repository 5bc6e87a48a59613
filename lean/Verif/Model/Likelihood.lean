import Verif.Model.Norm
/-!
# One call of the function that the minimiser minimises, through the global arrays

`FCN::operator()` (`src/goofit/FCN.cpp:18-28`) on a PDF tree: the new parameter values are copied into
the arrays, every PDF of the tree is normalised through the arrays, the normalisations are copied to
the device, and the metric is summed over the data.  `Model/Norm.lean` has `normalize` with an abstract
integral; here the integral is what the grid operator computes with the arrays as they are.

Exact arithmetic in an ordered field.  The device's parameters, constants and observables equal the
host's (C32); its normalisations are a copy of their own, made at certain points only.
-/
set_option autoImplicit false
namespace GooFit

/-- Outcome of a computation on the host: done, the process aborts, or undefined behaviour (no counterpart in the code). -/
inductive Ran (α : Type) where
  | done (a : α)
  | aborted
  | ub

/-- What follows a computation (no counterpart in the code). -/
def Ran.andThen {α β : Type} : Ran α → (α → Ran β) → Ran β
  | .done a, f => f a
  | .aborted, _ => .aborted
  | .ub, _ => .ub

/-- The global arrays (`include/goofit/PDFs/detail/Globals.h`) and the device copy of the
normalisations. -/
structure Machine {K : Type} (L : Lib K) where
  host : Host L
  /-- `d_normalizations` -/
  dev : List K

/-- What does not change from call to call: the observables' limits and numbers of bins, the objects'
numbers of integration bins (`setIntegrationFineness`), the flags set on objects, and the
analytic integrals: `analytic k ps ks` is `integrate` of a basic PDF with parameter values `ps` and
constants `ks` if `hasAnalyticIntegral()` holds (no counterpart in the code). -/
structure NormSetup {K : Type} (L : Lib K) where
  range : Nat → K × K × Nat
  fineness : Nat → Int
  flags : NormFlags
  analytic : L.Leaf → List K → List K → Option (K → K → K)

section
variable {K : Type} [Field K] [LinearOrder K] [IsStrictOrderedRing K] [FloorRing K]
attribute [local instance] FpOps.ofField
variable {L : Lib K}

namespace Machine

/-- The arrays as a kernel sees them
(`d_normalizations` beside the other arrays, `include/goofit/PDFs/detail/Globals.h:26-30`). -/
def onDevice (s : Machine L) : Host L := { s.host with bufs := { s.host.bufs with nrm := s.dev } }

/-- `host_normalizations.at(normalIdx + 1) = x` (`src/PDFs/GooPdf.cu:357, 393`,
`src/PDFs/combine/AddPdf.cu:168`, `ProdPdf.cu:95`, `include/goofit/PdfBase.h:204-207`).
Simplification: a write outside the array, where `.at` throws, leaves the array unchanged. -/
def setNorm (oid : Nat) (x : K) (s : Machine L) : Machine L :=
  { s with host := { s.host with
      bufs := { s.host.bufs with nrm := s.host.bufs.nrm.set ((s.host.slots oid).nrm + 1) x } } }

/-- `host_normalizations.sync(d_normalizations)` (`src/PDFs/GooPdf.cu:264`). -/
def sync (s : Machine L) : Machine L := { s with dev := s.host.bufs.nrm }

/-- `recursiveSetNormalization(1.0)` on a PDF (`src/goofit/PdfBase.cpp:30-39`), which copies to the
device at the end. -/
def recursiveSet (x : K) (t : Pdf L) (s : Machine L) : Machine L :=
  sync { s with host := { s.host with
      bufs := { s.host.bufs with nrm := setNormalizations x s.host.slots t s.host.bufs.nrm } } }

/-- `GooPdf::normalize` on one object with a control whose metric takes a PDF
(`src/PDFs/GooPdf.cu:340-396`).  `ExpPdf::integrate` and `GaussianPdf::integrate` read the parameters from
`host_parameters` (`src/PDFs/basic/ExpPdf.cu:122`, `GaussianPdf.cu:32`); `StepPdf::integrate` reads the
variables themselves, which hold the same values (C16).  `normRanges` of the object were made when the
tree was flattened (`src/PDFs/PdfBase.cu:310`). -/
def normalizeOwn (cfg : NormSetup L) (fuel : Nat) (n : Node L) (s : Machine L) : Ran (K × Machine L) :=
  let slot := s.host.slots n.oid
  let obs := n.obs.map cfg.range
  let grid : Ran (K × Machine L) :=
    match normalizeGrid (cfg.fineness n.oid) obs
        (gridOperator L s.onDevice fuel slot.fn (normRanges (cfg.fineness n.oid) obs)) with
    | .ok ret norm => .done (ret, s.setNorm n.oid norm)
    | .aborted => .aborted
    | .ub => .ub
  match n.fn with
  | .leaf k =>
    match collect (fun i => slot.getParameter s.host.bufs i) n.params.length with
    | none => .ub
    | some ps =>
      match cfg.analytic k ps n.consts with
      | none => grid
      | some f =>
        match normalizeAnalytic f obs with
        | .ok ret norm => .done (ret, s.setNorm n.oid norm)
        | .aborted => .aborted
        | .ub => .ub
  | _ => grid

mutual
/-- `normalize()` (`src/PDFs/combine/AddPdf.cu:143-185`, `ProdPdf.cu:75-99`, `MappedPdf.cu:84-96`,
`EventWeightedAddPdf.cu:145-158`, `src/PDFs/GooPdf.cu:340-396`); `val` are the values of the variables,
which `AddPdf` reads directly; `CompositePdf.cu:54-78`.  Not modelled here: convolutions and amplitudes, which keep
their state as it is (`Model/Norm.lean` has the first). -/
def normalize (cfg : NormSetup L) (val : Nat → K) (fuel : Nat) : Pdf L → Machine L → Ran (K × Machine L)
  | .mk n cs, s =>
    match n.fn with
    | .add =>
      (normalizeAll cfg val fuel cs s).andThen fun (rs, s) =>
      let weights := n.params.map val
      let ret := ((weights.zip rs).map fun p => p.2 * p.1).sum + (1 - weights.sum) * rs.getLastD 0
      let s := s.setNorm n.oid 1
      .done (ret, if cfg.flags.common n.oid then
          cs.foldl (fun s c => s.setNorm c.node.oid (1 / ret)) s else s)
    | .addExt =>
      (normalizeAll cfg val fuel cs s).andThen fun (rs, s) =>
      let weights := n.params.map val
      let ret := ((weights.zip rs).map fun p => p.2 * p.1).sum / weights.sum
      let s := s.setNorm n.oid 1
      .done (ret, if cfg.flags.common n.oid then
          cs.foldl (fun s c => s.setNorm c.node.oid (1 / ret)) s else s)
    | .prod =>
      if varOverlaps (cs.map fun c => (c.getObservables, cfg.flags.separate c.node.oid)) then
        (s.recursiveSet 1 (.mk n cs)).sync.normalizeOwn cfg fuel n
      else
        (normalizeAll cfg val fuel cs s).andThen fun (_, s) => .done (1, s.setNorm n.oid 1)
    | .mapped =>
      match cs with
      | [] => .ub
      | _ :: ts =>
        (normalizeAll cfg val fuel ts s).andThen fun (rs, s) => .done (rs.sum, s.setNorm n.oid 1)
    | .evtAdd | .evtAddExt =>
      (normalizeAll cfg val fuel cs s).andThen fun (_, s) => .done (1, s.setNorm n.oid 1)
    | .leaf _ => s.normalizeOwn cfg fuel n
    | .composite =>
      (normalizeAll cfg val fuel cs (s.recursiveSet 1 (.mk n cs))).andThen fun (_, s) => s.normalizeOwn cfg fuel n
    | .conv | .convShared | .amp3 | .metric _ => .done (1, s)
/-- The components' `normalize()`, one after the other (`src/PDFs/GooPdf.cu:340-343` and the overrides cited below). -/
def normalizeAll (cfg : NormSetup L) (val : Nat → K) (fuel : Nat) :
    List (Pdf L) → Machine L → Ran (List K × Machine L)
  | [], s => .done ([], s)
  | c :: cs, s =>
    (normalize cfg val fuel c s).andThen fun (r, s) =>
    (normalizeAll cfg val fuel cs s).andThen fun (rs, s) => .done (r :: rs, s)
end

/-- `updateParameters` (`src/PDFs/PdfBase.cu:131-140`). -/
def updateParameters (env : Env K) (t : Pdf L) (s : Machine L) : Machine L :=
  { s with host := s.host.updateParameters env t }

end Machine

/-- A library of basic PDFs with GooFit's metrics (`src/PDFs/MetricPointer.cu:8-58`); `total` is
`c_totalEvents`. -/
def Lib.metrics (L : Lib K) (log : K → K) (total : Nat) : Lib K :=
  { L with Metric := MetricKind, metric := MetricKind.apply log total }

/-- `calculateNLL` of the PDF object at the root of the tree (`src/PDFs/GooPdf.cu:254-273`; for an
extended sum `src/PDFs/combine/AddPdf.cu:187-204`), for a control whose metric takes a PDF. -/
def Machine.calculateNLL (log : K → K) (x : ExtSess K) (cfg : NormSetup (L.metrics log x.sess.total))
    (val : Nat → K) (fuel : Nat) (t : Pdf (L.metrics log x.sess.total))
    (s : Machine (L.metrics log x.sess.total)) : Ran (K × Machine (L.metrics log x.sess.total)) :=
  (s.normalize cfg val fuel t).andThen fun (_, s) =>
  match s.host.bufs.nrm[(s.host.slots t.node.oid).nrm + 1]? with
  | none => .ub
  | some norm =>
    if norm ≤ 0 then .aborted
    else
      let s := s.sync
      match collect (fun i => metricTaker (L.metrics log x.sess.total) s.onDevice fuel
          (x.sess.eventAt x.sess.eventSize i) (x.sess.tailAt x.sess.eventSize i)) x.sess.numEntries with
      | none => .ub
      | some vs =>
        if vs.sum = 0 then .aborted
        else
          match t.node.fn with
          | .addExt =>
            let expEvents := ((t.node.params.map val).take t.comps.length).foldl (· + ·) 0
            .done (vs.sum + (expEvents - x.numEvents * log expEvents), s)
          | _ => .done (vs.sum, s)

/-- `FCN::operator()` (`src/goofit/FCN.cpp:18-28`, `src/goofit/Params.cpp:47-57`) once the variables
hold the values `val` (C29). -/
def Machine.fcn (log : K → K) (x : ExtSess K) (cfg : NormSetup (L.metrics log x.sess.total))
    (fuel : Nat) (t : Pdf (L.metrics log x.sess.total)) (val : Nat → K)
    (s : Machine (L.metrics log x.sess.total)) : Ran (K × Machine (L.metrics log x.sess.total)) :=
  (s.updateParameters ⟨val, x.sess.idx⟩ t).calculateNLL log x cfg val fuel t

/-- The calls the minimiser makes one after the other: the values it gets (no counterpart in the code). -/
def Machine.fcnAll (log : K → K) (x : ExtSess K) (cfg : NormSetup (L.metrics log x.sess.total))
    (fuel : Nat) (t : Pdf (L.metrics log x.sess.total)) :
    List (Nat → K) → Machine (L.metrics log x.sess.total) →
      Ran (List K × Machine (L.metrics log x.sess.total))
  | [], s => .done ([], s)
  | val :: vals, s =>
    (s.fcn log x cfg fuel t val).andThen fun (r, s) =>
    (s.fcnAll log x cfg fuel t vals).andThen fun (rs, s) => .done (r :: rs, s)

/-- The arrays after `setData` on the root (`src/PDFs/PdfBase.cu:329-530`), with the variables at `val`:
the tree flattened and everything copied to the device (`pre_run`, `src/PDFs/PdfBase.cu:24-31`). -/
def Machine.start (log : K → K) (x : ExtSess K) (val : Nat → K)
    (t : Pdf (L.metrics log x.sess.total)) (h₀ : Host (L.metrics log x.sess.total)) :
    Machine (L.metrics log x.sess.total) :=
  let h := h₀.setIndices ⟨val, x.sess.idx⟩ t x.sess.ctl.metric
  ⟨h, h.bufs.nrm⟩

end
end GooFit
