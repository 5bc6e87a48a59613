import Verif.Model.TreeHost
/-!
# Several PDFs sharing the global arrays

The arrays of `include/goofit/PDFs/detail/Globals.h` exist once; every PDF object has its own event array, number of entries and fit
control (`include/goofit/PdfBase.h:239-281`); the indices of observables and the values of variables live in shared objects
(C01).  Unbinned data, no MPI; cached normalisations keep their value.
-/
set_option autoImplicit false
namespace GooFit

/-- The state of a program with several PDFs (no counterpart in the code). -/
structure Prog {F : Type} (L : Lib F) where
  /-- the global arrays, and every object's index members -/
  host : Host L
  /-- values of the variables -/
  val : Nat → F
  /-- indices of the observables -/
  idx : Nat → Int
  /-- the metric of every object's fit control -/
  metric : Nat → L.Metric
  /-- `dev_event_array` of every object -/
  array : Nat → Option (List (Option F))
  /-- `numEntries` of every object -/
  num : Nat → Nat
  /-- `c_totalEvents` -/
  total : Nat

/-- What a program does with its PDFs (no counterpart in the code). -/
inductive WOp {F : Type} (L : Lib F) where
  /-- the constructor of PDF `q`, its components existing already -/
  | construct (q : Nat) (m : L.Metric)
  /-- `setData` on PDF `q`: `n` events, `data i o` the value of observable `o` in event `i` -/
  | setData (q : Nat) (n : Nat) (data : Nat → Nat → F)
  /-- `setFitControl` on PDF `q` -/
  | setControl (q : Nat) (m : L.Metric)
  /-- `Variable::setValue` -/
  | setVar (v : Nat) (x : F)
  /-- `copyParams` on PDF `q`, as done by the function given to the minimiser -/
  | copyParams (q : Nat)

/-- The PDF an operation is about (no counterpart in the code). -/
def WOp.about {F : Type} {L : Lib F} : WOp L → Option Nat
  | .construct q _ | .setData q _ _ | .setControl q _ | .copyParams q => some q
  | .setVar .. => none

mutual
/-- Identities of the objects of a tree (no counterpart in the code). -/
def Pdf.objects {F : Type} {L : Lib F} : Pdf L → List Nat
  | .mk n cs => n.oid :: Pdf.objectsList cs
/-- Identities of the objects of a list of trees (no counterpart in the code). -/
def Pdf.objectsList {F : Type} {L : Lib F} : List (Pdf L) → List Nat
  | [] => []
  | c :: cs => c.objects ++ Pdf.objectsList cs
end

section
variable {F : Type} [FpOps F] {L : Lib F}
open FpOps

/-- `initializeIndices` (`src/PDFs/PdfBase.cu:46-93`): placeholders behind what is there. -/
def Host.placeholders (w : Nat → F) (n : Node L) (h : Host L) : Host L where
  table := h.table
  bufs :=
    { par := h.bufs.par ++ (ofNat n.params.length :: n.params.map w)
      con := h.bufs.con ++ (ofNat n.consts.length :: n.consts)
      obs := h.bufs.obs ++ (ofNat n.obs.length :: n.obs.map w)
      nrm := h.bufs.nrm ++ [lit 1, lit 0] }
  slots := fun o => if o = n.oid then
      ⟨(h.slots o).fn, h.bufs.par.length, h.bufs.con.length, h.bufs.obs.length, h.bufs.nrm.length⟩
    else h.slots o

/-- `setIndices` of PDF `t` in the world (`src/PDFs/GooPdf.cu:182-200`). -/
def Prog.flatten (t : Pdf L) (w : Prog L) : Prog L :=
  { w with host := w.host.setIndices ⟨w.val, w.idx⟩ t (w.metric t.node.oid) }

/-- `setFitControl` (`src/PDFs/GooPdf.cpp:113-124`).  Every component flattens its own tree first; the last one, the object itself,
clears the arrays again. -/
def Prog.setControl (t : Pdf L) (m : L.Metric) (w : Prog L) : Prog L :=
  Prog.flatten t { w with metric := fun o => if o ∈ t.objects then m else w.metric o }

/-- One operation.  `pdfs q` is the tree of PDF `q` (no counterpart in the code). -/
def Prog.step (pdfs : Nat → Pdf L) (w : Prog L) : WOp L → Prog L
  -- `GooPdf::initialize` (`src/PDFs/GooPdf.cpp:52-67`)
  | .construct q m =>
    let w := w.setControl (pdfs q) m
    { w with host := w.host.placeholders w.val (pdfs q).node }
  -- `setData` (`src/PDFs/PdfBase.cu:329-437`)
  | .setData q n data =>
    let idx := setupObservables (pdfs q).node.obs 0 w.idx
    let w := Prog.flatten (pdfs q) { w with idx := idx }
    { w with array := fun o => if o = q then some (eventArray idx (pdfs q).node.obs data n) else w.array o
             num := fun o => if o = q then n else w.num o
             total := n }
  | .setControl q m => w.setControl (pdfs q) m
  | .setVar v x => { w with val := fun u => if u = v then x else w.val u }
  -- `copyParams`, `updateParameters` (`src/PDFs/PdfBase.cu:38-44, 131-140`)
  | .copyParams q => { w with host := w.host.updateParameters ⟨w.val, w.idx⟩ (pdfs q) }

/-- A history (no counterpart in the code). -/
def Prog.run (pdfs : Nat → Pdf L) (ops : List (WOp L)) (w : Prog L) : Prog L := ops.foldl (Prog.step pdfs) w

/-- `eventAddress + (abs(eventSize) - 2)` (`src/PDFs/MetricTaker.cu:41`). -/
def tailView (arr : List (Option F)) (stride i : Nat) : Evt F := fun k =>
  let p : Int := i * stride + stride - 2 + k
  if 0 ≤ p then (arr[p.toNat]?).join else none

/-- `evaluate_with_metric` on PDF `q` (`src/PDFs/GooPdf.cu:112-136`): the metric at every event of its own array, through the
global arrays as they are. -/
def Prog.evaluate (pdfs : Nat → Pdf L) (fuel q : Nat) (w : Prog L) : List (Option F) :=
  (List.range (w.num q)).map fun i =>
    let arr := (w.array q).getD []
    let stride := (pdfs q).node.obs.length
    metricTaker L w.host fuel (eventView arr stride i) (tailView arr stride i)

end
end GooFit
