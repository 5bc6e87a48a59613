import Verif.Model.Tree
/-!
# Host-side traversals of a PDF tree

Models `updateParameters` (`src/PDFs/PdfBase.cu:131-140`), `recursiveSetNormalization`,
`registerParameter`, `registerObservable`, `getParameters`, `getObservables`, `setupObservables`
(`src/goofit/PdfBase.cpp:30-39, 41, 58-70, 88-117`) and the unbinned branch of `setData`
(`src/PDFs/PdfBase.cu:340-403, 433-437`, without MPI).
-/
set_option autoImplicit false
namespace GooFit
variable {F : Type} {L : Lib F}

/-- `parametersList` of one object written into `host_parameters`
(`src/PDFs/PdfBase.cu:132-133`): `host_parameters.at(parametersIdx + i + 1) = value`.
Simplification: a write outside the array, where `.at` throws, leaves the array unchanged. -/
def writeParams (vals : List F) (base : Nat) (i : Nat) (par : List F) : List F :=
  match vals with
  | [] => par
  | v :: vs => writeParams vs base (i + 1) (par.set (base + i + 1) v)

mutual
/-- `updateParameters` (`src/PDFs/PdfBase.cu:131-140`). -/
def updateParameters (env : Env F) (slots : Nat → Slots) : Pdf L → List F → List F
  | .mk n cs, par =>
    updateParametersList env slots cs (writeParams (n.params.map env.val) (slots n.oid).par 0 par)
/-- The loop over the components (`src/PDFs/PdfBase.cu:135-136`). -/
def updateParametersList (env : Env F) (slots : Nat → Slots) : List (Pdf L) → List F → List F
  | [], par => par
  | t :: ts, par => updateParametersList env slots ts (updateParameters env slots t par)
end

/-- `updateParameters` on the global state (`src/PDFs/PdfBase.cu:131-140`). -/
def Host.updateParameters (env : Env F) (t : Pdf L) (h : Host L) : Host L :=
  { h with bufs := { h.bufs with par := GooFit.updateParameters env h.slots t h.bufs.par } }

mutual
/-- `recursiveSetNormalization` (`src/goofit/PdfBase.cpp:30-39`): the array. -/
def setNormalizations (x : F) (slots : Nat → Slots) : Pdf L → List F → List F
  | .mk n cs, nrm => setNormalizationsList x slots cs (nrm.set ((slots n.oid).nrm + 1) x)
/-- The loop over the components (`src/goofit/PdfBase.cpp:34-36`). -/
def setNormalizationsList (x : F) (slots : Nat → Slots) : List (Pdf L) → List F → List F
  | [], nrm => nrm
  | t :: ts, nrm => setNormalizationsList x slots ts (setNormalizations x slots t nrm)
end

/-- `find_in` followed by `push_back` (`src/goofit/PdfBase.cpp:22-25, 64-66, 94-96`). -/
def pushNew (ret : List Nat) (x : Nat) : List Nat := if x ∈ ret then ret else ret ++ [x]

mutual
/-- `getParameters` and `getObservables` (`src/goofit/PdfBase.cpp:58-70, 88-100`); `own` selects the
object's own list. -/
def gather (own : Node L → List Nat) : Pdf L → List Nat
  | .mk n cs => gatherList own cs (own n)
/-- The loop over the components (`src/goofit/PdfBase.cpp:63-67, 93-97`). -/
def gatherList (own : Node L → List Nat) : List (Pdf L) → List Nat → List Nat
  | [], ret => ret
  | t :: ts, ret => gatherList own ts ((gather own t).foldl pushNew ret)
end

/-- `getParameters` (`src/goofit/PdfBase.cpp:58-70`). -/
def Pdf.getParameters (t : Pdf L) : List Nat := gather Node.params t
/-- `getObservables` (`src/goofit/PdfBase.cpp:88-100`). -/
def Pdf.getObservables (t : Pdf L) : List Nat := gather Node.obs t

/-- `registerParameter` (`src/goofit/PdfBase.cpp:41`). -/
def Node.registerParameter (n : Node L) (v : Nat) : Node L := { n with params := n.params ++ [v] }
/-- `registerObservable` (`src/goofit/PdfBase.cpp:102-107`). -/
def Node.registerObservable (n : Node L) (o : Nat) : Node L :=
  if o ∈ n.obs then n else { n with obs := n.obs ++ [o] }

/-- `setupObservables` (`src/goofit/PdfBase.cpp:109-117`): number the root's observables; indices of
other observables keep their value (the index lives in the shared object, C01). -/
def setupObservables (os : List Nat) (counter : Nat) (idx : Nat → Int) : Nat → Int :=
  match os with
  | [] => idx
  | o :: os => setupObservables os (counter + 1) (fun p => if p = o then (counter : Int) else idx p)

/-- Filling the event array, one event (`src/PDFs/PdfBase.cu:399-402`): `rows o` is
`unbinned_data->getValue(v, i)`.  `none` is an entry never written. -/
def fillEvent (idx : Nat → Int) (dim i : Nat) (row : Nat → F) (arr : List (Option F)) :
    List Nat → List (Option F)
  | [] => arr
  | o :: os => fillEvent idx dim i row (arr.set (i * dim + (idx o).toNat) (some (row o))) os

/-- Filling the event array (`src/PDFs/PdfBase.cu:382, 398-403`). -/
def fillEvents (idx : Nat → Int) (os : List Nat) (data : Nat → Nat → F) :
    Nat → List (Option F) → List (Option F)
  | 0, arr => arr
  | k + 1, arr => fillEvent idx os.length k (data k) (fillEvents idx os data k arr) os

/-- The device event array after `setData` with an unbinned dataset of `num` events, `data i o`
being the value of observable `o` in event `i` (`src/PDFs/PdfBase.cu:352-438`). -/
def eventArray (idx : Nat → Int) (os : List Nat) (data : Nat → Nat → F) (num : Nat) :
    List (Option F) :=
  fillEvents idx os data num (List.replicate (num * os.length) none)

/-- The event operator's view of event `i` (`src/PDFs/MetricTaker.cu:21-23`):
`eventAddress = base + i * abs(eventSize)`. -/
def eventView (arr : List (Option F)) (stride i : Nat) : Evt F := fun k => (arr[i * stride + k]?).join

end GooFit
