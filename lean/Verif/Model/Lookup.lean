import Verif.Model.Minuit
/-!
# Looking up, fixing and removing the parameters of a PDF

`getParameterByName`, `unregisterParameter` (`src/goofit/PdfBase.cpp:45-56, 72-86`), `setParameterConstantness`
(`src/PDFs/GooPdf.cpp:83-90`).
-/
set_option autoImplicit false
namespace GooFit
variable {F : Type} {L : Lib F}

mutual
/-- `getParameterByName` (`src/goofit/PdfBase.cpp:72-86`): the object's own list, then the components.  The code returns a pointer to
the handle in the list; the model returns the variable behind the handle (C01). -/
def getParameterByName (name : Nat → String) (n : String) : Pdf L → Option Nat
  | .mk nd cs =>
    match nd.params.find? fun p => name p == n with
    | some p => some p
    | none => getParameterByNameList name n cs
/-- The loop over the components (`src/goofit/PdfBase.cpp:78-83`). -/
def getParameterByNameList (name : Nat → String) (n : String) : List (Pdf L) → Option Nat
  | [] => none
  | t :: ts =>
    match getParameterByName name n t with
    | some p => some p
    | none => getParameterByNameList name n ts
end

mutual
/-- `unregisterParameter` (`src/goofit/PdfBase.cpp:45-56`): the first entry of the list that is this variable, then the components. -/
def unregisterParameter (v : Nat) : Pdf L → Pdf L
  | .mk nd cs => .mk { nd with params := nd.params.erase v } (unregisterParameterList v cs)
/-- The loop over the components (`src/goofit/PdfBase.cpp:53-55`). -/
def unregisterParameterList (v : Nat) : List (Pdf L) → List (Pdf L)
  | [] => []
  | t :: ts => unregisterParameter v t :: unregisterParameterList v ts
end

/-- `setParameterConstantness` (`src/PDFs/GooPdf.cpp:83-90`). -/
def setParameterConstantness (constant : Bool) (t : Pdf L) (h : Pars F) : Pars F :=
  t.getParameters.foldl (fun h i => h.modify i fun v => { v with fixed := constant }) h

end GooFit
