import Verif.Model.TreeHost
/-!
# Between the minimiser and the variables

`src/goofit/Params.cpp`, `src/goofit/FCN.cpp`, `PdfBase::updateVariable` (`src/PDFs/PdfBase.cu:121-129`).

A variable is known by its identity, a number; its contents live in a heap (copies alias, C01).
`Minuit2::MnUserParameters` is modelled by the list of its parameters: `Add` refuses a name that is
already there and otherwise appends, `Index` finds the position of a name.
-/
set_option autoImplicit false
namespace GooFit
open FpOps
variable {F : Type}

/-- The contents of a `Variable` (`include/goofit/Variable.h:27-37, 227-240`). -/
structure ParVar (F : Type) where
  name : String
  value : F
  error : F
  lower : F
  upper : F
  blind : F
  fixed : Bool
  changed : Bool
  fitterIndex : Int

/-- All variables of a program (no counterpart in the code). -/
abbrev Pars (F : Type) := Nat → ParVar F

/-- Write one variable (the setters of `include/goofit/Variable.h`). -/
def Pars.modify (h : Pars F) (i : Nat) (f : ParVar F → ParVar F) : Pars F := fun j => if j = i then f (h j) else h j

/-- How a parameter is declared to Minuit (`src/goofit/Params.cpp:14-20`). -/
inductive MnKind (F : Type) where
  | constant
  | free (err : F)
  | limited (err lo hi : F)

/-- One parameter of `MnUserParameters` (Minuit2, the base class of `Params` (`include/goofit/fitting/Params.h`)). -/
structure MnPar (F : Type) where
  name : String
  value : F
  kind : MnKind F

/-- The choice of the `Add` overload (`src/goofit/Params.cpp:14-20`). -/
def ParVar.mnKind [DecidableEq F] (v : ParVar F) : MnKind F :=
  if v.fixed then .constant
  else if v.lower = v.upper then .free v.error
  else .limited v.error v.lower v.upper

/-- The loop of `Params::Params` (`src/goofit/Params.cpp:12-26`); `none` is the exception. -/
def paramsLoop [DecidableEq F] : List Nat → List (MnPar F) → Pars F → Option (List (MnPar F) × Pars F)
  | [], mn, h => some (mn, h)
  | i :: is, mn, h =>
    if mn.any (fun p => p.name == (h i).name) then none
    else
      let mn' := mn ++ [⟨(h i).name, (h i).value, (h i).mnKind⟩]
      paramsLoop is mn'
        (h.modify i fun v => { v with fitterIndex := (mn'.findIdx fun p => p.name == (h i).name : Nat) })

variable {L : Lib F}

/-- `Params::Params` (`src/goofit/Params.cpp:8-27`). -/
def paramsCtor [DecidableEq F] (t : Pdf L) (h : Pars F) : Option (List (MnPar F) × Pars F) :=
  paramsLoop t.getParameters [] h

mutual
/-- `PdfBase::updateVariable` (`src/PDFs/PdfBase.cu:121-129`): every parameter of the tree with that
name gets the value. -/
def updateVariable (nm : String) (x : F) : Pdf L → Pars F → Pars F
  | .mk n cs, h =>
    updateVariableList nm x cs
      (n.params.foldl (fun h i => if (h i).name = nm then h.modify i (fun v => { v with value := x }) else h) h)
/-- The loop over the components (`src/PDFs/PdfBase.cu:127-128`). -/
def updateVariableList (nm : String) (x : F) : List (Pdf L) → Pars F → Pars F
  | [], h => h
  | t :: ts, h => updateVariableList nm x ts (updateVariable nm x t h)
end

/-- `vector::at` with a signed index (library function, used at `src/goofit/Params.cpp:42,49-50`). -/
def atInt {α : Type} (l : List α) (i : Int) : Option α := if i < 0 then none else l[i.toNat]?

/-- The loop of `Params::from_minuit_vector` (`src/goofit/Params.cpp:47-51`); `none` when the vector is
too short (`std::out_of_range`). -/
def fromLoop [FpOps F] [DecidableEq F] (t : Pdf L) (values : List F) (force : Bool) : List Nat → Pars F → Option (Pars F)
  | [], h => some h
  | i :: is, h => do
    let x ← atInt values (h i).fitterIndex
    let h1 := h.modify i fun v => { v with changed := if force then true else decide (v.value ≠ x) }
    fromLoop t values force is (updateVariable (h i).name (sub x (h i).blind) t h1)

/-- `Params::from_minuit_vector` (`src/goofit/Params.cpp:47-57`), up to the values of the variables;
`updateParameters` then copies them to the device (`Host.updateParameters`). -/
def fromMinuitVector [FpOps F] [DecidableEq F] (t : Pdf L) (values : List F) (force : Bool) (h : Pars F) : Option (Pars F) :=
  fromLoop t values force t.getParameters h

/-- `max_fitter_index` (`src/goofit/Variable.cpp:19-25`). -/
def maxFitterIndex (h : Pars F) (vars : List Nat) : Int :=
  vars.foldl (fun m i => max m (h i).fitterIndex) (-1)

/-- `Params::make_minuit_vector` (`src/goofit/Params.cpp:39-45`). -/
def makeMinuitVector [FpOps F] (vars : List Nat) (h : Pars F) : Option (List F) :=
  vars.foldlM (fun vec i =>
    if (h i).fitterIndex < 0 ∨ (vec.length : Int) ≤ (h i).fitterIndex then none
    else some (vec.set (h i).fitterIndex.toNat (h i).value))
    (List.replicate (maxFitterIndex h vars + 1).toNat (lit 0))

/-- `FCN::operator()(pars)` up to `calculateNLL`, which sees the resulting values
(`src/goofit/FCN.cpp:18-28`). -/
def fcnAt [FpOps F] [DecidableEq F] (t : Pdf L) (values : List F) (h : Pars F) : Option (Pars F) :=
  fromMinuitVector t values false h

/-- `FCN::operator()()` up to `calculateNLL` (`src/goofit/FCN.cpp:30-41`). -/
def fcnHere [FpOps F] [DecidableEq F] (t : Pdf L) (h : Pars F) : Option (Pars F) := do
  let pars ← makeMinuitVector t.getParameters h
  fromMinuitVector t pars true h

/-- `Params::SetGooFitParams` (`src/goofit/Params.cpp:29-37`): values and errors from the minimum. -/
def setGooFitParams (vars : List Nat) (state : Int → F × F) (h : Pars F) : Pars F :=
  vars.foldl (fun h i => h.modify i fun v =>
    { v with value := (state v.fitterIndex).1, error := (state v.fitterIndex).2 }) h

/-- What can happen to the variables while a fit manager exists (no counterpart in the code). -/
inductive MnOp (F : Type) where
  /-- the FCN is called by the minimiser -/
  | callAt (values : List F)
  /-- the FCN is called without arguments -/
  | callHere
  /-- the results are read back -/
  | setParams (state : Int → F × F)
  /-- setters of a variable -/
  | setValue (i : Nat) (x : F)
  | setBlind (i : Nat) (x : F)
  | setError (i : Nat) (x : F)
  | setFixed (i : Nat) (b : Bool)

/-- One event in the life of the manager of `t` (no counterpart in the code). -/
def mnStep [FpOps F] [DecidableEq F] (t : Pdf L) (h : Pars F) : MnOp F → Option (Pars F)
  | .callAt v => fcnAt t v h
  | .callHere => fcnHere t h
  | .setParams s => some (setGooFitParams t.getParameters s h)
  | .setValue i x => some (h.modify i fun v => { v with value := x })
  | .setBlind i x => some (h.modify i fun v => { v with blind := x })
  | .setError i x => some (h.modify i fun v => { v with error := x })
  | .setFixed i b => some (h.modify i fun v => { v with fixed := b })

/-- A history of the manager of `t`, constructed on the variables `h`: `none` if an exception is
thrown.  The constructor of `FCN` marks every parameter as changed (`src/goofit/FCN.cpp:9-16`). -/
def mnRun [FpOps F] [DecidableEq F] (t : Pdf L) (h : Pars F) (ops : List (MnOp F)) : Option (Pars F) := do
  let (_, h) ← paramsCtor t h
  let h := t.getParameters.foldl (fun h i => h.modify i fun v => { v with changed := true }) h
  ops.foldlM (mnStep t) h

end GooFit
