import Verif.Model.Minuit
/-!
# The fit managers

`src/goofit/FitManagerMinuit2.cpp`, `include/goofit/fitting/FitManagerMinuit2.h`, `include/goofit/fitting/FCN.h:26`,
`src/goofit/FitManagerMinuit1.cpp`, `include/goofit/fitting/FitManagerMinuit1.h`.

Minuit itself is not modelled.  What it does in one fit is a record `MinRun`: the points at which it calls the FCN, and what it
reports in the end.  The theorems hold for all such records, or for all that respect the declaration of the parameters.
Printing, timers and the print level are left out.
-/
set_option autoImplicit false
namespace GooFit
open FpOps
variable {F : Type}

/-- What the minimiser does in one call of `fit`: `migrad(maxfcn_)` (`src/goofit/FitManagerMinuit2.cpp:53`) and, if asked for,
`MnMinos` (59-67). -/
structure MinRun (F : Type) where
  /-- the points at which Migrad calls the FCN -/
  calls : List (List F)
  /-- `min.UserState().Value(k)` -/
  value : Int → F
  /-- `min.UserState().Error(k)` -/
  error : Int → F
  isValid : Bool
  hasCovariance : Bool
  isAboveMaxEdm : Bool
  hasReachedCallLimit : Bool
  /-- the points at which Minos calls the FCN -/
  minosCalls : List (List F)
  /-- `minos(k)` -/
  minos : Int → F × F

/-- `enum class FitErrors`, `include/goofit/fitting/FitManagerMinuit2.h:15`. -/
inductive FitErrors where
  | Valid | NotRun | InValid
deriving DecidableEq

/-- `operator int`, `include/goofit/fitting/FitManagerMinuit2.h:15, 39`. -/
def FitErrors.code : FitErrors → Int
  | .Valid => 0
  | .NotRun => 50
  | .InValid => 51

/-- The members of `FitManagerMinuit2` (`include/goofit/fitting/FitManagerMinuit2.h:56-63`); `mn` is `upar_` as
`MnUserParameters`, that is, what the next fit starts from. -/
structure Mgr2 (F : Type) where
  mn : List (MnPar F)
  retval : FitErrors
  minosErrors : List (F × F)
  minos : Bool

/-- `operator bool`, `include/goofit/fitting/FitManagerMinuit2.h:36`. -/
def Mgr2.ok (m : Mgr2 F) : Bool := m.retval == .Valid

/-- `MnUserParameters::SetError` for the three ways of declaring a parameter
(Minuit2, called at `src/goofit/Params.cpp:35`). -/
def MnKind.setError (e : F) : MnKind F → MnKind F
  | .constant => .constant
  | .free _ => .free e
  | .limited _ lo hi => .limited e lo hi

variable {L : Lib F}

/-- `FitManagerMinuit2::FitManagerMinuit2` (`src/goofit/FitManagerMinuit2.cpp:27-29`): `Params`, then `FCN`, which marks every
variable as changed (`src/goofit/FCN.cpp:14-15`). -/
def Mgr2.ctor [DecidableEq F] (t : Pdf L) (h : Pars F) : Option (Mgr2 F × Pars F) := do
  let (mn, h) ← paramsCtor t h
  return (⟨mn, .NotRun, [], false⟩, t.getParameters.foldl (fun h i => h.modify i fun v => { v with changed := true }) h)

/-- The second half of the loop of `Params::SetGooFitParams` (`src/goofit/Params.cpp:34-35`): the new values and errors are what
the next fit starts from. -/
def mnReadBack (vars : List Nat) (h : Pars F) (mn : List (MnPar F)) : List (MnPar F) :=
  vars.foldl (fun mn i => mn.modify (h i).fitterIndex.toNat
    fun p => { p with value := (h i).value, kind := p.kind.setError (h i).error }) mn

/-- `FitManagerMinuit2::fit` (`src/goofit/FitManagerMinuit2.cpp:31-119`) when Minuit does `r`.  `none` is an exception. -/
def Mgr2.fit [FpOps F] [DecidableEq F] (t : Pdf L) (m : Mgr2 F) (h : Pars F) (r : MinRun F) : Option (Mgr2 F × Pars F) := do
  let h ← (r.calls.map MnOp.callAt).foldlM (mnStep t) h
  let h ← if m.minos then (r.minosCalls.map MnOp.callAt).foldlM (mnStep t) h else some h
  let minosErrors := if m.minos then
      m.minosErrors ++ (t.getParameters.filter fun i => !(h i).fixed).map fun i => r.minos (h i).fitterIndex
    else m.minosErrors
  let retval := if r.isValid && r.hasCovariance && !r.isAboveMaxEdm && !r.hasReachedCallLimit then FitErrors.Valid
    else FitErrors.InValid
  let h := setGooFitParams t.getParameters (fun k => (r.value k, r.error k)) h
  return (⟨mnReadBack t.getParameters h m.mn, retval, minosErrors, m.minos⟩, h)

/-- What can happen while the manager exists (no counterpart in the code). -/
inductive MgrOp (F : Type) where
  | fit (r : MinRun F)
  | setMinos (b : Bool)
  /-- the FCN obtained with `getFCN` is called -/
  | callAt (values : List F)
  | callHere
  /-- setters of a variable -/
  | setValue (i : Nat) (x : F)
  | setError (i : Nat) (x : F)
  | setBlind (i : Nat) (x : F)
  | setFixed (i : Nat) (b : Bool)

/-- One event in the life of the manager of `t` (no counterpart in the code). -/
def Mgr2.step [FpOps F] [DecidableEq F] (t : Pdf L) (s : Mgr2 F × Pars F) : MgrOp F → Option (Mgr2 F × Pars F)
  | .fit r => s.1.fit t s.2 r
  | .setMinos b => some ({ s.1 with minos := b }, s.2)
  | .callAt v => (mnStep t s.2 (.callAt v)).map fun h => (s.1, h)
  | .callHere => (mnStep t s.2 .callHere).map fun h => (s.1, h)
  | .setValue i x => (mnStep t s.2 (.setValue i x)).map fun h => (s.1, h)
  | .setError i x => (mnStep t s.2 (.setError i x)).map fun h => (s.1, h)
  | .setBlind i x => (mnStep t s.2 (.setBlind i x)).map fun h => (s.1, h)
  | .setFixed i b => (mnStep t s.2 (.setFixed i b)).map fun h => (s.1, h)

/-- The life of a manager constructed for `t` on the variables `h` (no counterpart in the code). -/
def Mgr2.run [FpOps F] [DecidableEq F] (t : Pdf L) (h : Pars F) (ops : List (MgrOp F)) : Option (Mgr2 F × Pars F) := do
  let s ← Mgr2.ctor t h
  ops.foldlM (Mgr2.step t) s

/-- `FCN::Up`, `include/goofit/fitting/FCN.h:26`. -/
def upMinuit2 [Div F] [OfNat F 1] [OfNat F 2] : F := 1 / 2

/-- What `Minuit1` uses: nothing sets it, so it is the default of `TMinuit`, one
(`include/goofit/fitting/FitManagerMinuit1.h:11-28`). -/
def upMinuit1 [OfNat F 1] : F := 1

/-- The loop of `Minuit1::Eval` (`src/goofit/FitManagerMinuit1.cpp:48-57`). -/
def evalLoop1 [FpOps F] [DecidableEq F] (t : Pdf L) (pars : List F) : List Nat → Pars F → Option (Pars F)
  | [], h => some h
  | i :: is, h => do
    let x ← atInt pars (h i).fitterIndex
    let h1 := h.modify i fun v => { v with changed := decide (v.value ≠ x) }
    let h2 := h1.modify i fun v => { v with value := x }
    evalLoop1 t pars is (updateVariable (h2 i).name (sub (h2 i).value (h2 i).blind) t h2)

/-- `Minuit1::Eval` (`src/goofit/FitManagerMinuit1.cpp:42-65`) up to `updateParameters`. -/
def eval1 [FpOps F] [DecidableEq F] (t : Pdf L) (pars : List F) (h : Pars F) : Option (Pars F) :=
  evalLoop1 t pars t.getParameters h

/-- The settings of `FitManagerMinuit1` (`include/goofit/fitting/FitManagerMinuit1.h:35-40, 53-57`). -/
structure Mgr1 where
  /-- `overrideCallLimit` is positive -/
  callLimit : Bool := false
  useHesseBefore : Bool := true
  useHesse : Bool := true
  useMinos : Bool := false
  useImprove : Bool := false

/-- The commands that `FitManagerMinuit1::fit` gives to Minuit (`src/goofit/FitManagerMinuit1.cpp:75-94`). -/
def Mgr1.commands (m : Mgr1) : List String :=
  if m.callLimit then
    (if m.useHesseBefore then ["HESSE"] else []) ++ ["MIGRAD"] ++ (if m.useHesse then ["HESSE"] else [])
      ++ (if m.useMinos then ["MINOS"] else []) ++ (if m.useImprove then ["IMPROVE"] else [])
  else ["MIGRAD"]

end GooFit
