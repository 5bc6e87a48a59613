import Verif.Model.FitManager
/-!
# The fit manager for Minuit1

`src/goofit/FitManagerMinuit1.cpp`, `include/goofit/fitting/FitManagerMinuit1.h`.  `TMinuit` is not
modelled: whether it refuses a parameter is a parameter of the model, and what it does in one fit is a record
`MinRun`.
-/
set_option autoImplicit false
namespace GooFit
open FpOps
variable {F : Type}

/-- What `TMinuit` is told about a parameter: the arguments of `DefineParameter` and whether
`FixParameter` was called (`src/goofit/FitManagerMinuit1.cpp:22-34`). -/
structure Mn1Par (F : Type) where
  name : String
  value : F
  error : F
  lower : F
  upper : F
  fixed : Bool

/-- The loop of `Minuit1::Minuit1` (`src/goofit/FitManagerMinuit1.cpp:17-37`); `counter` is the number of parameters
defined so far.  `refuses` is whether `DefineParameter` fails in either of the two ways checked for, and
`none` the exception thrown then. -/
def minuit1Loop (refuses : Mn1Par F → Bool) : List Nat → List (Mn1Par F) → Pars F → Option (List (Mn1Par F) × Pars F)
  | [], mn, h => some (mn, h)
  | i :: is, mn, h =>
    let h := h.modify i fun v => { v with fitterIndex := (mn.length : Nat) }
    let p : Mn1Par F := ⟨(h i).name, (h i).value, (h i).error, (h i).lower, (h i).upper, (h i).fixed⟩
    if refuses p then none else minuit1Loop refuses is (mn ++ [p]) h

variable {L : Lib F}

/-- `Minuit1::Minuit1` (`src/goofit/FitManagerMinuit1.cpp:13-40`), up to copying the values to the arrays. -/
def minuit1Ctor (refuses : Mn1Par F → Bool) (t : Pdf L) (h : Pars F) : Option (List (Mn1Par F) × Pars F) :=
  minuit1Loop refuses t.getParameters [] h

/-- `FitManagerMinuit1::fit` (`src/goofit/FitManagerMinuit1.cpp:67-104`) when Minuit does `r`: `r.calls` are the points at
which it calls `Eval`, `r.value` and `r.error` what `GetParameter` gives.  `none` is an exception. -/
def fit1 [FpOps F] [DecidableEq F] (t : Pdf L) (h : Pars F) (r : MinRun F) : Option (Pars F) := do
  let h := t.getParameters.foldl (fun h i => h.modify i fun v => { v with changed := true }) h
  let h ← r.calls.foldlM (fun h v => eval1 t v h) h
  return t.getParameters.foldl (fun h i =>
    let k := (h i).fitterIndex
    let h := h.modify i fun v => { v with value := r.value k }
    h.modify i fun v => { v with error := r.error k }) h

/-- What can happen while the manager exists (no counterpart in the code). -/
inductive Mgr1Op (F : Type) where
  | fit (r : MinRun F)
  /-- Minuit, obtained with `getMinuitObject`, calls `Eval` -/
  | callAt (values : List F)
  /-- setters of a variable -/
  | setValue (i : Nat) (x : F)
  | setError (i : Nat) (x : F)
  | setBlind (i : Nat) (x : F)
  | setFixed (i : Nat) (b : Bool)

/-- One event in the life of the manager of `t` (no counterpart in the code). -/
def mgr1Step [FpOps F] [DecidableEq F] (t : Pdf L) (h : Pars F) : Mgr1Op F → Option (Pars F)
  | .fit r => fit1 t h r
  | .callAt v => eval1 t v h
  | .setValue i x => some (h.modify i fun v => { v with value := x })
  | .setError i x => some (h.modify i fun v => { v with error := x })
  | .setBlind i x => some (h.modify i fun v => { v with blind := x })
  | .setFixed i b => some (h.modify i fun v => { v with fixed := b })

/-- The life of a manager constructed for `t` on the variables `h` (no counterpart in the code). -/
def mgr1Run [FpOps F] [DecidableEq F] (refuses : Mn1Par F → Bool) (t : Pdf L) (h : Pars F) (ops : List (Mgr1Op F)) :
    Option (Pars F) := do
  let (_, h) ← minuit1Ctor refuses t h
  ops.foldlM (mgr1Step t) h

end GooFit
