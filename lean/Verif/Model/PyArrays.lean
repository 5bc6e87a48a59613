import Verif.Model.Generate3
import Verif.Model.Plotter
/-!
# Arrays that Python gets

`GenerateSig` of the three amplitude PDFs (`python/PDFs/physics/Amp3Body.cpp:41-76`, `python/PDFs/physics/Amp4Body.cu:37-72`,
`python/PDFs/physics/Amp4Body_TD.cu:41-90`), and `make2D` and `getExtent` of `DalitzPlotter`
(`python/PDFs/physics/DalitzPlotter.cpp:31-61`).

pybind11 and numpy are not in the repository.  An array is taken to be a shape and a map from indices to entries, which C++ and
Python read in the same way; a new array has no defined entries; `mutable_at` raises an exception for an index that is not in the
shape.  `Vector4R::get` of mcbooster gives the energy for 0 and the momentum for 1, 2, 3, as the examples of the repository use it
(`examples/TDDP4/TDDP4.cu:234-252`).
-/
set_option autoImplicit false
namespace GooFit

/-- How C++ code called from Python ends: with a result, with an exception, or undefined
(`python/PDFs/physics/Amp3Body.cpp:41-76`). -/
inductive ArrOut (α : Type) where
  | ok (a : α)
  | raised
  | undefined

/-- The next statement (no counterpart in the code). -/
def ArrOut.next {α β : Type} (r : ArrOut α) (f : α → ArrOut β) : ArrOut β :=
  match r with
  | .ok a => f a
  | .raised => .raised
  | .undefined => .undefined

/-- `py::array_t`; an entry that has not been written is `none` (`python/PDFs/physics/Amp3Body.cpp:49-52`). -/
structure NdArray (α : Type) where
  shape : List Nat
  cells : List Nat → Option α

/-- The constructor of `py::array_t` (`python/PDFs/physics/Amp3Body.cpp:49-52`). -/
def NdArray.new (α : Type) (shape : List Nat) : NdArray α := ⟨shape, fun _ => none⟩

/-- The index belongs to the shape, as `mutable_at` checks it (`python/PDFs/physics/Amp3Body.cpp:57`). -/
def inShape : List Nat → List Nat → Bool
  | [], [] => true
  | n :: sh, i :: idx => decide (i < n) && inShape sh idx
  | _, _ => false

/-- `a.mutable_at(idx...) = v` (`python/PDFs/physics/Amp3Body.cpp:57`). -/
def NdArray.setAt {α : Type} (a : NdArray α) (idx : List Nat) (v : α) : ArrOut (NdArray α) :=
  if inShape a.shape idx then .ok { a with cells := fun q => if q = idx then some v else a.cells q } else .raised

/-- `for(int i = 0; i < n; i++)` with `n` iterations to go, the present one being `i` (`python/PDFs/physics/Amp3Body.cpp:54`). -/
def arrLoop {S : Type} (body : Nat → S → ArrOut S) : Nat → Nat → S → ArrOut S
  | 0, _, s => .ok s
  | n + 1, i, s => (body i s).next (arrLoop body n (i + 1))

/-- `v[i]` of a vector of the standard library or thrust: undefined outside (`python/PDFs/physics/Amp3Body.cpp:64`). -/
def vecAt {α : Type} (l : List α) (i : Nat) : ArrOut α :=
  match l[i]? with
  | some x => .ok x
  | none => .undefined

/-- `Vector4R::get` (mcbooster; `python/PDFs/physics/Amp3Body.cpp:57`, `examples/TDDP4/TDDP4.cu:234-252`). -/
def fourGet {F : Type} (v : LV F) : Nat → ArrOut F
  | 0 => .ok v.e
  | 1 => .ok v.x
  | 2 => .ok v.y
  | 3 => .ok v.z
  | _ => .undefined

/-- What the C++ function gives to the wrapper: a vector of momenta for each particle, a vector of values for each variable,
the weights and the flags (`python/PDFs/physics/Amp3Body.cpp:42-47`). -/
structure HostSample (F : Type) where
  particles : List (List (LV F))
  vars : List (List F)
  weights : List F
  flags : List Bool

/-- The tuple of arrays (`python/PDFs/physics/Amp3Body.cpp:49-52, 75`). -/
structure PySample (F : Type) where
  particles : NdArray F
  vars : NdArray F
  weights : NdArray F
  flags : NdArray Bool

section
variable {F : Type}

/-- The loops over the particles, `np` of them with `nc` components
(`python/PDFs/physics/Amp3Body.cpp:54-60`, `python/PDFs/physics/Amp4Body.cu:50-56`, `python/PDFs/physics/Amp4Body_TD.cu:57-63`). -/
def copyParticles (np nc n : Nat) (ps : List (List (LV F))) : ArrOut (NdArray F) :=
  arrLoop (fun i => arrLoop (fun j => arrLoop (fun k a =>
    (vecAt ps i).next fun l => (vecAt l j).next fun v => (fourGet v k).next fun x => a.setAt [i, j, k] x) nc 0) n 0) np 0
    (NdArray.new F [np, n, nc])

/-- The loops over the variables
(`python/PDFs/physics/Amp3Body.cpp:62-66`, `python/PDFs/physics/Amp4Body.cu:58-62`, `python/PDFs/physics/Amp4Body_TD.cu:65-69`). -/
def copyVars (nv n : Nat) (vs : List (List F)) : ArrOut (NdArray F) :=
  arrLoop (fun i => arrLoop (fun j a =>
    (vecAt vs i).next fun l => (vecAt l j).next fun x => a.setAt [i, j] x) n 0) nv 0 (NdArray.new F [nv, n])

/-- The loops over the weights and over the flags
(`python/PDFs/physics/Amp3Body.cpp:68-74`, `python/PDFs/physics/Amp4Body.cu:64-70`, `python/PDFs/physics/Amp4Body_TD.cu:71-77`). -/
def copyList {α : Type} (n : Nat) (l : List α) : ArrOut (NdArray α) :=
  arrLoop (fun i a => (vecAt l i).next fun x => a.setAt [i] x) n 0 (NdArray.new α [n])

/-- The wrapper after the call of the C++ function.  The loops count with `int`, which must not overflow; memory does not run out
(`python/PDFs/physics/Amp3Body.cpp:49-75`, `python/PDFs/physics/Amp4Body.cu:45-71`, `python/PDFs/physics/Amp4Body_TD.cu:52-89`). -/
def copySample (np nc nv n : Nat) (h : HostSample F) : ArrOut (PySample F) :=
  if 2 ^ 31 ≤ n then .undefined else
    (copyParticles np nc n h.particles).next fun p =>
    (copyVars nv n h.vars).next fun v =>
    (copyList n h.weights).next fun w =>
    (copyList n h.flags).next fun f => .ok ⟨p, v, w, f⟩

end

/-- The flags are returned as numbers and assigned to a vector of `bool` again
(`src/PDFs/physics/Amp3Body.cu:431, 540, 545`, `python/PDFs/physics/Amp3Body.cpp:45-47`; the same in `src/PDFs/physics/Amp4Body.cu:561`). -/
noncomputable def flagBack (b : Bool) : Bool := decide ((if b then (1 : ℝ) else 0) ≠ 0)

/-- The values of variable `i` of all events (`VarSet`, `src/PDFs/physics/Amp3Body.cu:488-495`, `src/PDFs/physics/Amp4Body.cu:615-626`). -/
noncomputable def column (vars : List (List ℝ)) (i : Nat) : List ℝ := vars.map fun v => v.getD i 0

/-- `GenerateSig` of `Amp3Body` from Python (`python/PDFs/physics/Amp3Body.cpp:41-76`).  `lib n` are the events the phase-space
library gives for `n`; the number of events, a `size_t`, is an `unsigned int` for the C++ function. -/
noncomputable def D3.pyGenerate (D : D3) (s : D3State) (marks : ResObj → Bool) (h : Nat → ℝ) (lib : Nat → List Gen3) (u : Nat → ℝ)
    (numEvents : Nat) : ArrOut (PySample ℝ) :=
  let evs := lib (numEvents % 2 ^ 32)
  match D.generate s marks h evs u with
  | none => .undefined
  | some (out, _) => copySample 3 3 3 numEvents ⟨[evs.map (·.p1), evs.map (·.p2), evs.map (·.p3)],
      [column out.vars 0, column out.vars 1, column out.vars 2], out.weights, out.flags.map flagBack⟩

section
variable {A S P : Type} [DecidableEq A] [DecidableEq S]

/-- `GenerateSig` of `Amp4Body` from Python (`python/PDFs/physics/Amp4Body.cu:37-72`). -/
noncomputable def A4.pyGenerate (m : A4 ℝ A S P Ev4) (changed : A → Bool) (p : P) (s : A4State ℝ Ev4) (lib : Nat → List Gen4)
    (u : Nat → ℝ) (numEvents : Nat) : ArrOut (PySample ℝ) :=
  let evs := lib (numEvents % 2 ^ 32)
  match m.generateSig changed p s evs u with
  | none => .undefined
  | some (out, _) => copySample 4 4 5 numEvents
      ⟨[evs.map (·.p1), evs.map (·.p2), evs.map (·.p3), evs.map (·.p4)],
        [column out.vars 0, column out.vars 1, column out.vars 2, column out.vars 3, column out.vars 4],
        out.weights, out.flags.map flagBack⟩

end

section
variable {A S V T P Ev : Type} [DecidableEq A] [DecidableEq S] [DecidableEq V] [DecidableEq T]

/-- `GenerateSig` of `Amp4Body_TD` from Python (`python/PDFs/physics/Amp4Body_TD.cu:41-90`).  `lib n` are the events of `n` that
the library accepts, and `point` gives the variables of an event as the PDF gets them. -/
noncomputable def T4.pyGenerate (m : T4 A S V T P Ev) (changed : A → Bool) (p : P) (maxWeight : ℝ) (s : T4State Ev)
    (lib : Nat → List Gen4) (point : Gen4 → Ev) (rngTime rngAccept : Nat → ℝ) (offset numEvents : Nat) : ArrOut (PySample ℝ) :=
  let evs := lib (numEvents % 2 ^ 32)
  match m.generateSig changed p maxWeight s (evs.map point) rngTime rngAccept offset with
  | .undefined => .undefined
  | .thrown => .raised
  | .ok times weights flags _ _ =>
    let vars := evs.map fun g => ev4List (dim5 g.p1 g.p2 g.p3 g.p4)
    copySample 4 4 6 weights.length
      ⟨[evs.map (·.p1), evs.map (·.p2), evs.map (·.p3), evs.map (·.p4)],
        [column vars 0, column vars 1, column vars 2, column vars 3, column vars 4, times], weights, flags⟩

end

section
variable {K : Type} [Field K] [LinearOrder K]

/-- `make2D` from Python (`python/PDFs/physics/DalitzPlotter.cpp:32-48`); `s` are the observables at the time of the call.  `getX`,
`getY` and `getVal` raise an exception outside their vectors. -/
def Plotter.pyMake2D (p : Plotter K) (s : Store K) : ArrOut (NdArray K) :=
  (arrLoop (fun i => arrLoop (fun j a => a.setAt [i, j] 0) (s p.m13).numBins 0) (s p.m12).numBins 0
    (NdArray.new K [(s p.m12).numBins, (s p.m13).numBins])).next
  (arrLoop (fun j a =>
    match p.getX j, p.getY j, p.getVal j 0 with
    | some x, some y, some v => a.setAt [x, y] v
    | _, _, _ => .raised) p.getNumEvents 0)

/-- `getExtent` from Python (`python/PDFs/physics/DalitzPlotter.cpp:50-60`). -/
def Plotter.pyExtent (p : Plotter K) (s : Store K) : List K :=
  [(s p.m12).lower, (s p.m12).upper, (s p.m13).lower, (s p.m13).upper]

end
end GooFit
