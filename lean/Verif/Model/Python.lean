import Mathlib.Logic.Relation
/-!
# Lifetimes of objects created from Python

The bindings in `python/` hand raw pointers between objects that Python owns.  Modelled: which
arguments of a constructor or method the C++ object keeps pointers to, which Python objects the binding
keeps alive (`py::keep_alive<1, n>`: argument 1 is the new or called object, the rest count from 2, the
patient lives at least as long as the nurse), Python lists (pybind11 copies a list into a
`std::vector`, `keep_alive` keeps the list object, and the list its present elements), and the ownership
of returned pointers (the default policy for a pointer that does not belong to a known Python object is
to take ownership, for a reference it is to copy, for a property it is `reference_internal`).  An object
may be destroyed as soon as no variable of the program reaches it through kept objects and list
elements, in any order.  Variables and observables share their contents and are values here; so are
strings and numbers.  Not modelled: Python classes that override `MixingTimeResolution::normalization`,
exceptions inside a call.
-/
set_option autoImplicit false
namespace GooFit.Py
/-- Object identities, no counterpart in the code. -/

abbrev Id := Nat

/-- What a C++ function does with an argument (the signatures cited at `Ctor`). -/
inductive Role where
  /-- copied, or only read during the call -/
  | value
  /-- the pointer is stored -/
  | ptr
  /-- a `std::vector` of pointers converted from a Python list: the pointers are stored -/
  | list
  /-- a description of a decay, copied with the pointers it holds -/
  | decay
  deriving DecidableEq

/-- The constructors of the Python module that take other objects.  `plain` stands for all others:
their arguments are values (no counterpart in the code). -/
inductive Ctor where
  | plain | addPdfList | addPdf | compositePdf | convolutionPdf | convolutionPdfOthers
  | eventWeightedAddPdf | mappedPdf | prodPdf | interHistPdf | smoothHistogramPdf | spline
  | amp3Body | amp3BodyIS | amp3BodyTD | amp3BodyTDTag | amp3BodyTDMass | amp3BodyTDMassTag
  | amp4Body | amp4BodyEvents | amp4BodyTD | amplitude
  | dalitzPlotter | fitManager | params | fcn | mnMigrad | mnMinos
  deriving DecidableEq

/-- All constructors (no counterpart in the code). -/
def Ctor.all : List Ctor :=
  [.plain, .addPdfList, .addPdf, .compositePdf, .convolutionPdf, .convolutionPdfOthers,
   .eventWeightedAddPdf, .mappedPdf, .prodPdf, .interHistPdf, .smoothHistogramPdf, .spline,
   .amp3Body, .amp3BodyIS, .amp3BodyTD, .amp3BodyTDTag, .amp3BodyTDMass, .amp3BodyTDMassTag,
   .amp4Body, .amp4BodyEvents, .amp4BodyTD, .amplitude,
   .dalitzPlotter, .fitManager, .params, .fcn, .mnMigrad, .mnMinos]

/-- The roles of the arguments after `self`, from the signature of the binding and the C++ constructor:
`components.push_back` in `src/PDFs/combine/AddPdf.cu:94, 131-132`, `CompositePdf.cu:44-45`,
`ConvolutionPdf.cu:165-166, 198-199`, `EventWeightedAddPdf.cu:108`, `MappedPdf.cu:57-62`,
`ProdPdf.cu:34`, `src/PDFs/physics/Amp3Body.cu:165-168`, `Amp3Body_IS.cu:88-91`,
`Amp3Body_TD.cu:324-328, 426-438`, `Amp4Body.cu:125-166`, `Amp4Body_TD.cu:372, 450, 513-514`,
`Amplitude.cu:25-28`; histograms are copied (`InterHistPdf.cu:160-173`, `SmoothHistogramPdf.cu:136-149`), tags
are dereferenced (`Amp3Body_TD.cu:279-289`); a plotter evaluates in its constructor
(`include/goofit/PDFs/physics/DalitzPlotter.h:31-60`); `Params::pdf_`, `FCN::params_`
(`include/goofit/fitting/Params.h:23`, `FCN.h:13`), Minuit's applications hold their function by
reference. -/
def Ctor.roles : Ctor → List Role
  | .plain => []
  | .addPdfList => [.value, .value, .list]
  | .addPdf => [.value, .value, .ptr, .ptr]
  | .compositePdf => [.value, .ptr, .ptr]
  | .convolutionPdf => [.value, .value, .ptr, .ptr]
  | .convolutionPdfOthers => [.value, .value, .ptr, .ptr, .value]
  | .eventWeightedAddPdf => [.value, .value, .list]
  | .mappedPdf => [.value, .ptr, .list]
  | .prodPdf => [.value, .list]
  | .interHistPdf => [.value, .value, .value, .value]
  | .smoothHistogramPdf => [.value, .value, .value]
  | .spline => [.value, .value, .value, .value, .value, .value, .value, .value]
  | .amp3Body | .amp3BodyIS => [.value, .value, .value, .value, .decay, .ptr]
  | .amp3BodyTD => [.value, .value, .value, .value, .value, .value, .decay, .ptr, .ptr]
  | .amp3BodyTDTag =>
    [.value, .value, .value, .value, .value, .value, .decay, .ptr, .ptr, .value, .value]
  | .amp3BodyTDMass => [.value, .value, .value, .value, .value, .value, .decay, .list, .ptr, .value]
  | .amp3BodyTDMassTag =>
    [.value, .value, .value, .value, .value, .value, .decay, .list, .ptr, .value, .value, .value]
  | .amp4Body => [.value, .value, .decay, .ptr]
  | .amp4BodyEvents => [.value, .value, .decay, .ptr, .value]
  | .amp4BodyTD => [.value, .value, .decay, .ptr, .ptr, .value, .value, .value]
  | .amplitude => [.value, .value, .value, .list, .list, .value]
  | .dalitzPlotter => [.value, .value]
  | .fitManager => [.ptr]
  | .params => [.ptr]
  | .fcn => [.ptr]
  | .mnMigrad => [.ptr, .value, .value]
  | .mnMinos => [.ptr, .value, .value]

/-- The numbers `n` of the `py::keep_alive<1, n>` of the binding: `python/PDFs/combine/AddPdf.cpp:18,
26-27`, `CompositePdf.cpp:16-17`, `ConvolutionPdf.cpp:17-18, 26-27`, `EventWeightedAddPdf.cpp:18`,
`MappedPdf.cpp:18-19`, `ProdPdf.cpp:17`, `python/PDFs/basic/InterHistPdf.cpp:19`,
`SmoothHistogramPdf.cpp:17`, `python/PDFs/physics/ResonancePdf.cpp:189-191`, `Amp3Body.cpp:24-25`,
`Amp3Body_IS.cpp:21-22`, `Amp3Body_TD.cpp:33-35, 58-63, 84-86, 111-116`, `Amp4Body.cu:21-22, 29-30`,
`Amp4Body_TD.cu:36-39`, `Lineshapes.cpp:203-204`, `python/goofit/FitManager.cpp:19, 22, 34`,
`python/PDFs/physics/DalitzPlotter.cpp:15`, `python/Minuit2/MnMigrad.cpp:19-24`, `MnMinos.cpp:37`. -/
def Ctor.keepAlive : Ctor → List Nat
  | .plain => []
  | .addPdfList => [4]
  | .addPdf => [4, 5]
  | .compositePdf => [3, 4]
  | .convolutionPdf | .convolutionPdfOthers => [4, 5]
  | .eventWeightedAddPdf => [4]
  | .mappedPdf => [3, 4]
  | .prodPdf => [3]
  | .interHistPdf | .smoothHistogramPdf => [3]
  | .spline => [5, 6, 7]
  | .amp3Body | .amp3BodyIS => [6, 7]
  | .amp3BodyTD => [8, 9, 10]
  | .amp3BodyTDTag => [7, 8, 9, 10, 11, 12]
  | .amp3BodyTDMass => [7, 9, 10]
  | .amp3BodyTDMassTag => [7, 8, 9, 10, 11, 12]
  | .amp4Body | .amp4BodyEvents => [4, 5]
  | .amp4BodyTD => [4, 5, 6, 7]
  | .amplitude => [5, 6]
  | .dalitzPlotter => []
  | .fitManager => [2]
  | .params => []
  | .fcn => []
  | .mnMigrad => []
  | .mnMinos => []

/-- A Python object (no counterpart in the code). -/
structure Obj where
  /-- raw pointers stored on the C++ side: components, resonances, amplitudes, parameters -/
  cxx : List Id
  /-- the amplitudes of the second list of a four-body decay -/
  cxxB : List Id
  /-- `data_` of a PDF -/
  data : Option Id
  /-- the pointers in the copied description of the decay -/
  decay : List Id
  /-- patients of `keep_alive` and of `reference_internal` -/
  keep : List Id
  /-- elements, for a list -/
  items : List Id
  /-- this object is a member of that one, and Python owns it: deleting it is an error -/
  stolen : Bool
  alive : Bool

/-- The objects made so far, the variables of the program, and whether memory that was not allocated by
itself has been deleted (no counterpart in the code). -/
structure Heap where
  objs : List Obj
  roots : List Id
  invalidDelete : Bool
/-- The start of a program, no counterpart in the code. -/

def Heap.empty : Heap := ⟨[], [], false⟩

/-- All raw pointers of an object (no counterpart in the code). -/
def Obj.pointers (o : Obj) : List Id := o.cxx ++ o.cxxB ++ o.data.toList

/-- `a` keeps `b` alive directly (no counterpart in the code). -/
def Heap.Holds (h : Heap) (a b : Id) : Prop :=
  ∃ o, h.objs[a]? = some o ∧ (b ∈ o.keep ∨ b ∈ o.items)

/-- Some variable reaches `x` (no counterpart in the code). -/
def Heap.Reachable (h : Heap) (x : Id) : Prop :=
  ∃ r ∈ h.roots, Relation.ReflTransGen h.Holds r x

/-- What the C++ object stores for one argument (no counterpart in the code). -/
def Heap.stored (h : Heap) (r : Role) (a : Id) : List Id :=
  match r with
  | .value => []
  | .ptr => [a]
  | .list => (h.objs[a]?.map Obj.items).getD []
  | .decay => (h.objs[a]?.map fun o => o.cxx ++ o.cxxB).getD []

/-- The pointers that came from the description of a decay (no counterpart in the code). -/
def Heap.decayOf (h : Heap) (roles : List Role) (args : List Id) : List Id :=
  (roles.zip args).flatMap fun p => if p.1 = .decay then h.stored .decay p.2 else []

/-- Add an object and bind it to a variable (no counterpart in the code). -/
def Heap.add (h : Heap) (o : Obj) : Heap := { h with objs := h.objs ++ [o], roots := h.objs.length :: h.roots }

/-- Change one object (no counterpart in the code). -/
def Heap.modify (h : Heap) (x : Id) (f : Obj → Obj) : Heap := { h with objs := h.objs.modify x f }

/-- Python statements.  Arguments are objects held in variables (no counterpart in the code). -/
inductive Op where
  /-- call of a constructor -/
  | new (c : Ctor) (args : List Id)
  /-- `[a, b, ...]` -/
  | newList (xs : List Id)
  /-- `l.append(x)` -/
  | append (l x : Id)
  /-- `l.remove(x)` -/
  | remove (l x : Id)
  /-- `y = l[i]` -/
  | item (l y : Id)
  /-- `p.setData(d)` -/
  | setData (p : Id) (d : Option Id)
  /-- `y = p.getData()` -/
  | getData (p : Id)
  /-- `d.resonances = l`, `d.amplitudes = l` -/
  | setList (d l : Id)
  /-- `d.amplitudes_B = l` -/
  | setListB (d l : Id)
  /-- `d.add_resonance(r)` -/
  | addResonance (d r : Id)
  /-- `l = d.resonances`, `l = d.amplitudes` -/
  | getList (d : Id)
  /-- `e = p.getDecayInfo()` -/
  | getDecayInfo (p : Id)
  /-- `q = m.params`, `q = m.fcn` -/
  | memberProperty (m : Id)
  /-- `q = m.getParams()`, `m.getFCN()`, `plotter.getDataSet()` -/
  | memberMethod (m : Id)
  /-- a variable goes away -/
  | drop (x : Id)
  /-- the interpreter destroys an object -/
  | collect (x : Id)

open scoped Classical in
/-- One statement; `none`: it cannot happen (an argument is not held in a variable, or the object may
not be destroyed).

* constructors: `Ctor.roles`, `Ctor.keepAlive`;
* `setData`: `python/goofit/PdfBase.cpp:19`, `src/PDFs/PdfBase.cu:344-351`; `getData` returns the object
  that was given (`python/goofit/PdfBase.cpp:20`);
* the decay: `python/PDFs/physics/DalitzPlotHelpers.cpp:48-58, 84-97` (the getters make a new list);
* `getDecayInfo` copies (`python/PDFs/physics/Amp3Body.cpp:35`, `include/goofit/PDFs/physics/Amp3Body.h:71`);
* members: `python/include/goofit/PyProps.h:5`, `python/goofit/FitManager.cpp:48-49`,
  `include/goofit/fitting/FitManagerMinuit2.h:28-31`, `python/PDFs/physics/DalitzPlotter.cpp:23`,
  `include/goofit/PDFs/physics/DalitzPlotter.h:111`.  Simplified: a member that already has a Python
  object gets a second one here, and when the Python object of a member goes, the member counts as gone
  although it lives on in its owner. -/
noncomputable def Heap.step (h : Heap) : Op → Option Heap
  | .new c args =>
    if c = .plain then
      if args = [] then some (h.add ⟨[], [], none, [], [], [], false, true⟩) else none
    else if args.length = c.roles.length ∧ (∀ a ∈ args, a ∈ h.roots) then
      some (h.add ⟨(c.roles.zip args).flatMap fun p => h.stored p.1 p.2, [], none, h.decayOf c.roles args,
        c.keepAlive.filterMap fun n => args[n - 2]?, [], false, true⟩)
    else none
  | .newList xs =>
    if ∀ a ∈ xs, a ∈ h.roots then some (h.add ⟨[], [], none, [], [], xs, false, true⟩) else none
  | .append l x =>
    if l ∈ h.roots ∧ x ∈ h.roots then some (h.modify l fun o => { o with items := o.items ++ [x] }) else none
  | .remove l x =>
    if l ∈ h.roots then some (h.modify l fun o => { o with items := o.items.erase x }) else none
  | .item l y =>
    if l ∈ h.roots ∧ y ∈ (h.objs[l]?.map Obj.items).getD [] then some { h with roots := y :: h.roots } else none
  | .setData p d =>
    if p ∈ h.roots ∧ (∀ x ∈ d.toList, x ∈ h.roots) then
      some (h.modify p fun o => { o with data := d, keep := o.keep ++ d.toList })
    else none
  | .getData p =>
    if p ∈ h.roots then
      match h.objs[p]? with
      | some o => some { h with roots := o.data.toList ++ h.roots }
      | none => none
    else none
  | .setList d l =>
    if d ∈ h.roots ∧ l ∈ h.roots then
      some (h.modify d fun o => { o with cxx := h.stored .list l, keep := o.keep ++ [l] })
    else none
  | .setListB d l =>
    if d ∈ h.roots ∧ l ∈ h.roots then
      some (h.modify d fun o => { o with cxxB := h.stored .list l, keep := o.keep ++ [l] })
    else none
  | .addResonance d r =>
    if d ∈ h.roots ∧ r ∈ h.roots then
      some (h.modify d fun o => { o with cxx := o.cxx ++ [r], keep := o.keep ++ [r] })
    else none
  | .getList d =>
    if d ∈ h.roots then
      match h.objs[d]? with
      | some o => some (h.add ⟨[], [], none, [], [], o.cxx, false, true⟩)
      | none => none
    else none
  | .getDecayInfo p =>
    if p ∈ h.roots then
      match h.objs[p]? with
      | some o => some (h.add ⟨o.decay, [], none, [], [], [], false, true⟩)
      | none => none
    else none
  | .memberProperty m =>
    if m ∈ h.roots then
      match h.objs[m]? with
      | some o => some (h.add ⟨m :: o.cxx, [], none, [], [m], [], false, true⟩)
      | none => none
    else none
  | .memberMethod m =>
    if m ∈ h.roots then
      match h.objs[m]? with
      | some o => some (h.add ⟨m :: o.cxx, [], none, [], [], [], true, true⟩)
      | none => none
    else none
  | .drop x => if x ∈ h.roots then some { h with roots := h.roots.erase x } else none
  | .collect x =>
    if h.Reachable x then none
    else
      match h.objs[x]? with
      | some o => some { h.modify x (fun o => { o with alive := false }) with
          invalidDelete := h.invalidDelete || (o.stolen && o.alive) }
      | none => none

/-- A program (no counterpart in the code). -/
noncomputable def Heap.run (ops : List Op) : Option Heap := ops.foldlM Heap.step Heap.empty

end GooFit.Py
