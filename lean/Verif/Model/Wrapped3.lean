import Verif.Model.Mix3
import Verif.Model.TimeDalitz3
import Verif.Model.Norm
/-!
# A fit of sums and products around a three-body amplitude

`AddPdf`, `EventWeightedAddPdf` and `ProdPdf` (`src/PDFs/combine`) one inside the other, with an `Amp3Body` or an `Amp3Body_TD`
somewhere in them, as in a fit of a signal, whose amplitude is multiplied with the distribution of another observable, and
backgrounds with a weight for every event (`examples/pipipi0DPFit/pipipi0DPFit.cpp`).

Exact real arithmetic.  The other components are PDFs that keep no state: they enter with what their device functions and their
`normalize` give for the present values of their parameters (C13, C24 to C26, C86).  An event is the row of the observables of the
amplitude (`A`) and a value for every observable.  No `setCommonNorm` (C104) and no `setSeparateNorm` by the user.
-/
set_option autoImplicit false
namespace GooFit
attribute [local instance] FpOps.ofField

/-- An event: what the amplitude reads, and the value of every observable of the PDF (`src/PDFs/PdfBase.cu:329-438`). -/
abbrev WRow (A : Type) := A × (Nat → ℝ)

/-- A component without an amplitude, as a function of the values of the parameters of its tree
(`include/goofit/PdfBase.h:245-281`). -/
structure WPart (A : Type) where
  params : List Nat
  /-- what its `getObservables` gives -/
  obs : List Nat
  /-- what its device function returns, its own components being normalised -/
  raw : List ℝ → WRow A → ℝ
  /-- what its `normalize` stores in `host_normalizations` -/
  norm : List ℝ → ℝ

/-- The amplitude, or a sum or product of which one component contains the amplitude; the others stand before and after it. -/
inductive Wrap (A : Type) where
  | amp
  /-- `AddPdf` (`src/PDFs/combine/AddPdf.cu:82-141`) -/
  | add (pre : List (WPart A)) (inner : Wrap A) (post : List (WPart A)) (weights : List Nat)
  /-- `EventWeightedAddPdf` (`src/PDFs/combine/EventWeightedAddPdf.cu:96-143`) -/
  | evt (pre : List (WPart A)) (inner : Wrap A) (post : List (WPart A)) (columns : List Nat)
  /-- `ProdPdf` (`src/PDFs/combine/ProdPdf.cu:30-73`) -/
  | prod (pre : List (WPart A)) (inner : Wrap A) (post : List (WPart A))

/-- `registerObservable` and the loops of `getObservables` (`src/goofit/PdfBase.cpp:88-107`): an observable that is there is not
added again. -/
def wGather (ret : List Nat) (obs : List Nat) : List Nat := obs.foldl (fun r o => if o ∈ r then r else r ++ [o]) ret

/-- `observablesList` (`src/PDFs/combine/AddPdf.cu:111`, `src/PDFs/combine/EventWeightedAddPdf.cu:116-133`,
`src/PDFs/combine/ProdPdf.cu:39`); `own` are those of the amplitude. -/
def Wrap.observables {A : Type} (own : List Nat) : Wrap A → List Nat
  | .amp => own
  | .add pre inner post _ => (pre.map (·.obs) ++ [inner.observables own] ++ post.map (·.obs)).foldl wGather []
  | .evt pre inner post columns => (pre.map (·.obs) ++ [inner.observables own] ++ post.map (·.obs)).foldl wGather (wGather [] columns)
  | .prod pre inner post => (pre.map (·.obs) ++ [inner.observables own] ++ post.map (·.obs)).foldl wGather []

/-- `getSeparateNorm`: the amplitudes set it (`src/PDFs/physics/Amp3Body_TD.cu:358`, `src/PDFs/physics/Amp3Body.cu:195`). -/
def Wrap.separate {A : Type} : Wrap A → Bool
  | .amp => true
  | _ => false

/-- The constructors do not throw (`src/PDFs/combine/AddPdf.cu:85-86`, `src/PDFs/combine/EventWeightedAddPdf.cu:98-99`). -/
def Wrap.accepted {A : Type} : Wrap A → Bool
  | .amp => true
  | .add pre inner post ws =>
    !(ws.length != pre.length + 1 + post.length && ws.length + 1 != pre.length + 1 + post.length) && inner.accepted
  | .evt pre inner post ws =>
    !(ws.length != pre.length + 1 + post.length && ws.length + 1 != pre.length + 1 + post.length) && inner.accepted
  | .prod _ inner _ => inner.accepted

/-- No product normalises itself numerically (`varOverlaps`, `src/PDFs/combine/ProdPdf.cu:42-67`; the model of the check is that of
`Verif.Model.Norm`). -/
def Wrap.separately {A : Type} (own : List Nat) : Wrap A → Bool
  | .amp => true
  | .add _ inner _ _ => inner.separately own
  | .evt _ inner _ _ => inner.separately own
  | .prod pre inner post =>
    !varOverlaps (pre.map (fun o => (o.obs, false)) ++ [(inner.observables own, inner.separate)]
      ++ post.map (fun o => (o.obs, false))) && inner.separately own

/-- The normalisation that `normalize` stores: one over the total rate for the amplitude
(`src/PDFs/physics/Amp3Body_TD.cu:750-751`, `src/PDFs/physics/Amp3Body.cu:356`), else 1 (`src/PDFs/combine/AddPdf.cu:167-185`,
`src/PDFs/combine/EventWeightedAddPdf.cu:154-157`, `src/PDFs/combine/ProdPdf.cu:96-99`). -/
noncomputable def Wrap.norm {A : Type} (total : ℝ) : Wrap A → ℝ
  | .amp => 1 / total
  | _ => 1

/-- The loops of `device_AddPdfs` and `device_AddPdfsExt` (`src/PDFs/combine/AddPdf.cu:16-77`) and of
`device_EventWeightedAddPdfs` and `device_EventWeightedAddPdfsExt` (`src/PDFs/combine/EventWeightedAddPdf.cu:8-91`), from the
weights, and the values and the normalisations of the components. -/
noncomputable def weightedLoop (extended : Bool) (ws raws norms : List ℝ) : ℝ :=
  let ret := ((List.range ws.length).map fun i => ws.getD i 0 * raws.getD i 0 * norms.getD i 0).sum
  let totalWeight := ws.sum
  if extended then ret / totalWeight
  else ret + (1 - totalWeight) * raws.getD ws.length 0 * norms.getD ws.length 0

/-- The device functions of the tree: the value at an event, from that of the amplitude (`a`) and its total rate.
(`src/PDFs/combine/AddPdf.cu:16-77`; `src/PDFs/combine/EventWeightedAddPdf.cu:8-91`, where weight `i` is observable `i` of the
PDF; `src/PDFs/combine/ProdPdf.cu:9-26`). -/
noncomputable def Wrap.device {A : Type} (own : List Nat) (h : Nat → ℝ) (total : ℝ) (row : WRow A) (a : ℝ) : Wrap A → ℝ
  | .amp => a
  | .add pre inner post ws =>
    weightedLoop (!decide (ws.length < pre.length + 1 + post.length)) (ws.map h)
      (pre.map (fun o => o.raw (o.params.map h) row) ++ [inner.device own h total row a]
        ++ post.map (fun o => o.raw (o.params.map h) row))
      (pre.map (fun o => o.norm (o.params.map h)) ++ [inner.norm total] ++ post.map (fun o => o.norm (o.params.map h)))
  | .evt pre inner post columns =>
    let obs := (Wrap.evt pre inner post columns).observables own
    weightedLoop (!decide (columns.length < pre.length + 1 + post.length))
      ((List.range columns.length).map fun i => row.2 (obs.getD i 0))
      (pre.map (fun o => o.raw (o.params.map h) row) ++ [inner.device own h total row a]
        ++ post.map (fun o => o.raw (o.params.map h) row))
      (pre.map (fun o => o.norm (o.params.map h)) ++ [inner.norm total] ++ post.map (fun o => o.norm (o.params.map h)))
  | .prod pre inner post =>
    (List.zipWith (fun curr norm => curr * norm)
      (pre.map (fun o => o.raw (o.params.map h) row) ++ [inner.device own h total row a]
        ++ post.map (fun o => o.raw (o.params.map h) row))
      (pre.map (fun o => o.norm (o.params.map h)) ++ [inner.norm total] ++ post.map (fun o => o.norm (o.params.map h)))).foldl
        (fun ret curr => ret * curr) 1

/-- What a fit needs of the amplitude object: its events, the array of the events being given to a PDF of which it is a component,
`setDataSize` with the number of events and the length of a row of its observables, `normalize` and its value at an event (no
counterpart in the code). -/
structure WrapAmp (A S : Type) where
  /-- its observables -/
  own : List Nat
  data : S → List A
  give : S → List A → Option S
  size : S → Nat → Option S
  normalize : S → Pars ℝ → Option (S × ℝ)
  value : S → (Nat → ℝ) → Nat → Option ℝ

/-- A time-dependent amplitude (`Verif.Model.TimeDalitz3`); its observables are numbered from 0. -/
noncomputable def T3.obj (D : T3) : WrapAmp Ev7 T3State :=
  ⟨List.range 7, T3State.data, fun s d => D.step s (.parentData d), fun s n => D.step s (.setDataSize n 7),
    fun s h => D.normalize s (t3Marks h) fun i => (h i).value, D.value⟩

/-- A three-body amplitude (`Verif.Model.Dalitz3`); its observables are numbered from 0. -/
noncomputable def D3.obj (D : D3) : WrapAmp Ev3 D3State :=
  ⟨List.range 3, D3State.data, fun s d => D.step s (.parentData d), fun s n => D.step s (.setDataSize n),
    fun s h => D.normalize s (marksOf h) fun i => (h i).value, D.value⟩

/-- What is there for the whole program: the amplitude, the other columns of the events, `numEntries` and `numEvents` of the PDF
(`include/goofit/PdfBase.h:248-249`). -/
structure WrapState (S : Type) where
  amp : S
  columns : List (Nat → ℝ)
  entries : Nat
  events : Nat

/-- What a program does: `setData` of the whole PDF, `setDataSize` of the amplitude with the number of events and the length of a
row, or an evaluation (no counterpart in the code). -/
inductive WrapOp (A : Type) where
  | setData (rows : List (WRow A))
  | setDataSize (n size : Nat)
  | eval (h : Pars ℝ)

section
variable {A S : Type}

/-- `normalize` of the whole PDF (`src/PDFs/combine/AddPdf.cu:143-185`, `src/PDFs/combine/EventWeightedAddPdf.cu:145-158`,
`src/PDFs/combine/ProdPdf.cu:76-101`): that of the amplitude, and the total rate it returns.  Simplification: a product that is
normalised numerically is not modelled here (C25), `none`. -/
def Wrap.normalize (W : Wrap A) (O : WrapAmp A S) (s : WrapState S) (h : Pars ℝ) : Option (WrapState S × ℝ) :=
  if W.separately O.own then (O.normalize s.amp h).map fun (a, total) => ({ s with amp := a }, total) else none

/-- One step (`setData`: `src/PDFs/PdfBase.cu:329-438`; the array of the events is global; `setDataSize`:
`src/PDFs/physics/Amp3Body_TD.cu:531-580`).  Simplification: the length of a row given to the amplitude has to be the number of
observables of the whole PDF, else `none`. -/
def Wrap.step (W : Wrap A) (O : WrapAmp A S) (s : WrapState S) : WrapOp A → Option (WrapState S)
  | .setData rows => (O.give s.amp (rows.map (·.1))).map fun a => ⟨a, rows.map (·.2), rows.length, rows.length⟩
  | .setDataSize n size =>
    if size = (W.observables O.own).length then (O.size s.amp n).map fun a => { s with amp := a } else none
  | .eval h => (W.normalize O s h).map (·.1)

/-- A program (no counterpart in the code). -/
def Wrap.run (W : Wrap A) (O : WrapAmp A S) : WrapState S → List (WrapOp A) → Option (WrapState S)
  | s, [] => some s
  | s, op :: ops => (W.step O s op).bind fun s => W.run O s ops

/-- The value of the whole PDF at event `k`. -/
noncomputable def Wrap.value (W : Wrap A) (O : WrapAmp A S) (s : WrapState S) (h : Nat → ℝ) (total : ℝ) (k : Nat) : Option ℝ :=
  ((O.data s.amp)[k]?).bind fun ev =>
  (s.columns[k]?).bind fun cols =>
  (O.value s.amp h k).map fun a => W.device O.own h total (ev, cols) a

/-- The yields of an extended `AddPdf` (`src/PDFs/combine/AddPdf.cu:84, 107-109`), which only the PDF that is fitted looks at. -/
def Wrap.yields : Wrap A → Option (List Nat)
  | .add pre _ post ws => if ws.length < pre.length + 1 + post.length then none else some ws
  | _ => none

/-- The term `AddPdf::calculateNLL` adds (`src/PDFs/combine/AddPdf.cu:187-204`). -/
noncomputable def Wrap.finish (W : Wrap A) (s : WrapState S) (h : Pars ℝ) (nll : ℝ) : Ran (ℝ × WrapState S) :=
  match W.yields with
  | none => .done (nll, s)
  | some ws =>
    let expEvents := (ws.map fun i => (h i).value).sum
    .done (nll + (expEvents - s.events * Real.log expEvents), s)

/-- `GooPdf::calculateNLL` (`src/PDFs/GooPdf.cu:254-273`), and `AddPdf::calculateNLL` (`src/PDFs/combine/AddPdf.cu:187-204`).
Simplification: when the total rate is zero the model aborts if the amplitude is the whole PDF. -/
noncomputable def Wrap.calculateNLL (W : Wrap A) (O : WrapAmp A S) (s : WrapState S) (h : Pars ℝ) : Ran (ℝ × WrapState S) :=
  match W.normalize O s h with
  | none => .ub
  | some (s, total) =>
    if W.norm total ≤ 0 then .aborted
    else
      match ((List.range s.entries).mapM fun k => (W.value O s (fun i => (h i).value) total k).bind fun raw =>
          MetricKind.nll.apply Real.log s.entries raw (fun _ => none) (W.norm total)).map List.sum with
      | none => .ub
      | some nll =>
        if nll = 0 then .aborted else W.finish s h nll

/-- The tree of PDF objects: only the parameter lists matter here (`src/PDFs/combine/AddPdf.cu:88-103`,
`src/PDFs/combine/EventWeightedAddPdf.cu:106-114`, `src/PDFs/combine/ProdPdf.cu:33-37`). -/
def Wrap.tree {L : Lib ℝ} (amp : Pdf L) (part : WPart A → L.Leaf) : Wrap A → Pdf L
  | .amp => amp
  | .add pre inner post ws => .mk ⟨0, if ws.length < pre.length + 1 + post.length then .add else .addExt, ws, [], [], 1⟩
      (pre.map (fun o => .mk ⟨0, .leaf (part o), o.params, [], o.obs, 1⟩ []) ++ [inner.tree amp part]
        ++ post.map (fun o => .mk ⟨0, .leaf (part o), o.params, [], o.obs, 1⟩ []))
  | .evt pre inner post ws => .mk ⟨0, if ws.length < pre.length + 1 + post.length then .evtAdd else .evtAddExt, [], [], ws, 1⟩
      (pre.map (fun o => .mk ⟨0, .leaf (part o), o.params, [], o.obs, 1⟩ []) ++ [inner.tree amp part]
        ++ post.map (fun o => .mk ⟨0, .leaf (part o), o.params, [], o.obs, 1⟩ []))
  | .prod pre inner post => .mk ⟨0, .prod, [], [], [], 1⟩
      (pre.map (fun o => .mk ⟨0, .leaf (part o), o.params, [], o.obs, 1⟩ []) ++ [inner.tree amp part]
        ++ post.map (fun o => .mk ⟨0, .leaf (part o), o.params, [], o.obs, 1⟩ []))

/-- `FCN::operator()` (`src/goofit/FCN.cpp:18-28`); an exception is `aborted`. -/
noncomputable def Wrap.fcn {L : Lib ℝ} (W : Wrap A) (O : WrapAmp A S) (t : Pdf L) (values : List ℝ) (h : Pars ℝ) (s : WrapState S) :
    Ran (ℝ × Pars ℝ × WrapState S) :=
  match fcnAt t values h with
  | none => .aborted
  | some h => (W.calculateNLL O s h).andThen fun (r, s) => .done (r, h, s)

/-- The calls the minimiser makes one after the other: the values it gets (no counterpart in the code). -/
noncomputable def Wrap.fcnAll {L : Lib ℝ} (W : Wrap A) (O : WrapAmp A S) (t : Pdf L) : List (List ℝ) → Pars ℝ → WrapState S →
    Ran (List ℝ × Pars ℝ × WrapState S)
  | [], h, s => .done ([], h, s)
  | v :: vs, h, s =>
    (W.fcn O t v h s).andThen fun (r, h, s) =>
    (W.fcnAll O t vs h s).andThen fun (rs, h, s) => .done (r :: rs, h, s)

end
end GooFit
