import Verif.Model.Fit3
/-!
# A fit of a sum of a three-body amplitude and other PDFs

`AddPdf` (`src/PDFs/combine/AddPdf.cu`) with an `Amp3Body` as one of its components, as in a fit of a signal and backgrounds.

Exact real arithmetic.  The sum is the whole PDF; one of its components is the amplitude (`Verif.Model.Dalitz3`), whose efficiency
has no components of its own (C42), the others are PDFs of `m12` and `m13` that keep no state: they enter with what their device
functions and their `normalize` give for the present values of their parameters (C13, C24 to C26, C86).  The events are rows of
`m12`, `m13` and the event number.
-/
set_option autoImplicit false
namespace GooFit
attribute [local instance] FpOps.ofField

/-- Another component of the sum, as a function of the values of the parameters of its tree (`include/goofit/PdfBase.h:245-281`). -/
structure Other3 where
  params : List Nat
  /-- what its device function returns, its own components being normalised -/
  raw : List ℝ → ℝ → ℝ → ℝ
  /-- what its `normalize` stores in `host_normalizations` -/
  norm : List ℝ → ℝ
  /-- what its `normalize` returns -/
  ret : List ℝ → ℝ

/-- A sum with the amplitude as one component (`src/PDFs/combine/AddPdf.cu:82-141`); `common` is `setCommonNorm`
(`include/goofit/PdfBase.h:228`). -/
structure Mix3 where
  pre : List Other3
  amp : D3
  post : List Other3
  weights : List Nat
  common : Bool

/-- The number of components (`components`, `include/goofit/PdfBase.h:262`). -/
def Mix3.count (M : Mix3) : Nat := M.pre.length + 1 + M.post.length

/-- The constructor does not throw (`src/PDFs/combine/AddPdf.cu:85-86`). -/
def Mix3.accepted (M : Mix3) : Bool := !(M.weights.length != M.count && M.weights.length + 1 != M.count)

/-- `extended` (`src/PDFs/combine/AddPdf.cu:84, 107-109`). -/
def Mix3.extended (M : Mix3) : Bool := !decide (M.weights.length < M.count)

/-- What is there for the whole program: the state of the amplitude, `numEntries` and `numEvents` of the sum
(`include/goofit/PdfBase.h:248-249`). -/
structure Mix3State where
  amp : D3State
  entries : Nat
  events : Nat

/-- What a program does: `setData` of the sum, or any call of the amplitude itself (no counterpart in the code). -/
inductive Mix3Op where
  | setData (d : List Ev3)
  | amp (op : D3Op)

/-- One step (`setData`: `src/PDFs/PdfBase.cu:329-438`; the array of the events is global). -/
noncomputable def Mix3.step (M : Mix3) (s : Mix3State) : Mix3Op → Option Mix3State
  | .setData d => (M.amp.step s.amp (.parentData d)).map fun a => ⟨a, d.length, d.length⟩
  | .amp op => (M.amp.step s.amp op).map fun a => ⟨a, s.entries, s.events⟩

/-- A program (no counterpart in the code). -/
noncomputable def Mix3.run (M : Mix3) : Mix3State → List Mix3Op → Option Mix3State
  | s, [] => some s
  | s, op :: ops => (M.step s op).bind fun s => M.run s ops

/-- The value `AddPdf::normalize` returns, from those its components return (`src/PDFs/combine/AddPdf.cu:146-166`). -/
noncomputable def Mix3.hostSum (M : Mix3) (h : Nat → ℝ) (rets : List ℝ) : ℝ :=
  let w := fun i => h (M.weights.getD i 0)
  let ret := ((List.range (rets.length - 1)).map fun i => rets.getD i 0 * w i).sum
  let totalWeight := ((List.range (rets.length - 1)).map w).sum
  let last := rets.getD (rets.length - 1) 0
  if M.extended then (ret + last * w (rets.length - 1)) / (totalWeight + w (rets.length - 1))
  else ret + (1 - totalWeight) * last

/-- `AddPdf::normalize` (`src/PDFs/combine/AddPdf.cu:143-185`): the new state and the normalisations of the components; its own is 1.
The amplitude stores one over the value it returns (`src/PDFs/physics/Amp3Body.cu:356`). -/
noncomputable def Mix3.normalize (M : Mix3) (s : Mix3State) (marks : ResObj → Bool) (h : Nat → ℝ) :
    Option (Mix3State × List ℝ) :=
  (M.amp.normalize s.amp marks h).map fun (a, total) =>
    let rets := M.pre.map (fun o => o.ret (o.params.map h)) ++ [total] ++ M.post.map (fun o => o.ret (o.params.map h))
    let norms := M.pre.map (fun o => o.norm (o.params.map h)) ++ [1 / total] ++ M.post.map (fun o => o.norm (o.params.map h))
    (⟨a, s.entries, s.events⟩, if M.common then List.replicate M.count (1 / M.hostSum h rets) else norms)

/-- `device_AddPdfs` and `device_AddPdfsExt` (`src/PDFs/combine/AddPdf.cu:16-77`) from the values and normalisations of the
components. -/
noncomputable def Mix3.device (M : Mix3) (h : Nat → ℝ) (raws norms : List ℝ) : ℝ :=
  let w := fun i => h (M.weights.getD i 0)
  let n := M.weights.length
  let ret := ((List.range n).map fun i => w i * raws.getD i 0 * norms.getD i 0).sum
  let totalWeight := ((List.range n).map w).sum
  if M.extended then ret / totalWeight else ret + (1 - totalWeight) * raws.getD n 0 * norms.getD n 0

/-- The value of the sum at event `k`. -/
noncomputable def Mix3.value (M : Mix3) (s : Mix3State) (h : Nat → ℝ) (norms : List ℝ) (k : Nat) : Option ℝ :=
  (s.amp.data[k]?).bind fun ev =>
  (M.amp.value s.amp h k).map fun a =>
    M.device h (M.pre.map (fun o => o.raw (o.params.map h) ev.m12 ev.m13) ++ [a]
      ++ M.post.map (fun o => o.raw (o.params.map h) ev.m12 ev.m13)) norms

/-- `AddPdf::calculateNLL` (`src/PDFs/combine/AddPdf.cu:187-204`) with `GooPdf::calculateNLL` (`src/PDFs/GooPdf.cu:254-273`). -/
noncomputable def Mix3.calculateNLL (M : Mix3) (s : Mix3State) (h : Pars ℝ) : Ran (ℝ × Mix3State) :=
  match M.normalize s (marksOf h) fun i => (h i).value with
  | none => .ub
  | some (s, norms) =>
    match ((List.range s.entries).mapM fun k => (M.value s (fun i => (h i).value) norms k).bind fun raw =>
        MetricKind.nll.apply Real.log s.entries raw (fun _ => none) 1).map List.sum with
    | none => .ub
    | some nll =>
      if nll = 0 then .aborted
      else if M.extended then
        let expEvents := ((List.range M.count).map fun i => (h (M.weights.getD i 0)).value).sum
        .done (nll + (expEvents - s.events * Real.log expEvents), s)
      else .done (nll, s)

/-- The tree of PDF objects of which the sum is the root: only the parameter lists matter here
(`src/PDFs/combine/AddPdf.cu:88-103, 123-130`). -/
def Mix3.tree {L : Lib ℝ} (M : Mix3) (leaf : ResObj → L.Leaf) (other : Other3 → L.Leaf) (efficiency : Pdf L) : Pdf L :=
  .mk ⟨0, if M.extended then .addExt else .add, M.weights, [], [0, 1, 2], 1⟩
    (M.pre.map (fun o => .mk ⟨0, .leaf (other o), o.params, [], [0, 1], 1⟩ []) ++ [M.amp.tree leaf efficiency]
      ++ M.post.map (fun o => .mk ⟨0, .leaf (other o), o.params, [], [0, 1], 1⟩ []))

/-- `FCN::operator()` (`src/goofit/FCN.cpp:18-28`); an exception is `aborted`. -/
noncomputable def Mix3.fcn {L : Lib ℝ} (M : Mix3) (t : Pdf L) (values : List ℝ) (h : Pars ℝ) (s : Mix3State) :
    Ran (ℝ × Pars ℝ × Mix3State) :=
  match fcnAt t values h with
  | none => .aborted
  | some h => (M.calculateNLL s h).andThen fun (r, s) => .done (r, h, s)

/-- The calls the minimiser makes one after the other: the values it gets (no counterpart in the code). -/
noncomputable def Mix3.fcnAll {L : Lib ℝ} (M : Mix3) (t : Pdf L) : List (List ℝ) → Pars ℝ → Mix3State →
    Ran (List ℝ × Pars ℝ × Mix3State)
  | [], h, s => .done ([], h, s)
  | v :: vs, h, s =>
    (M.fcn t v h s).andThen fun (r, h, s) =>
    (M.fcnAll t vs h s).andThen fun (rs, h, s) => .done (r :: rs, h, s)

end GooFit
