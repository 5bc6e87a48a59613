import Verif.Model.Minuit
/-!
# Work cached between evaluations

`ConvolutionPdf::normalize` (`src/PDFs/combine/ConvolutionPdf.cu:313-358`) and `Amp3Body::normalize`
(`src/PDFs/physics/Amp3Body.cu:238-331`) recompute a cached quantity only when a flag forces it or when a
parameter of certain PDFs is marked as changed.
-/
set_option autoImplicit false
namespace GooFit
variable {F : Type} {L : Lib F}

/-- The PDF's own parameters (`parametersList`, `include/goofit/PdfBase.h:260`). -/
def Pdf.ownParams : Pdf L → List Nat
  | .mk n _ => n.params

/-- `PdfBase::parametersChanged` (`src/goofit/PdfBase.cpp:124-127`): the PDF's own parameters only. -/
def Pdf.parametersChanged (t : Pdf L) (h : Pars F) : Bool := t.ownParams.any fun i => (h i).changed

/-- The cached quantities of one PDF, of type `W`, named by `C`, and the flag that forces a recomputation
(`!workspacesFilled`, `include/goofit/PDFs/combine/ConvolutionPdf.h`; `forceRedoIntegrals`,
`include/goofit/PDFs/physics/Amp3Body.h`). -/
structure Cached (C W : Type) where
  force : Bool
  content : C → W

/-- Which quantities `ConvolutionPdf::normalize` recomputes (`src/PDFs/combine/ConvolutionPdf.cu:330, 341`): `false` is the
model workspace, `true` the resolution workspace. -/
def convRedo (model resolution : Pdf L) (force : Bool) (h : Pars F) : Bool → Bool
  | false => force || model.parametersChanged h
  | true => force || resolution.parametersChanged h

/-- Cached quantities of `Amp3Body` (`include/goofit/PDFs/physics/Amp3Body.h: cachedWaves, integrals`). -/
inductive AmpCell where
  /-- the wave of resonance `i` at the events -/
  | wave (i : Nat)
  /-- the integral of resonance `i` times the conjugate of resonance `j` times the efficiency -/
  | integral (i j : Nat)

/-- `redoIntegral[i]` (`src/PDFs/physics/Amp3Body.cu:266-273`). -/
def redoIntegral (resonances : List (Pdf L)) (force : Bool) (h : Pars F) (i : Nat) : Bool :=
  match resonances[i]? with
  | some r => force || r.parametersChanged h
  | none => false

/-- Which quantities `Amp3Body::normalize` recomputes (`src/PDFs/physics/Amp3Body.cu:288-331`). -/
def ampRedo (resonances : List (Pdf L)) (force : Bool) (h : Pars F) : AmpCell → Bool
  | .wave i => redoIntegral resonances force h i
  | .integral i j => !(!(redoIntegral resonances force h i) && !(redoIntegral resonances force h j))

/-- The common part of the two `normalize` functions: recompute what has to be, and clear the flag
(`src/PDFs/combine/ConvolutionPdf.cu:353`, `src/PDFs/physics/Amp3Body.cu:275`).  `compute c v d` is the quantity for the
parameter values `v` and the surroundings `d`: data set, limits of observables. -/
def Cached.normalize {C W D : Type} (redo : Bool → Pars F → C → Bool) (compute : C → (Nat → F) → D → W) (h : Pars F) (d : D)
    (s : Cached C W) : Cached C W :=
  ⟨false, fun c => if redo s.force h c then compute c (fun i => (h i).value) d else s.content c⟩

/-- What can happen to a PDF with cached quantities (no counterpart in the code). -/
inductive CacheOp (F D : Type) where
  /-- something in the life of its fit manager; calls of the FCN normalise -/
  | fit (op : MnOp F)
  /-- `getValue`, `evaluateAtPoints`, `calculateNLL`, `normalize` called by the user -/
  | evaluate
  /-- `setIntegrationConstants` (`src/PDFs/combine/ConvolutionPdf.cu:247-248`) or `setDataSize` / `setForceIntegrals`
  (`src/PDFs/physics/Amp3Body.cu:235`) -/
  | reset
  /-- new data, limits or number of bins -/
  | surround (d : D)

/-- Whether the manager's event ends in an evaluation (no counterpart in the code). -/
def MnOp.evaluates : MnOp F → Bool
  | .callAt _ => true
  | .callHere => true
  | _ => false

/-- One event.  `t` is the PDF that is fitted (no counterpart in the code). -/
def cacheStep [FpOps F] [DecidableEq F] {C W D : Type} (t : Pdf L) (redo : Bool → Pars F → C → Bool)
    (compute : C → (Nat → F) → D → W) (s : Pars F × D × Cached C W) : CacheOp F D → Option (Pars F × D × Cached C W)
  | .fit op => do
    let h ← mnStep t s.1 op
    return (h, s.2.1, if op.evaluates then s.2.2.normalize redo compute h s.2.1 else s.2.2)
  | .evaluate => some (s.1, s.2.1, s.2.2.normalize redo compute s.1 s.2.1)
  | .reset => some (s.1, s.2.1, { s.2.2 with force := true })
  | .surround d => some (s.1, d, s.2.2)

/-- A history, beginning with the construction of the fit manager on variables `h`, with surroundings `d` and caches
not filled (no counterpart in the code). -/
def cacheRun [FpOps F] [DecidableEq F] {C W D : Type} (t : Pdf L) (redo : Bool → Pars F → C → Bool)
    (compute : C → (Nat → F) → D → W) (h : Pars F) (d : D) (empty : C → W) (ops : List (CacheOp F D)) :
    Option (Pars F × D × Cached C W) := do
  let h ← mnRun t h []
  ops.foldlM (cacheStep t redo compute) (h, d, ⟨true, empty⟩)

end GooFit
