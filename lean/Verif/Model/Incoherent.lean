import Verif.Model.Amp3Body
/-!
# The incoherent sum of resonances (`src/PDFs/physics/Amp3Body_IS.cu`)

The device function is stated over a number type without laws and reads the global arrays through the cursor; the
normalisation is in exact arithmetic.
-/
set_option autoImplicit false
namespace GooFit
section
variable {F : Type} [FpOps F]
open FpOps

/-- What the constructor registers (`src/PDFs/physics/Amp3Body_IS.cu:57-61, 72-75, 84-85`): the observables `m12`, `m13` and
the event number, the constants `number of observables, 0, 0, 0, number of resonances, cache`, and no parameter: the
amplitudes of the resonances are never registered.  The entry of the function table is not part of `Fn` and is left open. -/
def incoherentNode {L : Lib F} (oid : Nat) (fn : Fn L) (m12 m13 num : Nat) (nRes : Nat) (cache norm : F) : Node L :=
  ⟨oid, fn, [], [ofNat 3, lit 0, lit 0, lit 0, ofNat nRes, cache], [m12, m13, num], norm⟩

/-- The loop of `device_incoherent` (`src/PDFs/physics/Amp3Body_IS.cu:33-38`): `rem` iterations left, starting at resonance
`i`.  `L.wave i cache evtNum` is `cResonanceValues[cacheToUse][evtNum * numResonances + i]`. -/
def incoherentLoop (L : Lib F) (B : Bufs F) (pc : Cursor) (cache : F) (evtNum : Int) : Nat → Nat → F → Option F
  | 0, _, ret => some ret
  | rem + 1, i, ret => do
    let amplitude ← pc.getParameter B i
    let (wr, wi) ← L.wave i cache evtNum
    incoherentLoop L B pc cache evtNum rem (i + 1) (add ret (mul amplitude (add (mul wr wr) (mul wi wi))))

/-- `device_incoherent` (`src/PDFs/physics/Amp3Body_IS.cu:24-53`). -/
def deviceIncoherent (L : Lib F) (call : Call F) : Dev F := fun B pc e => do
  let idnum ← pc.getObservable B 2
  let num ← e.read idnum
  let numRes ← countAt B.con (pc.con + 5)
  let cache ← pc.getConstant B 5
  let ret ← incoherentLoop L B pc cache (nearest num) numRes 0 (lit 0)
  let c ← pc.next B
  let c ← c.skip B numRes
  let (eff, c) ← call c e
  return (mul ret eff, c)

/-- The amplitudes used by `Amp3Body_IS::normalize` (`src/PDFs/physics/Amp3Body_IS.cu:227`):
`host_parameters[parametersIdx + i + 1]`. -/
def hostAmplitude {L : Lib F} (h : Host L) (slots : Slots) (i : Nat) : Option F := h.bufs.par[slots.par + i + 1]?

end

/-! ### Normalisation -/
section
variable {K : Type} [Field K]

/-- The point at which bin `g` is evaluated (`src/PDFs/physics/detail/SpecialIncoherentIntegrator.cu:22-38`). -/
def NormRange.centre (r : NormRange K) (g : Nat) : K × K :=
  ((r.hi12 - r.lo12) / (r.nb12 : K) * (((g % r.nb12 : Nat) : K) + 1 / 2) + r.lo12,
   (r.hi13 - r.lo13) / (r.nb13 : K) * (((g / r.nb12 : Nat) : K) + 1 / 2) + r.lo13)

/-- Function index reached by `while(pc.funcIdx < incoherentSum)` and then `while(pc.funcIdx < num_res)`
(`src/PDFs/physics/detail/SpecialIncoherentIntegrator.cu:42-43, 60-61`); the index of the resonance is not used. -/
def integratedFunction (self nRes : Nat) : Nat := max self nRes

/-- `SpecialIncoherentIntegrator::operator()` (`src/PDFs/physics/detail/SpecialIncoherentIntegrator.cu:13-82`).  `table` gives the
resonance stored at a function index, if a resonance is stored there; calling another function as a resonance is undefined. -/
def incoherentIntegrator (inside : K → K → Bool) (table : Nat → Option (K → K → Cx K)) (eff : K → K → K)
    (self nRes : Nat) (r : NormRange K) (g : Nat) : Option K :=
  let p := r.centre g
  if inside p.1 p.2 then
    match table (integratedFunction self nRes) with
    | none => none
    | some b => some ((b p.1 p.2).norm * eff p.1 p.2)
  else some 0

/-- Sum of optional values; undefined if one is (no counterpart in the code). -/
def sumOpt : List (Option K) → Option K
  | [] => some 0
  | none :: _ => none
  | some x :: xs => (sumOpt xs).map (x + ·)

/-- `integrals[i]` (`src/PDFs/physics/Amp3Body_IS.cu:207-217`), the same expression for every `i`. -/
def incoherentIntegral (inside : K → K → Bool) (table : Nat → Option (K → K → Cx K)) (eff : K → K → K)
    (self nRes : Nat) (r : NormRange K) : Option K :=
  sumOpt ((List.range (r.nb12 * r.nb13)).map (incoherentIntegrator inside table eff self nRes r))

/-- `Amp3Body_IS::normalize` when every integral is computed afresh (`src/PDFs/physics/Amp3Body_IS.cu:144-239`); `amps` are
the amplitudes read. -/
def incoherentNormalize (inside : K → K → Bool) (table : Nat → Option (K → K → Cx K)) (eff : K → K → K)
    (self : Nat) (amps : List K) (r : NormRange K) : Option K :=
  (sumOpt (amps.map fun a => (incoherentIntegral inside table eff self amps.length r).map (a * ·))).map
    (· * (r.binSize12 * r.binSize13))

/-- `device_incoherent` in exact arithmetic, if the cached values are those of the event
(`src/PDFs/physics/detail/SpecialIncoherentResonanceCalculator.cu:13-49`: zero outside the decay region). -/
def incoherentValue (inside : K → K → Bool) (terms : List (K × (K → K → Cx K))) (eff : K → K → K) (m12 m13 : K) : K :=
  (terms.map fun t => t.1 * (if inside m12 m13 then t.2 m12 m13 else 0).norm).sum * eff m12 m13

end
end GooFit
