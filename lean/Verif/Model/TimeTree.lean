import Verif.Model.Tree
/-!
# The time-dependent three-body amplitude in the global arrays

Models `device_Tddp`, what the two constructors of `Amp3Body_TD` register, and
`Amp3Body_TD::populateArrays` (`src/PDFs/physics/Amp3Body_TD.cu`), at the level of the cursor: which
entries of the arrays are read, and where the cursor is left.  The number type is generic, no
arithmetic law is assumed.  What the entries mean for the decay rate is in `Model/TimeDalitz.lean`.
-/
set_option autoImplicit false
namespace GooFit
variable {F : Type} [FpOps F]
open FpOps

/-- Arguments of a time-resolution function
(`device_resfunction_ptr`, `include/goofit/PDFs/physics/MixingTimeResolution.h:8-9`). -/
structure ResArgs (F : Type) where
  coshterm : F
  costerm : F
  sinhterm : F
  sinterm : F
  tau : F
  dtime : F
  xmixing : F
  ymixing : F
  sigma : F

/-- What `device_Tddp` uses besides the arrays: unary minus, `mistag > 0`, the cached waves
`cWaves[i + 16 * cacheToUse][evtNum]` (pairs `ai`, `bi`), and which function pointers denote
time-resolution functions.  These do not move the cursor: none of `TruthResolution.cu:6-27`,
`ThreeGaussResolution.cu`, `ThreeGaussResolutionExt.cu` and `ThreeGaussResolutionSplice.cu` calls
`incrementIndex` (`src/PDFs/physics/Amp3Body_TD.cu:98-101, 210-211, 232`). -/
structure TdLib (L : Lib F) where
  neg : F → F
  isPos : F → Bool
  waves : Nat → F → Int → Option ((F × F) × (F × F))
  res : L.Leaf → Option (Bufs F → Cursor → ResArgs F → Option F)

/-- The loop over the resonances (`src/PDFs/physics/Amp3Body_TD.cu:90-110`): `rem` left, starting at
number `i`; `matrixelement = ai * amp`, `sumWavesA += matrixelement`, and the same with `bi`. -/
def tdWaves {L : Lib F} (X : TdLib L) (B : Bufs F) (pc : Cursor) (cache : F) (evtNum : Int) :
    Nat → Nat → F × F → F × F → Option ((F × F) × (F × F))
  | 0, _, sA, sB => some (sA, sB)
  | rem + 1, i, sA, sB => do
    let re ← pc.getParameter B (i * 2 + 5)
    let im ← pc.getParameter B (i * 2 + 6)
    let (a, b) ← X.waves i cache evtNum
    tdWaves X B pc cache evtNum rem (i + 1)
      (add sA.1 (sub (mul a.1 re) (mul a.2 im)), add sA.2 (add (mul a.1 im) (mul a.2 re)))
      (add sB.1 (sub (mul b.1 re) (mul b.2 im)), add sB.2 (add (mul b.1 im) (mul b.2 re)))

/-- The call through `reinterpret_cast<device_resfunction_ptr>(d_function_table[pc.funcIdx])`
(`src/PDFs/physics/Amp3Body_TD.cu:210-211`); calling anything but a resolution this way is
undefined. -/
def callResolution {L : Lib F} (X : TdLib L) (T : List (Fn L)) (B : Bufs F) (c : Cursor)
    (a : ResArgs F) : Option F :=
  match T[c.fn]? with
  | some (.leaf k) =>
    match X.res k with
    | some f => f B c a
    | none => none
  | _ => none

/-- `while(pc.funcIdx < stop) pc.incrementIndex();` (`src/PDFs/physics/Amp3Body_TD.cu:73-74`): every
step raises `funcIdx` by one, so there are `stop - funcIdx` of them. -/
def Cursor.skipTo (B : Bufs F) (stop : Nat) (c : Cursor) : Option Cursor :=
  Cursor.skip B (stop - c.fn) c

/-- The mixing parameters for a tag (`src/PDFs/physics/Amp3Body_TD.cu:120-143`). -/
def tagMixing (x y dx dy : F) (charmtag : Int) : F × F :=
  if charmtag = 1 then (add x dx, add y dy)
  else if charmtag = -1 then (sub x dx, sub y dy)
  else (x, y)

/-- Everything of `device_Tddp` from the first call of the resolution to the efficiency
(`src/PDFs/physics/Amp3Body_TD.cu:167-173, 210-244`), with the cursor at the resolution. -/
def tdResolved {L : Lib F} (X : TdLib L) (T : List (Fn L)) (B : Bufs F) (c : Cursor)
    (sA sB : F × F) (tau time x y sigma mistag : F) : Option F := do
  let nA := add (mul sA.1 sA.1) (mul sA.2 sA.2)
  let nB := add (mul sB.1 sB.1) (mul sB.2 sB.2)
  let term1 := add nA nB
  let term2 := sub nA nB
  -- sumWavesA *= conj(sumWavesB)
  let re := sub (mul sA.1 sB.1) (mul sA.2 (X.neg sB.2))
  let im := add (mul sA.1 (X.neg sB.2)) (mul sA.2 sB.1)
  let ret ← callResolution X T B c ⟨term1, term2, re, im, tau, time, x, y, sigma⟩
  if X.isPos mistag then
    let ret := mul ret (sub (lit 1) (mul (lit 2) mistag))
    let r2 ← callResolution X T B c
      ⟨term1, X.neg term2, re, X.neg im, lit (4101 / 10000), time, lit (39 / 10000),
        lit (65 / 10000), sigma⟩
    let ret := add ret (mul mistag r2)
    let r3 ← callResolution X T B c
      ⟨term1, term2, re, im, lit (4101 / 10000), time, lit (39 / 10000), lit (65 / 10000), sigma⟩
    return add ret (mul mistag r3)
  else return ret

/-- Observable `i` of a PDF with `numObs` observables if it has more than `i`, otherwise index 0
(`src/PDFs/physics/Amp3Body_TD.cu:49-53, 114-116`). -/
def obsOrZero (pc : Cursor) (B : Bufs F) (numObs i : Nat) : Option F :=
  if i < numObs then pc.getObservable B i else some (lit 0)

/-- The event's value there, or 0 without such an observable
(`src/PDFs/physics/Amp3Body_TD.cu:128-131, 221-224`). -/
def readOrZero (e : Evt F) (numObs i : Nat) (id : F) : Option F :=
  if i < numObs then e.read id else some (lit 0)

/-- `device_Tddp` for an event in the Dalitz region (`src/PDFs/physics/Amp3Body_TD.cu:78-257`): `after`
is the cursor moved past the PDF's own data (line 203). -/
def tddpInside {L : Lib F} (X : TdLib L) (T : List (Fn L)) (call : Call F) (B : Bufs F)
    (pc after : Cursor) (numObs numRes : Nat) (idnum idmis : F) (e : Evt F) : Option (F × Cursor) := do
  let evtIndex ← e.read idnum
  let cache ← pc.getConstant B 1
  let sums ← tdWaves X B pc cache (nearest evtIndex) numRes 0 (lit 0, lit 0) (lit 0, lit 0)
  let idtime ← pc.getObservable B 0
  let idsigma ← pc.getObservable B 1
  let idtag ← obsOrZero pc B numObs 6
  let tau ← pc.getParameter B 0
  let x0 ← pc.getParameter B 1
  let y0 ← pc.getParameter B 2
  let dx ← pc.getParameter B 3
  let dy ← pc.getParameter B 4
  let tag ← readOrZero e numObs 6 idtag
  let time ← e.read idtime
  let sigma ← e.read idsigma
  let c ← after.skip B numRes
  let mistag ← readOrZero e numObs 5 idmis
  let ret ← tdResolved X T B c sums.1 sums.2 tau time (tagMixing x0 y0 dx dy (toInt tag)).1
    (tagMixing x0 y0 dx dy (toInt tag)).2 sigma mistag
  let c ← c.next B
  let eff ← call c e
  return (mul ret eff.1, eff.2)

/-- `device_Tddp` for an event outside the Dalitz region
(`src/PDFs/physics/Amp3Body_TD.cu:60-76`). -/
def tddpOutside (B : Bufs F) (pc after : Cursor) (numRes : Nat) : Option (F × Cursor) := do
  let stop ← countAt B.con (pc.con + 4)
  let c ← after.skip B numRes
  let c ← c.next B
  let c ← c.skipTo B stop
  return (lit 0, c)

/-- `device_Tddp` (`src/PDFs/physics/Amp3Body_TD.cu:41-258`). -/
def deviceTddp {L : Lib F} (X : TdLib L) (T : List (Fn L)) (call : Call F) : Dev F :=
  fun B pc e => do
    let numPar ← pc.getNumParameters B
    let numCon ← pc.getNumConstants B
    let numObs ← pc.getNumObservables B
    let idm12 ← pc.getObservable B 2
    let idm13 ← pc.getObservable B 3
    let idnum ← pc.getObservable B 4
    let idmis ← obsOrZero pc B numObs 5
    let m12 ← e.read idm12
    let m13 ← e.read idm13
    let numRes ← countAt B.con (pc.con + 1)
    if L.inDalitz m12 m13 then
      tddpInside X T call B pc (pc.incrementIndex 1 numPar numCon numObs 1) numObs numRes idnum idmis e
    else tddpOutside B pc (pc.incrementIndex 1 numPar numCon numObs 1) numRes

/-! ### Host side -/

/-- `for(i) host_constants[constantsIdx + 1 + i] = constantsList[i]`
(`src/PDFs/physics/Amp3Body_TD.cu:523-527`). -/
def rewriteFrom (i : Nat) : List F → List F → List F
  | [], l => l
  | x :: xs, l => rewriteFrom (i + 1) xs (l.set i x)

/-- What the constructor with one resolution registers
(`src/PDFs/physics/Amp3Body_TD.cu:263-331`): observables decay time, its error,
`m12`, `m13`, event number, mistag, charm tag; parameters lifetime, mixing and the amplitudes;
constants number of resonances, cache number, mistag flag and a place for the function index after
the efficiency.  `populateArrays` stores 0 as normalisation (lines 498-502). -/
def tdNode {L : Lib F} (oid : Nat) (fn : Fn L) (params : List Nat) (nres : Nat) (cache flag : F)
    (obs : List Nat) : Node L :=
  ⟨oid, fn, params, [ofNat nres, cache, flag, lit 0], obs, lit 0⟩

/-- The same for the constructor with the mass of the mother and several resolutions
(`src/PDFs/physics/Amp3Body_TD.cu:358-446`, `SPECIAL_RESOLUTION_FLAG` line 23). -/
def tdNodeMass {L : Lib F} (oid : Nat) (fn : Fn L) (params : List Nat) (nres : Nat)
    (cache flag low step : F) (obs : List Nat) : Node L :=
  ⟨oid, fn, params, [ofNat nres, cache, flag, ofNat 999999999, low, step, lit 0], obs, lit 0⟩

/-- `Amp3Body_TD::populateArrays` after `recursiveSetIndices` pushed the function
(`src/PDFs/physics/Amp3Body_TD.cu:473-529`): the node, the resonances, the first resolution, what
remains, then the last constant becomes the size of the function table. -/
def Host.populateTd {L : Lib F} (env : Env F) (n : Node L) (res : List (Pdf L)) (resolution : Pdf L)
    (rest : List (Pdf L)) (h : Host L) : Host L :=
  let h1 := Host.populateList env res (h.push env n)
  let h2 := Host.populate env resolution h1
  let h3 := Host.populateList env rest h2
  let consts := n.consts.set (n.consts.length - 1) (ofNat h3.table.length)
  { h3 with bufs := { h3.bufs with con := rewriteFrom (h.bufs.con.length + 1) consts h3.bufs.con } }

end GooFit
