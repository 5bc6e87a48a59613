import Verif.Spec.Tree
import Verif.Model.TimeTree
/-!
# What a time-dependent three-body amplitude means at an event

No arrays and no cursor: parameter values, positions of the observables in the event, and the values
of the resolution and of the efficiency.
-/
set_option autoImplicit false
namespace GooFit.Spec
variable {F : Type} [FpOps F]
open FpOps

/-- The ends of the arrays: where the next PDF will be stored. -/
def endOf {L : Lib F} (h : Host L) : Cursor :=
  ⟨h.table.length, h.bufs.par.length, h.bufs.con.length, h.bufs.obs.length, h.bufs.nrm.length⟩

/-- Arrays with something stored after them. -/
def followedBy (B S : Bufs F) : Bufs F :=
  ⟨B.par ++ S.par, B.con ++ S.con, B.obs ++ S.obs, B.nrm ++ S.nrm⟩

/-- What a time resolution computes from its own parameters, constants and observables. -/
abbrev ResSem (F : Type) (L : Lib F) := L.Leaf → List F → List F → List Int → ResArgs F → Option F

/-- A resolution's function, started at its own data, returns what it should compute. -/
def ResOK {L : Lib F} (X : TdLib L) (rsem : ResSem F L) (k : L.Leaf) (ps ks : List F)
    (os : List Int) : Prop :=
  ∃ f, X.res k = some f ∧ ∀ (B : Bufs F) (c : Cursor) (norm : F) (a : ResArgs F) (v : F),
    Storable F ps.length ks.length os → OwnData B c ps ks os norm → rsem k ps ks os a = some v →
    f B c a = some v

/-- The decay rate at a time, for the two wave sums: the resolution's value, and for a mistag
fraction `w > 0` the combination of the code with its fixed lifetime and mixing. -/
def tdSmeared {L : Lib F} (X : TdLib L) (R : ResArgs F → Option F) (A B : F × F)
    (tau t x y sigma w : F) : Option F := do
  let a2 := add (mul A.1 A.1) (mul A.2 A.2)
  let b2 := add (mul B.1 B.1) (mul B.2 B.2)
  let re := sub (mul A.1 B.1) (mul A.2 (X.neg B.2))
  let im := add (mul A.1 (X.neg B.2)) (mul A.2 B.1)
  let r ← R ⟨add a2 b2, sub a2 b2, re, im, tau, t, x, y, sigma⟩
  if X.isPos w then
    let swapped ← R ⟨add a2 b2, X.neg (sub a2 b2), re, X.neg im, lit (4101 / 10000), t,
      lit (39 / 10000), lit (65 / 10000), sigma⟩
    let same ← R ⟨add a2 b2, sub a2 b2, re, im, lit (4101 / 10000), t, lit (39 / 10000),
      lit (65 / 10000), sigma⟩
    return add (add (mul r (sub (lit 1) (mul (lit 2) w))) (mul w swapped)) (mul w same)
  else return r

/-- The value of a time-dependent amplitude: parameters `τ, x, y, Δx, Δy` and the complex
coefficients, observables at the positions `oT ... oTag`, `R` the resolution and `eff` the
efficiency. -/
def tdMeaning {L : Lib F} (X : TdLib L) (R : ResArgs F → Option F) (eff : Evt F → Option F)
    (nres : Nat) (cache : F) (ps : List F) (os : List Int) (e : Evt F) : Option F :=
  match os, ps with
  | [oT, oS, o12, o13, oN, oMis, oTag], tau :: x :: y :: dx :: dy :: cs => do
    let m12 ← at_ e o12
    let m13 ← at_ e o13
    if L.inDalitz m12 m13 then
      let num ← at_ e oN
      let ws ← allSome ((List.range nres).map fun i => X.waves i cache (nearest num))
      let tag ← at_ e oTag
      let t ← at_ e oT
      let sigma ← at_ e oS
      let w ← at_ e oMis
      let xy := if toInt tag = 1 then (add x dx, add y dy)
        else if toInt tag = -1 then (sub x dx, sub y dy) else (x, y)
      let r ← tdSmeared X R (coherent (ws.map Prod.fst) (pairs cs)) (coherent (ws.map Prod.snd) (pairs cs))
        tau t xy.1 xy.2 sigma w
      let ε ← eff e
      return mul r ε
    else return lit 0
  | _, _ => none

end GooFit.Spec
