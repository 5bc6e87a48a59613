import Verif.Model.Dalitz3
import Verif.Spec.Component4
import Verif.Spec.Decay
import Verif.Spec.Amp3Body
/-!
# Specification for C81: what the user said when constructing a three-body amplitude

The functions of the classes (`resRBW`, `resGS`, ...) are the subject of C55 and C57 to C61; here it is said to which arguments
they are applied.
-/
set_option autoImplicit false
namespace GooFit.Spec

/-- The spline is treated by C56. -/
def IsSplineRes : ResNew → Prop
  | .spline .. => True
  | _ => False

/-- The squared mass of the pair a number names: 0 is the pair (1,2), 1 the pair (1,3), any other the pair (2,3). -/
def pairSq (pair : Nat) (m12 m13 m23 : ℝ) : ℝ :=
  match pair with
  | 0 => m12
  | 1 => m13
  | _ => m23

open Classical in
/-- The function of the class, with the arguments of the constructor call and the present values `h` of the variables, at the
squared masses of the three pairs.  `none`: the K-matrix has no amplitude there (a minor of `1 - i K ρ` vanishes). -/
noncomputable def resonanceAt (d : DalitzCtx) (c : ResNew) (h : Nat → ℝ) (m12 m13 m23 : ℝ) : Option ℂ :=
  match c with
  | .rbw mass width sp cyc norm sym => some (resRBW d sp cyc norm sym (h mass) (h width) m12 m13 m23)
  | .gs mass width sp cyc norm sym => some (resGS d sp cyc norm sym (h mass) (h width) m12 m13 m23)
  | .lass mass width sp cyc a r R phiR B phiB norm =>
    some (resLASS d sp cyc norm { mass := h mass, width := h width, a := h a, r := h r, R := h R, phiR := h phiR, B := h B,
                                  phiB := h phiB } m12 m13 m23)
  | .flatte mean g1 rg2og1 cyc symmDP => some (resFlatte cyc symmDP (h mean) (h g1) (h rg2og1) m12 m13 m23)
  | .gauss mass width cyc => some (resGauss cyc (h mass) (h width) m12 m13 m23)
  | .nonRes => some 1
  | .rhoOmega om ow rm rw re im delta sp cyc norm sym =>
    some (resRhoOmega d sp cyc norm sym { omegaMass := h om, omegaWidth := h ow, rhoMass := h rm, rhoWidth := h rw, re := h re,
                                          im := h im, delta := h delta } m12 m13 m23)
  | .spline .. => none
  | .kMatrix sA0 sA s0prod s0scatt betaR betaI fprodR fprodI fscat poles _ pair =>
    let s := pairSq pair m12 m13 m23
    let k := kModelOf h sA0 sA s0prod s0scatt betaR betaI fprodR fprodI fscat poles
    let rho := kRho mPiPlus mKPlus mEta mEtap s
    if LeadingMinors (k.T mPiPlus rho s) 5 then some (k.amplitude mPiPlus rho s) else none

/-- Coefficient and amplitude of each resonance at a point of the decay region; the third squared mass follows from the sum
rule. -/
noncomputable def terms3 (d : DalitzCtx) (rs : List (ResUse ResNew)) (h : Nat → ℝ) (m12 m13 : ℝ) : List (Cx ℝ × Cx ℝ) :=
  rs.map fun r => (⟨h r.ar, h r.ai⟩,
    toCx ((resonanceAt d r.res h m12 m13 (d.mother ^ 2 + d.d1 ^ 2 + d.d2 ^ 2 + d.d3 ^ 2 - (m12 + m13))).getD 0))

open Classical in
/-- The density the user has described: `|Σ cᵢ Rᵢ|²` times efficiency where the decay is possible, zero elsewhere. -/
noncomputable def density3 (d : DalitzCtx) (rs : List (ResUse ResNew)) (eff : (Nat → ℝ) → ℝ → ℝ → ℝ) (h : Nat → ℝ)
    (m12 m13 : ℝ) : ℝ :=
  if CanDecay d.mother d.d1 d.d2 d.d3 m12 m13 then intensity (terms3 d rs h m12 m13) * eff h m12 m13 else 0

/-- A decay: a mother of positive mass, heavier than the third daughter, and daughters 1 and 2 not both massless. -/
def GoodMasses (d : DalitzCtx) : Prop :=
  0 < d.mother ∧ 0 ≤ d.d1 ∧ 0 ≤ d.d2 ∧ 0 ≤ d.d3 ∧ d.d3 ≤ d.mother ∧ 0 < d.d1 + d.d2

/-- The marks of a sequence of evaluations (which resonances are recomputed) are those of a program that marks every resonance
one of whose variables has a new value; what C30 shows of the fit manager. -/
def MarksFrom3 : Option (Nat → ℝ) → List ((ResObj → Bool) × (Nat → ℝ)) → Prop
  | _, [] => True
  | q, e :: es => (∀ h0, q = some h0 → ∀ o : ResObj, e.1 o = false → ∀ v ∈ o.params, e.2 v = h0 v) ∧ MarksFrom3 (some e.2) es

/-- How a user gives data to the PDF: to itself or to a PDF of which it is a component, and their number, in either order. -/
inductive GivesData (data : List Ev3) : List D3Op → Prop
  | own : GivesData data [.setData data, .setDataSize data.length]
  | ownFirst : GivesData data [.setDataSize data.length, .setData data]
  | parent : GivesData data [.parentData data, .setDataSize data.length]
  | parentFirst : GivesData data [.setDataSize data.length, .parentData data]

/-- The numbers of the events are their positions. -/
def Numbered (data : List Ev3) : Prop :=
  ∀ (k : Nat) (ev : Ev3), data[k]? = some ev → (k : ℝ) - 1 / 2 ≤ ev.num ∧ ev.num < (k : ℝ) + 1 / 2

open Classical in
/-- The share of resonances `i` and `j`: the real part of the product of the two terms, summed over the events in the decay
region, divided by the sum of the intensities. -/
noncomputable def fraction3 (d : DalitzCtx) (rs : List (ResUse ResNew)) (h : Nat → ℝ) (data : List Ev3) (i j : Nat) : ℝ :=
  let ok := data.filter fun ev => decide (CanDecay d.mother d.d1 d.d2 d.d3 ev.m12 ev.m13)
  let term (ev : Ev3) (i : Nat) : Cx ℝ :=
    let t := (terms3 d rs h ev.m12 ev.m13).getD i (0, 0)
    t.1 * t.2
  (ok.map fun ev => (term ev i * (term ev j).conj).re).sum / (ok.map fun ev => intensity (terms3 d rs h ev.m12 ev.m13)).sum

end GooFit.Spec
