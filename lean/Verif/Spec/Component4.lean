import Verif.Model.Component4
import Verif.Spec.KMatrix
import Verif.Spec.Amp4Body
/-!
# Specification for C78: what the user said when constructing the components of a four-body amplitude

The functions of the classes (`lsRBW`, `spinFactorVal`, ...) are the subject of C54, C55 and C71; here it is said to which
arguments they are applied.
-/
set_option autoImplicit false
namespace GooFit.Spec

/-- The common arguments of a constructor call. -/
def args : LsNew → LsArgs
  | .rbw a _ _ | .sbw a _ _ | .lass a _ _ | .nonRes a _ _ | .one a _ _ | .flatte a _ _ | .bugg a _ _ | .bugg3 a _ _
  | .focus a _ _ _ | .glass a _ _ _ | .kMatrix a _ _ _ _ _ _ _ _ _ _ _ _ | .gspline a _ _ _ _ _ _ => a

/-- The spline for the width is treated by C79. -/
def IsSpline : LsNew → Prop
  | .gspline .. => True
  | _ => False

/-- The K-matrix model a constructor call describes, with the present values `h` of its variables.  The list of the poles holds,
for every pole, its five couplings and its mass. -/
noncomputable def kModelOf (h : Nat → ℝ) (sA0 sA s0prod s0scatt : Nat) (betaR betaI fprodR fprodI fscat poles : List Nat) :
    KModel where
  mass i := h (poles.getD (6 * i + 5) 0)
  g i j := h (poles.getD (6 * i + j) 0)
  fscat j := h (fscat.getD j 0)
  s0scat := h s0scatt
  sA := h sA
  sA0 := h sA0
  beta i := ⟨h (betaR.getD i 0), h (betaI.getD i 0)⟩
  fprod i := ⟨h (fprodR.getD i 0), h (fprodI.getD i 0)⟩
  s0prod := h s0prod

open Classical in
/-- The function of the class, with the arguments of the constructor call and the present values `h` of the variables, at pair
mass `M` and daughters' masses `m1`, `m2`.  `none`: the K-matrix has no amplitude there (a minor of `1 - i K ρ` vanishes). -/
noncomputable def lineShapeAt (c : LsNew) (h : Nat → ℝ) (M m1 m2 : ℝ) : Option ℂ :=
  match c with
  | .rbw a mass width => some (lsRBW M m1 m2 (h mass) (h width) a.L a.ff a.radius)
  | .sbw a mass width => some (lsSBW M m1 m2 (h mass) (h width) a.L a.ff a.radius)
  | .lass a mass width => some (lsLASS M m1 m2 (h mass) (h width) a.L a.ff a.radius)
  | .nonRes a _ _ => some (lsNonRes M m1 m2 a.L a.radius)
  | .one _ _ _ => some 1
  | .flatte a mass width => some (lsFlatte M m1 m2 (h mass) (h width) a.L a.ff a.radius)
  | .bugg _ mass width => some (lsBugg M (h mass) (h width))
  | .bugg3 _ mass width => some (lsBugg3 M (h mass) (h width))
  | .focus _ mod _ _ => some (lsFOCUS M mod)
  | .glass a mass width vars =>
    some (lsGLASS M m1 m2 (h mass) (h width) a.L a.radius (h (vars.getD 0 0)) (h (vars.getD 1 0)) (h (vars.getD 2 0))
      (h (vars.getD 3 0)) (h (vars.getD 4 0)))
  | .kMatrix _ _ _ sA0 sA s0prod s0scatt betaR betaI fprodR fprodI fscat poles =>
    let d := kModelOf h sA0 sA s0prod s0scatt betaR betaI fprodR fprodI fscat poles
    let rho := kRho mPiPlus mKPlus mEta mEtap (M ^ 2)
    if LeadingMinors (d.T mPiPlus rho (M ^ 2)) 5 then some (d.amplitude mPiPlus rho (M ^ 2)) else none
  | .gspline .. => none

/-- The masses of the mother and of the four daughters. -/
structure Decay4 where
  M : ℝ
  m1 : ℝ
  m2 : ℝ
  m3 : ℝ
  m4 : ℝ

/-- The line shape of a constructor call at an event: at the mass of the pair (or triple) the call names. -/
noncomputable def lineShape4 (d : Decay4) (c : LsNew) (h : Nat → ℝ) (ev : Ev4) : Option ℂ :=
  (lsMass (args c).pair ev.m12 ev.m34 ev.cos12 ev.cos34 ev.phi d.M d.m1 d.m2 d.m3 d.m4).bind fun x =>
    lineShapeAt c h x.m x.d1 x.d2

/-- The spin factor of a constructor call at an event: of the four momenta the call names, in its order. -/
noncomputable def spinFactor4 (d : Decay4) (s : SfNew) (ev : Ev4) : Option ℝ :=
  let v := get4Vecs ev.m12 ev.m34 ev.cos12 ev.cos34 ev.phi d.M d.m1 d.m2 d.m3 d.m4
  let V : Fin 4 → LV ℝ := ![v.1, v.2.1, v.2.2.1, v.2.2.2]
  if h : s.p0 < 4 ∧ s.p1 < 4 ∧ s.p2 < 4 ∧ s.p3 < 4 then
    some (spinFactorVal s.kind s.mD0 ⟨s.p0, h.1⟩ ⟨s.p1, h.2.1⟩ ⟨s.p2, h.2.2.1⟩ ⟨s.p3, h.2.2.2⟩ V)
  else none

/-- The intensity the user has described: the squared modulus of the sum over the amplitudes of coefficient times amplitude
(a component that is not defined at the event counts as zero). -/
noncomputable def described (d : Decay4) (amps : List AmpNew) (h : Nat → ℝ) (ev : Ev4) : ℝ :=
  intensity4 (amps.map fun a : AmpNew =>
    (amplitude4 Real.sqrt a.nPerm (a.ls.map fun c => toCx ((lineShape4 d c h ev).getD 0))
      (a.sf.map fun s => (spinFactor4 d s ev).getD 0), (⟨h a.ar, h a.ai⟩ : Cx ℝ)))

/-- The marks of an evaluation (which line shapes are recomputed) are those of a program that marks every line shape one of
whose variables has a new value; what C30 shows of the fit manager. -/
def MarksFrom : Option (Nat → ℝ) → List (A4.Op LsObj (Nat → ℝ) Ev4) → Prop
  | _, [] => True
  | q, .setData _ :: ops => MarksFrom q ops
  | q, .eval c p :: ops => (∀ p0, q = some p0 → ∀ x : LsObj, c x = false → ∀ v ∈ x.params, p v = p0 v) ∧ MarksFrom (some p) ops
  | q, .generate _ c p :: ops =>
    (∀ p0, q = some p0 → ∀ x : LsObj, c x = false → ∀ v ∈ x.params, p v = p0 v) ∧ MarksFrom (some p) ops

end GooFit.Spec
