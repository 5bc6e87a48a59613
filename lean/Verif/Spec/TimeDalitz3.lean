import Verif.Spec.Dalitz3
import Verif.Spec.TimeDalitz
import Verif.Model.TimeDalitz3
/-!
# Specification for C97: the likelihood of a time-dependent three-body decay
-/
set_option autoImplicit false
namespace GooFit.Spec
open MeasureTheory

/-- The variables of the mixing: lifetime, `x`, `y` and their differences between the two flavours. -/
structure MixVars where
  tau : Nat
  x : Nat
  y : Nat
  dx : Nat
  dy : Nat

/-- The decay amplitude the user has described, at a point: coefficients times resonances; the third squared mass follows from
the sum rule. -/
noncomputable def amplitude3 (d : DalitzCtx) (rs : List (ResUse ResNew)) (h : Nat → ℝ) (m12 m13 : ℝ) : ℂ :=
  (rs.map fun r => (⟨h r.ar, h r.ai⟩ : ℂ)
    * (resonanceAt d r.res h m12 m13 (d.mother ^ 2 + d.d1 ^ 2 + d.d2 ^ 2 + d.d3 ^ 2 - (m12 + m13))).getD 0).sum

open Classical in
/-- The density the user has described, at a point, a decay time and a flavour `q`: the rate of a mixing meson, which decays with
the described amplitude, its other flavour with that of the reversed point; zero where the decay is impossible. -/
noncomputable def timeDensity3 (d : DalitzCtx) (v : MixVars) (rs : List (ResUse ResNew)) (eff : (Nat → ℝ) → ℝ → ℝ → ℝ)
    (h : Nat → ℝ) (q m12 m13 t : ℝ) : ℝ :=
  if CanDecay d.mother d.d1 d.d2 d.d3 m12 m13 then
    decayRate (amplitude3 d rs h m12 m13) (amplitude3 d rs h m13 m12) (h v.tau) (h v.x + q * h v.dx) (h v.y + q * h v.dy) t
      * eff h m12 m13
  else 0

/-- The total rate: integrated over the time, averaged over the flavours of which a fraction `f` is `+1`, and integrated over a
grid. -/
noncomputable def timeTotal3 (d : DalitzCtx) (v : MixVars) (rs : List (ResUse ResNew)) (eff : (Nat → ℝ) → ℝ → ℝ → ℝ)
    (h : Nat → ℝ) (f : ℝ) (g : TdRange) : ℝ :=
  gridIntegral2 (fun m12 m13 => f * (∫ t in Set.Ioi 0, timeDensity3 d v rs eff h 1 m12 m13 t)
      + (1 - f) * ∫ t in Set.Ioi 0, timeDensity3 d v rs eff h (-1) m12 m13 t) g.lo12 g.hi12 g.nb12 g.lo13 g.hi13 g.nb13

/-- Minus the logarithm of the likelihood of the events: each event in which the density is positive counts with minus the
logarithm of the normalised density there; the others do not count. -/
noncomputable def timeNll3 (d : DalitzCtx) (v : MixVars) (rs : List (ResUse ResNew)) (eff : (Nat → ℝ) → ℝ → ℝ → ℝ)
    (h : Nat → ℝ) (f : ℝ) (g : TdRange) (data : List Ev7) : ℝ :=
  ((data.filter fun ev => decide (0 < timeDensity3 d v rs eff h ev.tag ev.m12 ev.m13 ev.time)).map fun ev =>
    -Real.log (timeDensity3 d v rs eff h ev.tag ev.m12 ev.m13 ev.time / timeTotal3 d v rs eff h f g)).sum

/-- How a user gives data to the PDF: to itself or to a PDF of which it is a component, and their number and the length of a row,
in either order. -/
inductive GivesData7 (data : List Ev7) : List T3Op → Prop
  | own : GivesData7 data [.setData data, .setDataSize data.length 7]
  | ownFirst : GivesData7 data [.setDataSize data.length 7, .setData data]
  | parent : GivesData7 data [.parentData data, .setDataSize data.length 7]
  | parentFirst : GivesData7 data [.setDataSize data.length 7, .parentData data]

/-- Events of a tagged sample: the numbers are the positions, the flavour is `+1`, `-1` or unknown (0) and never wrong. -/
def Tagged (data : List Ev7) : Prop :=
  ∀ (k : Nat) (ev : Ev7), data[k]? = some ev → ((k : ℝ) - 1 / 2 ≤ ev.num ∧ ev.num < (k : ℝ) + 1 / 2)
    ∧ (ev.tag = 1 ∨ ev.tag = -1 ∨ ev.tag = 0) ∧ ev.mistag = 0

/-- The lifetime is positive and the widths of both mass eigenstates are, for both flavours. -/
def Decays (v : MixVars) (h : Nat → ℝ) : Prop := 0 < h v.tau ∧ |h v.y + h v.dy| < 1 ∧ |h v.y - h v.dy| < 1

end GooFit.Spec
