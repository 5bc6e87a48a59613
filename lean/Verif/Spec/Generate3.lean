import Verif.Model.FourBody
import Verif.Model.Generate3
import Verif.Spec.Decay
import Verif.Spec.Dalitz3
/-!
# Specification for C87: generated events
-/
set_option autoImplicit false
namespace GooFit.Spec

/-- The invariant mass squared of two particles. -/
def pairMass2 (a b : LV ℝ) : ℝ := (a.e + b.e) ^ 2 - ((a.x + b.x) ^ 2 + (a.y + b.y) ^ 2 + (a.z + b.z) ^ 2)

/-- The vector is the energy and momentum of a particle of mass `m`. -/
def ParticleOf (m : ℝ) (v : LV ℝ) : Prop := v.e = energy m ![v.x, v.y, v.z]

/-- Three particles of the masses of the daughters with the energy and momentum of the mother at rest. -/
structure DecayProducts (d : DalitzCtx) (g : Gen3) : Prop where
  first : ParticleOf d.d1 g.p1
  second : ParticleOf d.d2 g.p2
  third : ParticleOf d.d3 g.p3
  rest : g.p1 + g.p2 + g.p3 = ⟨0, 0, 0, d.mother⟩

/-- The intensity at an event: `|Σ cᵢ Rᵢ|²`, each resonance at the masses squared of the three pairs of particles. -/
noncomputable def eventIntensity (d : DalitzCtx) (rs : List (ResUse ResNew)) (h : Nat → ℝ) (g : Gen3) : ℝ :=
  intensity (rs.map fun r => ((⟨h r.ar, h r.ai⟩ : Cx ℝ),
    toCx ((resonanceAt d r.res h (pairMass2 g.p1 g.p2) (pairMass2 g.p1 g.p3) (pairMass2 g.p2 g.p3)).getD 0)))

/-- An event is accepted if its uniform number is below the ratio of its weight to the largest weight. -/
def AcceptedBy (u : Nat → ℝ) (weights : List ℝ) (flags : List Bool) : Prop :=
  flags.length = weights.length ∧ ∃ mx, IsGreatest {w | w ∈ weights} mx ∧
    ∀ (k : Nat) (w : ℝ) (b : Bool), weights[k]? = some w → flags[k]? = some b → (b = true ↔ u k * mx < w)

end GooFit.Spec
