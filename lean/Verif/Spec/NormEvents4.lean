import Verif.Spec.Momenta4
import Verif.Spec.TimeComponent4
import Verif.Model.NormEvents4
/-!
# Specification for C101: which events a four-body PDF is normalised with, and with which intensity
-/
set_option autoImplicit false
namespace GooFit.Spec

/-- The accepted ones of the generated events. -/
def accepted (r : PhspRun) : List Gen4 := ((r.events.zip r.flags).filter (·.2)).map (·.1)

/-- The four momenta. -/
def momentaOf (g : Gen4) : Fin 4 → LV ℝ := ![g.p1, g.p2, g.p3, g.p4]

/-- The decay amplitude of four momenta. -/
noncomputable def momentaAmplitude (amps : List AmpNew) (h : Nat → ℝ) (V : Fin 4 → LV ℝ) : ℂ :=
  (amps.map fun a : AmpNew => (⟨h a.ar, h a.ai⟩ : ℂ) *
    amplitudeC a.nPerm (a.ls.map fun c => (lineShapeOf c h V).getD 0) (a.sf.map fun s => (spinFactorOf s V).getD 0)).sum

/-- The rate of a decay into these momenta at time `t`, with mixing. -/
noncomputable def momentaRate (v : MixVars) (ampsA ampsB : List AmpNew) (h : Nat → ℝ) (V : Fin 4 → LV ℝ) (t : ℝ) : ℝ :=
  decayRate ((h v.rate : ℂ) * momentaAmplitude ampsA h V) (momentaAmplitude ampsB h V) (h v.tau) (h v.x) (h v.y) t

/-- The generated events are decays of the particle, and no two momenta of a pair are along one line. -/
def GoodEvents (d : Decay4) (l : List Gen4) : Prop :=
  ∀ g ∈ l, IsDecay d.M d.m1 d.m2 d.m3 d.m4 (g.p1, g.p2, g.p3, g.p4) ∧ TwoPlanes (g.p1, g.p2, g.p3, g.p4)

/-- An event is accepted if its uniform number times the bound `W` of the weights is below its weight. -/
noncomputable def acceptBelow (W : ℝ) (evs : List Gen4) (u : Fin evs.length → ℝ) : PhspRun :=
  ⟨evs, List.ofFn fun k : Fin evs.length => decide (u k * W < evs[k].w)⟩

end GooFit.Spec
