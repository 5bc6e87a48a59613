import Verif.Model.Mix3
import Verif.Spec.Fit3
/-!
# Specification for C104: the likelihood of a sum of a three-body decay and backgrounds
-/
set_option autoImplicit false
namespace GooFit.Spec

/-- The shares of `n` components: yields divided by their sum, or given fractions and the rest for the last component. -/
noncomputable def shares (n : Nat) (ws : List ℝ) : List ℝ := if ws.length = n then ws.map (· / ws.sum) else ws ++ [1 - ws.sum]

/-- The sum of functions with shares. -/
noncomputable def mixed (fs : List ℝ) (ps : List (ℝ → ℝ → ℝ)) (x y : ℝ) : ℝ := (List.zipWith (fun f p => f * p x y) fs ps).sum

/-- The integral over a grid. -/
noncomputable def overGrid (g : NormRange ℝ) (p : ℝ → ℝ → ℝ) : ℝ := gridIntegral2 p g.lo12 g.hi12 g.nb12 g.lo13 g.hi13 g.nb13

/-- A function divided by its integral over a grid. -/
noncomputable def normalized (g : NormRange ℝ) (p : ℝ → ℝ → ℝ) (x y : ℝ) : ℝ := p x y / overGrid g p

/-- The functions that are added: the described density of the decay, and those of the other components. -/
noncomputable def summands (d : DalitzCtx) (rs : List (ResUse ResNew)) (eff : (Nat → ℝ) → ℝ → ℝ → ℝ) (pre post : List Other3)
    (h : Nat → ℝ) : List (ℝ → ℝ → ℝ) :=
  pre.map (fun o => o.raw (o.params.map h)) ++ [density3 d rs eff h] ++ post.map (fun o => o.raw (o.params.map h))

/-- The density of the sum: the normalised functions with their shares, or with a common normalisation the functions with their
shares, normalised together. -/
noncomputable def sumDensity (g : NormRange ℝ) (common : Bool) (ws : List ℝ) (ps : List (ℝ → ℝ → ℝ)) : ℝ → ℝ → ℝ :=
  if common then normalized g (mixed (shares ps.length ws) ps) else mixed (shares ps.length ws) (ps.map (normalized g))

/-- The integrals and the sum of yields by which the density is divided are positive. -/
def Normalizable (g : NormRange ℝ) (ws : List ℝ) (ps : List (ℝ → ℝ → ℝ)) : Prop :=
  (∀ q ∈ ps, 0 < overGrid g q) ∧ (ws.length = ps.length → 0 < ws.sum) ∧ 0 < overGrid g (mixed (shares ps.length ws) ps)

/-- Minus the logarithm of the likelihood of the events: those in which the density is not positive do not count. -/
noncomputable def nllSum (p : ℝ → ℝ → ℝ) (data : List Ev3) : ℝ :=
  ((data.filter fun ev => decide (0 < p ev.m12 ev.m13)).map fun ev => -Real.log (p ev.m12 ev.m13)).sum

/-- The term of the total yield in an extended fit: there are as many weights as components. -/
noncomputable def yieldTerm (n : Nat) (ws : List ℝ) (events : Nat) : ℝ :=
  if ws.length = n then ws.sum - events * Real.log ws.sum else 0

/-- The component normalises itself to its integral over the grid. -/
def NormalizesItself (g : NormRange ℝ) (h : Nat → ℝ) (o : Other3) : Prop :=
  o.ret (o.params.map h) = overGrid g (o.raw (o.params.map h)) ∧ o.norm (o.params.map h) = 1 / overGrid g (o.raw (o.params.map h))

/-- How a user gives data to a sum and their number to the amplitude in it, in either order. -/
inductive GivesSum (data : List Ev3) : List Mix3Op → Prop
  | dataFirst : GivesSum data [.setData data, .amp (.setDataSize data.length)]
  | sizeFirst : GivesSum data [.amp (.setDataSize data.length), .setData data]

end GooFit.Spec
