import Verif.Model.Wrapped3
import Verif.Spec.Mix3
import Verif.Spec.TimeDalitz3
/-!
# Specification for C106: the likelihood of sums and products around a three-body decay
-/
set_option autoImplicit false
namespace GooFit.Spec

/-- The density of a component without an amplitude. -/
noncomputable def partDensity {A : Type} (h : Nat → ℝ) (row : WRow A) (o : WPart A) : ℝ :=
  o.raw (o.params.map h) row * o.norm (o.params.map h)

/-- The density of the whole, `p` being that of the decay: the densities of the components of a sum with their shares, which are the
same for all events or are written in the event, and the product of the densities of the components of a product. -/
noncomputable def composed {A : Type} (h : Nat → ℝ) (p : A → ℝ) (row : WRow A) : Wrap A → ℝ
  | .amp => p row.1
  | .add pre inner post ws =>
    (List.zipWith (· * ·) (shares (pre.length + 1 + post.length) (ws.map h))
      (pre.map (partDensity h row) ++ [composed h p row inner] ++ post.map (partDensity h row))).sum
  | .evt pre inner post columns =>
    (List.zipWith (· * ·) (shares (pre.length + 1 + post.length) (columns.map row.2))
      (pre.map (partDensity h row) ++ [composed h p row inner] ++ post.map (partDensity h row))).sum
  | .prod pre inner post => (pre.map (partDensity h row)).prod * composed h p row inner * (post.map (partDensity h row)).prod

/-- The sums of yields are not zero: in every extended sum, in every event if they are written there. -/
def YieldsOK {A : Type} (h : Nat → ℝ) (rows : List (WRow A)) : Wrap A → Prop
  | .amp => True
  | .add pre inner post ws => (ws.length = pre.length + 1 + post.length → (ws.map h).sum ≠ 0) ∧ YieldsOK h rows inner
  | .evt pre inner post columns =>
    (columns.length = pre.length + 1 + post.length → ∀ row ∈ rows, (columns.map row.2).sum ≠ 0) ∧ YieldsOK h rows inner
  | .prod _ inner _ => YieldsOK h rows inner

/-- The weights of every sum with weights in the events are different observables. -/
def DistinctWeights {A : Type} : Wrap A → Prop
  | .amp => True
  | .add _ inner _ _ => DistinctWeights inner
  | .evt _ inner _ columns => columns.Nodup ∧ DistinctWeights inner
  | .prod _ inner _ => DistinctWeights inner

/-- Minus the logarithm of the likelihood of the events: those in which the density is not positive do not count. -/
noncomputable def nllRows {A : Type} (q : WRow A → ℝ) (rows : List (WRow A)) : ℝ :=
  ((rows.filter fun r => decide (0 < q r)).map fun r => -Real.log (q r)).sum

/-- The term of the total yield, when the whole is a sum with a yield for every component. -/
noncomputable def wYieldTerm {A : Type} (h : Nat → ℝ) (events : Nat) : Wrap A → ℝ
  | .add pre _ post ws => yieldTerm (pre.length + 1 + post.length) (ws.map h) events
  | _ => 0

/-- How a user gives data to the whole and their number and the length `n` of a row to the amplitude in it, in either order. -/
inductive GivesRows {A : Type} (rows : List (WRow A)) (n : Nat) : List (WrapOp A) → Prop
  | dataFirst : GivesRows rows n [.setData rows, .setDataSize rows.length n]
  | sizeFirst : GivesRows rows n [.setDataSize rows.length n, .setData rows]

end GooFit.Spec
