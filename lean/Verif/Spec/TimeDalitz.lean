import Verif.Spec.Mixing
import Verif.Model.TimeDalitz

/-!
# Time-dependent Dalitz plot: what an analyst expects
-/

set_option autoImplicit false

namespace GooFit.Spec

/-- The decay amplitude at a point: the sum of coefficients times resonances. -/
noncomputable def decayAmplitude (rs : List TdTerm) (m12 m13 : ℝ) : ℂ := (rs.map fun r => r.1 * r.2 m12 m13).sum

/-- Rate of an event whose flavour is tagged wrongly with probability `w`: with a wrong tag the roles of the two
flavours are exchanged. -/
noncomputable def taggedRate (A B : ℂ) (τ x y w t : ℝ) : ℝ := (1 - w) * decayRate A B τ x y t + w * decayRate B A τ x y t

/-- A history of a PDF reports changes truthfully: whenever the integrals are used, every resonance that is another
function than at the last use is marked as changed. -/
def TdHonest {P : Type} (m : TdModel P) : Option P → List (TdModel.Op P) → Prop
  | _, [] => True
  | q, .setForce :: ops => TdHonest m q ops
  | q, .normalize c p :: ops =>
    (∀ q', q = some q' → ∀ i, i < m.n → c i = false → m.resonance p i = m.resonance q' i) ∧ TdHonest m (some p) ops
  | q, .getFractions c p :: ops =>
    (∀ q', q = some q' → ∀ i, i < m.n → c i = false → m.resonance p i = m.resonance q' i) ∧ TdHonest m (some p) ops

/-- The sum over the grid of a function of the point, where the efficiency and the boundary of phase space are taken
into account. -/
noncomputable def gridSum {P : Type} (m : TdModel P) (f : ℝ → ℝ → ℂ) : ℂ :=
  ∑ g ∈ Finset.range (m.range.nb12 * m.range.nb13),
    if m.inside (m.range.point g).1 (m.range.point g).2 then
      (m.eff (m.range.point g).1 (m.range.point g).2 : ℂ) * f (m.range.point g).1 (m.range.point g).2
    else 0

/-- The decay amplitude of a model with coefficients `c`, at parameters `p`. -/
noncomputable def tdAmplitude {P : Type} (m : TdModel P) (c : Nat → ℂ) (p : P) (m12 m13 : ℝ) : ℂ :=
  ∑ i ∈ Finset.range m.n, c i * m.resonance p i m12 m13

/-- Centre of bin `i` of `n` equal bins between two limits. -/
noncomputable def equalBinCentre (lo hi : ℝ) (n i : Nat) : ℝ := lo + (hi - lo) / n * (i + 1 / 2)

end GooFit.Spec
