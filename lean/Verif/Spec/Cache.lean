import Verif.Model.Tree
/-!
# Specification for C30: a cache is fresh
-/
set_option autoImplicit false
namespace GooFit.Spec
variable {F : Type}

/-- What is stored equals what would be computed now. -/
def Fresh {C W D : Type} (compute : C → (Nat → F) → D → W) (stored : C → W) (values : Nat → F) (d : D) (c : C) : Prop :=
  stored c = compute c values d

/-- The quantity depends on the values of these variables only. -/
def DependsOn {W D : Type} (compute : (Nat → F) → D → W) (vars : List Nat) : Prop :=
  ∀ v v' d, (∀ i ∈ vars, v i = v' i) → compute v d = compute v' d

end GooFit.Spec
