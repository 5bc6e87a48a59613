import Verif.Model.Globals

/-!
# Several amplitude PDFs in one program: what to expect
-/

set_option autoImplicit false

namespace GooFit.Spec

variable {F : Type}

/-- How many PDFs of a class a history constructs. -/
def constructed (k : AmpKind) : List (AmpOp F) → Nat
  | [] => 0
  | .construct k' _ _ :: ops => (if k' = k then 1 else 0) + constructed k ops
  | _ :: ops => constructed k ops

/-- Nobody resets the numbering. -/
def NoReset (ops : List (AmpOp F)) : Prop := ∀ op ∈ ops, ∀ td, op ≠ .reset td

/-- The history never gives data to `p`. -/
def NoDataFor (p : Nat) (ops : List (AmpOp F)) : Prop := ∀ op ∈ ops, op ≠ .setDataSize p

/-- A PDF whose constants are those of `d`. -/
def SameDecay (d : DecayConsts F) : AmpOp F → Prop
  | .construct .amp3 d' _ => d' = d
  | .construct .amp3TD d' _ => d' = d
  | .construct .amp3IS d' _ => d'.mother = d.mother ∧ d'.daug1 = d.daug1 ∧ d'.daug2 = d.daug2 ∧ d'.daug3 = d.daug3 ∧ d'.radius = d.radius
  | .construct .amp4 d' _ => d'.radius = d.radius
  | _ => True

/-- No four-body PDF is constructed. -/
def NoFourBody (ops : List (AmpOp F)) : Prop := ∀ op ∈ ops, ∀ k d l, op = .construct k d l → k ≠ .amp4 ∧ k ≠ .amp4TD

end GooFit.Spec
