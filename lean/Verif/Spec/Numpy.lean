import Verif.Spec.DataSet
/-! Specification for C85: a table has one row per observable and one column per event. -/
set_option autoImplicit false
namespace GooFit.Spec
open GooFit

/-- A table with `n` columns. -/
def Table {F : Type} (arr : List (List F)) (n : Nat) : Prop := ∀ r ∈ arr, r.length = n

/-- What the observables are when column `j` of a table has been read: observable `i` has the value in row
`i`, observables without a row are as before. -/
def ReadColumn {F : Type} (obs : List Nat) (arr : List (List F)) (j : Nat) (s t : Store F) : Prop :=
  (∀ (i o : Nat) (r : List F) (x : F), obs[i]? = some o → arr[i]? = some r → r[j]? = some x →
    t o = { s o with value := x }) ∧
  (∀ (i o : Nat), obs[i]? = some o → arr.length ≤ i → t o = s o) ∧
  ∀ o, o ∉ obs → t o = s o

end GooFit.Spec
