import Mathlib.Algebra.Field.Basic
import Mathlib.Data.Fin.Basic
/-!
# The closed-form inverse of a 5×5 matrix (`include/goofit/detail/compute_inverse5.h`)

The only specialisation is for matrices whose entries (0,2) and (1,2) are zero.  All 25 entries of the result are assigned by
the same text (`:40-1187`); it is written once here.  Exact arithmetic of a field.
-/
set_option autoImplicit false
namespace GooFit
variable {C : Type} [Field C]

/-- The numerator of `O(0, 0)` (`include/goofit/detail/compute_inverse5.h:40-48`), and of every other entry. -/
def inv5Num (M : Fin 5 → Fin 5 → C) : C :=
  M 1 1 * M 2 2 * M 3 3 * M 4 4 - M 1 1 * M 2 2 * M 3 4 * M 4 3 - M 1 1 * M 2 3 * M 3 2 * M 4 4
    + M 1 1 * M 2 3 * M 3 4 * M 4 2 + M 1 1 * M 2 4 * M 3 2 * M 4 3 - M 1 1 * M 2 4 * M 3 3 * M 4 2
    + M 1 3 * M 2 1 * M 3 2 * M 4 4 - M 1 3 * M 2 1 * M 3 4 * M 4 2 - M 1 3 * M 2 2 * M 3 1 * M 4 4
    + M 1 3 * M 2 2 * M 3 4 * M 4 1 + M 1 3 * M 2 4 * M 3 1 * M 4 2 - M 1 3 * M 2 4 * M 3 2 * M 4 1
    - M 1 4 * M 2 1 * M 3 2 * M 4 3 + M 1 4 * M 2 1 * M 3 3 * M 4 2 + M 1 4 * M 2 2 * M 3 1 * M 4 3
    - M 1 4 * M 2 2 * M 3 3 * M 4 1 - M 1 4 * M 2 3 * M 3 1 * M 4 2 + M 1 4 * M 2 3 * M 3 2 * M 4 1

/-- The denominator of `O(0, 0)` (`include/goofit/detail/compute_inverse5.h:49-84`), and of every other entry. -/
def inv5Den (M : Fin 5 → Fin 5 → C) : C :=
  M 0 0 * M 1 1 * M 2 2 * M 3 3 * M 4 4 - M 0 0 * M 1 1 * M 2 2 * M 3 4 * M 4 3 - M 0 0 * M 1 1 * M 2 3 * M 3 2 * M 4 4
    + M 0 0 * M 1 1 * M 2 3 * M 3 4 * M 4 2 + M 0 0 * M 1 1 * M 2 4 * M 3 2 * M 4 3 - M 0 0 * M 1 1 * M 2 4 * M 3 3 * M 4 2
    + M 0 0 * M 1 3 * M 2 1 * M 3 2 * M 4 4 - M 0 0 * M 1 3 * M 2 1 * M 3 4 * M 4 2 - M 0 0 * M 1 3 * M 2 2 * M 3 1 * M 4 4
    + M 0 0 * M 1 3 * M 2 2 * M 3 4 * M 4 1 + M 0 0 * M 1 3 * M 2 4 * M 3 1 * M 4 2 - M 0 0 * M 1 3 * M 2 4 * M 3 2 * M 4 1
    - M 0 0 * M 1 4 * M 2 1 * M 3 2 * M 4 3 + M 0 0 * M 1 4 * M 2 1 * M 3 3 * M 4 2 + M 0 0 * M 1 4 * M 2 2 * M 3 1 * M 4 3
    - M 0 0 * M 1 4 * M 2 2 * M 3 3 * M 4 1 - M 0 0 * M 1 4 * M 2 3 * M 3 1 * M 4 2 + M 0 0 * M 1 4 * M 2 3 * M 3 2 * M 4 1
    - M 0 1 * M 1 0 * M 2 2 * M 3 3 * M 4 4 + M 0 1 * M 1 0 * M 2 2 * M 3 4 * M 4 3 + M 0 1 * M 1 0 * M 2 3 * M 3 2 * M 4 4
    - M 0 1 * M 1 0 * M 2 3 * M 3 4 * M 4 2 - M 0 1 * M 1 0 * M 2 4 * M 3 2 * M 4 3 + M 0 1 * M 1 0 * M 2 4 * M 3 3 * M 4 2
    - M 0 1 * M 1 3 * M 2 0 * M 3 2 * M 4 4 + M 0 1 * M 1 3 * M 2 0 * M 3 4 * M 4 2 + M 0 1 * M 1 3 * M 2 2 * M 3 0 * M 4 4
    - M 0 1 * M 1 3 * M 2 2 * M 3 4 * M 4 0 - M 0 1 * M 1 3 * M 2 4 * M 3 0 * M 4 2 + M 0 1 * M 1 3 * M 2 4 * M 3 2 * M 4 0
    + M 0 1 * M 1 4 * M 2 0 * M 3 2 * M 4 3 - M 0 1 * M 1 4 * M 2 0 * M 3 3 * M 4 2 - M 0 1 * M 1 4 * M 2 2 * M 3 0 * M 4 3
    + M 0 1 * M 1 4 * M 2 2 * M 3 3 * M 4 0 + M 0 1 * M 1 4 * M 2 3 * M 3 0 * M 4 2 - M 0 1 * M 1 4 * M 2 3 * M 3 2 * M 4 0
    - M 0 3 * M 1 0 * M 2 1 * M 3 2 * M 4 4 + M 0 3 * M 1 0 * M 2 1 * M 3 4 * M 4 2 + M 0 3 * M 1 0 * M 2 2 * M 3 1 * M 4 4
    - M 0 3 * M 1 0 * M 2 2 * M 3 4 * M 4 1 - M 0 3 * M 1 0 * M 2 4 * M 3 1 * M 4 2 + M 0 3 * M 1 0 * M 2 4 * M 3 2 * M 4 1
    + M 0 3 * M 1 1 * M 2 0 * M 3 2 * M 4 4 - M 0 3 * M 1 1 * M 2 0 * M 3 4 * M 4 2 - M 0 3 * M 1 1 * M 2 2 * M 3 0 * M 4 4
    + M 0 3 * M 1 1 * M 2 2 * M 3 4 * M 4 0 + M 0 3 * M 1 1 * M 2 4 * M 3 0 * M 4 2 - M 0 3 * M 1 1 * M 2 4 * M 3 2 * M 4 0
    + M 0 3 * M 1 4 * M 2 0 * M 3 1 * M 4 2 - M 0 3 * M 1 4 * M 2 0 * M 3 2 * M 4 1 - M 0 3 * M 1 4 * M 2 1 * M 3 0 * M 4 2
    + M 0 3 * M 1 4 * M 2 1 * M 3 2 * M 4 0 + M 0 3 * M 1 4 * M 2 2 * M 3 0 * M 4 1 - M 0 3 * M 1 4 * M 2 2 * M 3 1 * M 4 0
    + M 0 4 * M 1 0 * M 2 1 * M 3 2 * M 4 3 - M 0 4 * M 1 0 * M 2 1 * M 3 3 * M 4 2 - M 0 4 * M 1 0 * M 2 2 * M 3 1 * M 4 3
    + M 0 4 * M 1 0 * M 2 2 * M 3 3 * M 4 1 + M 0 4 * M 1 0 * M 2 3 * M 3 1 * M 4 2 - M 0 4 * M 1 0 * M 2 3 * M 3 2 * M 4 1
    - M 0 4 * M 1 1 * M 2 0 * M 3 2 * M 4 3 + M 0 4 * M 1 1 * M 2 0 * M 3 3 * M 4 2 + M 0 4 * M 1 1 * M 2 2 * M 3 0 * M 4 3
    - M 0 4 * M 1 1 * M 2 2 * M 3 3 * M 4 0 - M 0 4 * M 1 1 * M 2 3 * M 3 0 * M 4 2 + M 0 4 * M 1 1 * M 2 3 * M 3 2 * M 4 0
    - M 0 4 * M 1 3 * M 2 0 * M 3 1 * M 4 2 + M 0 4 * M 1 3 * M 2 0 * M 3 2 * M 4 1 + M 0 4 * M 1 3 * M 2 1 * M 3 0 * M 4 2
    - M 0 4 * M 1 3 * M 2 1 * M 3 2 * M 4 0 - M 0 4 * M 1 3 * M 2 2 * M 3 0 * M 4 1 + M 0 4 * M 1 3 * M 2 2 * M 3 1 * M 4 0

/-- `compute_inverse5` (`include/goofit/detail/compute_inverse5.h:33-1190`); `none` when the denominator is zero. -/
def computeInverse5 [DecidableEq C] (M : Fin 5 → Fin 5 → C) : Option (Fin 5 → Fin 5 → C) :=
  if inv5Den M = 0 then none else some fun _ _ => inv5Num M / inv5Den M

end GooFit
