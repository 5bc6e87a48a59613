import Mathlib.Algebra.Order.Field.Basic
import Mathlib.Algebra.BigOperators.Group.List.Basic
import Mathlib.Tactic.Ring
/-!
# Complex numbers (`fpcomplex`, `include/goofit/detail/Complex.h`: `thrust::complex<fptype>`)

Pairs over a field, with the schoolbook operations of `thrust::complex` (Thrust's code for products that are not
a number, and for overflow, is not modelled).
-/
set_option autoImplicit false
namespace GooFit

/-- `thrust::complex<fptype>` (`include/goofit/detail/Complex.h:8`). -/
@[ext] structure Cx (K : Type) where
  re : K
  im : K
deriving DecidableEq

namespace Cx
variable {K : Type} [CommRing K]

instance : Zero (Cx K) := ⟨⟨0, 0⟩⟩
instance : One (Cx K) := ⟨⟨1, 0⟩⟩
instance : Add (Cx K) := ⟨fun a b => ⟨a.re + b.re, a.im + b.im⟩⟩
instance : Neg (Cx K) := ⟨fun a => ⟨-a.re, -a.im⟩⟩
instance : Sub (Cx K) := ⟨fun a b => ⟨a.re - b.re, a.im - b.im⟩⟩
instance : Mul (Cx K) := ⟨fun a b => ⟨a.re * b.re - a.im * b.im, a.re * b.im + a.im * b.re⟩⟩

/-- `thrust::conj` (library function). -/
def conj (a : Cx K) : Cx K := ⟨a.re, -a.im⟩
/-- `thrust::norm`: the square of the absolute value (library function). -/
def norm (a : Cx K) : K := a.re * a.re + a.im * a.im
/-- A real number as a complex one (conversion of the library). -/
def ofReal (x : K) : Cx K := ⟨x, 0⟩

@[simp] theorem zero_re : (0 : Cx K).re = 0 := rfl
@[simp] theorem zero_im : (0 : Cx K).im = 0 := rfl
@[simp] theorem one_re : (1 : Cx K).re = 1 := rfl
@[simp] theorem one_im : (1 : Cx K).im = 0 := rfl
@[simp] theorem add_re (a b : Cx K) : (a + b).re = a.re + b.re := rfl
@[simp] theorem add_im (a b : Cx K) : (a + b).im = a.im + b.im := rfl
@[simp] theorem neg_re (a : Cx K) : (-a).re = -a.re := rfl
@[simp] theorem neg_im (a : Cx K) : (-a).im = -a.im := rfl
@[simp] theorem sub_re (a b : Cx K) : (a - b).re = a.re - b.re := rfl
@[simp] theorem sub_im (a b : Cx K) : (a - b).im = a.im - b.im := rfl
@[simp] theorem mul_re (a b : Cx K) : (a * b).re = a.re * b.re - a.im * b.im := rfl
@[simp] theorem mul_im (a b : Cx K) : (a * b).im = a.re * b.im + a.im * b.re := rfl
@[simp] theorem conj_re (a : Cx K) : a.conj.re = a.re := rfl
@[simp] theorem conj_im (a : Cx K) : a.conj.im = -a.im := rfl
@[simp] theorem ofReal_re (x : K) : (ofReal x).re = x := rfl
@[simp] theorem ofReal_im (x : K) : (ofReal x).im = 0 := rfl

instance : CommRing (Cx K) where
  add_assoc a b c := by ext <;> simp [add_assoc]
  zero_add a := by ext <;> simp
  add_zero a := by ext <;> simp
  add_comm a b := by ext <;> simp [add_comm]
  mul_assoc a b c := by ext <;> simp <;> ring
  one_mul a := by ext <;> simp
  mul_one a := by ext <;> simp
  left_distrib a b c := by ext <;> simp <;> ring
  right_distrib a b c := by ext <;> simp <;> ring
  mul_comm a b := by ext <;> simp <;> ring
  zero_mul a := by ext <;> simp
  mul_zero a := by ext <;> simp
  neg_add_cancel a := by ext <;> simp
  sub_eq_add_neg a b := by ext <;> simp [sub_eq_add_neg]
  nsmul := nsmulRec
  zsmul := zsmulRec

end Cx
end GooFit
