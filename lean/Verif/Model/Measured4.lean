import Mathlib.Data.Matrix.Basic
import Verif.Model.NormEvents4
import Verif.Model.Grid
import Mathlib.Algebra.Order.Floor.Ring
/-!
# Measured momenta of four-body decays: `to_5param` and the events the PDF gets
-/
set_option autoImplicit false
namespace GooFit

/-- The particles which the first loop of `to_5param` fills (`include/goofit/PDFs/physics/detail/UserUtils.h:12-22`): particle `i` is
set from column `i`, with `Vector4R::set(E, px, py, pz)` of mcbooster.  `e x y z` are the rows that are read. -/
def particles16 {n : Nat} (mat : Matrix (Fin 16) (Fin n) ℝ) (e x y z : Fin 16) : List (LV ℝ) :=
  List.ofFn fun i => ⟨mat x i, mat y i, mat z i, mat e i⟩

/-- `to_5param` (`include/goofit/PDFs/physics/detail/UserUtils.h:11-58`).  The four lists of particles are handed to
`EvaluateArray<Dim5>` as one list (the phase-space weight is not used), and the copies to the device and back are left out. -/
noncomputable def to5param {n : Nat} (mat : Matrix (Fin 16) (Fin n) ℝ) : Matrix (Fin 5) (Fin n) ℝ :=
  let p0 := particles16 mat 3 0 1 2
  let p1 := particles16 mat 7 4 5 6
  let p2 := particles16 mat 11 8 9 10
  let p3 := particles16 mat 15 12 13 14
  let particles : List Gen4 := (((p0.zip p1).zip p2).zip p3).map fun q => ⟨q.1.1.1, q.1.1.2, q.1.2, q.2, 0⟩
  let vars := evaluateArray5 n particles
  fun j i =>
    let v := vars.getD i ⟨0, 0, 0, 0, 0⟩
    match j with
    | 0 => v.m12
    | 1 => v.m34
    | 2 => v.cos12
    | 3 => v.cos34
    | 4 => v.phi

/-- An Eigen matrix as `from_matrix` walks through it: column by column (`include/goofit/UnbinnedDataSet.h:48-69`). -/
def matrixColumns {r n : Nat} (m : Matrix (Fin r) (Fin n) ℝ) : List (List ℝ) :=
  List.ofFn fun i => List.ofFn fun j => m j i

/-- The observables of a four-body PDF: the five variables and the event number (`src/PDFs/physics/Amp4Body.cu:98-102`). -/
structure Obs4 where
  m12 : Nat
  m34 : Nat
  cos12 : Nat
  cos34 : Nat
  phi : Nat
  number : Nat

/-- As a list. -/
def Obs4.list (o : Obs4) : List Nat := [o.m12, o.m34, o.cos12, o.cos34, o.phi] ++ [o.number]

/-- The events of a dataset as a four-body PDF gets them, with their numbers (`src/PDFs/PdfBase.cu:397-403`). -/
noncomputable def readUDS4 (o : Obs4) (d : UDS ℝ) : Option (List (Ev4 × ℝ)) :=
  (List.range d.num).mapM fun k =>
    match d.getValue o.m12 k, d.getValue o.m34 k, d.getValue o.cos12 k, d.getValue o.cos34 k, d.getValue o.phi k,
      d.getValue o.number k with
    | .val a, .val b, .val c, .val e, .val f, .val n => some (⟨a, b, c, e, f⟩, n)
    | _, _, _, _, _, _ => none

/-- The row of the cached amplitudes which is read for an event with this number (`src/PDFs/physics/Amp4Body.cu:57-59`). -/
noncomputable def cacheRow (number : ℝ) : Int := ⌊1 / 2 + number⌋

end GooFit
