import Verif.Model.Fit
/-!
# Distribution of the events over MPI ranks

Models the `GOOFIT_MPI` parts of `setData` (`src/PDFs/PdfBase.cu:358-380, 384-395, 405-432,
447-468, 472-483, 496-521`) and of the event sum (`src/PDFs/GooPdf.cu:54-75`).  Simplification:
`int` arithmetic does not overflow, and the division `numEvents / numProcs` of an integral `double`
by an `int`, truncated, is the integer division.
-/
set_option autoImplicit false
namespace GooFit

/-- `counts` (`src/PDFs/PdfBase.cu:364-373, 453-462`): `perTask = numEvents / numProcs` for all ranks
but the last, which gets the rest. -/
def mpiCounts (numEvents numEntries numProcs : Nat) : List Nat :=
  List.replicate (numProcs - 1) (numEvents / numProcs) ++
    [numEntries - numEvents / numProcs * (numProcs - 1)]

/-- `displacements` (`src/PDFs/PdfBase.cu:375-378, 464-467`). -/
def mpiDisplacements (start : Nat) : List Nat → List Nat
  | [] => []
  | c :: cs => start :: mpiDisplacements (start + c) cs

/-- A rank's `dev_event_array` (`src/PDFs/PdfBase.cu:417-425, 507-515`): `mycount` events of the host
array from `mystart` on. -/
def rankArray {α : Type} (dim : Nat) (host : List α) (start count : Nat) : List α :=
  (host.drop (start * dim)).take (dim * count)

/-- All ranks' arrays (`src/PDFs/PdfBase.cu:352-530`). -/
def rankArrays {α : Type} (dim : Nat) (host : List α) (counts : List Nat) : List (List α) :=
  ((mpiDisplacements 0 counts).zip counts).map fun p => rankArray dim host p.1 p.2

/-- `float(j)` converted back to `fptype`: rounding to 24 significant bits, ties to even (IEEE 754
binary32; `src/PDFs/PdfBase.cu:412,502`). -/
def toFloat32 (j : Nat) : Nat :=
  let e := Nat.log2 j - 23
  let q := j / 2 ^ e
  let r := j % 2 ^ e
  if 2 * r < 2 ^ e then q * 2 ^ e
  else if 2 * r > 2 ^ e then (q + 1) * 2 ^ e
  else (if q % 2 = 0 then q else q + 1) * 2 ^ e

/-- The inner loop of the re-indexing, over observables (`src/PDFs/PdfBase.cu:410-413`): for each
position `k` flagged as an event number, overwrite it. -/
def reindexEvent {α : Type} (num : Nat → α) (base j : Nat) : Nat → List Bool → List α → List α
  | _, [], arr => arr
  | k, f :: fs, arr =>
    reindexEvent num base j (k + 1) fs (if f then arr.set (base + k) (num j) else arr)

/-- The loop over a rank's events (`src/PDFs/PdfBase.cu:409-414`). -/
def reindexRank {α : Type} (num : Nat → α) (fixme : List Bool) (start : Nat) :
    Nat → List α → List α
  | 0, arr => arr
  | j + 1, arr =>
    reindexEvent num ((j + start) * fixme.length) j 0 fixme (reindexRank num fixme start j arr)

/-- The loop over ranks `i ≥ 1` (`src/PDFs/PdfBase.cu:408`), given their `(displacement, count)`. -/
def reindexRanks {α : Type} (num : Nat → α) (fixme : List Bool) :
    List (Nat × Nat) → List α → List α
  | [], arr => arr
  | (start, count) :: rest, arr =>
    reindexRanks num fixme rest (reindexRank num fixme start count arr)

/-- The re-indexing of an unbinned dataset (`src/PDFs/PdfBase.cu:407-415`).  `fixme k` says whether
the `k`-th observable is an event number. -/
def reindex {α : Type} (num : Nat → α) (fixme : List Bool) (counts : List Nat) (arr : List α) :
    List α :=
  reindexRanks num fixme (((mpiDisplacements 0 counts).zip counts).tail) arr

/-- Number of iterations of `for(int j = 0; j < counts[j]; j++)`, the re-indexing loop of binned data
(`src/PDFs/PdfBase.cu:499`); `none` when it reads past the end of `counts`. -/
def binnedLoop (counts : List Nat) : Nat → Nat → Option Nat
  | 0, _ => none
  | fuel + 1, j =>
    match counts[j]? with
    | none => none
    | some c => if j < c then binnedLoop counts fuel (j + 1) else some j

/-! ### Parallel reduction -/

/-- A schedule of the sum: any binary tree of additions over the items and any number of copies of the
start value (`thrust::transform_reduce` with `start = 0`, `src/PDFs/GooPdf.cu:65-70`, and the
`MPI_SUM` over ranks, 72-75). -/
inductive Reduction (K : Type) where
  | start
  | item (x : K)
  | plus (l r : Reduction K)

/-- The number the schedule produces (no counterpart in the code). -/
def Reduction.result {K : Type} [Add K] [Zero K] : Reduction K → K
  | .start => 0
  | .item x => x
  | .plus l r => l.result + r.result

/-- The items in the order they are met (no counterpart in the code). -/
def Reduction.items {K : Type} : Reduction K → List K
  | .start => []
  | .item x => [x]
  | .plus l r => l.items ++ r.items

end GooFit
