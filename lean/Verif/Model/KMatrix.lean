import Mathlib.Analysis.SpecialFunctions.Pow.Real
import Mathlib.Data.Complex.Basic

/-!
# The K-matrix amplitude

Models `src/PDFs/physics/kMatrixUtils.cu` (all of it),
`include/goofit/PDFs/physics/kMatrixUtils.h:25-48` (`determinant<N>`) and the two
amplitudes built on it, `src/PDFs/physics/lineshapes/kMatrix.cu:18-113` and
`src/PDFs/physics/resonances/kMatrix.cu:19-116`.

Conventions.
* A C array `fpcomplex X[N][N]` is a total function of two indices; the
  dimension `n` (`NCHANNELS`, 5 in the code) is a parameter, so every theorem is
  about matrices of every size.
* An assignment `X[i][j] = v` is `upd2 X i j v`; loops are folds over the
  iteration range, in the order of the code.
* Numbers: the linear algebra is over an arbitrary field `C`, the amplitude over
  ℝ and ℂ.  Rounding is not modelled.
* A division by zero gives infinities or NaNs in C++.  The inverses therefore
  return `none` when one of the divisors they use is zero.
-/

set_option autoImplicit false

namespace GooFit

/-- A C array of numbers with two indices (`include/goofit/PDFs/physics/kMatrixUtils.h:13`). -/
abbrev Arr2 (C : Type) := Nat → Nat → C

section Field
variable {C : Type}

/-- The array `{0}` (kMatrixUtils.cu:134-136). -/
def zero2 [Zero C] : Arr2 C := fun _ _ => 0

/-- `X[i][j] = v` (C++ assignment). -/
def upd2 (X : Arr2 C) (i j : Nat) (v : C) : Arr2 C :=
  fun i' j' => if i' = i ∧ j' = j then v else X i' j'

variable [Field C]

/-- `sum = 0; for(j = 0; j < n; j++) sum += f(j)`
(kMatrixUtils.cu:113-115, 124-126). -/
def sumTo (n : Nat) (f : Nat → C) : C :=
  (List.range n).foldl (fun s j => s + f j) 0

/-- `sum = 0; for(i = 0; i < n; i++) if(i != row) sum += f(i)`
(kMatrixUtils.cu:142-147, 156-161). -/
def sumOff (n row : Nat) (f : Nat → C) : C :=
  (List.range n).foldl (fun s i => if i ≠ row then s + f i else s) 0

/-- The loop "Upper triangular matrix" of round `i`, kMatrixUtils.cu:112-117. -/
def luU (A L : Arr2 C) (n i : Nat) (U : Arr2 C) : Arr2 C :=
  (List.range' i (n - i)).foldl
    (fun U k => upd2 U i k (A i k - sumTo i (fun j => L i j * U j k))) U

/-- The loop "Lower triangular" of round `i`, kMatrixUtils.cu:120-129. -/
def luL (A U : Arr2 C) (n i : Nat) (L : Arr2 C) : Arr2 C :=
  (List.range' i (n - i)).foldl
    (fun L k =>
      if i = k then upd2 L i i 1
      else upd2 L k i ((A k i - sumTo i (fun j => L k j * U j i)) / U i i)) L

/-- One round `i` of `luDecomposition`, kMatrixUtils.cu:110-130; the state is
`(U, L)`. -/
def luRound (A : Arr2 C) (n : Nat) (UL : Arr2 C × Arr2 C) (i : Nat) : Arr2 C × Arr2 C :=
  let U := luU A UL.2 n i UL.1
  (U, luL A U n i UL.2)

/-- `luDecomposition`, kMatrixUtils.cu:107-131, started from the zero matrices
of `luInverse` (kMatrixUtils.cu:134-135). -/
def luDecomposition (A : Arr2 C) (n : Nat) : Arr2 C × Arr2 C :=
  (List.range n).foldl (luRound A n) (zero2, zero2)

/-- "Compute intermediate matrix Linv", kMatrixUtils.cu:139-150. -/
def luLinv (L : Arr2 C) (n : Nat) : Arr2 C :=
  (List.range n).foldl
    (fun V col => (List.range n).foldl
      (fun V row => upd2 V row col
        (((if row = col then 1 else 0) - sumOff n row (fun i => L row i * V i col)) / L row row)) V)
    zero2

/-- "Calculate the inverse", kMatrixUtils.cu:154-164.  `F` holds what the
caller's array contains on entry; the rows are visited from the last to the first. -/
def luBack (U V : Arr2 C) (n : Nat) (F : Arr2 C) : Arr2 C :=
  (List.range n).foldl
    (fun F col => (List.range n).reverse.foldl
      (fun F row => upd2 F row col
        ((V row col - sumOff n row (fun i => U row i * F i col)) / U row row)) F)
    F

/-- `luInverse`, kMatrixUtils.cu:133-167.  The divisors are the diagonal of `U`
(lines 124 and 163) and of `L` (line 148, always one); when one of them is zero
the C++ result holds infinities or NaNs, modelled as `none`.  The Boolean the
function returns is `true` in every case. -/
def luInverse [DecidableEq C] (A : Arr2 C) (n : Nat) (F : Arr2 C) : Option (Arr2 C) :=
  let UL := luDecomposition A n
  if ∃ i ∈ List.range n, UL.1 i i = 0 then none
  else some (luBack UL.1 (luLinv UL.2 n) n F)

/-- State of `getCofactor`: the two cursors and the output array (`src/PDFs/physics/kMatrixUtils.cu:35-56`). -/
structure CofState (C : Type) where
  i : Nat
  j : Nat
  temp : Arr2 C

/-- `getCofactor`, kMatrixUtils.cu:35-56. -/
def getCofactor (A temp : Arr2 C) (p q n : Nat) : Arr2 C :=
  ((List.range n).foldl
    (fun st row => (List.range n).foldl
      (fun (st : CofState C) col =>
        if row ≠ p ∧ col ≠ q then
          let t := upd2 st.temp st.i st.j (A row col)
          if st.j + 1 = n - 1 then ⟨st.i + 1, 0, t⟩ else ⟨st.i, st.j + 1, t⟩
        else st) st)
    (⟨0, 0, temp⟩ : CofState C)).temp

/-- `determinant<N>`, kMatrixUtils.h:25-43; `junk` is the content of the
uninitialised local array `temp`, which the calls for the successive `f` share.
`determinant<1>` is the specialisation of kMatrixUtils.h:45-48.  There is no
`determinant<0>` in the code. -/
def determinantN (junk : Arr2 C) : Nat → Arr2 C → C
  | 0, _ => 1
  | 1, A => A 0 0
  | N + 2, A =>
    ((List.range (N + 2)).foldl
      (fun (st : C × C × Arr2 C) f =>
        let temp := getCofactor A st.2.2 0 f (N + 2)
        (st.1 + st.2.1 * A 0 f * determinantN junk (N + 1) temp, -st.2.1, temp))
      (0, 1, junk)).1

/-- `adjoint`, kMatrixUtils.cu:58-83. -/
def adjointM (junk A : Arr2 C) (n : Nat) : Arr2 C :=
  if n = 1 then upd2 junk 0 0 1
  else
    ((List.range n).foldl
      (fun st i => (List.range n).foldl
        (fun (st : Arr2 C × Arr2 C) j =>
          let temp := getCofactor A st.2 i j n
          let sign : C := if (i + j) % 2 = 0 then 1 else -1
          (upd2 st.1 j i (sign * determinantN junk (n - 1) temp), temp)) st)
      (junk, junk)).1

/-- `inverse`, kMatrixUtils.cu:85-105: `none` models the return value `false`
(the output array is then left as it was). -/
def inverseM [DecidableEq C] (junk A : Arr2 C) (n : Nat) : Option (Arr2 C) :=
  let det := determinantN junk n A
  if det = 0 then none
  else
    let adj := adjointM junk A n
    some (fun i j => if i < n ∧ j < n then adj i j / det else junk i j)

end Field

open Complex

/-- The matrix inverted by `getPropagator`, kMatrixUtils.cu:173-180. -/
noncomputable def tMatrix (kM : Arr2 ℝ) (rho : Nat → ℂ) (adler : ℝ) : Arr2 ℂ :=
  fun i j => (if i = j then 1 else 0) - (⟨0, adler⟩ : ℂ) * (kM i j : ℂ) * rho j

/-- `getPropagator`, kMatrixUtils.cu:169-184; `F` is the caller's array. -/
noncomputable def getPropagator (kM : Arr2 ℝ) (rho : Nat → ℂ) (adler : ℝ) (n : Nat)
    (F : Arr2 ℂ) : Option (Arr2 ℂ) :=
  haveI : DecidableEq ℂ := Classical.decEq ℂ
  luInverse (tMatrix kM rho adler) n F

/-- `phsp_twoBody`, kMatrixUtils.cu:13-18. -/
noncomputable def phspTwoBody (s m0 m1 : ℝ) : ℂ :=
  if 1 - (m0 + m1) ^ 2 / s > 0 then ⟨√(1 - (m0 + m1) ^ 2 / s), 0⟩
  else ⟨0, √(-(1 - (m0 + m1) ^ 2 / s))⟩

/-- `mPiPlus`, `mKPlus`, `mEta`, `mEtap`, lineshapes/Common.h:5-9. -/
noncomputable def mPiPlus : ℝ := 0.139570
/-- `mKPlus`, `src/PDFs/physics/lineshapes/Common.h:6`. -/
noncomputable def mKPlus : ℝ := 0.493677
/-- `mEta`, `src/PDFs/physics/lineshapes/Common.h:8`. -/
noncomputable def mEta : ℝ := 0.547862
/-- `mEtap`, `src/PDFs/physics/lineshapes/Common.h:9`. -/
noncomputable def mEtap : ℝ := 0.96778

/-- The polynomial of `phsp_fourPi`, kMatrixUtils.cu:23-24 (and 26-32). -/
noncomputable def fourPiPoly (s : ℝ) : ℝ :=
  0.00051 + -0.01933 * s + 0.13851 * s * s + -0.20840 * s * s * s + -0.29744 * s * s * s * s
    + 0.13655 * s * s * s * s * s + 1.07885 * s * s * s * s * s * s

/-- `phsp_fourPi`, kMatrixUtils.cu:20-33. -/
noncomputable def phspFourPi (s : ℝ) : ℂ :=
  if s > 1 then phspTwoBody s (2 * mPiPlus) (2 * mPiPlus)
  else if fourPiPoly s ≥ 0 then ⟨fourPiPoly s, 0⟩
  else ⟨0, fourPiPoly s⟩

/-- The parameters of a K-matrix amplitude, in the reading order of
lineshapes/kMatrix.cu:25-60 (which is the registration order, 144-170). -/
structure KParams where
  sA0 : ℝ
  sA : ℝ
  s0prod : ℝ
  s0scatt : ℝ
  fscat : Nat → ℝ
  beta : Nat → ℂ
  fprod : Nat → ℂ
  /-- `couplings[pole][channel]` -/
  couplings : Arr2 ℝ
  pmasses : Nat → ℝ

/-- `getParameter(k)` for the parameter list `pars` (`ParameterContainer.h`). -/
def par (pars : List ℝ) (k : Nat) : ℝ := pars.getD k 0

/-- Reading the parameters, lineshapes/kMatrix.cu:22-60. -/
noncomputable def readKParams (pars : List ℝ) : KParams where
  sA0 := par pars 0
  sA := par pars 1
  s0prod := par pars 2
  s0scatt := par pars 3
  fscat i := par pars (4 + i)
  beta i := ⟨par pars (9 + 2 * i), par pars (9 + 2 * i + 1)⟩
  fprod i := ⟨par pars (19 + 2 * i), par pars (19 + 2 * i + 1)⟩
  couplings i j := par pars (29 + 6 * i + j)
  pmasses i := par pars (29 + 6 * i + 5)

/-- The constructor's parameter list, lineshapes/kMatrix.cu:143-164 and
resonances/kMatrix.cu:146-167. -/
def registerKParams (sA0 sA s0prod s0scatt : ℝ) (betaR betaI fprodR fprodI fscat poles : List ℝ) :
    List ℝ :=
  [sA0, sA, s0prod, s0scatt]
    ++ (List.range 5).map (fun i => par fscat i)
    ++ (List.range 5).flatMap (fun i => [par betaR i, par betaI i])
    ++ (List.range 5).flatMap (fun i => [par fprodR i, par fprodI i])
    ++ (List.range 30).map (fun i => par poles i)

/-- "constructKMatrix", lineshapes/kMatrix.cu:67-75. -/
noncomputable def constructKMatrix (p : KParams) (s : ℝ) : Arr2 ℝ := fun i j =>
  let acc := (List.range 5).foldl
    (fun a k => a + p.couplings k i * p.couplings k j / (p.pmasses k ^ 2 - s)) 0
  if i = 0 ∨ j = 0 then acc + p.fscat (i + j) * (1 - p.s0scatt) / (s - p.s0scatt) else acc

/-- `adlerTerm`, lineshapes/kMatrix.cu:77. -/
noncomputable def adlerTerm (p : KParams) (s : ℝ) : ℝ :=
  (1 - p.sA0) * (s - p.sA * mPiPlus * mPiPlus / 2) / (s - p.sA0)

/-- `phaseSpace[]`, lineshapes/kMatrix.cu:79-84. -/
noncomputable def kPhaseSpace (s : ℝ) : Nat → ℂ
  | 0 => phspTwoBody s mPiPlus mPiPlus
  | 1 => phspTwoBody s mKPlus mKPlus
  | 2 => phspFourPi s
  | 3 => phspTwoBody s mEta mEta
  | _ => phspTwoBody s mEta mEtap

/-- The output loop, lineshapes/kMatrix.cu:97-112. -/
noncomputable def kOutput (p : KParams) (s : ℝ) (F : Arr2 ℂ) : ℂ :=
  (List.range 5).foldl
    (fun ret pterm =>
      let M := (List.range 5).foldl (fun M i => M + F 0 i * (p.couplings pterm i : ℂ)) 0
      let pole := M / ((p.pmasses pterm ^ 2 - s : ℝ) : ℂ)
      let ret := ret + p.beta pterm * pole
      let prod := F 0 pterm * ((1 - p.s0prod : ℝ) : ℂ) / ((s - p.s0prod : ℝ) : ℂ)
      ret + p.fprod pterm * prod) 0

/-- `kMatrixFunction` (lineshapes/kMatrix.cu:18-113) and `kMatrixRes`
(resonances/kMatrix.cu:19-116) at the squared pair mass `s`. -/
noncomputable def kMatrixAmp (p : KParams) (s : ℝ) : Option ℂ :=
  (getPropagator (constructKMatrix p s) (kPhaseSpace s) (adlerTerm p s) 5 zero2).map
    (kOutput p s)

/-- `kMatrixFunction`: the squared mass is the square of the pair mass
(lineshapes/kMatrix.cu:62). -/
noncomputable def kMatrixLineshape (pars : List ℝ) (mpair : ℝ) : Option ℂ :=
  kMatrixAmp (readKParams pars) (mpair ^ 2)

/-- `kMatrixRes`: the squared mass is the Dalitz variable of the pair
(resonances/kMatrix.cu:65).  `PAIR_12 = 0`, `PAIR_13 = 1`, `PAIR_23 = 2`. -/
noncomputable def kMatrixResonance (pars : List ℝ) (pair : Nat) (m12 m13 m23 : ℝ) : Option ℂ :=
  kMatrixAmp (readKParams pars) (if pair = 0 then m12 else if pair = 1 then m13 else m23)

end GooFit
