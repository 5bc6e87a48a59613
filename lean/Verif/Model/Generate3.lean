import Verif.Model.Dalitz3
import Verif.Model.Amp4Body
import Verif.Model.SpinFactor
import Verif.Model.TimeGenerate
/-!
# Events generated by a three- and a four-body amplitude PDF

`Amp3Body::GenerateSig` (`src/PDFs/physics/Amp3Body.cu:430-547`), `Amp4Body::GenerateSig`
(`src/PDFs/physics/Amp4Body.cu:560-677`), `fillMCFlags` (`src/PDFs/physics/Amp3BodyBase.cu:13-21`,
`src/PDFs/physics/Amp4BodyBase.cu:14-22`), `Dim2` (`include/goofit/PDFs/physics/detail/Dim2.h:19-36`).

Exact real arithmetic.  `mcbooster` is not in the repository: the momenta and weights `PhaseSpace` produces are an argument, and
`FlagAcceptReject` is taken to compare the weight with the maximum times a uniform number `u k` of its own for each event `k`.
The event offset is zero, no MPI; seeds and messages are left out.
-/
set_option autoImplicit false
namespace GooFit

/-- What `PhaseSpace` gives for an event of three daughters: the momenta and the weight
(`src/PDFs/physics/Amp3Body.cu:452-454, 497`). -/
structure Gen3 where
  p1 : LV ℝ
  p2 : LV ℝ
  p3 : LV ℝ
  w : ℝ

/-- `Dim2::operator()` (`include/goofit/PDFs/physics/detail/Dim2.h:22-35`). -/
def dim2 (p1 p2 p3 : LV ℝ) : List ℝ :=
  let p12 := p1 + p2
  let p23 := p2 + p3
  let p13 := p1 + p3
  [p12.mag2, p23.mag2, p13.mag2]

/-- The array `DS`, written column by column with a stride of the number of columns, the last column being the event number
(`src/PDFs/physics/Amp3Body.cu:500-511`, `src/PDFs/physics/Amp4Body.cu:632-643`).  `cols k` are the entries of event `k`. -/
noncomputable def genArray (ncols n : Nat) (cols : Nat → List ℝ) : Nat → ℝ :=
  let a := (List.range (ncols - 1)).foldl (fun a i => writeStrided a i ncols n fun k => (cols k).getD i 0) fun _ => 0
  writeStrided a (ncols - 1) ncols n fun k => (k : ℝ)

/-- The events as they are read from the array, three numbers each (`src/PDFs/physics/Amp3Body.cu:61-67`). -/
noncomputable def readEv3 (a : Nat → ℝ) (n : Nat) : List Ev3 :=
  (List.range n).map fun k => ⟨a (3 * k), a (3 * k + 1), a (3 * k + 2)⟩

/-- `fillMCFlags`: the flags from the weights; `none` if there is nothing to take the maximum of
(`src/PDFs/physics/Amp3BodyBase.cu:13-21`, `src/PDFs/physics/Amp4BodyBase.cu:14-22`). -/
noncomputable def mcFlags (u : Nat → ℝ) (ws : List ℝ) : Option (List Bool) :=
  (maxElement ws).map fun mx => ws.zipIdx.map fun x => decide (u x.2 * mx < x.1)

/-- What `GenerateSig` returns, without the momenta, which are those of `PhaseSpace`: the variables of each event, the weights
and the flags (`src/PDFs/physics/Amp3Body.cu:430-547`). -/
structure Generated where
  vars : List (List ℝ)
  weights : List ℝ
  flags : List Bool

/-- `Amp3Body::GenerateSig` (`src/PDFs/physics/Amp3Body.cu:430-547`): the returned values and the state that is left.  The array
replaces the data, `setDataSize` allocates and forces, `normalize` is called, `setForceIntegrals` sets the flag again, and each
event is evaluated with the metric that returns the normalised value (`src/PDFs/MetricPointer.cu:18-21`), the factor being the
inverse of what `normalize` returns (`src/PDFs/physics/Amp3Body.cu:356-358`). -/
noncomputable def D3.generate (D : D3) (s : D3State) (marks : ResObj → Bool) (h : Nat → ℝ) (evs : List Gen3) (u : Nat → ℝ) :
    Option (Generated × D3State) := do
  let n := evs.length
  let vars := evs.map fun g => dim2 g.p1 g.p2 g.p3
  -- `GooVarSet_d`: the second and the third variable change places
  let cols (k : Nat) : List ℝ :=
    let v := vars.getD k []
    [v.getD 0 0, v.getD 2 0, v.getD 1 0]
  let data := readEv3 (genArray 3 n cols) n
  let s ← D.step { s with data := data } (.setDataSize n)
  let r ← D.normalize s marks h
  let s := { r.1 with force := true }
  let results ← (List.range s.entries).mapM fun k => (D.value s h k).map (· * (1 / r.2))
  let weights := (results.zip (evs.map (·.w))).map fun x => x.1 * x.2
  let flags ← mcFlags u weights
  return (⟨vars, weights, flags⟩, s)

/-- What `PhaseSpace` gives for an event of four daughters (`src/PDFs/physics/Amp4Body.cu:578-581, 629`). -/
structure Gen4 where
  p1 : LV ℝ
  p2 : LV ℝ
  p3 : LV ℝ
  p4 : LV ℝ
  w : ℝ

/-- The events as they are read from the array, six numbers each (the last, the event number, is the position)
(no counterpart in the code). -/
noncomputable def readEv4 (a : Nat → ℝ) (n : Nat) : List Ev4 :=
  (List.range n).map fun k => ⟨a (6 * k), a (6 * k + 1), a (6 * k + 2), a (6 * k + 3), a (6 * k + 4)⟩

/-- The five results of `Dim5` as a list (`VarSet_d`, `src/PDFs/physics/Amp4Body.cu:589-603`). -/
def ev4List (v : ℝ × ℝ × ℝ × ℝ × ℝ) : List ℝ := [v.1, v.2.1, v.2.2.1, v.2.2.2.1, v.2.2.2.2]

section
variable {A S P : Type} [DecidableEq A] [DecidableEq S]

/-- `Amp4Body::GenerateSig` (`src/PDFs/physics/Amp4Body.cu:560-677`).  The state is that of `A4.step (.generate ..)`
(`Verif.Model.Amp4Body`); `normalize` returns `r`.  `ranged_print` (`src/PDFs/physics/Amp4Body.cu:661`, `include/goofit/Log.h:139-145`)
reads the first six results: `none` when there are fewer. -/
noncomputable def A4.generateSig (m : A4 ℝ A S P Ev4) (changed : A → Bool) (p : P) (s : A4State ℝ Ev4) (evs : List Gen4)
    (u : Nat → ℝ) : Option (Generated × A4State ℝ Ev4) := do
  let n := evs.length
  let vars := evs.map fun g => ev4List (dim5 g.p1 g.p2 g.p3 g.p4)
  let data := readEv4 (genArray 6 n fun k => vars.getD k []) n
  let r ← m.normalize Real.sqrt changed p { A4.setData s data with noNorm := true }
  let s := { r.2 with force := true }
  let results ← (List.range n).mapM fun k => (m.value p s k).map (· * (1 / r.1))
  if results.length < 6 then none
  let weights := (results.zip (evs.map (·.w))).map fun x => x.1 * x.2
  let flags ← mcFlags u weights
  return (⟨vars, weights, flags⟩, s)

end
end GooFit
