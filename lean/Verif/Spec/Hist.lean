import Verif.Spec.Binned
import Verif.Model.SmoothHist
import Mathlib.Algebra.BigOperators.Group.Finset.Basic
import Mathlib.Data.Real.Basic
/-!
# Specification for C40: histograms and their smoothing

The cells of a histogram with `ns` bins on its axes are numbered with the first axis fastest.
-/
set_option autoImplicit false
namespace GooFit.Spec
open GooFit

/-- The cells `g` and `g'` are at most one bin apart on every axis. -/
def Near (ns : List Nat) (g g' : Nat) : Prop :=
  ∀ j, j < ns.length → digit ns j g ≤ digit ns j g' + 1 ∧ digit ns j g' ≤ digit ns j g + 1

instance (ns : List Nat) (g g' : Nat) : Decidable (Near ns g g') := by
  unfold Near; infer_instance

/-- The cells around `g`, without `g` itself. -/
def neighbours (ns : List Nat) (g : Nat) : Finset Nat :=
  (Finset.range ns.prod).filter fun g' => g' ≠ g ∧ Near ns g g'

/-- Weighted mean of a cell (weight 1) and its neighbours (weight `s` each). -/
noncomputable def smoothCell (ns : List Nat) (h : List ℝ) (s : ℝ) (g : Nat) : ℝ :=
  (h.getD g 0 + s * ∑ g' ∈ neighbours ns g, h.getD g' 0) / (1 + s * (neighbours ns g).card)

/-- A histogram PDF as its user sees it: axes, the contents given to it, and the contents it shows. -/
structure HistObject where
  axes : List (GooFit.Axis ℝ)
  contents : List ℝ
  shown : List ℝ

/-- Numbers of bins. -/
def HistObject.bins (o : HistObject) : List Nat := o.axes.map Axis.bins

/-- What each operation should do to the objects created so far. -/
noncomputable def histEffect (os : List HistObject) : HistOp ℝ → List HistObject
  | .create axes c => os ++ [⟨axes, c, c⟩]
  | .copy i c => os.modify i fun o => { o with contents := c, shown := c }
  | .normalize i s => os.modify i fun o =>
      { o with shown := (List.range o.contents.length).map (smoothCell o.bins o.contents s) }

/-- What a program should do. -/
noncomputable def histObjects (ops : List (HistOp ℝ)) : List HistObject := ops.foldl histEffect []

/-- Programs, continuing after `n` objects, in which a histogram PDF created with an empty histogram
gets its contents immediately after its creation, contents have the size of the histogram, and only
existing PDFs are normalised. -/
inductive Prompt : Nat → List (HistOp ℝ) → Prop where
  | done (n : Nat) : Prompt n []
  | filled (n : Nat) (axes : List (GooFit.Axis ℝ)) (c : List ℝ) (ops : List (HistOp ℝ))
      (size : c.length = (axes.map Axis.bins).prod) (positive : 0 < c.sum) (rest : Prompt (n + 1) ops) :
      Prompt n (.create axes c :: ops)
  | later (n : Nat) (axes : List (GooFit.Axis ℝ)) (c c' : List ℝ) (ops : List (HistOp ℝ))
      (empty : c.sum ≤ 0) (size : c'.length = (axes.map Axis.bins).prod) (rest : Prompt (n + 1) ops) :
      Prompt n (.create axes c :: .copy n c' :: ops)
  | normalize (n i : Nat) (s : ℝ) (ops : List (HistOp ℝ)) (known : i < n) (rest : Prompt n ops) :
      Prompt n (.normalize i s :: ops)

end GooFit.Spec
