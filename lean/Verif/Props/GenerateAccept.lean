import Verif.Props.Generate3
import Mathlib.MeasureTheory.Constructions.Pi
import Mathlib.MeasureTheory.Measure.Lebesgue.Basic
import Mathlib.MeasureTheory.Integral.Bochner.Set
/-!
# C87: accepted events represent the weighted ones
-/
set_option autoImplicit false
namespace GooFit
open Spec MeasureTheory

/-- Uniform numbers in `[0, 1)`. -/
noncomputable abbrev uniform01 : Measure ℝ := volume.restrict (Set.Ico 0 1)

instance : IsProbabilityMeasure uniform01 := ⟨by simp [uniform01]⟩

/-- Independent uniform numbers for `n` events. -/
noncomputable abbrev uniforms (n : Nat) : Measure (Fin n → ℝ) := Measure.pi fun _ => uniform01

/-- The numbers as a function of the position; there are none beyond the events. -/
def numbersOf {n : Nat} (U : Fin n → ℝ) (k : Nat) : ℝ := if h : k < n then U ⟨k, h⟩ else 0

theorem below_measure (w mx : ℝ) (h0 : 0 ≤ w) (hle : w ≤ mx) (hm : 0 < mx) :
    uniform01 {u | u * mx < w} = ENNReal.ofReal (w / mx) := by
  have hset : {u | u * mx < w} = Set.Iio (w / mx) := by
    ext u
    simp only [Set.mem_setOf_eq, Set.mem_Iio]
    rw [lt_div_iff₀ hm]
  rw [hset, uniform01, Measure.restrict_apply measurableSet_Iio, Set.inter_comm, Set.Ico_inter_Iio,
    min_eq_right (by rw [div_le_one hm]; exact hle), Real.volume_Ico]
  simp

/-- **C87 (acceptance).**  If the uniform numbers are independent, an event is accepted with the probability that is the ratio of
its weight to the largest one. -/
theorem C87_acceptance (ws : List ℝ) (hne : ws ≠ []) (h0 : ∀ w ∈ ws, 0 ≤ w) (mx : ℝ) (hmx : IsGreatest {w | w ∈ ws} mx) (hpos : 0 < mx)
    (k : Nat) (w : ℝ) (hw : ws[k]? = some w) :
    uniforms ws.length {U | ∃ fl, mcFlags (numbersOf U) ws = some fl ∧ fl[k]? = some true} = ENNReal.ofReal (w / mx) := by
  have hk : k < ws.length := (List.getElem?_eq_some_iff.mp hw).1
  have hmem : w ∈ ws := List.mem_of_getElem? hw
  have hset : {U : Fin ws.length → ℝ | ∃ fl, mcFlags (numbersOf U) ws = some fl ∧ fl[k]? = some true}
      = Function.eval ⟨k, hk⟩ ⁻¹' {u | u * mx < w} := by
    ext U
    obtain ⟨fl, hfl, hl, mx', hmx', hacc⟩ := mcFlags_ok (numbersOf U) ws hne
    have e : mx' = mx := hmx'.unique hmx
    subst e
    have hkf : k < fl.length := by omega
    have := hacc k w fl[k] hw (List.getElem?_eq_getElem hkf)
    have hU : numbersOf U k = U ⟨k, hk⟩ := by simp [numbersOf, hk]
    simp only [Set.mem_setOf_eq, Set.mem_preimage, Function.eval, hfl, Option.some.injEq]
    rw [← hU, ← this]
    constructor
    · rintro ⟨fl', rfl, h⟩
      rw [List.getElem?_eq_getElem hkf] at h
      exact Option.some.inj h
    · intro h
      exact ⟨fl, rfl, by rw [List.getElem?_eq_getElem hkf, h]⟩
  rw [hset, (measurePreserving_eval (fun _ : Fin ws.length => uniform01) ⟨k, hk⟩).measure_preimage
    (measurableSet_lt (by fun_prop) (by fun_prop)).nullMeasurableSet]
  exact below_measure w mx (h0 w hmem) (hmx.2 hmem) hpos

/-- **C87 (unweighted events).**  For every quantity `f` of the events, the expected sum over the accepted events is the sum over
all events with their weights, divided by the largest weight. -/
theorem C87_unweighted (ws : List ℝ) (hne : ws ≠ []) (h0 : ∀ w ∈ ws, 0 ≤ w) (mx : ℝ) (hmx : IsGreatest {w | w ∈ ws} mx) (hpos : 0 < mx)
    (f : Fin ws.length → ℝ) :
    ∫ U, (∑ k : Fin ws.length, if ((mcFlags (numbersOf U) ws).getD []).getD k false then f k else 0) ∂(uniforms ws.length)
      = (∑ k : Fin ws.length, ws[k] * f k) / mx := by
  have hk : ∀ (k : Fin ws.length) (U : Fin ws.length → ℝ),
      (if ((mcFlags (numbersOf U) ws).getD []).getD k false then f k else 0)
        = Set.indicator {U : Fin ws.length → ℝ | ∃ fl, mcFlags (numbersOf U) ws = some fl ∧ fl[(k : Nat)]? = some true}
          (fun _ => f k) U := by
    intro k U
    obtain ⟨fl, hfl, hl, -⟩ := mcFlags_ok (numbersOf U) ws hne
    have hkf : (k : Nat) < fl.length := by omega
    simp only [Set.indicator, Set.mem_setOf_eq, hfl, Option.getD_some, Option.some.injEq, exists_eq_left', List.getD_eq_getElem?_getD,
      List.getElem?_eq_getElem hkf]
  have hms : ∀ k : Fin ws.length, MeasurableSet
      {U : Fin ws.length → ℝ | ∃ fl, mcFlags (numbersOf U) ws = some fl ∧ fl[(k : Nat)]? = some true} := by
    intro k
    have : {U : Fin ws.length → ℝ | ∃ fl, mcFlags (numbersOf U) ws = some fl ∧ fl[(k : Nat)]? = some true}
        = {U | U k * mx < ws[k]} := by
      ext U
      obtain ⟨fl, hfl, hl, mx', hmx', hacc⟩ := mcFlags_ok (numbersOf U) ws hne
      have e : mx' = mx := hmx'.unique hmx
      subst e
      have hkf : (k : Nat) < fl.length := by omega
      have := hacc k ws[k] fl[(k : Nat)] (List.getElem?_eq_getElem k.2) (List.getElem?_eq_getElem hkf)
      have hU : numbersOf U k = U k := by simp [numbersOf]
      simp only [Set.mem_setOf_eq, hfl, Option.some.injEq, exists_eq_left', List.getElem?_eq_getElem hkf]
      rw [← hU]
      exact this
    rw [this]
    exact measurableSet_lt (by fun_prop) (by fun_prop)
  simp only [hk]
  rw [integral_finset_sum]
  · rw [Finset.sum_div]
    refine Finset.sum_congr rfl fun k _ => ?_
    rw [integral_indicator_const _ (hms k), Measure.real,
      C87_acceptance ws hne h0 mx hmx hpos k ws[k] (List.getElem?_eq_getElem k.2),
      ENNReal.toReal_ofReal (div_nonneg (h0 ws[k] (List.getElem_mem k.2)) hpos.le), smul_eq_mul]
    ring
  · intro k _
    exact (integrable_const (f k)).indicator (hms k)

/-- Weights 1 and 2: the first event is accepted half of the time. -/
example : uniforms 2 {U | ∃ fl, mcFlags (numbersOf U) [1, 2] = some fl ∧ fl[0]? = some true} = ENNReal.ofReal (1 / 2) :=
  C87_acceptance [1, 2] (by simp) (by simp) 2 ⟨by simp, by rintro x hx; simp at hx; rcases hx with rfl | rfl <;> norm_num⟩
    (by norm_num) 0 1 rfl

end GooFit
