import Verif.Lemmas.Binned
import Verif.Lemmas.BasicReal
import Verif.Spec.Hist
import Mathlib.Algebra.BigOperators.Ring.Finset
/-!
# Lemmas for C40
-/
set_option autoImplicit false
namespace GooFit
open Spec FpOps

/-- Offset of the `i`-th box of the loop from the central cell. -/
def boxOffset : List Nat → Nat → Int
  | [], _ => 0
  | n :: ns, i => ((i % 3 : Nat) : Int) - 1 + n * boxOffset ns (i / 3)

/-- The `i`-th box lies outside the histogram. -/
def boxOff : List Nat → Nat → Nat → Bool
  | [], _, _ => false
  | n :: ns, g, i => decide (((g % n : Nat) : Int) + (((i % 3 : Nat) : Int) - 1) < 0) ||
      decide (((g % n : Nat) : Int) + (((i % 3 : Nat) : Int) - 1) ≥ n) || boxOff ns (g / n) (i / 3)

theorem smootherAxes_eq (con : Nat → Option ℝ) (i : Nat) : ∀ (ns : List Nat) (k : Nat) (cur prev : Int)
    (g : Nat) (off : Bool), (∀ (j : Nat) (n : Nat), ns[j]? = some n → con (3 * (k + j + 1)) = some (ofNat n)) →
    ∃ p t, smootherAxes con i ns.length k (cur, prev, (g : Int), off) =
      some (cur + prev * boxOffset ns (i / 3 ^ k), p, t, off || boxOff ns g (i / 3 ^ k))
  | [], k, cur, prev, g, off, _ => ⟨prev, g, by simp [smootherAxes, forUpto, boxOffset, boxOff]⟩
  | n :: ns, k, cur, prev, g, off, hc => by
    have h0 := hc 0 n rfl
    rw [Nat.add_zero] at h0
    have ih := smootherAxes_eq con i ns (k + 1) (cur + (((i / 3 ^ k % 3 : Nat) : Int) - 1) * prev) (prev * n)
      (g / n) (off || decide (((g % n : Nat) : Int) + (((i / 3 ^ k % 3 : Nat) : Int) - 1) < 0) ||
        decide (((g % n : Nat) : Int) + (((i / 3 ^ k % 3 : Nat) : Int) - 1) ≥ n)) (by
      intro j m hm
      have := hc (j + 1) m hm
      rw [show k + 1 + j + 1 = k + (j + 1) + 1 by omega]
      exact this)
    obtain ⟨p, t, h⟩ := ih
    refine ⟨p, t, ?_⟩
    have e1 : (g : Int).tmod (n : Int) = ((g % n : Nat) : Int) := by
      rw [Int.tmod_eq_emod_of_nonneg (by omega)]; simp
    have e2 : (g : Int).tdiv (n : Int) = ((g / n : Nat) : Int) := by
      rw [Int.tdiv_eq_ediv_of_nonneg (by omega)]; simp
    unfold smootherAxes at h ⊢
    rw [List.length_cons, forUpto]
    simp only [bind, Option.bind, pure] at h
    simp only [h0, bind, Option.bind, pure, exact_real_nat]
    rw [e1, e2, h]
    simp only [boxOffset, boxOff, pow_succ, Nat.div_div_eq_div_mul, Option.some.injEq, Prod.mk.injEq,
      Bool.or_assoc, and_true, true_and]
    ring

/-- Nearness, axis by axis. -/
def nearR : List Nat → Nat → Nat → Prop
  | [], _, _ => True
  | n :: ns, g, g' => (g % n ≤ g' % n + 1 ∧ g' % n ≤ g % n + 1) ∧ nearR ns (g / n) (g' / n)

theorem near_iff : ∀ (ns : List Nat) (g g' : Nat), Near ns g g' ↔ nearR ns g g'
  | [], g, g' => by simp [Near, nearR]
  | n :: ns, g, g' => by
    rw [nearR, ← near_iff ns, Near, Near]
    constructor
    · intro h
      refine ⟨by simpa [digit] using h 0 (by simp), fun j hj => ?_⟩
      have := h (j + 1) (by simpa using hj)
      simpa [digit, Nat.div_div_eq_div_mul] using this
    · rintro ⟨h0, h⟩ j hj
      rcases j with _ | j
      · simpa [digit] using h0
      · have := h j (by simpa using hj)
        simpa [digit, Nat.div_div_eq_div_mul] using this

/-- The number of the box that holds the cell `g'`. -/
def boxOf : List Nat → Nat → Nat → Nat
  | [], _, _ => 0
  | n :: ns, g, g' => (g' % n + 1 - g % n) + 3 * boxOf ns (g / n) (g' / n)

theorem box_to_cell : ∀ (ns : List Nat) (g i : Nat), g < ns.prod → i < 3 ^ ns.length →
    boxOff ns g i = false → ∃ g' : Nat, (g' : Int) = g + boxOffset ns i ∧ g' < ns.prod ∧ nearR ns g g' ∧
      boxOf ns g g' = i
  | [], g, i, hg, hi, _ => by
    have hi : i < 1 := by simpa using hi
    exact ⟨g, by simp [boxOffset], hg, trivial, by simp only [boxOf]; omega⟩
  | n :: ns, g, i, hg, hi, ho => by
    simp only [boxOff, Bool.or_eq_false_iff, decide_eq_false_iff_not] at ho
    obtain ⟨⟨h1, h2⟩, h3⟩ := ho
    rw [List.prod_cons] at hg
    have hn : 0 < n := by
      rcases Nat.eq_zero_or_pos n with h | h
      · rw [h] at hg; simp at hg
      · exact h
    obtain ⟨q, hq1, hq2, hq3, hq4⟩ := box_to_cell ns (g / n) (i / 3) (Nat.div_lt_of_lt_mul hg)
      (by rw [List.length_cons, pow_succ] at hi; omega) h3
    have hd := Nat.div_add_mod g n
    refine ⟨(g % n + i % 3 - 1) + n * q, ?_, ?_, ?_, ?_⟩
    · have d1 : (g : Int) = n * (g / n : Nat) + (g % n : Nat) := by exact_mod_cast hd.symm
      have e : ((g % n + i % 3 - 1 + n * q : Nat) : Int) = (g % n : Nat) + (i % 3 : Nat) - 1 + n * (q : Int) := by
        rw [Int.natCast_add, Int.natCast_sub (by omega), Int.natCast_add, Int.natCast_mul]
        rfl
      rw [e, hq1, boxOffset, d1]
      generalize ((g / n : Nat) : Int) = A
      generalize ((i % 3 : Nat) : Int) = I
      have : (g % n : Nat) % n = g % n := Nat.mod_mod _ _
      ring
    · rw [List.prod_cons]
      have : n * (q + 1) ≤ n * ns.prod := Nat.mul_le_mul_left n hq2
      rw [Nat.mul_add] at this
      omega
    · have hm : ((g % n + i % 3 - 1) + n * q) % n = g % n + i % 3 - 1 := by
        rw [Nat.add_mul_mod_self_left, Nat.mod_eq_of_lt (by omega)]
      have hdv : ((g % n + i % 3 - 1) + n * q) / n = q := by
        rw [Nat.add_mul_div_left _ _ hn, Nat.div_eq_of_lt (by omega), Nat.zero_add]
      rw [nearR, hm, hdv]
      exact ⟨⟨by omega, by omega⟩, hq3⟩
    · have hm : ((g % n + i % 3 - 1) + n * q) % n = g % n + i % 3 - 1 := by
        rw [Nat.add_mul_mod_self_left, Nat.mod_eq_of_lt (by omega)]
      have hdv : ((g % n + i % 3 - 1) + n * q) / n = q := by
        rw [Nat.add_mul_div_left _ _ hn, Nat.div_eq_of_lt (by omega), Nat.zero_add]
      rw [boxOf, hm, hdv, hq4]
      omega

theorem cell_to_box : ∀ (ns : List Nat) (g g' : Nat), g < ns.prod → g' < ns.prod → nearR ns g g' →
    boxOf ns g g' < 3 ^ ns.length ∧ boxOff ns g (boxOf ns g g') = false ∧
      (g : Int) + boxOffset ns (boxOf ns g g') = g'
  | [], g, g', hg, hg', _ => by
    simp only [List.prod_nil] at hg hg'
    refine ⟨by simp [boxOf], rfl, ?_⟩
    simp only [boxOffset]
    omega
  | n :: ns, g, g', hg, hg', hn => by
    obtain ⟨⟨h1, h2⟩, h3⟩ := hn
    rw [List.prod_cons] at hg hg'
    have hn : 0 < n := by
      rcases Nat.eq_zero_or_pos n with h | h
      · rw [h] at hg; simp at hg
      · exact h
    obtain ⟨a, b, c⟩ := cell_to_box ns (g / n) (g' / n) (Nat.div_lt_of_lt_mul hg) (Nat.div_lt_of_lt_mul hg') h3
    have l1 := Nat.mod_lt g hn
    have l2 := Nat.mod_lt g' hn
    have hm : (g' % n + 1 - g % n + 3 * boxOf ns (g / n) (g' / n)) % 3 = g' % n + 1 - g % n := by omega
    have hd : (g' % n + 1 - g % n + 3 * boxOf ns (g / n) (g' / n)) / 3 = boxOf ns (g / n) (g' / n) := by omega
    refine ⟨?_, ?_, ?_⟩
    · rw [boxOf, List.length_cons, pow_succ]
      omega
    · rw [boxOf, boxOff, hm, hd, b]
      simp only [Bool.or_false, Bool.or_eq_false_iff, decide_eq_false_iff_not]
      omega
    · rw [boxOf, boxOffset, hm, hd]
      have d1 : (g : Int) = n * (g / n : Nat) + (g % n : Nat) := by exact_mod_cast (Nat.div_add_mod g n).symm
      have d2 : (g' : Int) = n * (g' / n : Nat) + (g' % n : Nat) := by exact_mod_cast (Nat.div_add_mod g' n).symm
      rw [Int.natCast_sub (by omega), Int.natCast_add]
      generalize ((g / n : Nat) : Int) = A at *
      generalize ((g' / n : Nat) : Int) = B at *
      generalize ((g % n : Nat) : Int) = C at *
      generalize ((g' % n : Nat) : Int) = D at *
      rw [d1, d2, ← c]
      push_cast
      ring

/-- The sum over the boxes that are inside the histogram is the sum over the cells nearby. -/
theorem box_sum (ns : List Nat) (g : Nat) (hg : g < ns.prod) (f : Int → ℝ) :
    ∑ i ∈ (Finset.range (3 ^ ns.length)).filter (fun i => ¬ ((g : Int) + boxOffset ns i = g) ∧
        boxOff ns g i = false), f (g + boxOffset ns i) = ∑ g' ∈ neighbours ns g, f g' := by
  refine Finset.sum_bij' (fun i _ => ((g : Int) + boxOffset ns i).toNat) (fun g' _ => boxOf ns g g') ?_ ?_ ?_ ?_ ?_
  · intro i hi
    simp only [Finset.mem_filter, Finset.mem_range] at hi
    obtain ⟨h1, h2, h3⟩ := hi
    obtain ⟨g', e, l, nr, _⟩ := box_to_cell ns g i hg h1 h3
    rw [← e] at h2 ⊢
    rw [Int.toNat_natCast]
    simp only [neighbours, Finset.mem_filter, Finset.mem_range]
    exact ⟨l, fun h => h2 (by rw [h]), (near_iff ns g g').mpr nr⟩
  · intro g' hg'
    simp only [neighbours, Finset.mem_filter, Finset.mem_range] at hg'
    obtain ⟨a, b, c⟩ := cell_to_box ns g g' hg hg'.1 ((near_iff ns g g').mp hg'.2.2)
    simp only [Finset.mem_filter, Finset.mem_range]
    refine ⟨a, ?_, b⟩
    rw [c]
    exact fun h => hg'.2.1 (by exact_mod_cast h)
  · intro i hi
    simp only [Finset.mem_filter, Finset.mem_range] at hi
    obtain ⟨h1, h2, h3⟩ := hi
    obtain ⟨g', e, l, nr, bx⟩ := box_to_cell ns g i hg h1 h3
    rw [← e, Int.toNat_natCast, bx]
  · intro g' hg'
    simp only [neighbours, Finset.mem_filter, Finset.mem_range] at hg'
    obtain ⟨a, b, c⟩ := cell_to_box ns g g' hg hg'.1 ((near_iff ns g g').mp hg'.2.2)
    rw [c, Int.toNat_natCast]
  · intro i hi
    simp only [Finset.mem_filter, Finset.mem_range] at hi
    obtain ⟨h1, h2, h3⟩ := hi
    obtain ⟨g', e, _, _, _⟩ := box_to_cell ns g i hg h1 h3
    rw [← e, Int.toNat_natCast]

theorem forUpto_range {S : Type} (body : Nat → S → Option S) (f : S → Nat → S) : ∀ (m k : Nat) (s : S),
    (∀ i s, k ≤ i → i < k + m → body i s = some (f s i)) →
    forUpto body m k s = some ((List.range' k m).foldl f s)
  | 0, _, _, _ => rfl
  | m + 1, k, s, h => by
    rw [forUpto, h k s (le_refl k) (by omega), List.range'_succ, List.foldl_cons]
    exact forUpto_range body f m (k + 1) (f s k) fun i s h1 h2 => h i s (by omega) (by omega)

theorem foldl_select (c : Nat → Bool) (f : Nat → ℝ) : ∀ (l : List Nat) (s : ℝ) (n : Int),
    l.foldl (fun (s : ℝ × Int) i => if c i then (s.1 + f i, s.2 + 1) else s) (s, n) =
      (s + ((l.filter c).map f).sum, n + ((l.filter c).length : Int))
  | [], s, n => by simp
  | i :: l, s, n => by
    rw [List.foldl_cons]
    cases h : c i
    · simp only [Bool.false_eq_true, if_false]
      rw [foldl_select c f l s n, List.filter_cons_of_neg (by simp [h])]
    · simp only [if_true]
      rw [foldl_select c f l, List.filter_cons_of_pos h, List.map_cons, List.sum_cons, List.length_cons,
        Prod.mk.injEq]
      constructor
      · ring
      · push_cast; ring

theorem sum_filter_range (c : Nat → Bool) (f : Nat → ℝ) (n : Nat) :
    (((List.range' 0 n).filter c).map f).sum = ∑ i ∈ (Finset.range n).filter (fun i => c i = true), f i := by
  rw [← List.range_eq_range', Finset.sum_filter]
  induction n with
  | zero => simp
  | succ n ih =>
    rw [List.range_succ, List.filter_append, List.map_append, List.sum_append, ih, Finset.sum_range_succ]
    congr 1
    cases h : c n <;> simp [h]

theorem card_filter_range (c : Nat → Bool) (n : Nat) :
    (((List.range' 0 n).filter c).length : ℝ) = ((Finset.range n).filter (fun i => c i = true)).card := by
  have := sum_filter_range c (fun _ => 1) n
  simpa using this

/-- The smoother computes the weighted mean over the neighbourhood. -/
theorem smoother_eq (con par : Nat → Option ℝ) (base : Nat → Option (List ℝ)) (ns : List Nat) (number : Nat)
    (s : ℝ) (h : List ℝ) (hn : con 0 = some (ofNat ns.length)) (h1 : con 1 = some (ofNat number))
    (hc : ∀ (j : Nat) (n : Nat), ns[j]? = some n → con (3 * (j + 1)) = some (ofNat n))
    (hp : par 0 = some s) (hb : base number = some h) (hl : h.length = ns.prod) (g : Nat) (hg : g < ns.prod) :
    smoother con par base g = some (smoothCell ns h s g) := by
  have hread : ∀ k : Nat, k < ns.prod → readHist h k = some (h.getD k 0) := by
    intro k hk
    unfold readHist
    rw [if_pos (by omega), Int.toNat_natCast, List.getElem?_eq_getElem (by omega), List.getD_eq_getElem?_getD,
      List.getElem?_eq_getElem (by omega)]
    rfl
  unfold smoother
  simp only [hn, hp, h1, bind, Option.bind, exact_real_nat, Int.toNat_natCast, hb, hread g hg]
  let c : Nat → Bool := fun i => decide (¬ ((g : Int) + boxOffset ns i = g) ∧ boxOff ns g i = false)
  rw [forUpto_range _ (fun (s : ℝ × Int) i => if c i then
    (s.1 + h.getD ((g : Int) + boxOffset ns i).toNat 0, s.2 + 1) else s)]
  · simp only [pure, foldl_select, sum_filter_range]
    have hS : ∑ i ∈ (Finset.range (3 ^ ns.length)).filter (fun i => c i = true),
        h.getD ((g : Int) + boxOffset ns i).toNat 0 = ∑ g' ∈ neighbours ns g, h.getD g' 0 := by
      have := box_sum ns g hg (fun k => h.getD k.toNat 0)
      simpa [c] using this
    have hC : (((List.range' 0 (3 ^ ns.length)).filter c).length : ℝ) = (neighbours ns g).card := by
      rw [card_filter_range]
      have := box_sum ns g hg (fun _ => 1)
      simpa [c] using this
    rw [hS]
    simp only [real_lit, real_add, real_mul, real_div, real_ofInt, smoothCell]
    push_cast
    rw [zero_add, zero_add, hC]
    congr 1
    ring
  · intro i st _ hi
    obtain ⟨p, t, hr⟩ := smootherAxes_eq con i ns 0 g 1 g false (by
      intro j n hj
      rw [Nat.zero_add]
      exact hc j n hj)
    simp only [hr, pow_zero, Nat.div_one, one_mul, Bool.false_or, c]
    by_cases h1 : (g : Int) + boxOffset ns i = g
    · simp [h1]
    · by_cases h2 : boxOff ns g i = false
      · obtain ⟨g', e, l, _, _⟩ := box_to_cell ns g i hg (by omega) h2
        simp only [h1, h2, if_false, Bool.false_eq_true, not_false_eq_true, and_self, decide_true, if_true]
        rw [← e, hread g' l, Int.toNat_natCast]
        rfl
      · simp [h1, h2]

end GooFit
