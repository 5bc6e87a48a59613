import Verif.Spec.Norm
import Verif.Lemmas.TreeHost
import Mathlib.Algebra.BigOperators.Group.List.Basic
import Mathlib.Algebra.BigOperators.Ring.List
import Mathlib.Tactic.Ring
import Mathlib.Tactic.FieldSimp
import Mathlib.Tactic.Linarith
/-!
# Lemmas about grids, mixtures and products
-/
set_option autoImplicit false
namespace GooFit
open Spec
variable {K : Type} [Field K] [LinearOrder K] [IsStrictOrderedRing K] [FloorRing K]
attribute [local instance] FpOps.ofField

theorem exact_field (n : Int) : FpOps.toInt (FpOps.ofInt n : K) = n := by
  show truncK (((n : ℚ) : K)) = n
  unfold truncK
  split <;> simp

theorem spec_sum (xs : List K) : Spec.sum xs = xs.sum := by
  have key : ∀ (xs : List K) (a : K), xs.foldl FpOps.add a = a + xs.sum := by
    intro xs
    induction xs with
    | nil => intro a; simp
    | cons x xs ih =>
      intro a
      rw [List.foldl_cons, ih, List.sum_cons]
      show a + x + _ = _
      ring
  show xs.foldl FpOps.add _ = _
  rw [key]
  show (((0 : ℚ)) : K) + _ = _
  simp

theorem spec_prod (xs : List K) : Spec.prod xs = xs.prod := by
  have key : ∀ (xs : List K) (a : K), xs.foldl FpOps.mul a = a * xs.prod := by
    intro xs
    induction xs with
    | nil => intro a; simp
    | cons x xs ih =>
      intro a
      rw [List.foldl_cons, ih, List.prod_cons]
      show a * x * _ = _
      ring
  show xs.foldl FpOps.mul _ = _
  rw [key]
  show (((1 : ℚ)) : K) * _ = _
  simp

theorem spec_mixture (ws vs ns : List K) (v n : K) :
    mixture ws vs ns v n =
      ((ws.zip (vs.zip ns)).map fun p => p.1 * p.2.1 * p.2.2).sum + (1 - ws.sum) * v * n := by
  unfold mixture weighted
  rw [spec_sum, spec_sum]
  show _ + ((((1 : ℚ)) : K) - _) * v * n = _
  rw [Rat.cast_one]
  rfl

theorem spec_mixtureExt (ws vs ns : List K) :
    mixtureExt ws vs ns =
      ((ws.zip (vs.zip ns)).map fun p => p.1 * p.2.1 * p.2.2).sum / ws.sum := by
  unfold mixtureExt weighted
  rw [spec_sum, spec_sum]
  rfl

theorem spec_product (vs ns : List K) :
    product vs ns = ((vs.zip ns).map fun p => p.1 * p.2).prod := by
  unfold product
  rw [spec_prod]
  rfl

/-! ### grid -/

theorem gridSum_eq (f : Nat → Option K) (g : Nat → K) :
    ∀ n, (∀ b < n, f b = some (g b)) → gridSum f n = some ((List.range n).map g).sum
  | 0, _ => rfl
  | n + 1, h => by
    rw [gridSum, gridSum_eq f g n (fun b hb => h b (by omega)), h n (by omega)]
    simp [List.range_succ, List.sum_append]

/-! ### values of components -/

section
variable {L : Lib K} {sem : LeafSem K L} {env : Env K}

theorem denoteList_norms : ∀ cs : List (Pdf L),
    (denoteList sem env cs).map (·.norm) = cs.map fun c => c.node.norm
  | [] => rfl
  | .mk n cs :: rest => by
    rw [denoteList, List.map_cons, List.map_cons, denoteList_norms rest]
    rfl

theorem denoteList_values (e : Evt K) :
    ∀ (cs : List (Pdf L)) (gs : List (Evt K → K)),
      List.Forall₂ (fun c g => denote sem env c e = some (g e)) cs gs →
      values (denoteList sem env cs) e = some (gs.map fun g => g e)
  | [], _, h => by cases h; rfl
  | .mk n cs :: rest, _, h => by
    cases h with
    | cons h1 h2 =>
      have ih := denoteList_values e rest _ h2
      unfold values at ih ⊢
      rw [denoteList, List.map_cons]
      show allSome (denote sem env (.mk n cs) e :: _) = _
      rw [h1, allSome, ih]
      rfl

/-- Choosing the functions of a list of normalised components. -/
theorem choose_functions (D : Evt K → Prop) (P : Pdf L → (Evt K → K) → Prop) :
    ∀ cs : List (Pdf L),
      (∀ c ∈ cs, ∃ g, (∀ e, D e → denote sem env c e = some (g e)) ∧ P c g) →
      ∃ gs : List (Evt K → K), List.Forall₂ P cs gs ∧
        ∀ e, D e → List.Forall₂ (fun c g => denote sem env c e = some (g e)) cs gs
  | [], _ => ⟨[], .nil, fun _ _ => .nil⟩
  | c :: cs, h => by
    obtain ⟨g, h1, h2⟩ := h c (by simp)
    obtain ⟨gs, h3, h4⟩ := choose_functions D P cs (fun c' hc' => h c' (by simp [hc']))
    exact ⟨g :: gs, .cons h2 h3, fun e he => .cons (h1 e he) (h4 e he)⟩
end

/-- Integral of a weighted sum. -/
theorem integral_weighted (I : (Evt K → K) →ₗ[K] K) :
    ∀ (ws : List K) (gs : List (Evt K → K)) (ns : List K),
      I (fun e => ((ws.zip ((gs.map fun g => g e).zip ns)).map
        fun p => p.1 * p.2.1 * p.2.2).sum) =
      ((ws.zip ((gs.map I).zip ns)).map fun p => p.1 * (p.2.1 * p.2.2)).sum
  | [], _, _ => I.map_zero
  | w :: ws, [], _ => I.map_zero
  | w :: ws, g :: gs, [] => I.map_zero
  | w :: ws, g :: gs, n :: ns => by
    have ih := integral_weighted I ws gs ns
    have e : (fun e => (((w :: ws).zip (((g :: gs).map fun g => g e).zip (n :: ns))).map
        fun p => p.1 * p.2.1 * p.2.2).sum) =
        (w * n) • g + fun e => ((ws.zip ((gs.map fun g => g e).zip ns)).map
          fun p => p.1 * p.2.1 * p.2.2).sum := by
      funext e
      simp only [List.map_cons, List.zip_cons_cons, List.sum_cons, Pi.add_apply, Pi.smul_apply,
        smul_eq_mul]
      ring
    rw [e, I.map_add, ih, I.map_smul]
    simp only [List.map_cons, List.zip_cons_cons, List.sum_cons, smul_eq_mul]
    ring

/-- With normalised components only the weights remain. -/
theorem weighted_normalised (I : (Evt K → K) →ₗ[K] K) :
    ∀ (ws : List K) (gs : List (Evt K → K)) (ns : List K),
      List.Forall₂ (fun n g => I g * n = 1) ns gs → ws.length ≤ gs.length →
      ((ws.zip ((gs.map I).zip ns)).map fun p => p.1 * (p.2.1 * p.2.2)).sum = ws.sum
  | [], _, _, _, _ => rfl
  | w :: ws, [], _, _, h => by simp at h
  | w :: ws, g :: gs, [], h, _ => by cases h
  | w :: ws, g :: gs, n :: ns, h, hl => by
    cases h with
    | cons h1 h2 =>
      have ih := weighted_normalised I ws gs ns h2 (by simpa using hl)
      simp only [List.map_cons, List.zip_cons_cons, List.sum_cons, ih, h1, mul_one]

/-! ### products of independent functions -/

theorem gridIntegral1_mul_left (lo up : K) (n : Nat) (c : K) (f : K → K) :
    gridIntegral1 lo up n (fun v => c * f v) = c * gridIntegral1 lo up n f := by
  unfold gridIntegral1
  rw [← List.sum_map_mul_left]
  congr 1
  apply List.map_congr_left
  intro b _
  ring

theorem gridIntegral1_mul_right (lo up : K) (n : Nat) (c : K) (f : K → K) :
    gridIntegral1 lo up n (fun v => f v * c) = gridIntegral1 lo up n f * c := by
  rw [mul_comm, ← gridIntegral1_mul_left]
  congr 1; funext v; ring

/-- The integral over observables the function does not look at the starting point of. -/
theorem gridIntegral_congr (g : List (Nat × Range K)) (f : (Nat → K) → K) (x y : Nat → K)
    (h : ∀ z w : Nat → K, (∀ p, p ∉ g.map (·.1) → z p = x p ∧ w p = y p) →
      (∀ p ∈ g.map (·.1), z p = w p) → f z = f w) :
    gridIntegral g f x = gridIntegral g f y := by
  induction g generalizing x y with
  | nil => exact h x y (fun p _ => ⟨rfl, rfl⟩) (fun p hp => by simp at hp)
  | cons a g ih =>
    obtain ⟨o, r⟩ := a
    simp only [gridIntegral]
    congr 1
    funext v
    refine ih _ _ (fun z w hzw he => h z w ?_ ?_)
    · intro p hp
      simp only [List.map_cons, List.mem_cons, not_or] at hp
      have := hzw p hp.2
      simpa [hp.1] using this
    · intro p hp
      simp only [List.map_cons, List.mem_cons] at hp
      by_cases hpg : p ∈ g.map (·.1)
      · exact he p hpg
      · rcases hp with hp | hp
        · have := hzw p hpg
          subst hp
          simp at this
          rw [this.1, this.2]
        · exact absurd hp hpg

/-- If `f` does not look at the observables of `g`, it comes out of the integral. -/
theorem gridIntegral_const_mul (g : List (Nat × Range K)) (f h : (Nat → K) → K) (x : Nat → K)
    (hf : ∀ z w : Nat → K, (∀ p, p ∉ g.map (·.1) → z p = w p) → f z = f w) :
    gridIntegral g (fun z => f z * h z) x = f x * gridIntegral g h x := by
  induction g generalizing x with
  | nil => rfl
  | cons a g ih =>
    obtain ⟨o, r⟩ := a
    simp only [gridIntegral]
    rw [← gridIntegral1_mul_left]
    congr 1
    funext v
    rw [ih _ (fun z w hzw => hf z w (fun p hp => hzw p (fun hp' => hp (by simp [hp']))))]
    congr 1
    refine hf _ _ (fun p hp => ?_)
    simp only [List.map_cons, List.mem_cons, not_or] at hp
    simp [hp.1]

/-- Integral of a product of two functions of disjoint sets of observables. -/
theorem gridIntegral_mul (g₁ g₂ : List (Nat × Range K)) (f₁ f₂ : (Nat → K) → K) (x : Nat → K)
    (os₁ os₂ : List Nat) (h₁ : LooksOnlyAt os₁ f₁) (h₂ : LooksOnlyAt os₂ f₂)
    (hd₁ : ∀ p ∈ g₂.map (·.1), p ∉ os₁) (hd₂ : ∀ p ∈ g₁.map (·.1), p ∉ os₂) :
    gridIntegral (g₁ ++ g₂) (fun z => f₁ z * f₂ z) x =
      gridIntegral g₁ f₁ x * gridIntegral g₂ f₂ x := by
  induction g₁ generalizing x with
  | nil =>
    exact gridIntegral_const_mul g₂ f₁ f₂ x (fun z w hzw => h₁ z w (fun o ho => hzw o (fun hg =>
      hd₁ o hg ho)))
  | cons a g₁ ih =>
    obtain ⟨o, r⟩ := a
    simp only [List.cons_append, gridIntegral]
    rw [← gridIntegral1_mul_right]
    congr 1
    funext v
    rw [ih _ (fun p hp => hd₂ p (by simp only [List.map_cons, List.mem_cons]; exact Or.inr hp))]
    congr 1
    refine gridIntegral_congr g₂ f₂ _ _ (fun z w hzw he => h₂ z w (fun p hp => ?_))
    by_cases hpg : p ∈ g₂.map (·.1)
    · exact he p hpg
    · have := hzw p hpg
      have hne : p ≠ o := fun h => hd₂ o (by simp) (h ▸ hp)
      rw [this.1, this.2]
      simp [hne]

theorem looksOnlyAt_prod (fs : List (List Nat × ((Nat → K) → K)))
    (h : ∀ p ∈ fs, LooksOnlyAt p.1 p.2) :
    LooksOnlyAt (fs.flatMap (·.1)) (fun z => (fs.map fun p => p.2 z).prod) := by
  intro x y hxy
  have : (fs.map fun p => p.2 x) = fs.map fun p => p.2 y := by
    apply List.map_congr_left
    intro p hp
    exact h p hp x y (fun o ho => hxy o (List.mem_flatMap.2 ⟨p, hp, ho⟩))
  show (fs.map fun p => p.2 x).prod = _
  rw [this]

/-- Integral of a product of functions of pairwise disjoint sets of observables. -/
theorem gridIntegral_prod (range : Nat → Range K) :
    ∀ (fs : List (List Nat × ((Nat → K) → K))) (x : Nat → K),
      (∀ p ∈ fs, LooksOnlyAt p.1 p.2) → (fs.map (·.1)).Pairwise (fun a b => ∀ o ∈ a, o ∉ b) →
      gridIntegral ((fs.flatMap (·.1)).map fun o => (o, range o))
        (fun z => (fs.map fun p => p.2 z).prod) x =
      (fs.map fun p => gridIntegral (p.1.map fun o => (o, range o)) p.2 x).prod
  | [], x, _, _ => rfl
  | p :: fs, x, h, hd => by
    rw [List.map_cons, List.pairwise_cons] at hd
    have ih := gridIntegral_prod range fs x (fun q hq => h q (by simp [hq])) hd.2
    have hd' : ∀ o ∈ p.1, o ∉ fs.flatMap (·.1) := by
      intro o ho hc
      obtain ⟨q, hq, hoq⟩ := List.mem_flatMap.1 hc
      exact hd.1 q.1 (List.mem_map.2 ⟨q, hq, rfl⟩) o ho hoq
    rw [List.flatMap_cons, List.map_append, List.map_cons, List.prod_cons, ← ih]
    simp only [List.map_cons, List.prod_cons]
    refine gridIntegral_mul _ _ p.2 (fun z => (fs.map fun p => p.2 z).prod) x p.1 (fs.flatMap (·.1))
      (h p (by simp)) (looksOnlyAt_prod fs (fun q hq => h q (by simp [hq]))) ?_ ?_
    · intro o ho hop
      rw [List.map_map] at ho
      obtain ⟨o', ho', rfl⟩ := List.mem_map.1 ho
      exact hd' _ hop ho'
    · intro o ho hc
      rw [List.map_map] at ho
      obtain ⟨o', ho', rfl⟩ := List.mem_map.1 ho
      exact hd' _ ho' hc

theorem normalizeList_length {L : Lib K} (flags : NormFlags) (w : Nat → K) (numeric : Pdf L → K) :
    ∀ cs : List (Pdf L), ((normalizeList flags w numeric cs).map (·.2)).length = cs.length
  | [] => rfl
  | c :: cs => by
    rw [normalizeList, List.map_cons, List.length_cons, normalizeList_length flags w numeric cs]
    rfl

/-! ### overlap detection -/

theorem overlapLoop_iff : ∀ (l : List (List Nat)) (check : List Nat),
    overlapLoop check l = true ↔
      ∃ (k : Nat) (a b : List Nat), (check :: l)[k]? = some a ∧ (check :: l)[k + 1]? = some b ∧
        ∃ o ∈ b, o ∈ a
  | [], check => by
    constructor
    · intro h; simp [overlapLoop] at h
    · rintro ⟨k, a, b, _, h2, _⟩
      simp at h2
  | cur :: rest, check => by
    rw [overlapLoop]
    have hany : (cur.any fun o => check.contains o) = true ↔ ∃ o ∈ cur, o ∈ check := by
      simp [List.any_eq_true]
    by_cases h : (cur.any fun o => check.contains o) = true
    · rw [if_pos h]
      obtain ⟨o, h1, h2⟩ := hany.1 h
      simp only [true_iff]
      exact ⟨0, check, cur, rfl, rfl, o, h1, h2⟩
    · rw [if_neg h, overlapLoop_iff rest cur]
      constructor
      · rintro ⟨k, a, b, h1, h2, h3⟩
        exact ⟨k + 1, a, b, h1, h2, h3⟩
      · rintro ⟨k, a, b, h1, h2, h3⟩
        cases k with
        | zero =>
          exfalso
          simp only [List.getElem?_cons_zero, Option.some.injEq, Nat.zero_add,
            List.getElem?_cons_succ] at h1 h2
          subst h1 h2
          exact h (hany.2 h3)
        | succ k => exact ⟨k, a, b, h1, h2, h3⟩

end GooFit
