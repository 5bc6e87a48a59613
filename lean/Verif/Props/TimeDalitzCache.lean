import Verif.Props.TimeDalitz

/-!
# C65: cached integrals and fit fractions of time-dependent amplitudes
-/

set_option autoImplicit false

namespace GooFit

open Spec TdModel

section
variable {P : Type}

/-- Two cells agree as far as `S` says. -/
theorem fracCell_good (m : TdModel P) (S : Three → Three → Prop) (redo : Nat → Bool) (p : P)
    (hrefl : ∀ i j, S (m.compute p i j) (m.compute p i j)) (hconj : ∀ i j, S (conj3 (m.compute p i j)) (m.compute p j i))
    (X : Nat → Nat → Three) (i j a b : Nat)
    (hX : (redo a || redo b) = false → S (X a b) (m.compute p a b)) :
    ((redo a || redo b) = false → S (m.fracCell redo p X i j a b) (m.compute p a b))
    ∧ (S (X a b) (m.compute p a b) → S (m.fracCell redo p X i j a b) (m.compute p a b))
    ∧ ((redo a || redo b) = true → a = i → b = j → S (m.fracCell redo p X i j a b) (m.compute p a b)) := by
  have main : S (X a b) (m.compute p a b) → S (m.fracCell redo p X i j a b) (m.compute p a b) := by
    intro h
    unfold fracCell
    split
    · exact h
    · dsimp only
      split
      · rename_i hij
        unfold setCell
        by_cases h1 : a = j ∧ b = i
        · rw [if_pos h1, if_pos ⟨rfl, rfl⟩, h1.1, h1.2]; exact hconj _ _
        · rw [if_neg h1]
          by_cases h2 : a = i ∧ b = j
          · rw [if_pos h2, h2.1, h2.2]; exact hrefl _ _
          · rw [if_neg h2]; exact h
      · unfold setCell
        by_cases h2 : a = i ∧ b = j
        · rw [if_pos h2, h2.1, h2.2]; exact hrefl _ _
        · rw [if_neg h2]; exact h
  refine ⟨fun h => main (hX h), main, ?_⟩
  rintro hr rfl rfl
  unfold fracCell
  rw [if_neg]
  · split
    · rename_i hij
      unfold setCell
      rw [if_neg (fun h => hij h.1), if_pos ⟨rfl, rfl⟩]
      exact hrefl _ _
    · unfold setCell
      rw [if_pos ⟨rfl, rfl⟩]
      exact hrefl _ _
  · cases h1 : redo a <;> cases h2 : redo b <;> simp_all

theorem fracStep_good (m : TdModel P) (S : Three → Three → Prop) (changed : Nat → Bool) (p : P) (s : TdState)
    (hrefl : ∀ i j, S (m.compute p i j) (m.compute p i j)) (hconj : ∀ i j, S (conj3 (m.compute p i j)) (m.compute p j i))
    (hX : ∀ i j, i < m.n → j < m.n → ((s.force || changed i) || (s.force || changed j)) = false →
      S (s.integrals i j) (m.compute p i j)) :
    ∀ i j, i < m.n → j < m.n → S ((m.fracStep changed p s).integrals i j) (m.compute p i j) := by
  intro a b ha hb
  unfold fracStep
  dsimp only
  generalize hrd : (fun i => s.force || changed i) = redo
  have hX' : (redo a || redo b) = false → S (s.integrals a b) (m.compute p a b) := by
    intro h; rw [← hrd] at h; exact hX a b ha hb h
  generalize s.integrals = X at hX'
  clear hX hrd
  -- invariant of the loops
  have inner : ∀ (i : Nat) (l : List Nat) (X : Nat → Nat → Three),
      ((redo a || redo b) = false → S (X a b) (m.compute p a b)) →
      ((redo a || redo b) = false → S (l.foldl (fun X j => m.fracCell redo p X i j) X a b) (m.compute p a b))
      ∧ (S (X a b) (m.compute p a b) → S (l.foldl (fun X j => m.fracCell redo p X i j) X a b) (m.compute p a b))
      ∧ ((redo a || redo b) = true → a = i → b ∈ l →
          S (l.foldl (fun X j => m.fracCell redo p X i j) X a b) (m.compute p a b)) := by
    intro i l
    induction l with
    | nil => intro X h; exact ⟨h, id, fun _ _ h => absurd h (by simp)⟩
    | cons j l ih =>
      intro X h
      obtain ⟨c1, c2, c3⟩ := fracCell_good m S redo p hrefl hconj X i j a b h
      obtain ⟨d1, d2, d3⟩ := ih (m.fracCell redo p X i j) c1
      refine ⟨d1, fun h => d2 (c2 h), fun hr hi hm => ?_⟩
      rcases List.mem_cons.1 hm with e | e
      · exact d2 (c3 hr hi e)
      · exact d3 hr hi e
  have outer : ∀ (l : List Nat) (X : Nat → Nat → Three),
      ((redo a || redo b) = false → S (X a b) (m.compute p a b)) →
      ((redo a || redo b) = false → S (l.foldl (fun X i => (List.range m.n).foldl (fun X j => m.fracCell redo p X i j) X) X a b)
        (m.compute p a b))
      ∧ (S (X a b) (m.compute p a b) →
        S (l.foldl (fun X i => (List.range m.n).foldl (fun X j => m.fracCell redo p X i j) X) X a b) (m.compute p a b))
      ∧ ((redo a || redo b) = true → a ∈ l →
          S (l.foldl (fun X i => (List.range m.n).foldl (fun X j => m.fracCell redo p X i j) X) X a b) (m.compute p a b)) := by
    intro l
    induction l with
    | nil => intro X h; exact ⟨h, id, fun _ h => absurd h (by simp)⟩
    | cons i l ih =>
      intro X h
      obtain ⟨c1, c2, c3⟩ := inner i (List.range m.n) X h
      obtain ⟨d1, d2, d3⟩ := ih _ c1
      refine ⟨d1, fun h => d2 (c2 h), fun hr hm => ?_⟩
      rcases List.mem_cons.1 hm with e | e
      · exact d2 (c3 hr e (List.mem_range.2 hb))
      · exact d3 hr e
  obtain ⟨o1, _, o3⟩ := outer (List.range m.n) X hX'
  cases hr : (redo a || redo b) with
  | false => exact o1 hr
  | true => exact o3 hr (List.mem_range.2 ha)

/-- Parameters at the last use of the integrals. -/
def tdLast : Option P → List (Op P) → Option P
  | q, [] => q
  | q, .setForce :: ops => tdLast q ops
  | _, .normalize _ p :: ops => tdLast (some p) ops
  | _, .getFractions _ p :: ops => tdLast (some p) ops

theorem compute_congr (m : TdModel P) (p q : P) (i j : Nat) (hi : m.resonance p i = m.resonance q i)
    (hj : m.resonance p j = m.resonance q j) : m.compute p i j = m.compute q i j := by
  unfold compute; rw [hi, hj]

/-- The invariant of all honest histories. -/
theorem td_invariant (m : TdModel P) (S : Three → Three → Prop) (hrefl : ∀ t, S t t)
    (hconj : ∀ p i j, S (conj3 (m.compute p i j)) (m.compute p j i)) :
    ∀ (ops : List (Op P)) (q : Option P) (s : TdState), TdHonest m q ops →
      (q = none → s.force = true) →
      (∀ q', q = some q' → ∀ i j, i < m.n → j < m.n → S (s.integrals i j) (m.compute q' i j)) →
      ∀ p, tdLast q ops = some p → ∀ i j, i < m.n → j < m.n → S ((ops.foldl m.step s).integrals i j) (m.compute p i j) := by
  intro ops
  induction ops with
  | nil => intro q s _ _ h2 p hp; exact h2 p hp
  | cons op ops ih =>
    intro q s hh h1 h2 p hp
    have keep : ∀ (c : Nat → Bool) (p : P),
        (∀ q', q = some q' → ∀ i, i < m.n → c i = false → m.resonance p i = m.resonance q' i) →
        ∀ i j, i < m.n → j < m.n → ((s.force || c i) || (s.force || c j)) = false →
          S (s.integrals i j) (m.compute p i j) := by
      intro c p hc i j hi hj hf
      cases hq : q with
      | none => rw [h1 hq] at hf; simp at hf
      | some q' =>
        have hci : c i = false := by cases h : c i <;> simp_all
        have hcj : c j = false := by cases h : c j <;> simp_all
        rw [compute_congr m p q' i j (hc q' hq i hi hci) (hc q' hq j hj hcj)]
        exact h2 q' hq i j hi hj
    cases op with
    | setForce => exact ih q { s with force := true } hh (fun _ => rfl) h2 p hp
    | normalize c p' =>
      obtain ⟨hc, hh⟩ := hh
      refine ih (some p') (m.normStep c p' s) hh (fun h => absurd h (by simp)) ?_ p hp
      intro q' hq' i j hi hj
      obtain rfl := Option.some.inj hq'
      unfold normStep
      dsimp only
      split
      · exact hrefl _
      · rename_i hn
        refine keep c p' hc i j hi hj ?_
        by_contra hx
        apply hn
        refine ⟨hi, hj, ?_⟩
        cases h1 : (s.force || c i) <;> cases h2 : (s.force || c j) <;> simp_all
    | getFractions c p' =>
      obtain ⟨hc, hh⟩ := hh
      refine ih (some p') (m.fracStep c p' s) hh (fun h => absurd h (by simp)) ?_ p hp
      intro q' hq'
      obtain rfl := Option.some.inj hq'
      exact fracStep_good m S c p' s (fun _ _ => hrefl _) (hconj p') (keep c p' hc)

theorem conj_gridSum (m : TdModel P) (f : ℝ → ℝ → ℂ) :
    starRingEnd ℂ (gridSum m f) = gridSum m fun a b => starRingEnd ℂ (f a b) := by
  unfold gridSum
  rw [map_sum]
  refine Finset.sum_congr rfl fun g _ => ?_
  split <;> simp

theorem conj_fst (m : TdModel P) (p : P) (i j : Nat) : (conj3 (m.compute p i j)).1 = (m.compute p j i).1 := by
  show starRingEnd ℂ _ = _
  rw [compute_fst, compute_fst, conj_gridSum]
  congr 1
  funext a b
  simp [mul_comm]

theorem conj_snd (m : TdModel P) (p : P) (i j : Nat) : (conj3 (m.compute p i j)).2.2 = (m.compute p j i).2.2 := by
  show starRingEnd ℂ _ = _
  rw [compute_snd, compute_snd, conj_gridSum]
  congr 1
  funext a b
  simp [mul_comm]

/-- The Dalitz plot is treated alike in `m12` and `m13`. -/
structure TdSymmetric (m : TdModel P) : Prop where
  lo : m.range.lo12 = m.range.lo13
  hi : m.range.hi12 = m.range.hi13
  nb : m.range.nb12 = m.range.nb13
  inside : ∀ a b, m.inside a b = m.inside b a
  eff : ∀ a b, m.eff a b = m.eff b a

/-- On a symmetric grid the sum does not change when the masses are exchanged. -/
theorem gridSum_swap (m : TdModel P) (h : TdSymmetric m) (f : ℝ → ℝ → ℂ) : gridSum m f = gridSum m fun a b => f b a := by
  obtain ⟨n, res, inside, eff, r⟩ := m
  obtain ⟨lo12, hi12, nb12, lo13, hi13, nb13⟩ := r
  obtain ⟨h1, h2, h3, h4, h5⟩ := h
  dsimp only at h1 h2 h3 h4 h5
  subst h1 h2 h3
  unfold gridSum
  dsimp only
  rcases Nat.eq_zero_or_pos nb12 with h0 | h0
  · subst h0; simp
  refine Finset.sum_nbij' (fun g => g / nb12 + nb12 * (g % nb12)) (fun g => g / nb12 + nb12 * (g % nb12)) ?_ ?_ ?_ ?_ ?_
  · intro g hg
    have a1 : g / nb12 < nb12 := Nat.div_lt_of_lt_mul (Finset.mem_range.1 hg)
    have a2 : g % nb12 < nb12 := Nat.mod_lt _ h0
    rw [Finset.mem_range]
    calc g / nb12 + nb12 * (g % nb12) < nb12 + nb12 * (g % nb12) := by omega
      _ = nb12 * (g % nb12 + 1) := by ring
      _ ≤ nb12 * nb12 := Nat.mul_le_mul_left _ a2
  · intro g hg
    have a1 : g / nb12 < nb12 := Nat.div_lt_of_lt_mul (Finset.mem_range.1 hg)
    have a2 : g % nb12 < nb12 := Nat.mod_lt _ h0
    rw [Finset.mem_range]
    calc g / nb12 + nb12 * (g % nb12) < nb12 + nb12 * (g % nb12) := by omega
      _ = nb12 * (g % nb12 + 1) := by ring
      _ ≤ nb12 * nb12 := Nat.mul_le_mul_left _ a2
  · intro g hg
    have a1 : g / nb12 < nb12 := Nat.div_lt_of_lt_mul (Finset.mem_range.1 hg)
    rw [Nat.add_mul_div_left _ _ h0, Nat.add_mul_mod_self_left, Nat.div_eq_of_lt a1, Nat.mod_eq_of_lt a1, zero_add]
    exact Nat.mod_add_div g nb12
  · intro g hg
    have a1 : g / nb12 < nb12 := Nat.div_lt_of_lt_mul (Finset.mem_range.1 hg)
    rw [Nat.add_mul_div_left _ _ h0, Nat.add_mul_mod_self_left, Nat.div_eq_of_lt a1, Nat.mod_eq_of_lt a1, zero_add]
    exact Nat.mod_add_div g nb12
  · intro g hg
    have a1 : g / nb12 < nb12 := Nat.div_lt_of_lt_mul (Finset.mem_range.1 hg)
    unfold TdRange.point
    dsimp only
    rw [Nat.add_mul_div_left _ _ h0, Nat.add_mul_mod_self_left, Nat.div_eq_of_lt a1, Nat.mod_eq_of_lt a1, zero_add]
    have hh : ∀ u v, (if inside u v = true then (eff u v : ℂ) * f u v else 0)
        = if inside v u = true then (eff v u : ℂ) * f u v else 0 := by
      intro u v
      simp only [h4 u v, h5 u v]
    exact hh _ _

theorem conj_mid (m : TdModel P) (h : TdSymmetric m) (p : P) (i j : Nat) :
    (conj3 (m.compute p i j)).2.1 = (m.compute p j i).2.1 := by
  show starRingEnd ℂ _ = _
  rw [compute_mid, compute_mid, conj_gridSum, gridSum_swap m h]
  congr 1
  funext a b
  simp [mul_comm]

theorem tdCoherent_congr (n : Nat) (c : Nat → ℂ) (X Y : Nat → Nat → Three)
    (h : ∀ i j, i < n → j < n → X i j = Y i j) : tdCoherent n c X = tdCoherent n c Y := by
  unfold tdCoherent
  refine Finset.sum_congr rfl fun i hi => Finset.sum_congr rfl fun j hj => ?_
  rw [h i j (Finset.mem_range.1 hi) (Finset.mem_range.1 hj)]

/-- **C65 (cached integrals, partial).**  In every history of evaluations, calls of `getFractions` and forced
recomputations that reports changed parameters truthfully, the integrals used by a normalisation are those of a freshly
constructed PDF with the same parameters, if the grid, the boundary and the efficiency are symmetric in `m12` and `m13`.
Missing: without symmetry `getFractions` destroys them; see `C65_violation_asymmetric`. -/
theorem C65_integrals_partial (m : TdModel P) (hs : TdSymmetric m) (ops : List (Op P)) (changed : Nat → Bool) (p : P)
    (hh : TdHonest m none (ops ++ [.normalize changed p])) (c : Nat → ℂ) :
    tdCoherent m.n c (m.run (ops ++ [.normalize changed p])).integrals = tdCoherent m.n c (m.compute p) := by
  refine tdCoherent_congr _ _ _ _ fun i j hi hj => ?_
  refine td_invariant m (fun a b => a = b) (fun _ => rfl)
    (fun p i j => Prod.ext (conj_fst m p i j) (Prod.ext (conj_mid m hs p i j) (conj_snd m p i j)))
    (ops ++ [.normalize changed p]) none init hh (fun _ => rfl) (fun _ h => absurd h (by simp)) p ?_ i j hi hj
  have : ∀ (l : List (Op P)) (q : Option P), tdLast q (l ++ [.normalize changed p]) = some p := by
    intro l
    induction l with
    | nil => intro q; rfl
    | cons o l ih => intro q; cases o <;> exact ih _
  exact this ops none

/-- **C65 (without `getFractions`).**  The same without any symmetry, for histories that do not ask for fractions. -/
theorem C65_integrals_no_fractions (m : TdModel P) (ops : List (Op P)) (changed : Nat → Bool) (p : P)
    (hn : ∀ c p, Op.getFractions c p ∉ ops)
    (hh : TdHonest m none (ops ++ [.normalize changed p])) (c : Nat → ℂ) :
    tdCoherent m.n c (m.run (ops ++ [.normalize changed p])).integrals = tdCoherent m.n c (m.compute p) := by
  refine tdCoherent_congr _ _ _ _ fun i j hi hj => ?_
  have main : ∀ (l : List (Op P)) (q : Option P) (s : TdState), (∀ c p, Op.getFractions c p ∉ l) →
      TdHonest m q (l ++ [.normalize changed p]) → (q = none → s.force = true) →
      (∀ q', q = some q' → ∀ i j, i < m.n → j < m.n → s.integrals i j = m.compute q' i j) →
      ∀ i j, i < m.n → j < m.n → ((l ++ [Op.normalize changed p]).foldl m.step s).integrals i j = m.compute p i j := by
    have one : ∀ (q : Option P) (s : TdState) (c : Nat → Bool) (p : P),
        (∀ q', q = some q' → ∀ i, i < m.n → c i = false → m.resonance p i = m.resonance q' i) →
        (q = none → s.force = true) →
        (∀ q', q = some q' → ∀ i j, i < m.n → j < m.n → s.integrals i j = m.compute q' i j) →
        ∀ i j, i < m.n → j < m.n → (m.normStep c p s).integrals i j = m.compute p i j := by
      intro q s c p hc h1 h2 i j hi hj
      unfold normStep
      dsimp only
      split
      · rfl
      · rename_i hn
        cases hq : q with
        | none => exfalso; apply hn; rw [h1 hq]; simp [hi, hj]
        | some q' =>
          have hb : ((s.force || c i) || (s.force || c j)) = false := by
            by_contra hx
            apply hn
            refine ⟨hi, hj, ?_⟩
            cases h1 : (s.force || c i) <;> cases h2 : (s.force || c j) <;> simp_all
          have hci : c i = false := by cases h : c i <;> simp_all
          have hcj : c j = false := by cases h : c j <;> simp_all
          rw [compute_congr m p q' i j (hc q' hq i hi hci) (hc q' hq j hj hcj)]
          exact h2 q' hq i j hi hj
    intro l
    induction l with
    | nil => intro q s _ hh h1 h2; exact one q s changed p hh.1 h1 h2
    | cons o l ih =>
      intro q s hn hh h1 h2
      have hn' : ∀ c p, Op.getFractions c p ∉ l := fun c p h => hn c p (List.mem_cons_of_mem _ h)
      cases o with
      | setForce => exact ih q { s with force := true } hn' hh (fun _ => rfl) h2
      | getFractions c p' => exact absurd List.mem_cons_self (hn c p')
      | normalize c p' =>
        refine ih (some p') (m.normStep c p' s) hn' hh.2 (fun h => absurd h (by simp)) ?_
        intro q' hq'
        obtain rfl := Option.some.inj hq'
        exact one q s c p' hh.1 h1 h2
  exact main ops none init hn hh (fun _ => rfl) (fun _ h => absurd h (by simp)) i j hi hj

/-- **C65 (fractions, partial).**  In every history that reports changes truthfully the matrix returned by
`getFractions` holds, for each pair of resonances, the real part of the grid sum of the efficiency times one
contribution times the conjugate of the other, and its entries add up to the grid sum of the whole intensity.  No symmetry is
needed.  Missing: these are not yet fractions, see `C65_violation_fractions`. -/
theorem C65_fractions_partial (m : TdModel P) (ops : List (Op P)) (changed : Nat → Bool) (p : P)
    (hh : TdHonest m none (ops ++ [.getFractions changed p])) (c : Nat → ℂ) :
    (∀ i j, i < m.n → j < m.n → fractions c (m.run (ops ++ [.getFractions changed p])) i j
      = (gridSum m fun a b => (c i * m.resonance p i a b) * starRingEnd ℂ (c j * m.resonance p j a b)).re)
    ∧ ∑ i ∈ Finset.range m.n, ∑ j ∈ Finset.range m.n, fractions c (m.run (ops ++ [.getFractions changed p])) i j
      = (gridSum m fun a b => (Complex.normSq (tdAmplitude m c p a b) : ℂ)).re := by
  have hl : ∀ (l : List (Op P)) (q : Option P), tdLast q (l ++ [.getFractions changed p]) = some p := by
    intro l
    induction l with
    | nil => intro q; rfl
    | cons o l ih => intro q; cases o <;> exact ih _
  have key : ∀ i j, i < m.n → j < m.n →
      ((m.run (ops ++ [.getFractions changed p])).integrals i j).1 = (m.compute p i j).1 := by
    intro i j hi hj
    exact td_invariant m (fun a b => a.1 = b.1) (fun _ => rfl) (fun p i j => conj_fst m p i j)
      (ops ++ [.getFractions changed p]) none init hh (fun _ => rfl) (fun _ h => absurd h (by simp)) p (hl ops none) i j hi hj
  have hij : ∀ i j, i < m.n → j < m.n → c i * starRingEnd ℂ (c j) * ((m.run (ops ++ [.getFractions changed p])).integrals i j).1
      = gridSum m fun a b => (c i * m.resonance p i a b) * starRingEnd ℂ (c j * m.resonance p j a b) := by
    intro i j hi hj
    rw [key i j hi hj, compute_fst]
    unfold gridSum
    rw [Finset.mul_sum]
    refine Finset.sum_congr rfl fun g _ => ?_
    split
    · dsimp only; rw [map_mul]; ring
    · simp
  constructor
  · intro i j hi hj
    unfold fractions
    rw [hij i j hi hj]
  · have hsum : ∑ i ∈ Finset.range m.n, ∑ j ∈ Finset.range m.n,
        c i * starRingEnd ℂ (c j) * ((m.run (ops ++ [.getFractions changed p])).integrals i j).1
        = gridSum m fun a b => (Complex.normSq (tdAmplitude m c p a b) : ℂ) := by
      rw [Finset.sum_congr rfl fun i hi => Finset.sum_congr rfl fun j hj => by
        rw [key i j (Finset.mem_range.1 hi) (Finset.mem_range.1 hj), compute_fst]]
      rw [gridSum_double m c m.n (m.resonance p) (m.resonance p)]
      congr 1
      funext a b
      rw [Complex.mul_conj]
      rfl
    rw [← hsum, Complex.re_sum]
    refine Finset.sum_congr rfl fun i _ => ?_
    rw [Complex.re_sum]
    rfl

end

/-! ### Examples and violations -/

/-- Two resonances on a grid of two by one bins, of different ranges. -/
noncomputable def exTd : TdModel Unit :=
  ⟨2, fun _ i a b => if i = 0 then 1 else (a : ℂ), fun _ _ => true, fun _ _ => 1, ⟨0, 2, 2, 0, 1, 1⟩⟩

/-- Two resonances on a symmetric grid. -/
noncomputable def exTdSym : TdModel Nat :=
  ⟨2, fun p i a b => (p : ℂ) + if i = 0 then (b : ℂ) else (a : ℂ), fun a b => decide (a + b ≤ 2), fun a b => a * b,
    ⟨0, 2, 3, 0, 2, 3⟩⟩

theorem exTdSym_symmetric : TdSymmetric exTdSym :=
  ⟨rfl, rfl, rfl, fun a b => by simp only [exTdSym, add_comm], fun a b => mul_comm a b⟩

example (c : Nat → ℂ) := C65_integrals_partial exTdSym exTdSym_symmetric
  [.normalize (fun _ => false) 3, .getFractions (fun _ => true) 4, .setForce] (fun _ => false) 4
  ⟨fun _ h => absurd h (by simp), fun _ _ _ _ h => absurd h (by simp), fun q h i _ _ => by
    obtain rfl := Option.some.inj h; rfl, trivial⟩ c

example (c : Nat → ℂ) := C65_fractions_partial exTd [.normalize (fun _ => false) ()] (fun _ => false) ()
  ⟨fun _ h => absurd h (by simp), fun q h i _ _ => by rfl, trivial⟩ c

/-- **C65, violation (asymmetric plots).**  For a plot that is not treated alike in `m12` and `m13`, here by the ranges of
the two observables, asking for the fractions right after construction changes the integrals, and with
them the normalisation, of all later evaluations with unchanged parameters: the integral of `A_i B_j*` is filled in as
the conjugate of the one of `A_j B_i*`. -/
theorem C65_violation_asymmetric :
    tdCoherent exTd.n (fun i => if i = 0 then 1 else Complex.I)
        (exTd.run [.getFractions (fun _ => false) (), .normalize (fun _ => false) ()]).integrals
      ≠ tdCoherent exTd.n (fun i => if i = 0 then 1 else Complex.I) (exTd.compute ()) := by
  have hr : List.range exTd.n = [0, 1] := rfl
  have hn : exTd.n = 2 := rfl
  have x00 : (exTd.run [.getFractions (fun _ => false) (), .normalize (fun _ => false) ()]).integrals 0 0
      = exTd.compute () 0 0 := by
    simp [run, step, fracStep, hr, fracCell, setCell, normStep, init]
  have x01 : (exTd.run [.getFractions (fun _ => false) (), .normalize (fun _ => false) ()]).integrals 0 1
      = conj3 (exTd.compute () 1 0) := by
    simp [run, step, fracStep, hr, fracCell, setCell, normStep, init]
  have x10 : (exTd.run [.getFractions (fun _ => false) (), .normalize (fun _ => false) ()]).integrals 1 0
      = exTd.compute () 1 0 := by
    simp [run, step, fracStep, hr, fracCell, setCell, normStep, init]
  have x11 : (exTd.run [.getFractions (fun _ => false) (), .normalize (fun _ => false) ()]).integrals 1 1
      = exTd.compute () 1 1 := by
    simp [run, step, fracStep, hr, fracCell, setCell, normStep, init]
  have g01 : (exTd.compute () 0 1).2.1 = 1 := by
    rw [compute_mid]; simp [gridSum, exTd, TdRange.point, Finset.sum_range_succ]; 
    norm_num; rw [map_ofNat]; norm_num
  have g10 : (exTd.compute () 1 0).2.1 = 2 := by
    rw [compute_mid]; simp [gridSum, exTd, TdRange.point, Finset.sum_range_succ]; norm_num
  intro hcon
  have h := congrArg (fun t : Three => t.2.1) hcon
  unfold tdCoherent at h
  simp only [hn, Finset.sum_range_succ, Finset.sum_range_zero, zero_add, x00, x01, x10, x11, Prod.snd_add, Prod.fst_add,
    g01, g10, conj3] at h
  have h' := congrArg Complex.im h
  simp at h'
  linarith

/-- **C65, violation (not fractions).**  The returned numbers are not divided by the total: for a single resonance, whose
fraction is one, the result is the grid sum of its intensity, here four. -/
theorem C65_violation_fractions :
    ∃ (m : TdModel Unit) (c : Nat → ℂ), m.n = 1 ∧ fractions c (m.run [.getFractions (fun _ => false) ()]) 0 0 = 4 := by
  refine ⟨⟨1, fun _ _ _ _ => 2, fun _ _ => true, fun _ _ => 1, ⟨0, 1, 1, 0, 1, 1⟩⟩, fun _ => 1, rfl, ?_⟩
  have h := (C65_fractions_partial (P := Unit) ⟨1, fun _ _ _ _ => 2, fun _ _ => true, fun _ _ => 1, ⟨0, 1, 1, 0, 1, 1⟩⟩ []
    (fun _ => false) () ⟨fun _ h => absurd h (by simp), trivial⟩ (fun _ => 1)).1 0 0 one_pos one_pos
  simp only [List.nil_append] at h
  rw [h]
  simp [gridSum]
  norm_num

end GooFit
