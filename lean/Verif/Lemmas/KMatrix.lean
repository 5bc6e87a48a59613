import Verif.Model.KMatrix
import Mathlib.Algebra.BigOperators.Intervals
import Mathlib.Algebra.BigOperators.Fin
import Mathlib.LinearAlgebra.Matrix.NonsingularInverse
import Mathlib.LinearAlgebra.Matrix.Block
import Mathlib.Tactic.LinearCombination
import Mathlib.Tactic.Linarith

set_option autoImplicit false

namespace GooFit

section Fold
variable {C ι : Type}

/-- A loop that assigns every position once, where the value assigned does not
depend on the positions still to be assigned: the final array satisfies all the
assignments as equations. -/
theorem foldUpd_spec (f : ι → Nat × Nat) (v : Arr2 C → ι → C) :
    ∀ (ks : List ι) (X : Arr2 C), (ks.map f).Nodup →
    (∀ pre k post, ks = pre ++ k :: post → ∀ X Y : Arr2 C,
      (∀ i j, (i, j) ∉ (k :: post).map f → X i j = Y i j) → v X k = v Y k) →
    (∀ k ∈ ks, (ks.foldl (fun X k => upd2 X (f k).1 (f k).2 (v X k)) X) (f k).1 (f k).2
        = v (ks.foldl (fun X k => upd2 X (f k).1 (f k).2 (v X k)) X) k) ∧
    (∀ i j, (i, j) ∉ ks.map f →
      (ks.foldl (fun X k => upd2 X (f k).1 (f k).2 (v X k)) X) i j = X i j) := by
  intro ks
  induction ks with
  | nil => intro X _ _; exact ⟨fun k hk => absurd hk (by simp), fun i j _ => rfl⟩
  | cons k post ih =>
    intro X hnd hv
    rw [List.map_cons, List.nodup_cons] at hnd
    obtain ⟨h1, h2⟩ := ih (upd2 X (f k).1 (f k).2 (v X k)) hnd.2
      (fun pre k' post' h => hv (k :: pre) k' post' (by rw [h]; rfl))
    rw [List.foldl_cons]
    refine ⟨fun k' hk' => ?_, fun i j hij => ?_⟩
    · rcases List.mem_cons.1 hk' with h | h
      · subst h
        rw [h2 _ _ hnd.1]
        have : upd2 X (f k').1 (f k').2 (v X k') (f k').1 (f k').2 = v X k' := by simp [upd2]
        rw [this]
        refine hv [] k' post rfl _ _ (fun i j hij => ?_)
        rw [List.map_cons, List.mem_cons, not_or] at hij
        rw [h2 i j hij.2]
        have : ¬ (i = (f k').1 ∧ j = (f k').2) := fun h => hij.1 (by rw [h.1, h.2])
        simp [upd2, this]
      · exact h1 k' h
    · rw [List.map_cons, List.mem_cons, not_or] at hij
      rw [h2 i j hij.2]
      have : ¬ (i = (f k).1 ∧ j = (f k).2) := fun h => hij.1 (by rw [h.1, h.2])
      simp [upd2, this]

/-- A loop over columns whose body only changes the current column. -/
theorem foldCols_spec (step : Arr2 C → Nat → Arr2 C) (good : Nat → (Nat → C) → Prop)
    (h1 : ∀ X c i j, j ≠ c → step X c i j = X i j)
    (h2 : ∀ X c, good c (fun i => step X c i c)) :
    ∀ (cs : List Nat) (X : Arr2 C), cs.Nodup →
      (∀ c ∈ cs, good c (fun i => cs.foldl step X i c)) ∧
      (∀ i j, j ∉ cs → cs.foldl step X i j = X i j) := by
  intro cs
  induction cs with
  | nil => intro X _; exact ⟨fun c hc => absurd hc (by simp), fun _ _ _ => rfl⟩
  | cons c cs ih =>
    intro X hnd
    rw [List.nodup_cons] at hnd
    obtain ⟨g1, g2⟩ := ih (step X c) hnd.2
    rw [List.foldl_cons]
    refine ⟨fun c' hc' => ?_, fun i j hj => ?_⟩
    · rcases List.mem_cons.1 hc' with h | h
      · subst h
        have : (fun i => cs.foldl step (step X c') i c') = fun i => step X c' i c' :=
          funext fun i => g2 i c' hnd.1
        rw [this]
        exact h2 X c'
      · exact g1 c' h
    · rw [List.mem_cons, not_or] at hj
      rw [g2 i j hj.2, h1 X c i j hj.1]

end Fold

section Field
variable {C : Type} [Field C]

theorem foldl_add_range (n : Nat) (f : Nat → C) (a : C) :
    (List.range n).foldl (fun s j => s + f j) a = a + ∑ j ∈ Finset.range n, f j := by
  induction n with
  | zero => simp
  | succ n ih => rw [List.range_succ, List.foldl_append, ih, Finset.sum_range_succ]; simp [add_assoc]

theorem sumTo_eq (n : Nat) (f : Nat → C) : sumTo n f = ∑ j ∈ Finset.range n, f j := by
  unfold sumTo; rw [foldl_add_range, zero_add]

theorem foldl_off_range (n row : Nat) (f : Nat → C) (a : C) :
    (List.range n).foldl (fun s i => if i ≠ row then s + f i else s) a
      = a + ∑ i ∈ Finset.range n, if i = row then 0 else f i := by
  induction n with
  | zero => simp
  | succ n ih =>
    rw [List.range_succ, List.foldl_append, ih, Finset.sum_range_succ]
    by_cases h : n = row
    · simp [h]
    · simp [h, add_assoc]

theorem sumOff_eq (n row : Nat) (f : Nat → C) :
    sumOff n row f = ∑ i ∈ Finset.range n, if i = row then 0 else f i := by
  unfold sumOff; rw [foldl_off_range, zero_add]

theorem sum_off_add (n row : Nat) (f : Nat → C) (h : row < n) :
    (∑ i ∈ Finset.range n, if i = row then 0 else f i) + f row = ∑ i ∈ Finset.range n, f i := by
  have : f row = ∑ i ∈ Finset.range n, if i = row then f i else 0 := by
    rw [Finset.sum_ite_eq' (Finset.range n) row f, if_pos (Finset.mem_range.2 h)]
  rw [this, ← Finset.sum_add_distrib]
  exact Finset.sum_congr rfl fun i _ => by by_cases hi : i = row <;> simp [hi]

/-! ## The decomposition -/

theorem luU_spec (A L U : Arr2 C) (n i : Nat) :
    (∀ k, i ≤ k → k < n → luU A L n i U i k = A i k - ∑ j ∈ Finset.range i, L i j * U j k) ∧
    (∀ a b, ¬ (a = i ∧ i ≤ b ∧ b < n) → luU A L n i U a b = U a b) := by
  have h := foldUpd_spec (C := C) (fun k => (i, k))
    (fun U k => A i k - sumTo i (fun j => L i j * U j k)) (List.range' i (n - i)) U
    (by
      refine List.Nodup.map (fun a b h => ?_) (List.nodup_range')
      exact (Prod.mk.injEq _ _ _ _ ▸ h).2)
    (by
      intro pre k post _ X Y hXY
      rw [sumTo_eq, sumTo_eq]
      congr 1
      refine Finset.sum_congr rfl fun j hj => ?_
      rw [hXY j k (by
        intro hm
        obtain ⟨k', _, hk'⟩ := List.mem_map.1 hm
        have := (Prod.mk.injEq _ _ _ _ ▸ hk').1
        have := Finset.mem_range.1 hj
        omega)])
  have hoff : ∀ a b, ¬ (a = i ∧ i ≤ b ∧ b < n) → luU A L n i U a b = U a b := by
    intro a b hab
    refine h.2 a b (fun hm => ?_)
    obtain ⟨k', hk', he⟩ := List.mem_map.1 hm
    have he' := Prod.mk.injEq _ _ _ _ ▸ he
    rw [List.mem_range'_1] at hk'
    exact hab ⟨he'.1.symm, by omega, by omega⟩
  refine ⟨fun k h1 h2 => ?_, hoff⟩
  have := h.1 k (by rw [List.mem_range'_1]; omega)
  dsimp only at this
  unfold luU
  rw [this, sumTo_eq]
  congr 1
  refine Finset.sum_congr rfl fun j hj => ?_
  have hj := Finset.mem_range.1 hj
  have := hoff j k (by omega)
  unfold luU at this
  rw [this]

theorem luL_spec (A U L : Arr2 C) (n i : Nat) :
    (i < n → luL A U n i L i i = 1) ∧
    (∀ k, i < k → k < n →
      luL A U n i L k i = (A k i - ∑ j ∈ Finset.range i, L k j * U j i) / U i i) ∧
    (∀ a b, ¬ (b = i ∧ i ≤ a ∧ a < n) → luL A U n i L a b = L a b) := by
  have heq : luL A U n i L = (List.range' i (n - i)).foldl
      (fun L k => upd2 L k i
        (if i = k then 1 else (A k i - sumTo i (fun j => L k j * U j i)) / U i i)) L := by
    unfold luL
    congr 1
    funext L k
    by_cases h : i = k
    · subst h; simp
    · simp [h]
  have h := foldUpd_spec (C := C) (fun k => (k, i))
    (fun L k => if i = k then 1 else (A k i - sumTo i (fun j => L k j * U j i)) / U i i)
    (List.range' i (n - i)) L
    (by
      refine List.Nodup.map (fun a b h => ?_) (List.nodup_range')
      exact (Prod.mk.injEq _ _ _ _ ▸ h).1)
    (by
      intro pre k post _ X Y hXY
      rw [sumTo_eq, sumTo_eq]
      congr 3
      refine Finset.sum_congr rfl fun j hj => ?_
      rw [hXY k j (by
        intro hm
        obtain ⟨k', _, hk'⟩ := List.mem_map.1 hm
        have := (Prod.mk.injEq _ _ _ _ ▸ hk').2
        have := Finset.mem_range.1 hj
        omega)])
  rw [heq]
  have hoff : ∀ a b, ¬ (b = i ∧ i ≤ a ∧ a < n) → (List.range' i (n - i)).foldl
      (fun L k => upd2 L k i
        (if i = k then 1 else (A k i - sumTo i (fun j => L k j * U j i)) / U i i)) L a b = L a b := by
    intro a b hab
    refine h.2 a b (fun hm => ?_)
    obtain ⟨k', hk', he⟩ := List.mem_map.1 hm
    have he' := Prod.mk.injEq _ _ _ _ ▸ he
    rw [List.mem_range'_1] at hk'
    exact hab ⟨he'.2.symm, by omega, by omega⟩
  refine ⟨fun hi => ?_, fun k h1 h2 => ?_, hoff⟩
  · have := h.1 i (by rw [List.mem_range'_1]; omega)
    dsimp only at this
    rw [this, if_pos rfl]
  · have := h.1 k (by rw [List.mem_range'_1]; omega)
    dsimp only at this
    rw [this, if_neg (by omega), sumTo_eq]
    congr 2
    refine Finset.sum_congr rfl fun j hj => ?_
    have hj := Finset.mem_range.1 hj
    rw [hoff k j (by omega)]

/-- What `luDecomposition` leaves in `U` and `L`. -/
structure LUEqs (A U L : Arr2 C) (n m : Nat) : Prop where
  upper : ∀ i k, i < m → i ≤ k → k < n → U i k = A i k - ∑ j ∈ Finset.range i, L i j * U j k
  below : ∀ i k, ¬ (i < m ∧ i ≤ k ∧ k < n) → U i k = 0
  unit : ∀ i, i < m → L i i = 1
  lower : ∀ i k, i < m → i < k → k < n →
    L k i = (A k i - ∑ j ∈ Finset.range i, L k j * U j i) / U i i
  above : ∀ i k, ¬ (i < m ∧ i ≤ k ∧ k < n) → L k i = 0

theorem luDecomposition_eqs (A : Arr2 C) (n : Nat) : ∀ m, m ≤ n →
    LUEqs A ((List.range m).foldl (luRound A n) (zero2, zero2)).1
      ((List.range m).foldl (luRound A n) (zero2, zero2)).2 n m := by
  intro m
  induction m with
  | zero =>
    intro _
    exact ⟨fun i k h => absurd h (Nat.not_lt_zero _), fun _ _ _ => rfl,
      fun i h => absurd h (Nat.not_lt_zero _), fun i k h => absurd h (Nat.not_lt_zero _),
      fun _ _ _ => rfl⟩
  | succ m ih =>
    intro hm
    have hE := ih (by omega)
    rw [List.range_succ, List.foldl_append, List.foldl_cons, List.foldl_nil]
    generalize (List.range m).foldl (luRound A n) (zero2, zero2) = UL at hE ⊢
    obtain ⟨U, L⟩ := UL
    dsimp only at hE
    show LUEqs A (luU A L n m U) (luL A (luU A L n m U) n m L) n (m + 1)
    obtain ⟨u1, u2⟩ := luU_spec A L U n m
    generalize hU' : luU A L n m U = U' at u1 u2
    obtain ⟨l1, l2, l3⟩ := luL_spec A U' L n m
    generalize hL' : luL A U' n m L = L' at l1 l2 l3
    constructor
    · intro i k hi hik hk
      rcases Nat.lt_succ_iff_lt_or_eq.1 hi with h | h
      · rw [u2 i k (by omega), hE.upper i k h hik hk]
        congr 1
        refine Finset.sum_congr rfl fun j hj => ?_
        have hj := Finset.mem_range.1 hj
        rw [l3 i j (by omega), u2 j k (by omega)]
      · subst h
        rw [u1 k hik hk]
        congr 1
        refine Finset.sum_congr rfl fun j hj => ?_
        have hj := Finset.mem_range.1 hj
        rw [l3 i j (by omega), u2 j k (by omega)]
    · intro i k hik
      rw [u2 i k (by omega), hE.below i k (by omega)]
    · intro i hi
      rcases Nat.lt_succ_iff_lt_or_eq.1 hi with h | h
      · rw [l3 i i (by omega), hE.unit i h]
      · subst h; exact l1 (by omega)
    · intro i k hi hik hk
      rcases Nat.lt_succ_iff_lt_or_eq.1 hi with h | h
      · rw [l3 k i (by omega), hE.lower i k h hik hk, u2 i i (by omega)]
        congr 2
        refine Finset.sum_congr rfl fun j hj => ?_
        have hj := Finset.mem_range.1 hj
        rw [l3 k j (by omega), u2 j i (by omega)]
      · subst h
        rw [l2 k hik hk]
        congr 2
        refine Finset.sum_congr rfl fun j hj => ?_
        have hj := Finset.mem_range.1 hj
        rw [l3 k j (by omega)]
    · intro i k hik
      rw [l3 k i (by omega), hE.above i k (by omega)]

/-- The decomposition is correct on the leading block before the first zero pivot. -/
theorem LUEqs.prod {A U L : Arr2 C} {n : Nat} (h : LUEqs A U L n n) (m : Nat) (hm : m ≤ n)
    (hp : ∀ i, i + 1 < m → U i i ≠ 0) (i k : Nat) (hi : i < m) (hk : k < m) :
    ∑ j ∈ Finset.range m, L i j * U j k = A i k := by
  by_cases hik : i ≤ k
  · have h1 : ∑ j ∈ Finset.range m, L i j * U j k = ∑ j ∈ Finset.range (i + 1), L i j * U j k := by
      symm
      refine Finset.sum_subset (fun j hj => ?_) (fun j _ hj => ?_)
      · rw [Finset.mem_range] at *; omega
      · rw [Finset.mem_range] at *
        rw [h.above j i (by omega), zero_mul]
    rw [h1, Finset.sum_range_succ, h.unit i (by omega), one_mul,
      h.upper i k (by omega) hik (by omega)]
    ring
  · have h1 : ∑ j ∈ Finset.range m, L i j * U j k = ∑ j ∈ Finset.range (k + 1), L i j * U j k := by
      symm
      refine Finset.sum_subset (fun j hj => ?_) (fun j _ hj => ?_)
      · rw [Finset.mem_range] at *; omega
      · rw [Finset.mem_range] at *
        rw [h.below j k (by omega), mul_zero]
    rw [h1, Finset.sum_range_succ, h.lower k i (by omega) (by omega) (by omega),
      div_mul_cancel₀ _ (hp k (by omega))]
    ring

/-! ## The two substitutions -/

theorem luLinv_spec (L : Arr2 C) (n : Nat) (hu : ∀ i, i < n → L i i = 1)
    (ha : ∀ i k, i < k → L i k = 0) (row col : Nat) (hr : row < n) (hc : col < n) :
    ∑ i ∈ Finset.range n, L row i * luLinv L n i col = if row = col then 1 else 0 := by
  have h := (foldCols_spec
    (fun V col => (List.range n).foldl
      (fun V row => upd2 V row col
        (((if row = col then 1 else 0) - sumOff n row (fun i => L row i * V i col)) / L row row)) V)
    (fun col x => ∀ row, row < n →
      x row = ((if row = col then 1 else 0) - sumOff n row (fun i => L row i * x i)) / L row row)
    (fun X c i j hj => by
      refine (foldUpd_spec (fun row => (row, c))
        (fun V row => ((if row = c then 1 else 0) - sumOff n row (fun i => L row i * V i c)) / L row row)
        (List.range n) X ?_ ?_).2 i j ?_
      · exact List.Nodup.map (fun a b h => (Prod.mk.injEq _ _ _ _ ▸ h).1) List.nodup_range
      · intro pre k post hs X Y hXY
        rw [sumOff_eq, sumOff_eq]
        congr 2
        refine Finset.sum_congr rfl fun a ha' => ?_
        by_cases hak : a = k
        · simp [hak]
        · rw [if_neg hak, if_neg hak]
          by_cases hlt : k < a
          · rw [ha k a hlt, zero_mul, zero_mul]
          · rw [hXY a c]
            intro hm
            obtain ⟨b, hb, he⟩ := List.mem_map.1 hm
            have he := (Prod.mk.injEq _ _ _ _ ▸ he).1
            subst he
            rcases List.mem_cons.1 hb with h | h
            · exact hak h
            · have := List.pairwise_lt_range (n := n)
              rw [hs, List.pairwise_append] at this
              have := (List.pairwise_cons.1 this.2.1).1 b h
              exact hlt this
      · intro hm
        obtain ⟨b, _, he⟩ := List.mem_map.1 hm
        exact hj (Prod.mk.injEq _ _ _ _ ▸ he).2.symm)
    (fun X c row hrow => by
      have := (foldUpd_spec (fun row => (row, c))
        (fun V row => ((if row = c then 1 else 0) - sumOff n row (fun i => L row i * V i c)) / L row row)
        (List.range n) X ?_ ?_).1 row (List.mem_range.2 hrow)
      · exact this
      · exact List.Nodup.map (fun a b h => (Prod.mk.injEq _ _ _ _ ▸ h).1) List.nodup_range
      · intro pre k post hs X Y hXY
        rw [sumOff_eq, sumOff_eq]
        congr 2
        refine Finset.sum_congr rfl fun a ha' => ?_
        by_cases hak : a = k
        · simp [hak]
        · rw [if_neg hak, if_neg hak]
          by_cases hlt : k < a
          · rw [ha k a hlt, zero_mul, zero_mul]
          · rw [hXY a c]
            intro hm
            obtain ⟨b, hb, he⟩ := List.mem_map.1 hm
            have he := (Prod.mk.injEq _ _ _ _ ▸ he).1
            subst he
            rcases List.mem_cons.1 hb with h | h
            · exact hak h
            · have := List.pairwise_lt_range (n := n)
              rw [hs, List.pairwise_append] at this
              have := (List.pairwise_cons.1 this.2.1).1 b h
              exact hlt this)
    (List.range n) zero2 List.nodup_range).1 col (List.mem_range.2 hc) row hr
  change luLinv L n row col = (_ - sumOff n row (fun i => L row i * luLinv L n i col)) / L row row at h
  rw [hu row hr, div_one, sumOff_eq] at h
  rw [← sum_off_add n row _ hr, hu row hr, one_mul]
  rw [h]; ring

theorem luBack_spec (U V F : Arr2 C) (n : Nat) (hu : ∀ i, i < n → U i i ≠ 0)
    (hb : ∀ i k, k < i → U i k = 0) (row col : Nat) (hr : row < n) (hc : col < n) :
    ∑ i ∈ Finset.range n, U row i * luBack U V n F i col = V row col := by
  have hnd : ∀ c : Nat, (((List.range n).reverse).map (fun row => (row, c))).Nodup := fun c =>
    List.Nodup.map (fun a b h => (Prod.mk.injEq _ _ _ _ ▸ h).1)
      (List.nodup_reverse.2 List.nodup_range)
  have hdep : ∀ (c : Nat) pre k post, (List.range n).reverse = pre ++ k :: post →
      ∀ X Y : Arr2 C,
      (∀ i j, (i, j) ∉ (k :: post).map (fun row => (row, c)) → X i j = Y i j) →
      (V k c - sumOff n k (fun i => U k i * X i c)) / U k k
        = (V k c - sumOff n k (fun i => U k i * Y i c)) / U k k := by
    intro c pre k post hs X Y hXY
    rw [sumOff_eq, sumOff_eq]
    congr 2
    refine Finset.sum_congr rfl fun a ha' => ?_
    by_cases hak : a = k
    · simp [hak]
    · rw [if_neg hak, if_neg hak]
      by_cases hlt : a < k
      · rw [hb k a hlt, zero_mul, zero_mul]
      · rw [hXY a c]
        intro hm
        obtain ⟨b, hbm, he⟩ := List.mem_map.1 hm
        have he := (Prod.mk.injEq _ _ _ _ ▸ he).1
        subst he
        rcases List.mem_cons.1 hbm with h | h
        · exact hak h
        · have := List.pairwise_reverse.2 (List.pairwise_lt_range (n := n))
          rw [hs, List.pairwise_append] at this
          have := (List.pairwise_cons.1 this.2.1).1 b h
          exact hlt this
  have h := (foldCols_spec
    (fun F col => (List.range n).reverse.foldl
      (fun F row => upd2 F row col
        ((V row col - sumOff n row (fun i => U row i * F i col)) / U row row)) F)
    (fun col x => ∀ row, row < n →
      x row = (V row col - sumOff n row (fun i => U row i * x i)) / U row row)
    (fun X c i j hj => by
      refine (foldUpd_spec (fun row => (row, c))
        (fun F row => (V row c - sumOff n row (fun i => U row i * F i c)) / U row row)
        (List.range n).reverse X (hnd c) (hdep c)).2 i j ?_
      intro hm
      obtain ⟨b, _, he⟩ := List.mem_map.1 hm
      exact hj (Prod.mk.injEq _ _ _ _ ▸ he).2.symm)
    (fun X c row hrow =>
      (foldUpd_spec (fun row => (row, c))
        (fun F row => (V row c - sumOff n row (fun i => U row i * F i c)) / U row row)
        (List.range n).reverse X (hnd c) (hdep c)).1 row
        (List.mem_reverse.2 (List.mem_range.2 hrow)))
    (List.range n) F List.nodup_range).1 col (List.mem_range.2 hc) row hr
  change luBack U V n F row col
    = (_ - sumOff n row (fun i => U row i * luBack U V n F i col)) / U row row at h
  rw [sumOff_eq, eq_div_iff (hu row hr)] at h
  rw [← sum_off_add n row _ hr]
  linear_combination h

end Field

end GooFit
