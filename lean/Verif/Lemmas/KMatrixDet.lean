import Verif.Lemmas.KMatrix
import Verif.Spec.KMatrix
import Mathlib.LinearAlgebra.Matrix.Adjugate

set_option autoImplicit false

namespace GooFit

open Spec

section Field
variable {C : Type} [Field C]

/-! ## Leading minors and pivots -/

theorem block_prod {A U L : Arr2 C} {n : Nat} (h : LUEqs A U L n n) (m : Nat) (hm : m ≤ n)
    (hp : ∀ i, i + 1 < m → U i i ≠ 0) : block L m * block U m = block A m := by
  ext i k
  rw [Matrix.mul_apply]
  simp only [block, Matrix.of_apply]
  rw [Fin.sum_univ_eq_sum_range (fun j => L i j * U j k) m]
  exact h.prod m hm hp i k i.2 k.2

theorem det_block_U {A U L : Arr2 C} {n : Nat} (h : LUEqs A U L n n) (m : Nat) :
    (block U m).det = ∏ i ∈ Finset.range m, U i i := by
  rw [Matrix.det_of_upperTriangular]
  · simp only [block, Matrix.of_apply]
    exact Fin.prod_univ_eq_prod_range (fun i => U i i) m
  · intro i j hij
    exact h.below i j (fun hh => absurd hij (by simp only [id_eq]; exact not_lt.2 (Fin.le_def.2 hh.2.1)))

theorem det_block_L {A U L : Arr2 C} {n : Nat} (h : LUEqs A U L n n) (m : Nat) (hm : m ≤ n) :
    (block L m).det = 1 := by
  rw [Matrix.det_of_lowerTriangular]
  · simp only [block, Matrix.of_apply]
    exact Finset.prod_eq_one fun i _ => h.unit i (lt_of_lt_of_le i.2 hm)
  · intro i j hij
    exact h.above j i (fun hh => absurd hh.2.1 (not_le.2 (Fin.lt_def.1 hij)))

theorem minor_eq {A U L : Arr2 C} {n : Nat} (h : LUEqs A U L n n) (m : Nat) (hm : m ≤ n)
    (hp : ∀ i, i + 1 < m → U i i ≠ 0) : (block A m).det = ∏ i ∈ Finset.range m, U i i := by
  rw [← block_prod h m hm hp, Matrix.det_mul, det_block_L h m hm, one_mul, det_block_U h]

theorem pivots_iff {A U L : Arr2 C} {n : Nat} (h : LUEqs A U L n n) :
    (∀ i, i < n → U i i ≠ 0) ↔ LeadingMinors A n := by
  constructor
  · intro hp m h1 hm
    rw [minor_eq h m hm (fun i hi => hp i (by omega))]
    exact Finset.prod_ne_zero_iff.2 fun i hi => hp i (by rw [Finset.mem_range] at hi; omega)
  · intro hl i
    induction i using Nat.strong_induction_on with
    | _ i ih =>
      intro hi
      have := hl (i + 1) (by omega) (by omega)
      rw [minor_eq h (i + 1) (by omega) (fun j hj => ih j (by omega) (by omega))] at this
      exact Finset.prod_ne_zero_iff.1 this i (Finset.mem_range.2 (by omega))

theorem luDecomposition_spec (A : Arr2 C) (n : Nat) :
    LUEqs A (luDecomposition A n).1 (luDecomposition A n).2 n n :=
  luDecomposition_eqs A n n le_rfl

theorem luBack_inverse (A F : Arr2 C) (n : Nat)
    (hp : ∀ i, i < n → (luDecomposition A n).1 i i ≠ 0) :
    block A n * block (luBack (luDecomposition A n).1 (luLinv (luDecomposition A n).2 n) n F) n
      = 1 := by
  have h := luDecomposition_spec A n
  generalize luDecomposition A n = UL at h hp
  obtain ⟨U, L⟩ := UL
  dsimp only at h hp ⊢
  have hLU := block_prod h n le_rfl (fun i hi => hp i (by omega))
  have hLL : block L n * block (luLinv L n) n = 1 := by
    ext i k
    rw [Matrix.mul_apply]
    simp only [block, Matrix.of_apply]
    rw [Fin.sum_univ_eq_sum_range (fun j => L i j * luLinv L n j k) n,
      luLinv_spec L n (fun i hi => h.unit i hi)
        (fun i k hik => h.above k i (fun hh => by omega)) i k i.2 k.2, Matrix.one_apply]
    simp [Fin.ext_iff]
  have hUF : block U n * block (luBack U (luLinv L n) n F) n = block (luLinv L n) n := by
    ext i k
    rw [Matrix.mul_apply]
    simp only [block, Matrix.of_apply]
    rw [Fin.sum_univ_eq_sum_range (fun j => U i j * luBack U (luLinv L n) n F j k) n]
    exact luBack_spec U (luLinv L n) F n hp
      (fun i k hik => h.below i k (fun hh => by omega)) i k i.2 k.2
  rw [← hLU, Matrix.mul_assoc, hUF, hLL]

/-! ## Cofactors -/

/-- The index skipping `p`. -/
def skip (p a : Nat) : Nat := if a < p then a else a + 1

/-- How many of the first `m` indices are not `q`. -/
def cnt (q m : Nat) : Nat := if m ≤ q then m else m - 1

/-- The inner loop of `getCofactor`. -/
def cofRow (A : Arr2 C) (p q n row : Nat) (st : CofState C) (m : Nat) : CofState C :=
  (List.range m).foldl
      (fun (st : CofState C) col =>
        if row ≠ p ∧ col ≠ q then
          let t := upd2 st.temp st.i st.j (A row col)
          if st.j + 1 = n - 1 then ⟨st.i + 1, 0, t⟩ else ⟨st.i, st.j + 1, t⟩
        else st) st

theorem cofRow_skip (A : Arr2 C) (p q n : Nat) (st : CofState C) (m : Nat) :
    cofRow A p q n p st m = st := by
  induction m with
  | zero => rfl
  | succ m ih =>
    unfold cofRow at *
    rw [List.range_succ, List.foldl_append, ih]
    simp

theorem cofRow_spec (A t : Arr2 C) (p q n row i : Nat) (hrow : row ≠ p) (hq : q < n) (hn : 2 ≤ n) :
    ∀ m, m ≤ n → ∃ t', cofRow A p q n row ⟨i, 0, t⟩ m
        = (if cnt q m < n - 1 then ⟨i, cnt q m, t'⟩ else ⟨i + 1, 0, t'⟩) ∧
      ∀ a b, t' a b = if a = i ∧ b < cnt q m then A row (skip q b) else t a b := by
  intro m
  induction m with
  | zero =>
    intro _
    refine ⟨t, ?_, ?_⟩
    · rw [if_pos (by unfold cnt; rw [if_pos (Nat.zero_le _)]; omega)]
      unfold cofRow cnt
      simp
    · intro a b; simp [cnt]
  | succ m ih =>
    intro hm
    obtain ⟨t', h1, h2⟩ := ih (by omega)
    have hstep : cofRow A p q n row ⟨i, 0, t⟩ (m + 1) =
        (fun (st : CofState C) col =>
        if row ≠ p ∧ col ≠ q then
          let t := upd2 st.temp st.i st.j (A row col)
          if st.j + 1 = n - 1 then (⟨st.i + 1, 0, t⟩ : CofState C) else ⟨st.i, st.j + 1, t⟩
        else st) (cofRow A p q n row ⟨i, 0, t⟩ m) m := by
      unfold cofRow
      rw [List.range_succ, List.foldl_append, List.foldl_cons, List.foldl_nil]
    rw [hstep, h1]
    by_cases hmq : m = q
    · have e1 : cnt q (m + 1) = cnt q m := by unfold cnt; split <;> split <;> omega
      refine ⟨t', ?_, ?_⟩
      · rw [e1]; simp [hmq]
      · rw [e1]; exact h2
    · have hlt : cnt q m < n - 1 := by unfold cnt; split <;> omega
      have e1 : cnt q (m + 1) = cnt q m + 1 := by unfold cnt; split <;> split <;> omega
      have e2 : skip q (cnt q m) = m := by unfold cnt skip; split <;> split <;> omega
      refine ⟨upd2 t' i (cnt q m) (A row m), ?_, ?_⟩
      · rw [if_pos hlt]
        simp only [hrow, hmq, ne_eq, not_false_eq_true, and_self, if_true]
        by_cases he : cnt q m + 1 = n - 1
        · rw [if_pos he, if_neg (by omega)]
        · rw [if_neg he, if_pos (by omega), e1]
      · intro a b
        unfold upd2
        rw [h2, e1]
        by_cases ha : a = i
        · by_cases hb : b = cnt q m
          · subst hb; subst ha
            rw [if_pos ⟨rfl, rfl⟩, if_pos ⟨rfl, by omega⟩, e2]
          · rw [if_neg (fun h => hb h.2)]
            by_cases hb2 : b < cnt q m
            · rw [if_pos ⟨ha, hb2⟩, if_pos ⟨ha, by omega⟩]
            · rw [if_neg (fun h => hb2 h.2), if_neg (fun h => by omega)]
        · rw [if_neg (fun h => ha h.1), if_neg (fun h => ha h.1), if_neg (fun h => ha h.1)]

theorem getCofactor_spec (A t : Arr2 C) (p q n : Nat) (hp : p < n) (hq : q < n) (hn : 2 ≤ n)
    (a b : Nat) (ha : a < n - 1) (hb : b < n - 1) :
    getCofactor A t p q n a b = A (skip p a) (skip q b) := by
  have key : ∀ m, m ≤ n → ∃ t',
      (List.range m).foldl (fun st row => cofRow A p q n row st n) (⟨0, 0, t⟩ : CofState C)
        = ⟨cnt p m, 0, t'⟩ ∧
      ∀ a b, a < cnt p m → b < n - 1 → t' a b = A (skip p a) (skip q b) := by
    intro m
    induction m with
    | zero =>
      intro _
      refine ⟨t, by simp [cnt], fun a b h => absurd h (by simp [cnt])⟩
    | succ m ih =>
      intro hm
      obtain ⟨t', h1, h2⟩ := ih (by omega)
      rw [List.range_succ, List.foldl_append, h1, List.foldl_cons, List.foldl_nil]
      by_cases hmp : m = p
      · have e1 : cnt p (m + 1) = cnt p m := by unfold cnt; split <;> split <;> omega
        refine ⟨t', ?_, ?_⟩
        · rw [show cofRow A p q n m ⟨cnt p m, 0, t'⟩ n = ⟨cnt p m, 0, t'⟩ from by
            rw [hmp]; exact cofRow_skip A p q n _ n, e1]
        · rw [e1]; exact h2
      · have e1 : cnt p (m + 1) = cnt p m + 1 := by unfold cnt; split <;> split <;> omega
        have e2 : skip p (cnt p m) = m := by unfold cnt skip; split <;> split <;> omega
        have e3 : cnt q n = n - 1 := by unfold cnt; split <;> omega
        obtain ⟨t'', g1, g2⟩ := cofRow_spec A t' p q n m (cnt p m) hmp hq hn n le_rfl
        rw [if_neg (by omega)] at g1
        refine ⟨t'', by rw [g1, e1], fun a b ha hb => ?_⟩
        rw [g2]
        by_cases hac : a = cnt p m
        · subst hac
          rw [if_pos ⟨rfl, by omega⟩, e2]
        · rw [if_neg (fun h => hac h.1), h2 a b (by omega) hb]
  obtain ⟨t', h1, h2⟩ := key n le_rfl
  have : getCofactor A t p q n = t' := by
    have : getCofactor A t p q n = ((List.range n).foldl (fun st row => cofRow A p q n row st n)
        (⟨0, 0, t⟩ : CofState C)).temp := rfl
    rw [this, h1]
  rw [this]
  exact h2 a b (by unfold cnt; split <;> omega) hb

theorem succAbove_skip {n : Nat} (p : Fin (n + 1)) (a : Fin n) :
    ((p.succAbove a : Fin (n + 1)) : Nat) = skip p a := by
  unfold skip
  by_cases h : (a : Nat) < p
  · rw [if_pos h, Fin.succAbove_of_castSucc_lt _ _ (Fin.lt_def.2 h)]; rfl
  · rw [if_neg h, Fin.succAbove_of_le_castSucc _ _ (Fin.le_def.2 (not_lt.1 h))]; rfl

theorem block_getCofactor (A t : Arr2 C) (n : Nat) (hn : 1 ≤ n) (p q : Fin (n + 1)) :
    block (getCofactor A t p q (n + 1)) n = (block A (n + 1)).submatrix p.succAbove q.succAbove := by
  ext a b
  simp only [block, Matrix.of_apply, Matrix.submatrix_apply, succAbove_skip]
  exact getCofactor_spec A t p q (n + 1) p.2 q.2 (by omega) a b a.2 b.2

theorem determinantN_eq (junk : Arr2 C) : ∀ n, 1 ≤ n → ∀ A : Arr2 C,
    determinantN junk n A = (block A n).det := by
  intro n
  induction n with
  | zero => intro h; omega
  | succ n ih =>
    intro _ A
    cases n with
    | zero => simp [determinantN, block]
    | succ N =>
      have ih := ih (by omega)
      have key : ∀ m, m ≤ N + 2 → ∃ t,
        (List.range m).foldl
          (fun (st : C × C × Arr2 C) f =>
            (st.1 + st.2.1 * A 0 f * determinantN junk (N + 1) (getCofactor A st.2.2 0 f (N + 2)),
              -st.2.1, getCofactor A st.2.2 0 f (N + 2)))
          (0, 1, junk)
        = (∑ f ∈ Finset.range m, (-1) ^ f * A 0 f *
              (if h : f < N + 2 then ((block A (N + 2)).submatrix (Fin.succAbove 0)
                (Fin.succAbove ⟨f, h⟩)).det else 0), (-1) ^ m, t) := by
        intro m
        induction m with
        | zero => intro _; exact ⟨junk, by simp⟩
        | succ m ihm =>
          intro hm
          obtain ⟨t, ht⟩ := ihm (by omega)
          rw [List.range_succ, List.foldl_append, ht, List.foldl_cons, List.foldl_nil]
          refine ⟨getCofactor A t 0 m (N + 2), ?_⟩
          dsimp only
          rw [Finset.sum_range_succ, dif_pos (by omega), ih]
          have := block_getCofactor A t (N + 1) (by omega) 0 ⟨m, by omega⟩
          simp only [Fin.val_zero] at this
          rw [this, pow_succ, mul_neg_one]
      obtain ⟨t, ht⟩ := key (N + 2) le_rfl
      show ((List.range (N + 2)).foldl
          (fun (st : C × C × Arr2 C) f =>
            (st.1 + st.2.1 * A 0 f * determinantN junk (N + 1) (getCofactor A st.2.2 0 f (N + 2)),
              -st.2.1, getCofactor A st.2.2 0 f (N + 2)))
          (0, 1, junk)).1 = _
      rw [ht, Matrix.det_succ_row_zero]
      dsimp only
      rw [Finset.sum_range]
      refine Finset.sum_congr rfl fun f _ => ?_
      rw [dif_pos f.2]
      simp [block, Fin.succAbove_zero]

theorem adjointM_eq (junk A : Arr2 C) (n : Nat) (hn : 1 ≤ n) :
    block (adjointM junk A n) n = (block A n).adjugate := by
  by_cases h1 : n = 1
  · subst h1
    ext i j
    have hi : i = 0 := Subsingleton.elim _ _
    have hj : j = 0 := Subsingleton.elim _ _
    subst hi; subst hj
    rw [Matrix.adjugate_subsingleton]
    simp [adjointM, block, upd2]
  obtain ⟨N, rfl⟩ : ∃ N, n = N + 2 := ⟨n - 2, by omega⟩
  let stp (i : Nat) (st : Arr2 C × Arr2 C) (j : Nat) : Arr2 C × Arr2 C :=
    (upd2 st.1 j i ((if (i + j) % 2 = 0 then (1 : C) else -1)
        * determinantN junk (N + 1) (getCofactor A st.2 i j (N + 2))), getCofactor A st.2 i j (N + 2))
  have hsign : ∀ k : Nat, (if k % 2 = 0 then (1 : C) else -1) = (-1) ^ k := by
    intro k
    rcases Nat.even_or_odd k with h | h
    · rw [if_pos (Nat.even_iff.1 h), h.neg_one_pow]
    · rw [if_neg (by rw [Nat.odd_iff.1 h]; omega), h.neg_one_pow]
  have inner : ∀ (i : Fin (N + 2)) (st : Arr2 C × Arr2 C) m, m ≤ N + 2 →
      (∀ b : Fin (N + 2), (b : Nat) < m → ((List.range m).foldl (stp i) st).1 b i
          = (block A (N + 2)).adjugate b i) ∧
      (∀ a b, ¬ (b = (i : Nat) ∧ a < m) → ((List.range m).foldl (stp i) st).1 a b = st.1 a b) := by
    intro i st m
    induction m with
    | zero => intro _; exact ⟨fun b hb => absurd hb (by omega), fun a b _ => rfl⟩
    | succ m ihm =>
      intro hm
      obtain ⟨g1, g2⟩ := ihm (by omega)
      rw [List.range_succ, List.foldl_append, List.foldl_cons, List.foldl_nil]
      generalize (List.range m).foldl (stp i) st = st' at g1 g2
      refine ⟨fun b hb => ?_, fun a b hab => ?_⟩
      · show upd2 st'.1 m i _ b i = _
        unfold upd2
        by_cases hbm : (b : Nat) = m
        · rw [if_pos ⟨hbm, rfl⟩, hsign, determinantN_eq junk (N + 1) (by omega),
            Matrix.adjugate_fin_succ_eq_det_submatrix, ← hbm,
            block_getCofactor A _ (N + 1) (by omega) i b]
        · rw [if_neg (fun h => hbm h.1)]
          exact g1 b (by omega)
      · show upd2 st'.1 m i _ a b = _
        unfold upd2
        rw [if_neg (fun h => hab ⟨h.2, by omega⟩)]
        exact g2 a b (fun h => hab ⟨h.1, by omega⟩)
  have outer : ∀ m, m ≤ N + 2 → ∀ a b : Fin (N + 2), (b : Nat) < m →
      ((List.range m).foldl (fun st i => (List.range (N + 2)).foldl (stp i) st) (junk, junk)).1 a b
        = (block A (N + 2)).adjugate a b := by
    intro m
    induction m with
    | zero => intro _ a b hb; omega
    | succ m ihm =>
      intro hm a b hb
      rw [List.range_succ (n := m), List.foldl_append, List.foldl_cons, List.foldl_nil]
      have ihm := ihm (by omega) a b
      generalize (List.range m).foldl _ (junk, junk) = st at ihm ⊢
      obtain ⟨g1, g2⟩ := inner ⟨m, by omega⟩ st (N + 2) le_rfl
      by_cases hbm : (b : Nat) = m
      · have hb' : b = ⟨m, by omega⟩ := Fin.ext hbm
        rw [hb']
        exact g1 a a.2
      · rw [show ((List.range (N + 2)).foldl (stp m) st).1 a b = st.1 a b from
          g2 a b (fun h => hbm h.1)]
        exact ihm (by omega)
  ext a b
  have : adjointM junk A (N + 2)
      = ((List.range (N + 2)).foldl (fun st i => (List.range (N + 2)).foldl (stp i) st)
          (junk, junk)).1 := by
    unfold adjointM
    rw [if_neg h1]
    rfl
  rw [this]
  exact outer (N + 2) le_rfl a b b.2

end Field
end GooFit
