import Verif.Model.Amp4Body
import Verif.Spec.Amp4Body
import Mathlib.Data.List.GetD
import Mathlib.Algebra.BigOperators.Group.List.Basic
import Mathlib.Data.List.Nodup
/-! # Lemmas about four-body amplitudes -/
set_option autoImplicit false
namespace GooFit
open Spec

section
variable {α : Type}

/-- Reading a strided array. -/
theorem writeStrided_read (arr : Nat → α) (off stride n : Nat) (f : Nat → α) (hs : 0 < stride) (k : Nat) :
    (∀ e, e < n → k = off + stride * e → writeStrided arr off stride n f k = f e) ∧
    ((∀ e, e < n → k ≠ off + stride * e) → writeStrided arr off stride n f k = arr k) := by
  unfold writeStrided
  induction n with
  | zero => exact ⟨fun e he => absurd he (by omega), fun _ => rfl⟩
  | succ n ih =>
    rw [List.range_succ, List.foldl_append]
    simp only [List.foldl_cons, List.foldl_nil]
    refine ⟨fun e he hk => ?_, fun hk => ?_⟩
    · by_cases hen : e = n
      · subst hen; rw [hk, Function.update_self]
      · have hne : k ≠ off + stride * n := by
          intro h
          rw [hk] at h
          have : stride * e = stride * n := by omega
          exact hen (Nat.eq_of_mul_eq_mul_left hs this)
        rw [Function.update_of_ne hne]
        exact ih.1 e (by omega) hk
    · rw [Function.update_of_ne (hk n (by omega))]
      exact ih.2 fun e he => hk e (by omega)

/-- A number is its quotient and remainder in one way. -/
theorem slot_inj {s i j e e' : Nat} (hi : i < s) (hj : j < s) (h : i + s * e = j + s * e') : i = j ∧ e = e' := by
  have h1 : (i + s * e) % s = i := by rw [Nat.add_mul_mod_self_left, Nat.mod_eq_of_lt hi]
  have h2 : (j + s * e') % s = j := by rw [Nat.add_mul_mod_self_left, Nat.mod_eq_of_lt hj]
  have h3 : i = j := by rw [← h1, ← h2, h]
  subst h3
  exact ⟨rfl, Nat.eq_of_mul_eq_mul_left (by omega : 0 < s) (by omega)⟩

/-- Columns written one after the other, each if its mark is set. -/
theorem columns_read {β : Type} (l : List β) (start : Nat) (b stride n : Nat) (sel : Nat → Bool) (f : β → Nat → α)
    (arr : Nat → α) (hb : b + start + l.length ≤ stride) :
    (∀ (j : Nat) (x : β), l[j]? = some x → ∀ e, e < n →
      ((l.zipIdx start).foldl (fun arr y => if sel y.2 then writeStrided arr (b + y.2) stride n (f y.1) else arr) arr)
        (b + (start + j) + stride * e) = if sel (start + j) then f x e else arr (b + (start + j) + stride * e)) ∧
    (∀ (i e : Nat), i < stride → (i < b + start ∨ b + start + l.length ≤ i) →
      ((l.zipIdx start).foldl (fun arr y => if sel y.2 then writeStrided arr (b + y.2) stride n (f y.1) else arr) arr)
        (i + stride * e) = arr (i + stride * e)) := by
  induction l generalizing start arr with
  | nil => exact ⟨fun j x h => by simp at h, fun _ _ _ _ => rfl⟩
  | cons y l ih =>
    simp only [List.zipIdx_cons, List.foldl_cons]
    simp only [List.length_cons] at hb ⊢
    obtain ⟨ih1, ih2⟩ := ih (start + 1) (if sel start then writeStrided arr (b + start) stride n (f y) else arr) (by omega)
    refine ⟨fun j x hx e he => ?_, fun i e hi hout => ?_⟩
    · match j with
      | 0 =>
        simp only [List.getElem?_cons_zero, Option.some.injEq] at hx
        subst hx
        simp only [Nat.add_zero]
        rw [ih2 (b + start) e (by omega) (by omega)]
        by_cases hs : sel start = true
        · rw [if_pos hs, if_pos hs]
          exact (writeStrided_read _ _ _ _ _ (by omega) _).1 e he rfl
        · rw [if_neg hs, if_neg hs]
      | j + 1 =>
        rw [List.getElem?_cons_succ] at hx
        have hj : j < l.length := by
          by_contra hc
          rw [List.getElem?_eq_none (by omega)] at hx
          exact absurd hx (by simp)
        have := ih1 j x hx e he
        rw [show start + (j + 1) = start + 1 + j by omega, this]
        by_cases hs : sel (start + 1 + j) = true
        · rw [if_pos hs, if_pos hs]
        · rw [if_neg hs, if_neg hs]
          by_cases hs' : sel start = true
          · rw [if_pos hs']
            exact (writeStrided_read _ _ _ _ _ (by omega) _).2 fun e' _ h => by
              have := (slot_inj (by omega) (by omega) h).1
              omega
          · rw [if_neg hs']
    · rw [ih2 i e hi (by omega)]
      by_cases hs' : sel start = true
      · rw [if_pos hs']
        exact (writeStrided_read _ _ _ _ _ (by omega) _).2 fun e' _ h => by
          have := (slot_inj hi (by omega) h).1
          omega
      · rw [if_neg hs']

/-- Rows written one after the other. -/
theorem rows_read {β : Type} (l : List β) (start n : Nat) (sel : Nat → Bool) (f : β → Nat → α) (arr : Nat → α) :
    (∀ (j : Nat) (x : β), l[j]? = some x → ∀ e, e < n →
      ((l.zipIdx start).foldl (fun arr y => if sel y.2 then writeStrided arr (y.2 * n) 1 n (f y.1) else arr) arr)
        (e + (start + j) * n) = if sel (start + j) then f x e else arr (e + (start + j) * n)) ∧
    (∀ (i e : Nat), e < n → i < start →
      ((l.zipIdx start).foldl (fun arr y => if sel y.2 then writeStrided arr (y.2 * n) 1 n (f y.1) else arr) arr)
        (e + i * n) = arr (e + i * n)) := by
  have other : ∀ (i i' e : Nat) (g : Nat → α) (a : Nat → α), e < n → i ≠ i' →
      writeStrided a (i' * n) 1 n g (e + i * n) = a (e + i * n) := by
    intro i i' e g a he hne
    refine (writeStrided_read _ _ _ _ _ (by omega) _).2 fun e' he' h => ?_
    have h' : e + n * i = e' + n * i' := by rw [Nat.mul_comm n i, Nat.mul_comm n i']; omega
    exact hne (slot_inj he he' h').2
  induction l generalizing start arr with
  | nil => exact ⟨fun j x h => by simp at h, fun _ _ _ _ => rfl⟩
  | cons y l ih =>
    simp only [List.zipIdx_cons, List.foldl_cons]
    obtain ⟨ih1, ih2⟩ := ih (start + 1) (if sel start then writeStrided arr (start * n) 1 n (f y) else arr)
    refine ⟨fun j x hx e he => ?_, fun i e he hi => ?_⟩
    · match j with
      | 0 =>
        simp only [List.getElem?_cons_zero, Option.some.injEq] at hx
        subst hx
        simp only [Nat.add_zero]
        rw [ih2 start e he (by omega)]
        by_cases hs : sel start = true
        · rw [if_pos hs, if_pos hs]
          exact (writeStrided_read _ _ _ _ _ (by omega) _).1 e he (by omega)
        · rw [if_neg hs, if_neg hs]
      | j + 1 =>
        rw [List.getElem?_cons_succ] at hx
        rw [show start + (j + 1) = start + 1 + j by omega, ih1 j x hx e he]
        by_cases hs : sel (start + 1 + j) = true
        · rw [if_pos hs, if_pos hs]
        · rw [if_neg hs, if_neg hs]
          by_cases hs' : sel start = true
          · rw [if_pos hs']
            exact other _ _ _ _ _ he (by omega)
          · rw [if_neg hs']
    · rw [ih2 i e he (by omega)]
      by_cases hs' : sel start = true
      · rw [if_pos hs']
        exact other _ _ _ _ _ he (by omega)
      · rw [if_neg hs']

end

section
variable {α : Type} [DecidableEq α]

theorem mem_foldl_addUnique (l known : List α) (x : α) :
    x ∈ l.foldl addUnique known ↔ x ∈ known ∨ x ∈ l := by
  induction l generalizing known with
  | nil => simp
  | cons y l ih =>
    rw [List.foldl_cons, ih]
    unfold addUnique
    by_cases h : y ∈ known
    · rw [if_pos h]
      constructor
      · rintro (h' | h')
        · exact Or.inl h'
        · exact Or.inr (List.mem_cons_of_mem _ h')
      · rintro (h' | h')
        · exact Or.inl h'
        · rcases List.mem_cons.1 h' with rfl | h''
          · exact Or.inl h
          · exact Or.inr h''
    · rw [if_neg h]; simp [or_assoc]

theorem idxOf_read {l : List α} {x : α} (h : x ∈ l) : l[l.idxOf x]? = some x := by
  rw [List.getElem?_eq_getElem (List.idxOf_lt_length_iff.2 h), List.getElem_idxOf]

end

section
variable {A S : Type} [DecidableEq A] [DecidableEq S]

theorem mem_lineShapesOf {amps : List (Amp4 A S)} {a : Amp4 A S} {x : A} (ha : a ∈ amps) (hx : x ∈ a.ls) :
    x ∈ lineShapesOf amps :=
  (mem_foldl_addUnique _ _ _).2 (Or.inr (List.mem_flatMap.2 ⟨a, ha, hx⟩))

theorem mem_spinFactorsOf {amps : List (Amp4 A S)} {a : Amp4 A S} {x : S} (ha : a ∈ amps) (hx : x ∈ a.sf) :
    x ∈ spinFactorsOf amps :=
  (mem_foldl_addUnique _ _ _).2 (Or.inr (List.mem_flatMap.2 ⟨a, ha, hx⟩))

theorem rd_start (LS : List A) (SF : List S) (amps : List (Amp4 A S)) (i : Nat) (hi : i < amps.length) :
    rd (ampIndices LS SF amps) i = ampStart LS SF amps i := by
  unfold rd ampIndices
  rw [List.getD_append _ _ _ _ (by simpa using hi)]
  simp [List.getD_eq_getElem?_getD, hi]

theorem rd_block (LS : List A) (SF : List S) (amps : List (Amp4 A S)) (i : Nat) (a : Amp4 A S) (ha : amps[i]? = some a)
    (k : Nat) (hk : k < (ampBlock LS SF a).length) :
    rd (ampIndices LS SF amps) (amps.length + ampStart LS SF amps i + k) = (ampBlock LS SF a).getD k 0 := by
  have hi : i < amps.length := by
    by_contra hc
    rw [List.getElem?_eq_none (by omega)] at ha
    exact absurd ha (by simp)
  have hsplit : amps = amps.take i ++ a :: amps.drop (i + 1) := by
    have h1 : amps[i] = a := by
      rw [List.getElem?_eq_getElem hi] at ha
      exact Option.some.inj ha
    conv_lhs => rw [← List.take_append_drop i amps, List.drop_eq_getElem_cons hi, h1]
  unfold rd ampIndices
  rw [List.getD_append_right _ _ _ _ (by simp; omega)]
  simp only [List.length_map, List.length_range]
  rw [show amps.length + ampStart LS SF amps i + k - amps.length = ampStart LS SF amps i + k by omega]
  have : ampIdx LS SF amps
      = ampIdx LS SF (amps.take i) ++ (ampBlock LS SF a ++ ampIdx LS SF (amps.drop (i + 1))) := by
    conv_lhs => rw [hsplit]
    unfold ampIdx
    rw [List.flatMap_append, List.flatMap_cons]
  rw [this, List.getD_append_right _ _ _ _ (by unfold ampStart; omega)]
  rw [show ampStart LS SF amps i + k - (ampIdx LS SF (amps.take i)).length = k by unfold ampStart; omega]
  exact List.getD_append _ _ _ _ hk

theorem ampBlock_length (LS : List A) (SF : List S) (a : Amp4 A S) :
    (ampBlock LS SF a).length = 3 + a.ls.length + a.sf.length := by
  simp [ampBlock]; omega

theorem ampBlock_ls (LS : List A) (SF : List S) (a : Amp4 A S) (j : Nat) (hj : j < a.ls.length) :
    (ampBlock LS SF a).getD (3 + j) 0 = LS.idxOf (a.ls[j]) := by
  unfold ampBlock
  rw [List.append_assoc, List.getD_append_right _ _ _ _ (by simp), List.getD_append _ _ _ _ (by simp; omega)]
  simp [List.getD_eq_getElem?_getD, hj]

theorem ampBlock_sf (LS : List A) (SF : List S) (a : Amp4 A S) (j : Nat) (hj : j < a.sf.length) :
    (ampBlock LS SF a).getD (3 + a.ls.length + j) 0 = SF.idxOf (a.sf[j]) := by
  unfold ampBlock
  rw [List.getD_append_right _ _ _ _ (by simp; omega)]
  simp [List.getD_eq_getElem?_getD, show 3 + a.ls.length + j - (a.ls.length + 3) = j by omega, hj]

end

section
variable {K : Type} [Field K]

/-- A product over a range of positions of a list. -/
theorem foldl_part {M : Type} [CommMonoid M] {β : Type} (l : List β) (g : β → M) (f : Nat → M) (n p : Nat) (hp : p < n) (r : M)
    (h : ∀ (j : Nat) (x : β), l[j]? = some x → f j = g x) :
    (List.range' (p * (l.length / n)) (l.length / n)).foldl (fun r j => r * f j) r = r * (part n (l.map g) p).prod := by
  have hb : p * (l.length / n) + l.length / n ≤ l.length := by
    calc p * (l.length / n) + l.length / n = (p + 1) * (l.length / n) := by rw [Nat.add_mul, Nat.one_mul]
      _ ≤ n * (l.length / n) := Nat.mul_le_mul_right _ hp
      _ ≤ l.length := Nat.mul_div_le _ _
  unfold part
  rw [List.length_map]
  generalize l.length / n = q at hb ⊢
  generalize p * q = o at hb ⊢
  induction q generalizing o r with
  | zero => simp
  | succ q ih =>
    rw [List.range'_succ, List.foldl_cons, ih (o := o + 1) (r := r * f o) (by omega)]
    have ho : o < l.length := by omega
    rw [List.drop_eq_getElem_cons (l := l.map g) (i := o) (by simpa using ho), List.take_succ_cons, List.prod_cons]
    rw [h o l[o] (List.getElem?_eq_getElem ho), List.getElem_map, mul_assoc]

theorem foldl_plus_sum {M : Type} [AddCommMonoid M] {β : Type} (l : List β) (f : β → M) (a : M) :
    l.foldl (fun acc x => acc + f x) a = a + (l.map f).sum := by
  induction l generalizing a with
  | nil => simp
  | cons x l ih => rw [List.foldl_cons, ih, List.map_cons, List.sum_cons, add_assoc]

theorem ofReal_prod (l : List K) : (l.map Cx.ofReal).prod = Cx.ofReal l.prod := by
  induction l with
  | nil => rfl
  | cons x l ih =>
    rw [List.map_cons, List.prod_cons, List.prod_cons, ih]
    ext <;> simp

theorem part_map {α β : Type} (n : Nat) (l : List α) (g : α → β) (p : Nat) : part n (l.map g) p = (part n l p).map g := by
  unfold part
  rw [List.length_map, List.map_take, List.map_drop]

variable {A S : Type} [DecidableEq A] [DecidableEq S] (sqrt : K → K)

/-- `AmpCalc` reads what belongs to its amplitude. -/
theorem ampCalc_spec (amps : List (Amp4 A S)) (i : Nat) (a : Amp4 A S) (ha : amps[i]? = some a)
    (res : Nat → Cx K) (evt : Nat) (lv : A → Cx K) (sv : S → K)
    (hl : ∀ x ∈ a.ls, res (evt * ((lineShapesOf amps).length + (spinFactorsOf amps).length) + (lineShapesOf amps).idxOf x)
      = lv x)
    (hs : ∀ x ∈ a.sf, res (evt * ((lineShapesOf amps).length + (spinFactorsOf amps).length) + (lineShapesOf amps).length
      + (spinFactorsOf amps).idxOf x) = Cx.ofReal (sv x)) :
    ampCalc sqrt (ampIndices (lineShapesOf amps) (spinFactorsOf amps) amps) (lineShapesOf amps).length
      (spinFactorsOf amps).length amps.length a.nPerm (ampStart (lineShapesOf amps) (spinFactorsOf amps) amps i) res evt
    = amplitude4 sqrt a.nPerm (a.ls.map lv) (a.sf.map sv) := by
  set LS := lineShapesOf amps with hLS
  set SF := spinFactorsOf amps with hSF
  have hlen := ampBlock_length LS SF a
  have h0 : rd (ampIndices LS SF amps) (amps.length + ampStart LS SF amps i) = a.ls.length := by
    have := rd_block LS SF amps i a ha 0 (by omega)
    rw [Nat.add_zero] at this
    rw [this]; rfl
  have h1 : rd (ampIndices LS SF amps) (amps.length + ampStart LS SF amps i + 1) = a.sf.length := by
    rw [rd_block LS SF amps i a ha 1 (by omega)]; rfl
  unfold ampCalc amplitude4
  simp only [h0, h1]
  congr 1
  rw [foldl_plus_sum, zero_add]
  congr 1
  refine List.map_congr_left fun p hp => ?_
  rw [List.mem_range] at hp
  rw [foldl_part a.ls lv _ a.nPerm p hp 1, one_mul,
    foldl_part a.sf (fun x => Cx.ofReal (sv x)) _ a.nPerm p hp]
  · congr 1
    rw [← ofReal_prod, show (fun x => Cx.ofReal (sv x)) = Cx.ofReal ∘ sv from rfl, ← List.map_map, part_map]
  · intro j x hx
    have hj : j < a.sf.length := by
      by_contra hc
      rw [List.getElem?_eq_none (by omega)] at hx
      exact absurd hx (by simp)
    have hx' : a.sf[j] = x := by
      rw [List.getElem?_eq_getElem hj] at hx
      exact Option.some.inj hx
    rw [show amps.length + ampStart LS SF amps i + 3 + a.ls.length + j
        = amps.length + ampStart LS SF amps i + (3 + a.ls.length + j) by omega,
      rd_block LS SF amps i a ha _ (by omega), ampBlock_sf LS SF a j hj, hx', hs x (hx' ▸ List.getElem_mem hj)]
    rfl
  · intro j x hx
    have hj : j < a.ls.length := by
      by_contra hc
      rw [List.getElem?_eq_none (by omega)] at hx
      exact absurd hx (by simp)
    have hx' : a.ls[j] = x := by
      rw [List.getElem?_eq_getElem hj] at hx
      exact Option.some.inj hx
    rw [show amps.length + ampStart LS SF amps i + 3 + j
        = amps.length + ampStart LS SF amps i + (3 + j) by omega,
      rd_block LS SF amps i a ha _ (by omega), ampBlock_ls LS SF a j hj, hx', hl x (hx' ▸ List.getElem_mem hj)]

/-- `NormIntegrator` computes the intensity. -/
theorem normIntegrator_spec (amps : List (Amp4 A S)) (mc evt : Nat) (sfNorm : Nat → K) (lsNorm : Nat → Cx K)
    (coef : Nat → Cx K) (lv : A → Cx K) (sv : S → K)
    (hl : ∀ a ∈ amps, ∀ x ∈ a.ls, lsNorm (evt + (lineShapesOf amps).idxOf x * mc) = lv x)
    (hs : ∀ a ∈ amps, ∀ x ∈ a.sf, sfNorm (evt + (spinFactorsOf amps).idxOf x * mc) = sv x) :
    normIntegrator sqrt (ampIndices (lineShapesOf amps) (spinFactorsOf amps) amps) amps.length mc sfNorm lsNorm coef evt
    = intensity4 (amps.zipIdx.map fun a => (amplitude4 sqrt a.1.nPerm (a.1.ls.map lv) (a.1.sf.map sv), coef a.2)) := by
  set LS := lineShapesOf amps with hLS
  set SF := spinFactorsOf amps with hSF
  unfold normIntegrator intensity4
  dsimp only
  congr 1
  rw [foldl_plus_sum, zero_add]
  congr 1
  refine List.ext_getElem (by simp) fun i hi1 hi2 => ?_
  have hi : i < amps.length := by simpa using hi1
  have ha : amps[i]? = some amps[i] := List.getElem?_eq_getElem hi
  simp only [List.getElem_map, List.getElem_range, List.getElem_zipIdx, Nat.zero_add]
  generalize amps[i] = a at ha
  have hlen := ampBlock_length LS SF a
  have hmem : a ∈ amps := List.mem_of_getElem? ha
  have hst := rd_start LS SF amps i hi
  have h0 : rd (ampIndices LS SF amps) (amps.length + ampStart LS SF amps i) = a.ls.length := by
    have := rd_block LS SF amps i a ha 0 (by omega)
    rw [Nat.add_zero] at this
    rw [this]; rfl
  have h1 : rd (ampIndices LS SF amps) (amps.length + ampStart LS SF amps i + 1) = a.sf.length := by
    rw [rd_block LS SF amps i a ha 1 (by omega)]; rfl
  have h2 : rd (ampIndices LS SF amps) (amps.length + ampStart LS SF amps i + 2) = a.nPerm := by
    rw [rd_block LS SF amps i a ha 2 (by omega)]; rfl
  simp only [hst, h0, h1, h2]
  unfold amplitude4
  congr 2
  rw [foldl_plus_sum, zero_add]
  congr 1
  refine List.map_congr_left fun p hp => ?_
  rw [List.mem_range] at hp
  rw [foldl_part a.ls lv _ a.nPerm p hp 1, one_mul,
    foldl_part a.sf (fun x => Cx.ofReal (sv x)) _ a.nPerm p hp]
  · congr 1
    rw [← ofReal_prod, show (fun x => Cx.ofReal (sv x)) = Cx.ofReal ∘ sv from rfl, ← List.map_map, part_map]
  · intro j x hx
    have hj : j < a.sf.length := by
      by_contra hc
      rw [List.getElem?_eq_none (by omega)] at hx
      exact absurd hx (by simp)
    have hx' : a.sf[j] = x := by
      rw [List.getElem?_eq_getElem hj] at hx
      exact Option.some.inj hx
    rw [show amps.length + ampStart LS SF amps i + 3 + a.ls.length + j
        = amps.length + ampStart LS SF amps i + (3 + a.ls.length + j) by omega,
      rd_block LS SF amps i a ha _ (by omega), ampBlock_sf LS SF a j hj, hx', hs a hmem x (hx' ▸ List.getElem_mem hj)]
  · intro j x hx
    have hj : j < a.ls.length := by
      by_contra hc
      rw [List.getElem?_eq_none (by omega)] at hx
      exact absurd hx (by simp)
    have hx' : a.ls[j] = x := by
      rw [List.getElem?_eq_getElem hj] at hx
      exact Option.some.inj hx
    rw [show amps.length + ampStart LS SF amps i + 3 + j
        = amps.length + ampStart LS SF amps i + (3 + j) by omega,
      rd_block LS SF amps i a ha _ (by omega), ampBlock_ls LS SF a j hj, hx', hl a hmem x (hx' ▸ List.getElem_mem hj)]

end
end GooFit
