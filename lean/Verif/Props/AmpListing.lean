import Verif.Model.AmpListing
import Verif.Props.TimeFourBody
/-!
# C99: the listing of the amplitudes
-/
set_option autoImplicit false
namespace GooFit

theorem mapM_some_of {α β : Type} (f : α → Option β) (g : α → β) (l : List α) (h : ∀ x ∈ l, f x = some (g x)) :
    l.mapM f = some (l.map g) := by
  induction l with
  | nil => rfl
  | cons x l ih =>
    rw [List.mapM_cons, h x (by simp), ih fun y hy => h y (by simp [hy])]
    rfl

theorem mapM_none_of {α β : Type} (f : α → Option β) (l : List α) (x : α) (hx : x ∈ l) (h : f x = none) : l.mapM f = none := by
  induction l with
  | nil => simp at hx
  | cons y l ih =>
    rw [List.mapM_cons]
    rcases List.mem_cons.1 hx with rfl | hx
    · rw [h]; rfl
    · rw [ih hx]
      cases f y <;> rfl

theorem mapM_range_get {α β : Type} (f : Nat → Option β) (g : α → β) (l : List α) (s : Nat)
    (h : ∀ (i : Nat) (a : α), l[i]? = some a → f (s + i) = some (g a)) : (List.range' s l.length).mapM f = some (l.map g) := by
  induction l generalizing s with
  | nil => rfl
  | cons x l ih =>
    rw [List.length_cons, List.range'_succ, List.mapM_cons, show f s = some (g x) from h 0 x rfl,
      ih (s + 1) fun i a hi => by rw [Nat.add_assoc, Nat.add_comm 1]; exact h (i + 1) a hi]
    rfl

/-- The blocks of `step` numbers, one after the other, are all the numbers. -/
theorem blocks_range (n step : Nat) : ((List.range n).flatMap fun i => List.range' (i * step) step) = List.range (n * step) := by
  induction n with
  | zero => simp
  | succ n ih =>
    rw [List.range_succ, List.flatMap_append, ih]
    simp only [List.flatMap_cons, List.flatMap_nil, List.append_nil]
    rw [List.range_eq_range', List.range_eq_range', Nat.succ_mul, List.range'_append_1.symm]
    simp

namespace T4
variable {A S V T P Ev : Type} [DecidableEq A] [DecidableEq S] [DecidableEq V] [DecidableEq T]

theorem comps_fst (m : T4 A S V T P Ev) : m.comps.map (·.1) = m.ampsA ++ m.ampsB.filter (· ∉ m.ampsA) := by
  unfold comps
  rw [List.map_append, List.map_map, List.map_map]
  congr 1
  · exact List.map_id'' (fun _ => rfl) _
  · rw [show ((fun x : TAmp A S V T × Nat => x.1) ∘ fun b => (b, 1)) = id from rfl, List.map_id]
    refine List.filter_congr fun b _ => ?_
    simp only [decide_not]
    by_cases hb : b ∈ m.ampsA
    · have : (m.ampsA.find? fun a => decide (b = a)) ≠ none := by
        simp only [ne_eq, List.find?_eq_none, decide_eq_true_eq, not_forall]
        exact ⟨b, hb, by simp⟩
      cases h : m.ampsA.find? fun a => decide (b = a)
      · exact absurd h this
      · simp [hb]
    · have : (m.ampsA.find? fun a => decide (b = a)) = none := by
        simp only [List.find?_eq_none, decide_eq_true_eq]
        intro x hx h
        exact hb (h ▸ hx)
      simp [this, hb]

theorem idx_length (m : T4 A S V T P Ev) :
    m.idx.length = (m.comps.map fun a => 5 + a.1.amp.ls.length + a.1.amp.sf.length).sum := by
  have key : ∀ l : List (TAmp A S V T × Nat), l.length + (l.flatMap m.block).length
      = (l.map fun a => 5 + a.1.amp.ls.length + a.1.amp.sf.length).sum := by
    intro l
    induction l with
    | nil => rfl
    | cons a l ih =>
      rw [List.flatMap_cons, List.length_append, List.map_cons, List.sum_cons, ← ih, block_length, List.length_cons]
      omega
  unfold idx
  rw [List.length_append, List.length_map, List.length_range]
  exact key _

theorem start_le (m : T4 A S V T P Ev) (i : Nat) (a : TAmp A S V T × Nat) (ha : m.comps[i]? = some a) :
    m.comps.length + m.start i + (4 + a.1.amp.ls.length + a.1.amp.sf.length) ≤ m.idx.length := by
  have hi : i < m.comps.length := idx_lt ha
  have hsplit : m.comps = m.comps.take i ++ a :: m.comps.drop (i + 1) := by
    rw [List.getElem?_eq_getElem hi] at ha
    rw [← Option.some.inj ha, List.getElem_cons_drop, List.take_append_drop]
  unfold idx
  rw [List.length_append, List.length_map, List.length_range]
  have : (m.comps.flatMap m.block).length = ((m.comps.take i).flatMap m.block).length + ((m.block a).length
      + ((m.comps.drop (i + 1)).flatMap m.block).length) := by
    conv_lhs => rw [hsplit]
    rw [List.flatMap_append, List.flatMap_cons, List.length_append, List.length_append]
  rw [this, block_length]
  unfold start
  omega

/-- What is printed about one amplitude. -/
theorem entry_eq (m : T4 A S V T P Ev) (i : Nat) (a : TAmp A S V T × Nat) (ha : m.comps[i]? = some a)
    (h0 : 0 < a.1.amp.nPerm) (h1 : a.1.amp.nPerm ∣ a.1.amp.ls.length) (h2 : a.1.amp.nPerm ∣ a.1.amp.sf.length)
    (hs : m.idx.length ≤ 500) :
    m.entry i = some ⟨a.1.tag, a.1.amp.ls.map fun x => (m.LS.idxOf x, x), a.1.amp.sf.map fun x => (m.SF.idxOf x, x)⟩ := by
  have hle := start_le m i a ha
  obtain ⟨r0, r1, _, _⟩ := rd_head m i a ha
  have hmem : a ∈ m.comps := List.mem_of_getElem? ha
  have e1 : lineshapeIndices m.idx m.comps.length a.1.amp.nPerm (m.start i) = some (a.1.amp.ls.map m.LS.idxOf) := by
    unfold lineshapeIndices hostIndex
    rw [if_pos (by omega)]
    simp only [Option.bind_eq_bind, Option.bind_some]
    rw [if_neg (by omega), show m.idx.getD (m.comps.length + m.start i) 0 = _ from r0, blocks_range, Nat.mul_div_cancel' h1]
    rw [mapM_some_of _ (fun j => (m.block a).getD (4 + j) 0)]
    · congr 1
      refine List.ext_getElem (by simp) fun k hk _ => ?_
      have hk' : k < a.1.amp.ls.length := by simpa using hk
      simp only [List.getElem_map, List.getElem_range]
      exact block_ls m a k hk'
    · intro j hj
      have hj' := List.mem_range.1 hj
      rw [if_pos (by omega)]
      have := rd_block m i a ha (4 + j) (by rw [block_length]; omega)
      rw [← this]
      unfold rd
      rw [show m.comps.length + m.start i + (4 + j) = m.comps.length + m.start i + 4 + j by omega]
  have e2 : spinFactorIndices m.idx m.comps.length a.1.amp.nPerm (m.start i) = some (a.1.amp.sf.map m.SF.idxOf) := by
    unfold spinFactorIndices hostIndex
    rw [if_pos (by omega)]
    simp only [Option.bind_eq_bind, Option.bind_some]
    rw [if_pos (by omega)]
    simp only [Option.bind_some]
    rw [if_neg (by omega), show m.idx.getD (m.comps.length + m.start i) 0 = _ from r0,
      show m.idx.getD (m.comps.length + m.start i + 1) 0 = _ from r1, blocks_range, Nat.mul_div_cancel' h2]
    rw [mapM_some_of _ (fun j => (m.block a).getD (4 + a.1.amp.ls.length + j) 0)]
    · congr 1
      refine List.ext_getElem (by simp) fun k hk _ => ?_
      have hk' : k < a.1.amp.sf.length := by simpa using hk
      simp only [List.getElem_map, List.getElem_range]
      exact block_sf m a k hk'
    · intro j hj
      have hj' := List.mem_range.1 hj
      rw [if_pos (by omega)]
      have := rd_block m i a ha (4 + a.1.amp.ls.length + j) (by rw [block_length]; omega)
      rw [← this]
      unfold rd
      rw [show m.comps.length + m.start i + (4 + a.1.amp.ls.length + j)
        = m.comps.length + m.start i + 4 + a.1.amp.ls.length + j by omega]
  unfold entry
  rw [ha]
  simp only [Option.bind_eq_bind, Option.bind_some, e1, e2]
  rw [List.mapM_map, List.mapM_map,
    mapM_some_of _ (fun x => (m.LS.idxOf x, x)) a.1.amp.ls, mapM_some_of _ (fun x => (m.SF.idxOf x, x)) a.1.amp.sf]
  · rfl
  · intro x hx
    have := mem_SF m hmem hx
    simp [List.getElem?_eq_getElem (List.idxOf_lt_length_of_mem this)]
  · intro x hx
    have := mem_LS m hmem hx
    simp [List.getElem?_eq_getElem (List.idxOf_lt_length_of_mem this)]

end T4

section
variable {A S V T P Ev : Type} [DecidableEq A] [DecidableEq S] [DecidableEq V] [DecidableEq T]

/-- **C99.**  Take two lists of amplitudes, in each of which the number of permutations divides the numbers of line shapes and
of spin factors, and which are not too many.  Then the listing that the PDF prints when it is constructed has an entry for each
amplitude of the first list, in its order, and then one for each amplitude of the second that is not in the first.  The entry
has the name of the amplitude, and its line shapes and spin factors in the order in which they were given.  Throughout the
listing, line shapes have equal numbers if and only if they are the same, and so have spin factors. -/
theorem C99_listing_partial (m : T4 A S V T P Ev)
    (hp : ∀ a ∈ m.ampsA ++ m.ampsB, 0 < a.amp.nPerm ∧ a.amp.nPerm ∣ a.amp.ls.length ∧ a.amp.nPerm ∣ a.amp.sf.length)
    (hsize : ((m.ampsA ++ m.ampsB.filter (· ∉ m.ampsA)).map fun a => 5 + a.amp.ls.length + a.amp.sf.length).sum ≤ 500) :
    ∃ L, m.listing = some L
      ∧ L.map (fun e => (e.name, e.shapes.map (·.2), e.spins.map (·.2)))
          = (m.ampsA ++ m.ampsB.filter (· ∉ m.ampsA)).map (fun a => (a.tag, a.amp.ls, a.amp.sf))
      ∧ (∀ p ∈ L.flatMap (·.shapes), ∀ q ∈ L.flatMap (·.shapes), p.1 = q.1 ↔ p.2 = q.2)
      ∧ (∀ p ∈ L.flatMap (·.spins), ∀ q ∈ L.flatMap (·.spins), p.1 = q.1 ↔ p.2 = q.2) := by
  have hs : m.idx.length ≤ 500 := by
    rw [T4.idx_length, show (m.comps.map fun a => 5 + a.1.amp.ls.length + a.1.amp.sf.length)
      = (m.comps.map (·.1)).map fun a => 5 + a.amp.ls.length + a.amp.sf.length by rw [List.map_map]; rfl, T4.comps_fst]
    exact hsize
  have hmemc : ∀ a ∈ m.comps, a.1 ∈ m.ampsA ++ m.ampsB := by
    intro a ha
    have : a.1 ∈ m.comps.map (·.1) := List.mem_map.2 ⟨a, ha, rfl⟩
    rw [T4.comps_fst] at this
    rcases List.mem_append.1 this with h | h
    · exact List.mem_append_left _ h
    · exact List.mem_append_right _ (List.mem_filter.1 h).1
  let g : TAmp A S V T × Nat → AmpEntry A S T := fun a =>
    ⟨a.1.tag, a.1.amp.ls.map fun x => (m.LS.idxOf x, x), a.1.amp.sf.map fun x => (m.SF.idxOf x, x)⟩
  have hL : m.listing = some (m.comps.map g) := by
    unfold T4.listing
    rw [List.range_eq_range']
    refine mapM_range_get _ g m.comps 0 fun i a ha => ?_
    obtain ⟨h0, h1, h2⟩ := hp a.1 (hmemc a (List.mem_of_getElem? ha))
    rw [Nat.zero_add]
    exact T4.entry_eq m i a ha h0 h1 h2 hs
  have hidx : ∀ {β : Type} [DecidableEq β] (l : List β) (x y : β), x ∈ l → (l.idxOf x = l.idxOf y ↔ x = y) := by
    intro β _ l x y hx
    exact ⟨fun h => (List.idxOf_inj hx).1 h, fun h => by rw [h]⟩
  refine ⟨_, hL, ?_, ?_, ?_⟩
  · rw [List.map_map, ← T4.comps_fst, List.map_map]
    refine List.map_congr_left fun a _ => ?_
    simp [g, Function.comp_def]
  · intro p hp' q hq'
    obtain ⟨e, he, hpe⟩ := List.mem_flatMap.1 hp'
    obtain ⟨a, ha, rfl⟩ := List.mem_map.1 he
    obtain ⟨x, hx, rfl⟩ := List.mem_map.1 hpe
    obtain ⟨e', he', hqe⟩ := List.mem_flatMap.1 hq'
    obtain ⟨a', _, rfl⟩ := List.mem_map.1 he'
    obtain ⟨y, _, rfl⟩ := List.mem_map.1 hqe
    exact hidx m.LS x y (T4.mem_LS m ha hx)
  · intro p hp' q hq'
    obtain ⟨e, he, hpe⟩ := List.mem_flatMap.1 hp'
    obtain ⟨a, ha, rfl⟩ := List.mem_map.1 he
    obtain ⟨x, hx, rfl⟩ := List.mem_map.1 hpe
    obtain ⟨e', he', hqe⟩ := List.mem_flatMap.1 hq'
    obtain ⟨a', _, rfl⟩ := List.mem_map.1 he'
    obtain ⟨y, _, rfl⟩ := List.mem_map.1 hqe
    exact hidx m.SF x y (T4.mem_SF m ha hx)

/-- **C99 (violation).**  One amplitude with three line shapes, one spin factor and two permutations: the last line shape and
the spin factor are not listed. -/
theorem C99_violation_remainder (m : T4 (Fin 3) (Fin 3) V Nat P Ev) (r i : V) (hA : m.ampsA = [⟨7, r, i, ⟨[0, 1, 2], [0], 2⟩⟩])
    (hB : m.ampsB = []) : m.listing = some [⟨7, [(0, 0), (1, 1)], []⟩] := by
  have hc : m.comps = [(⟨7, r, i, ⟨[0, 1, 2], [0], 2⟩⟩, 0)] := by
    unfold T4.comps
    rw [hA, hB]
    rfl
  have hLS : m.LS = [0, 1, 2] := by
    unfold T4.LS
    rw [hc]
    show lineShapesOf [(⟨[0, 1, 2], [0], 2⟩ : Amp4 (Fin 3) (Fin 3))] = _
    decide
  have hSF : m.SF = [0] := by
    unfold T4.SF
    rw [hc]
    show spinFactorsOf [(⟨[0, 1, 2], [0], 2⟩ : Amp4 (Fin 3) (Fin 3))] = _
    decide
  have hidx : m.idx = [0, 3, 1, 2, 0, 0, 1, 2, 0] := by
    unfold T4.idx
    rw [hc]
    show [m.start 0] ++ (m.block _ ++ []) = _
    unfold T4.block
    rw [hLS, hSF]
    show [0] ++ (([3, 1, 2, 0] ++ [0, 1, 2].map (fun x : Fin 3 => [0, 1, 2].idxOf x)
      ++ [0].map fun x : Fin 3 => [0].idxOf x) ++ []) = _
    decide
  unfold T4.listing
  rw [hc]
  show [0].mapM m.entry = _
  rw [mapM_some_of _ (fun _ => ⟨7, [(0, 0), (1, 1)], []⟩)]
  · rfl
  · intro k hk
    obtain rfl : k = 0 := by simpa using hk
    unfold T4.entry
    rw [hc, hLS, hSF, hidx, show m.start 0 = 0 from rfl]
    simp only [List.length_cons, List.length_nil, List.getElem?_cons_zero, Option.bind_eq_bind, Option.bind_some]
    rw [show lineshapeIndices [0, 3, 1, 2, 0, 0, 1, 2, 0] (0 + 1) 2 0 = some [0, 1] by decide,
      show spinFactorIndices [0, 3, 1, 2, 0, 0, 1, 2, 0] (0 + 1) 2 0 = some [] by decide]
    rfl

/-- **C99 (violation).**  An amplitude with 500 line shapes or more, of one permutation: the listing reads past the end of the
copy of the table. -/
theorem C99_violation_size (m : T4 A S V T P Ev) (a : TAmp A S V T) (hA : m.ampsA = [a]) (hB : m.ampsB = [])
    (h1 : a.amp.nPerm = 1) (hn : 500 ≤ a.amp.ls.length) : m.listing = none := by
  have hc : m.comps = [(a, 0)] := by
    unfold T4.comps
    rw [hA, hB]
    rfl
  have hr := (T4.rd_head m 0 (a, 0) (by rw [hc]; rfl)).1
  have hst : m.start 0 = 0 := rfl
  rw [hst, hc] at hr
  have e1 : lineshapeIndices m.idx m.comps.length a.amp.nPerm (m.start 0) = none := by
    rw [hc, h1, hst]
    unfold lineshapeIndices
    rw [show hostIndex m.idx ([(a, 0)].length + 0) = some a.amp.ls.length by
      unfold hostIndex
      rw [if_pos (by simp)]
      exact congrArg some hr]
    simp only [Option.bind_eq_bind, Option.bind_some]
    rw [if_neg (by decide), blocks_range, Nat.div_one, Nat.one_mul]
    refine mapM_none_of _ _ 499 (List.mem_range.2 (by omega)) ?_
    unfold hostIndex
    rw [if_neg (by simp)]
  unfold T4.listing
  refine mapM_none_of _ _ 0 (by rw [hc]; simp) ?_
  unfold T4.entry
  rw [show m.comps[0]? = some (a, 0) by rw [hc]; rfl]
  simp only [Option.bind_eq_bind, Option.bind_some]
  rw [e1]
  rfl

/-- A model with an amplitude in both lists and shared line shapes. -/
example : (exT4 (fun _ => 1) []).ampsA ≠ [] ∧ (exT4 (fun _ => 1) []).ampsB ≠ [] := by decide

example := C99_listing_partial (exT4 (fun _ => 1) []) (by decide) (by decide)

example (a : TAmp Nat Nat (Fin 9) Nat) (m : T4 Nat Nat (Fin 9) Nat (Fin 9 → ℝ) ℝ) (hA : m.ampsA = [{ a with amp := ⟨List.range 500, [], 1⟩ }]) (hB : m.ampsB = []) :=
  C99_violation_size m _ hA hB rfl (by simp)

end
end GooFit
