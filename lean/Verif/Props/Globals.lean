import Verif.Spec.Globals
import Verif.Model.TimeFourBody
import Verif.Props.Region

/-!
# C70: amplitude PDFs in one program do not disturb each other
-/

set_option autoImplicit false

namespace GooFit

open Spec

section
variable {F : Type}

/-- Every PDF has a number of its own among those of its class. -/
structure AmpWorld.Good (w : AmpWorld F) : Prop where
  below : ∀ (p : Nat) (o : AmpObj F), w.pdfs[p]? = some o → o.cache < w.count o.kind
  own : ∀ (p q : Nat) (o o' : AmpObj F), w.pdfs[p]? = some o → w.pdfs[q]? = some o' → o.kind = o'.kind →
    o.cache = o'.cache → p = q

theorem AmpWorld.Good.step {w : AmpWorld F} (h : w.Good) (op : AmpOp F) (hr : ∀ td, op ≠ .reset td) : (w.step op).Good := by
  cases op with
  | reset td => exact absurd rfl (hr td)
  | setDataSize p =>
    unfold AmpWorld.step
    dsimp only
    cases hp : w.pdfs[p]? with
    | none => exact h
    | some o => exact ⟨h.below, h.own⟩
  | construct k d l =>
    have hget : ∀ (p : Nat) (o : AmpObj F), (w.pdfs ++ [(⟨k, d, l, w.count k⟩ : AmpObj F)])[p]? = some o →
        w.pdfs[p]? = some o ∨ (p = w.pdfs.length ∧ o = ⟨k, d, l, w.count k⟩) := by
      intro p o hp
      rcases Nat.lt_trichotomy p w.pdfs.length with hlt | heq | hgt
      · rw [List.getElem?_append_left hlt] at hp
        exact Or.inl hp
      · subst heq
        rw [List.getElem?_append_right (le_refl _), Nat.sub_self] at hp
        exact Or.inr ⟨rfl, (Option.some.inj hp).symm⟩
      · rw [List.getElem?_eq_none (by simp; omega)] at hp
        cases hp
    refine ⟨?_, ?_⟩
    · intro p o hp
      show o.cache < (if o.kind = k then w.count o.kind + 1 else w.count o.kind)
      rcases hget p o hp with h1 | ⟨_, rfl⟩
      · have := h.below p o h1
        split <;> omega
      · simp
    · intro p q o o' hp hq hk hc
      rcases hget p o hp with h1 | ⟨h1, rfl⟩ <;> rcases hget q o' hq with h2 | ⟨h2, rfl⟩
      · exact h.own p q o o' h1 h2 hk hc
      · have := h.below p o h1
        dsimp only at hk hc
        rw [hk] at this
        omega
      · have := h.below q o' h2
        dsimp only at hk hc
        rw [← hk] at this
        omega
      · rw [h1, h2]

theorem AmpWorld.Good.run {w : AmpWorld F} (h : w.Good) (ops : List (AmpOp F)) (hr : NoReset ops) :
    (ops.foldl AmpWorld.step w).Good := by
  induction ops generalizing w with
  | nil => exact h
  | cons op ops ih =>
    exact ih (h.step op fun td => hr op List.mem_cons_self td) fun o ho => hr o (List.mem_cons_of_mem _ ho)

theorem AmpWorld.init_good [Zero F] : (AmpWorld.init : AmpWorld F).Good :=
  ⟨fun p o h => absurd (show ([] : List (AmpObj F))[p]? = some o from h) (by simp),
    fun p q o o' h => absurd (show ([] : List (AmpObj F))[p]? = some o from h) (by simp)⟩

theorem AmpWorld.pdfs_step (w : AmpWorld F) (op : AmpOp F) (p : Nat) (o : AmpObj F) (h : w.pdfs[p]? = some o) :
    (w.step op).pdfs[p]? = some o := by
  cases op with
  | reset td => exact h
  | setDataSize q =>
    unfold AmpWorld.step
    dsimp only
    cases hp : w.pdfs[q]? with
    | none => exact h
    | some o => exact h
  | construct k d l =>
    show (w.pdfs ++ [_])[p]? = some o
    rw [List.getElem?_append_left (List.getElem?_eq_some_iff.1 h).1]
    exact h

theorem AmpWorld.count_run (ops : List (AmpOp F)) (w : AmpWorld F) (hr : NoReset ops) (k : AmpKind) :
    (ops.foldl AmpWorld.step w).count k = w.count k + constructed k ops := by
  induction ops generalizing w with
  | nil => rfl
  | cons op ops ih =>
    rw [List.foldl_cons, ih _ fun o ho => hr o (List.mem_cons_of_mem _ ho)]
    cases op with
    | reset td => exact absurd rfl (hr _ List.mem_cons_self td)
    | setDataSize q =>
      unfold AmpWorld.step
      dsimp only
      cases hp : w.pdfs[q]? <;> rfl
    | construct k' d l =>
      show (if k = k' then w.count k + 1 else w.count k) + _ = w.count k + ((if k' = k then 1 else 0) + constructed k ops)
      by_cases hk : k = k'
      · rw [if_pos hk, if_pos hk.symm]; omega
      · rw [if_neg hk, if_neg (Ne.symm hk)]; omega

/-- What is written for a PDF stays until data are set for it again. -/
theorem AmpWorld.slot_step {w : AmpWorld F} (h : w.Good) (op : AmpOp F) (p : Nat) (o : AmpObj F) (hp : w.pdfs[p]? = some o)
    (hop : op ≠ .setDataSize p) (i : Nat) (hi : i < o.kind.width) :
    (w.step op).slots o.kind (o.kind.width * o.cache + i) = w.slots o.kind (o.kind.width * o.cache + i) := by
  cases op with
  | reset td => rfl
  | construct k d l => rfl
  | setDataSize q =>
    unfold AmpWorld.step
    dsimp only
    cases hq : w.pdfs[q]? with
    | none => rfl
    | some o' =>
      dsimp only
      rw [if_neg]
      rintro ⟨hk, h1, h2, _⟩
      rw [← hk] at h1 h2
      have hc : o.cache = o'.cache := by
        rcases Nat.lt_trichotomy o.cache o'.cache with hlt | heq | hgt
        · have := Nat.mul_le_mul_left o.kind.width (show o.cache + 1 ≤ o'.cache from hlt)
          rw [Nat.mul_add, Nat.mul_one] at this
          omega
        · exact heq
        · have := Nat.mul_le_mul_left o.kind.width (show o'.cache + 1 ≤ o.cache from hgt)
          rw [Nat.mul_add, Nat.mul_one] at this
          omega
      have := h.own p q o o' hp hq hk hc
      subst this
      exact hop rfl

theorem AmpWorld.slot_run (ops : List (AmpOp F)) {w : AmpWorld F} (h : w.Good) (hr : NoReset ops) (p : Nat) (o : AmpObj F)
    (hp : w.pdfs[p]? = some o) (hop : NoDataFor p ops) (i : Nat) (hi : i < o.kind.width) :
    (ops.foldl AmpWorld.step w).pdfs[p]? = some o ∧
    (ops.foldl AmpWorld.step w).slots o.kind (o.kind.width * o.cache + i) = w.slots o.kind (o.kind.width * o.cache + i) := by
  induction ops generalizing w with
  | nil => exact ⟨hp, rfl⟩
  | cons op ops ih =>
    obtain ⟨h1, h2⟩ := ih (h.step op fun td => hr op List.mem_cons_self td) (fun o ho => hr o (List.mem_cons_of_mem _ ho))
      (w.pdfs_step op p o hp) (fun o ho => hop o (List.mem_cons_of_mem _ ho))
    refine ⟨h1, ?_⟩
    rw [List.foldl_cons, h2, AmpWorld.slot_step h op p o hp (hop op List.mem_cons_self) i hi]

/-- **C70 (caches).**  As long as the numbering is not reset and there are at most 20 three-body PDFs of each of the classes
with 16 pointers and at most 10 of each of the others: from the time a PDF is given data until it is given data again it
finds its own caches, of this time, whatever else is constructed or given data in between.  This concerns its first 16
waves, or its one cache. -/
theorem C70_caches_partial [Zero F] (ops rest : List (AmpOp F)) (hr : NoReset (ops ++ rest))
    (hfit : ∀ k : AmpKind, k.width * constructed k ops ≤ k.capacity) (p : Nat) (o : AmpObj F)
    (hp : (AmpWorld.run ops).pdfs[p]? = some o) (hrest : NoDataFor p rest) (i : Nat) (hi : i < o.kind.width) :
    (AmpWorld.run (ops ++ .setDataSize p :: rest)).waveOf p i = some ⟨p, i, (AmpWorld.run ops).calls⟩ := by
  have hg : (AmpWorld.run ops).Good := AmpWorld.init_good.run ops fun o ho => hr o (List.mem_append_left _ ho)
  have hcount : (AmpWorld.run ops).count o.kind = constructed o.kind ops := by
    unfold AmpWorld.run
    rw [AmpWorld.count_run ops _ fun o ho => hr o (List.mem_append_left _ ho)]
    show 0 + _ = _
    rw [Nat.zero_add]
  have hlt := hg.below p o hp
  rw [hcount] at hlt
  have hcap : o.kind.width * o.cache + i < o.kind.capacity := by
    have h1 := Nat.mul_le_mul_left o.kind.width (show o.cache + 1 ≤ _ from hlt)
    rw [Nat.mul_add, Nat.mul_one] at h1
    have := hfit o.kind
    omega
  have hrun : AmpWorld.run (ops ++ .setDataSize p :: rest)
      = rest.foldl AmpWorld.step ((AmpWorld.run ops).step (.setDataSize p)) := by
    unfold AmpWorld.run
    rw [List.foldl_append, List.foldl_cons]
  obtain ⟨h1, h2⟩ := AmpWorld.slot_run rest (hg.step (.setDataSize p) fun td => by simp)
    (fun o ho => hr o (List.mem_append_right _ ho)) p o (AmpWorld.pdfs_step _ _ p o hp) hrest i hi
  unfold AmpWorld.waveOf
  rw [hrun, h1]
  dsimp only
  rw [h2]
  unfold AmpWorld.step
  dsimp only
  rw [hp]
  dsimp only
  rw [if_pos ⟨rfl, Nat.le_add_right _ _, by omega, hcap⟩]
  simp

/-- **C70 (limits in numbers).**  The limits are twenty PDFs of each three-body class with shared waves, and ten of each
other class. -/
theorem C70_limits (k : AmpKind) (n : Nat) :
    k.width * n ≤ k.capacity ↔ n ≤ (if k = .amp3 ∨ k = .amp3TD then 20 else 10) := by
  cases k <;> simp [AmpKind.width, AmpKind.capacity] <;> omega

/-- **C70 (no overflow).**  Under the same limits, and if the index arrays of the four-body PDFs have at most 500 entries,
nothing is written behind the end of an array. -/
theorem C70_no_overflow [Zero F] (ops : List (AmpOp F)) (hr : NoReset ops)
    (hfit : ∀ k : AmpKind, k.width * constructed k ops ≤ k.capacity)
    (hidx : ∀ op ∈ ops, ∀ k d l, op = .construct k d l → l.length ≤ 500) : (AmpWorld.run ops).overflow = false := by
  have key : ∀ (ops : List (AmpOp F)) (w : AmpWorld F), NoReset ops → w.Good → w.index.length = 500 →
      (∀ k : AmpKind, k.width * (w.count k + constructed k ops) ≤ k.capacity) →
      (∀ op ∈ ops, ∀ k d l, op = .construct k d l → l.length ≤ 500) → w.overflow = false →
      (ops.foldl AmpWorld.step w).overflow = false := by
    intro ops
    induction ops with
    | nil => intro w _ _ _ _ _ h; exact h
    | cons op ops ih =>
      intro w hr hg hlen hfit hidx ho
      rw [List.foldl_cons]
      have hg' := hg.step op fun td => hr op List.mem_cons_self td
      refine ih _ (fun o ho => hr o (List.mem_cons_of_mem _ ho)) hg' ?_ ?_ (fun o ho => hidx o (List.mem_cons_of_mem _ ho)) ?_
      · cases op with
        | reset td => exact hlen
        | setDataSize q =>
          unfold AmpWorld.step
          dsimp only
          cases hq : w.pdfs[q]? <;> exact hlen
        | construct k d l =>
          have hl := hidx _ List.mem_cons_self k d l rfl
          show (if k.isFour = true then copyTo w.index l else w.index).length = 500
          split
          · unfold copyTo
            rw [List.length_append, List.length_take, List.length_drop, hlen]
            omega
          · exact hlen
      · intro k
        have h1 := AmpWorld.count_run [op] w (fun o ho => by
          rw [List.mem_singleton.1 ho]; exact fun td => hr op List.mem_cons_self td) k
        have h2 := hfit k
        rw [List.foldl_cons, List.foldl_nil] at h1
        rw [h1]
        cases op with
        | reset td => exact h2
        | setDataSize q => exact h2
        | construct k' d l =>
          have : constructed k [AmpOp.construct k' d l] = (if k' = k then 1 else 0) + 0 := rfl
          rw [this]
          have : constructed k (AmpOp.construct k' d l :: ops) = (if k' = k then 1 else 0) + constructed k ops := rfl
          rw [this] at h2
          rw [Nat.add_zero, Nat.add_assoc]
          exact h2
      · cases op with
        | reset td => exact ho
        | setDataSize q =>
          unfold AmpWorld.step
          dsimp only
          cases hq : w.pdfs[q]? with
          | none => exact ho
          | some o =>
            dsimp only
            rw [ho, Bool.false_or, decide_eq_false_iff_not, not_lt]
            have h1 := hg.below q o hq
            have h2 := Nat.mul_le_mul_left o.kind.width (show o.cache + 1 ≤ w.count o.kind + constructed o.kind ops by omega)
            rw [Nat.mul_add, Nat.mul_one] at h2
            exact h2.trans (hfit o.kind)
        | construct k d l =>
          have hl := hidx _ List.mem_cons_self k d l rfl
          show (w.overflow || (k.isFour && decide (w.index.length < l.length))) = false
          rw [ho, hlen, decide_eq_false (by omega), Bool.and_false]
          rfl
  exact key ops _ hr AmpWorld.init_good List.length_replicate (fun k => by
    show k.width * (0 + _) ≤ _
    rw [Nat.zero_add]
    exact hfit k) hidx rfl

/-- **C70 (constants).**  After a three-body PDF has been constructed, the masses and radii that all resonances use are its
own as long as every PDF that is constructed later has the same. -/
theorem C70_constants_partial [Zero F] (ops rest : List (AmpOp F)) (k : AmpKind) (hk : k = .amp3 ∨ k = .amp3TD)
    (d : DecayConsts F) (l : List Nat) (hsame : ∀ op ∈ rest, SameDecay d op) :
    (AmpWorld.run (ops ++ .construct k d l :: rest)).consts = d := by
  have key : ∀ (rest : List (AmpOp F)) (w : AmpWorld F), (∀ op ∈ rest, SameDecay d op) → w.consts = d →
      (rest.foldl AmpWorld.step w).consts = d := by
    intro rest
    induction rest with
    | nil => intro w _ h; exact h
    | cons op rest ih =>
      intro w hs h
      rw [List.foldl_cons]
      refine ih _ (fun o ho => hs o (List.mem_cons_of_mem _ ho)) ?_
      have hop := hs op List.mem_cons_self
      cases op with
      | reset td => exact h
      | setDataSize q =>
        unfold AmpWorld.step
        dsimp only
        cases hq : w.pdfs[q]? <;> exact h
      | construct k' d' l' =>
        show constsAfter k' d' w.consts = d
        rw [h]
        cases k' with
        | amp3 => exact hop
        | amp3TD => exact hop
        | amp3IS =>
          obtain ⟨h1, h2, h3, h4, h5⟩ := hop
          unfold constsAfter
          dsimp only
          rw [h1, h2, h3, h4, h5]
        | amp4 =>
          have : d'.radius = d.radius := hop
          unfold constsAfter
          dsimp only
          rw [this]
        | amp4TD => rfl
  unfold AmpWorld.run
  rw [List.foldl_append, List.foldl_cons]
  refine key rest _ hsame ?_
  rcases hk with rfl | rfl <;> rfl

/-- **C70 (index array).**  A four-body PDF whose index array fits finds it in place as long as no other four-body PDF is
constructed. -/
theorem C70_index_partial [Zero F] (ops rest : List (AmpOp F)) (k : AmpKind) (hk : k = .amp4 ∨ k = .amp4TD)
    (d : DecayConsts F) (l : List Nat) (hl : l.length ≤ 500) (hrest : NoFourBody rest) (i : Nat) (hi : i < l.length) :
    (AmpWorld.run (ops ++ .construct k d l :: rest)).index[i]? = l[i]? := by
  have hlen : ∀ (ops : List (AmpOp F)) (w : AmpWorld F), 500 ≤ w.index.length → 500 ≤ (ops.foldl AmpWorld.step w).index.length := by
    intro ops
    induction ops with
    | nil => intro w h; exact h
    | cons op ops ih =>
      intro w h
      refine ih _ ?_
      cases op with
      | reset td => exact h
      | setDataSize q =>
        unfold AmpWorld.step
        dsimp only
        cases hq : w.pdfs[q]? <;> exact h
      | construct k d l =>
        show 500 ≤ (if k.isFour = true then copyTo w.index l else w.index).length
        split
        · unfold copyTo
          rw [List.length_append, List.length_take, List.length_drop]
          omega
        · exact h
  have key : ∀ (rest : List (AmpOp F)) (w : AmpWorld F), NoFourBody rest → (rest.foldl AmpWorld.step w).index = w.index := by
    intro rest
    induction rest with
    | nil => intro w _; rfl
    | cons op rest ih =>
      intro w hs
      rw [List.foldl_cons, ih _ fun o ho => hs o (List.mem_cons_of_mem _ ho)]
      cases op with
      | reset td => rfl
      | setDataSize q =>
        unfold AmpWorld.step
        dsimp only
        cases hq : w.pdfs[q]? <;> rfl
      | construct k d l =>
        have hop := hs _ List.mem_cons_self k d l rfl
        show (if k.isFour = true then copyTo w.index l else w.index) = w.index
        rw [if_neg]
        cases k <;> simp [AmpKind.isFour] at hop ⊢
  unfold AmpWorld.run
  rw [List.foldl_append, List.foldl_cons, key rest _ hrest]
  have h500 := hlen ops (AmpWorld.init : AmpWorld F) (le_of_eq List.length_replicate.symm)
  generalize ops.foldl AmpWorld.step (AmpWorld.init : AmpWorld F) = w at h500
  have : (w.step (.construct k d l)).index = copyTo w.index l := by
    rcases hk with rfl | rfl <;> rfl
  rw [this]
  unfold copyTo
  rw [List.take_of_length_le (hl.trans h500), List.getElem?_append_left hi]

/-! ### Violations -/

/-- **C70 (violation).**  A second three-body PDF replaces the masses and radii of the first, whatever they are. -/
theorem C70_violation_constants [Zero F] (d d' : DecayConsts F) (h : d' ≠ d) :
    (AmpWorld.run [.construct .amp3 d [], .construct .amp3 d' []]).consts ≠ d := h

/-- **C70 (violation).**  A four-body PDF replaces the radius of a three-body PDF. -/
theorem C70_violation_radius [Zero F] (d d' : DecayConsts F) :
    (AmpWorld.run [.construct .amp3 d [], .construct .amp4 d' []]).consts.radius = d'.radius := rfl

/-- **C70 (violation).**  The radius of the mother of an incoherent sum is never used: it is zero, or that of a PDF
constructed before. -/
theorem C70_violation_mother_radius [Zero F] (d d' : DecayConsts F) :
    (AmpWorld.run [.construct .amp3IS d []]).consts.motherRadius = 0
    ∧ (AmpWorld.run [.construct .amp3 d' [], .construct .amp3IS d []]).consts.motherRadius = d'.motherRadius := ⟨rfl, rfl⟩

/-- **C70 (violation).**  The seventeenth wave of a three-body PDF is the first wave of the next one. -/
theorem C70_violation_seventeenth [Zero F] (d d' : DecayConsts F) :
    (AmpWorld.run [.construct .amp3 d [], .construct .amp3 d' [], .setDataSize 0, .setDataSize 1]).waveOf 0 16 = some ⟨1, 0, 1⟩ :=
  rfl

/-- Constructing more PDFs of one class. -/
theorem AmpWorld.pdfs_replicate (k : AmpKind) (d : DecayConsts F) (l : List Nat) (n : Nat) (w : AmpWorld F) :
    ((List.replicate n (.construct k d l)).foldl AmpWorld.step w).pdfs
      = w.pdfs ++ (List.range n).map fun j => ⟨k, d, l, w.count k + j⟩ := by
  induction n generalizing w with
  | zero => simp
  | succ n ih =>
    rw [List.replicate_succ, List.foldl_cons, ih, List.range_succ_eq_map, List.map_cons, List.map_map]
    have h1 : (w.step (.construct k d l)).pdfs = w.pdfs ++ [⟨k, d, l, w.count k⟩] := rfl
    have h2 : (w.step (.construct k d l)).count k = w.count k + 1 := if_pos rfl
    rw [h1, h2, List.append_assoc]
    refine congrArg _ ?_
    rw [List.singleton_append]
    refine congrArg₂ _ rfl (List.map_congr_left fun j _ => ?_)
    show (⟨k, d, l, _⟩ : AmpObj F) = ⟨k, d, l, _⟩
    rw [Nat.succ_eq_add_one, Nat.add_assoc, Nat.add_comm 1 j]

/-- **C70 (violation).**  The limits are sharp: when more PDFs of a class are constructed, the pointers of the last are
written behind the end of the array. -/
theorem C70_violation_overflow [Zero F] (k : AmpKind) (d : DecayConsts F) (l : List Nat) (n : Nat)
    (hn : k.capacity < k.width * (n + 1)) :
    (AmpWorld.run (List.replicate (n + 1) (.construct k d l) ++ [.setDataSize n])).overflow = true := by
  unfold AmpWorld.run
  rw [List.foldl_append, List.foldl_cons, List.foldl_nil]
  have h := AmpWorld.pdfs_replicate k d l (n + 1) (AmpWorld.init : AmpWorld F)
  generalize (List.replicate (n + 1) (AmpOp.construct k d l)).foldl AmpWorld.step (AmpWorld.init : AmpWorld F) = w at h
  have hg : w.pdfs[n]? = some ⟨k, d, l, n⟩ := by
    rw [h]
    show (([] : List (AmpObj F)) ++ _)[n]? = _
    rw [List.nil_append, List.getElem?_map, List.getElem?_range (by omega)]
    show some (⟨k, d, l, 0 + n⟩ : AmpObj F) = _
    rw [Nat.zero_add]
  unfold AmpWorld.step
  dsimp only
  rw [hg]
  dsimp only
  rw [decide_eq_true (by rw [Nat.mul_add, Nat.mul_one] at hn; exact hn), Bool.or_true]

example : AmpKind.amp3.capacity < AmpKind.amp3.width * (20 + 1) ∧ AmpKind.amp4.capacity < AmpKind.amp4.width * (10 + 1) := by
  decide

end

/-- **C70 (violation, seen from outside).**  A PDF for a particle of mass 2 that decays to three photons, then one whose
decay has two heavy daughters: the point with both squared masses 1, which the first decay reaches, is now outside the region,
so that the first PDF is zero there. -/
theorem C70_violation_region :
    let d : DecayConsts ℝ := ⟨2, 0, 0, 0, 1, 1⟩
    let d' : DecayConsts ℝ := ⟨5, 1, 1, 1, 1, 1⟩
    let inRegion := fun c : DecayConsts ℝ => inDalitz (1 : ℝ) 1 c.mother c.daug1 c.daug2 c.daug3
    inRegion (AmpWorld.run [.construct .amp3 d []]).consts = true
    ∧ inRegion (AmpWorld.run [.construct .amp3 d [], .construct .amp3 d' []]).consts = false := by
  intro d d' inRegion
  constructor
  · show inDalitz (1 : ℝ) 1 2 0 0 0 = true
    refine (inDalitz_iff 1 1 2 0 0 0).2 ?_
    have h1 : Real.sqrt 4 = 2 := by
      rw [show (4 : ℝ) = 2 ^ 2 by norm_num]; exact Real.sqrt_sq (by norm_num)
    have h2 : Real.sqrt 9 = 3 := by
      rw [show (9 : ℝ) = 3 ^ 2 by norm_num]; exact Real.sqrt_sq (by norm_num)
    norm_num [h1, h2]
  · show inDalitz (1 : ℝ) 1 5 1 1 1 = false
    rw [← Bool.not_eq_true]
    intro h
    have h1 := ((inDalitz_iff 1 1 5 1 1 1).1 h).2.2.1
    norm_num at h1

/-- **C70 (violation, seen from outside).**  Two time-dependent four-body PDFs with one amplitude each, the first with an
amplitude of the first flavour, the second of the other: once the second has been constructed, the first PDF adds its
amplitude to the wrong sum. -/
theorem C70_violation_index (d : DecayConsts ℝ) (par : Nat → ℝ) (a : ℂ) :
    let first := [0, 1, 1, 1, 0, 0, 0]
    let second := [0, 1, 1, 1, 1, 0, 0]
    flagSums (AmpWorld.run [.construct .amp4TD d first]).index 1 par (fun _ => a)
      = (a * ⟨par 4, par 5⟩ * (par 3 : ℂ), 0)
    ∧ flagSums (AmpWorld.run [.construct .amp4TD d first, .construct .amp4TD d second]).index 1 par (fun _ => a)
      = (0, a * ⟨par 4, par 5⟩) := by
  intro first second
  have h1 := C70_index_partial (F := ℝ) [] [] .amp4TD (Or.inr rfl) d first (by decide) (fun op h => absurd h (by simp))
  have h2 := C70_index_partial (F := ℝ) [.construct .amp4TD d first] [] .amp4TD (Or.inr rfl) d second (by decide)
    (fun op h => absurd h (by simp))
  rw [List.nil_append] at h1
  rw [List.singleton_append] at h2
  generalize (AmpWorld.run [.construct .amp4TD d first]).index = idx1 at h1 ⊢
  generalize (AmpWorld.run [.construct .amp4TD d first, .construct .amp4TD d second]).index = idx2 at h2 ⊢
  have key : ∀ idx : List Nat, rd idx 0 = 0 → flagSums idx 1 par (fun _ => a)
      = ((flagStep par (rd idx 4) a 0 (0, 0, 0)).1 * (par 3 : ℂ), (flagStep par (rd idx 4) a 0 (0, 0, 0)).2.1) := by
    intro idx h0
    show ((flagStep par (rd idx (rd idx 0 + 3 + 1)) a 0 (0, 0, 0)).1 * (par 3 : ℂ),
      (flagStep par (rd idx (rd idx 0 + 3 + 1)) a 0 (0, 0, 0)).2.1) = _
    rw [h0]
  have r : ∀ (idx : List Nat) (i v : Nat), idx[i]? = some v → rd idx i = v := by
    intro idx i v h
    unfold rd
    rw [List.getD_eq_getElem?_getD, h]
    rfl
  constructor
  · rw [key _ (r _ _ _ (h1 0 (by decide))), r _ _ _ (h1 4 (by decide))]
    show ((0 + a * ⟨par 4, par 5⟩) * (par 3 : ℂ), (0 : ℂ)) = _
    rw [zero_add]
  · rw [key _ (r _ _ _ (h2 0 (by decide))), r _ _ _ (h2 4 (by decide))]
    show ((0 : ℂ) * (par 3 : ℂ), 0 + a * ⟨par 4, par 5⟩) = _
    rw [zero_add, zero_mul]

/-! ### A history that meets the hypotheses -/

/-- A decay. -/
def exDecay : DecayConsts ℚ := ⟨2, 1 / 2, 1 / 2, 1 / 2, 1, 5⟩
/-- Two three-body PDFs of the same decay and a four-body PDF. -/
def exAmpOps : List (AmpOp ℚ) := [.construct .amp3 exDecay [], .construct .amp3 exDecay [], .construct .amp4 exDecay [0, 1, 1, 1]]
/-- Data for the others, and another PDF. -/
def exAmpRest : List (AmpOp ℚ) := [.setDataSize 1, .setDataSize 2, .construct .amp3TD exDecay [], .setDataSize 3]

example : NoReset (exAmpOps ++ exAmpRest) ∧ (∀ k : AmpKind, k.width * constructed k exAmpOps ≤ k.capacity)
    ∧ NoDataFor 0 exAmpRest ∧ (∀ op ∈ exAmpRest, SameDecay exDecay op) ∧ NoFourBody exAmpRest
    ∧ (AmpWorld.run exAmpOps).pdfs[0]? = some ⟨.amp3, exDecay, [], 0⟩ := by
  refine ⟨?_, ?_, ?_, ?_, ?_, rfl⟩
  · intro op h td
    simp [exAmpOps, exAmpRest] at h
    rcases h with rfl | rfl | rfl | rfl | rfl | rfl <;> simp
  · intro k; cases k <;> decide
  · intro op h
    simp [exAmpRest] at h
    rcases h with rfl | rfl | rfl | rfl <;> simp
  · intro op h
    simp [exAmpRest] at h
    rcases h with rfl | rfl | rfl | rfl <;> simp [SameDecay]
  · intro op h k d l hk
    simp [exAmpRest] at h
    rcases h with rfl | rfl | rfl | rfl <;> simp at hk
    rw [← hk.1]; simp

end GooFit
