import Verif.Model.Minuit
import Verif.Lemmas.TreeHost
import Mathlib.Data.List.Nodup
/-!
# Lemmas on the variables during a fit
-/
set_option autoImplicit false
namespace GooFit
open FpOps
variable {F : Type} {L : Lib F}

theorem Pars.modify_same (h : Pars F) (i : Nat) (f : ParVar F → ParVar F) : h.modify i f i = f (h i) := by
  simp [Pars.modify]

theorem Pars.modify_other (h : Pars F) {i j : Nat} (f : ParVar F → ParVar F) (hij : j ≠ i) : h.modify i f j = h j := by
  simp [Pars.modify, hij]

/-- Setting the parameters of one object. -/
theorem setOwn_apply (nm : String) (x : F) (l : List Nat) (h : Pars F) (j : Nat) :
    (l.foldl (fun h i => if (h i).name = nm then h.modify i (fun v => { v with value := x }) else h) h) j
      = if j ∈ l ∧ (h j).name = nm then { h j with value := x } else h j := by
  induction l generalizing h with
  | nil => simp
  | cons i l ih =>
    rw [List.foldl_cons, ih]
    by_cases hij : j = i
    · subst hij
      by_cases hn : (h j).name = nm
      · rw [if_pos hn, Pars.modify_same]
        simp [hn]
      · simp [hn]
    · have : (if (h i).name = nm then h.modify i (fun v => { v with value := x }) else h) j = h j := by
        split
        · exact Pars.modify_other _ _ hij
        · rfl
      rw [this]
      simp [hij]

mutual
theorem updateVariable_apply (nm : String) (x : F) : ∀ (t : Pdf L) (h : Pars F) (j : Nat),
    updateVariable nm x t h j = if j ∈ t.flat Node.params ∧ (h j).name = nm then { h j with value := x } else h j
  | .mk n cs, h, j => by
    rw [updateVariable, updateVariableList_apply nm x cs, setOwn_apply, Pdf.flat]
    by_cases h1 : j ∈ n.params <;> by_cases h2 : j ∈ Pdf.flatList Node.params cs <;> by_cases h3 : (h j).name = nm <;>
      simp [h1, h2, h3]
theorem updateVariableList_apply (nm : String) (x : F) : ∀ (ts : List (Pdf L)) (h : Pars F) (j : Nat),
    updateVariableList nm x ts h j
      = if j ∈ Pdf.flatList Node.params ts ∧ (h j).name = nm then { h j with value := x } else h j
  | [], h, j => by simp [updateVariableList, Pdf.flatList]
  | t :: ts, h, j => by
    rw [updateVariableList, updateVariableList_apply nm x ts, updateVariable_apply nm x t, Pdf.flatList]
    by_cases h1 : j ∈ t.flat Node.params <;> by_cases h2 : j ∈ Pdf.flatList Node.params ts <;>
      by_cases h3 : (h j).name = nm <;> simp [h1, h2, h3]
end

/-- The constructor's loop: names are new, indices are positions, the rest is unchanged. -/
theorem paramsLoop_spec [DecidableEq F] (is : List Nat) (mn : List (MnPar F)) (h : Pars F) :
    (∀ mn' h', paramsLoop is mn h = some (mn', h') →
      (mn'.map (·.name) = mn.map (·.name) ++ is.map fun i => (h i).name)
      ∧ (∀ p ∈ mn.map (·.name), p ∉ is.map fun i => (h i).name)
      ∧ (is.map fun i => (h i).name).Nodup
      ∧ (∀ (k i : Nat), is[k]? = some i → h' i = { h i with fitterIndex := ((mn.length + k : Nat) : Int) })
      ∧ (∀ i, i ∉ is → h' i = h i))
    ∧ ((∀ p ∈ mn.map (·.name), p ∉ is.map fun i => (h i).name) → (is.map fun i => (h i).name).Nodup →
      ∃ r, paramsLoop is mn h = some r) := by
  induction is generalizing mn h with
  | nil =>
    constructor
    · intro mn' h' he
      simp only [paramsLoop, Option.some.injEq, Prod.mk.injEq] at he
      obtain ⟨rfl, rfl⟩ := he
      simp
    · intro _ _
      exact ⟨_, rfl⟩
  | cons i is ih =>
    have hany : mn.any (fun p => p.name == (h i).name) = true ↔ (h i).name ∈ mn.map (·.name) := by
      simp only [List.any_eq_true, beq_iff_eq, List.mem_map]
    rw [paramsLoop]
    by_cases hc : mn.any (fun p => p.name == (h i).name) = true
    · rw [if_pos hc]
      constructor
      · intro _ _ he; exact absurd he (by simp)
      · intro hn _
        exact absurd (List.mem_map.mpr ⟨i, by simp, rfl⟩) (hn _ (hany.mp hc))
    · rw [if_neg hc]
      have hnew : (h i).name ∉ mn.map (·.name) := fun hm => hc (hany.mpr hm)
      set mn1 := mn ++ [(⟨(h i).name, (h i).value, (h i).mnKind⟩ : MnPar F)] with hmn1
      set h1 := h.modify i fun v => { v with fitterIndex := (mn1.findIdx fun p => p.name == (h i).name : Nat) } with hh1
      have hidx : (mn1.findIdx fun p => p.name == (h i).name) = mn.length := by
        rw [hmn1, List.findIdx_append]
        rw [if_neg]
        · simp
        · rw [List.findIdx_lt_length]
          rintro ⟨p, hp, hp2⟩
          exact hnew (List.mem_map.mpr ⟨p, hp, by simpa using hp2⟩)
      have hname : ∀ j, (h1 j).name = (h j).name := by
        intro j
        rw [hh1]
        by_cases hj : j = i
        · subst hj; rw [Pars.modify_same]
        · rw [Pars.modify_other _ _ hj]
      have hnames : (is.map fun j => (h1 j).name) = is.map fun j => (h j).name :=
        List.map_congr_left fun j _ => hname j
      have hmn1n : mn1.map (·.name) = mn.map (·.name) ++ [(h i).name] := by rw [hmn1]; simp
      obtain ⟨ih1, ih2⟩ := ih mn1 h1
      rw [hnames, hmn1n] at ih1 ih2
      constructor
      · intro mn' h' he
        obtain ⟨a1, a2, a3, a4, a5⟩ := ih1 mn' h' he
        have hni : (h i).name ∉ is.map fun j => (h j).name := a2 _ (by simp)
        have hi : i ∉ is := fun hm => hni (List.mem_map.mpr ⟨i, hm, rfl⟩)
        refine ⟨by rw [a1]; simp, ?_, ?_, ?_, ?_⟩
        · intro p hp hq
          rw [List.map_cons, List.mem_cons] at hq
          rcases hq with rfl | hq
          · exact hnew hp
          · exact a2 p (by simp [List.mem_append, hp]) hq
        · rw [List.map_cons, List.nodup_cons]
          exact ⟨hni, a3⟩
        · intro k j hk
          rcases k with _ | k
          · simp only [List.getElem?_cons_zero, Option.some.injEq] at hk
            subst hk
            rw [a5 i hi, hh1, Pars.modify_same, hidx]
            simp
          · rw [List.getElem?_cons_succ] at hk
            have hj : j ≠ i := fun e => hi (e ▸ List.mem_of_getElem? hk)
            rw [a4 k j hk, hh1, Pars.modify_other _ _ hj, hmn1, List.length_append, List.length_singleton]
            rw [show mn.length + 1 + k = mn.length + (k + 1) by omega]
        · intro j hj
          rw [List.mem_cons, not_or] at hj
          rw [a5 j hj.2, hh1, Pars.modify_other _ _ hj.1]
      · intro hn hnd
        rw [List.map_cons, List.nodup_cons] at hnd
        refine ih2 ?_ hnd.2
        intro p hp
        rw [List.mem_append, List.mem_singleton] at hp
        rcases hp with hp | rfl
        · intro hq
          exact hn p hp (by rw [List.map_cons]; exact List.mem_cons_of_mem _ hq)
        · exact hnd.1

/-- The list given to Minuit. -/
theorem paramsLoop_list [DecidableEq F] (is : List Nat) (mn mn' : List (MnPar F)) (h h' : Pars F)
    (hr : paramsLoop is mn h = some (mn', h')) :
    mn' = mn ++ is.map fun i => ⟨(h i).name, (h i).value, (h i).mnKind⟩ := by
  induction is generalizing mn h with
  | nil =>
    simp only [paramsLoop, Option.some.injEq, Prod.mk.injEq] at hr
    simp [hr.1]
  | cons i is ih =>
    rw [paramsLoop] at hr
    split at hr
    · exact absurd hr (by simp)
    · rw [ih _ _ hr, List.append_assoc, List.map_cons, List.singleton_append]
      congr 2
      refine List.map_congr_left fun j _ => ?_
      by_cases hj : j = i
      · subst hj; rw [Pars.modify_same]; rfl
      · rw [Pars.modify_other _ _ hj]

/-- Every variable has its own name and knows its position. -/
def Indexed (vars : List Nat) (h : Pars F) : Prop :=
  (vars.map fun i => (h i).name).Nodup ∧ ∀ (k i : Nat), vars[k]? = some i → (h i).fitterIndex = (k : Int)

theorem Indexed.inj {vars : List Nat} {h : Pars F} (hi : Indexed vars h) {i j : Nat} (h1 : i ∈ vars) (h2 : j ∈ vars)
    (hn : (h i).name = (h j).name) : i = j :=
  List.inj_on_of_nodup_map hi.1 h1 h2 hn

theorem Indexed.nodup {vars : List Nat} {h : Pars F} (hi : Indexed vars h) : vars.Nodup := List.Nodup.of_map _ hi.1

/-- Names and indices are what matters. -/
theorem Indexed.congr {vars : List Nat} {h h' : Pars F} (hi : Indexed vars h)
    (hn : ∀ i, (h' i).name = (h i).name) (hf : ∀ i, (h' i).fitterIndex = (h i).fitterIndex) : Indexed vars h' := by
  refine ⟨?_, fun k i hk => by rw [hf, hi.2 k i hk]⟩
  rw [show (vars.map fun i => (h' i).name) = vars.map fun i => (h i).name from List.map_congr_left fun i _ => hn i]
  exact hi.1

theorem atInt_natCast {α : Type} (l : List α) (k : Nat) : atInt l (k : Int) = l[k]? := by
  unfold atInt
  rw [if_neg (by omega), Int.toNat_natCast]

variable [FpOps F] [DecidableEq F]

/-- The loop of `from_minuit_vector` over variables whose indices are positions `s, s+1, …`. -/
theorem fromLoop_spec (t : Pdf L) (values : List F) (force : Bool) (is : List Nat) (h h' : Pars F)
    (hsub : ∀ i ∈ is, i ∈ t.flat Node.params)
    (hinj : ∀ i ∈ is, ∀ j ∈ t.flat Node.params, (h i).name = (h j).name → i = j)
    (hnd : is.Nodup) (hr : fromLoop t values force is h = some h') :
    (∀ i ∈ is, ∃ x, atInt values (h i).fitterIndex = some x
      ∧ h' i = { h i with value := sub x (h i).blind, changed := if force then true else decide ((h i).value ≠ x) })
    ∧ ∀ i, i ∉ is → h' i = h i := by
  induction is generalizing h with
  | nil =>
    simp only [fromLoop, Option.some.injEq] at hr
    subst hr
    simp
  | cons i is ih =>
    rw [fromLoop] at hr
    simp only [bind, Option.bind] at hr
    cases hx : atInt values (h i).fitterIndex with
    | none => rw [hx] at hr; exact absurd hr (by simp)
    | some x =>
      rw [hx] at hr
      simp only at hr
      rw [List.nodup_cons] at hnd
      set h1 := h.modify i fun v => { v with changed := if force then true else decide (v.value ≠ x) } with hh1
      have h1i : h1 i = { h i with changed := if force then true else decide ((h i).value ≠ x) } := by
        rw [hh1, Pars.modify_same]
      have h1j : ∀ j, j ≠ i → h1 j = h j := fun j hj => by rw [hh1, Pars.modify_other _ _ hj]
      set h2 := updateVariable (h i).name (sub x (h i).blind) t h1 with hh2
      have h2i : h2 i = { h i with value := sub x (h i).blind, changed := if force then true else decide ((h i).value ≠ x) } := by
        rw [hh2, updateVariable_apply, h1i, if_pos ⟨hsub i (by simp), rfl⟩]
      have h2j : ∀ j, j ≠ i → h2 j = h j := by
        intro j hj
        rw [hh2, updateVariable_apply, h1j j hj, if_neg]
        rintro ⟨hm, hn⟩
        exact hj (hinj i (by simp) j hm hn.symm).symm
      have hnm : ∀ j, (h2 j).name = (h j).name := by
        intro j
        by_cases hj : j = i
        · subst hj; rw [h2i]
        · rw [h2j j hj]
      obtain ⟨q1, q2⟩ := ih h2 (fun j hj => hsub j (by simp [hj]))
        (fun a ha b hb hab => by
          rw [hnm, hnm] at hab
          exact hinj a (by simp [ha]) b hb hab)
        hnd.2 hr
      refine ⟨?_, ?_⟩
      · intro j hj
        rw [List.mem_cons] at hj
        rcases hj with rfl | hj
        · refine ⟨x, hx, ?_⟩
          rw [q2 j hnd.1, h2i]
        · obtain ⟨y, hy1, hy2⟩ := q1 j hj
          have hne : j ≠ i := fun e => hnd.1 (e ▸ hj)
          rw [h2j j hne] at hy1 hy2
          exact ⟨y, hy1, hy2⟩
      · intro j hj
        rw [List.mem_cons, not_or] at hj
        rw [q2 j hj.2, h2j j hj.1]

/-- The loop succeeds when the vector is long enough. -/
theorem fromLoop_some (t : Pdf L) (values : List F) (force : Bool) (is : List Nat) (h : Pars F)
    (hlen : ∀ i ∈ is, ∃ k : Nat, (h i).fitterIndex = k ∧ k < values.length) :
    ∃ h', fromLoop t values force is h = some h' := by
  induction is generalizing h with
  | nil => exact ⟨h, rfl⟩
  | cons i is ih =>
    obtain ⟨k, hk, hlt⟩ := hlen i (by simp)
    rw [fromLoop, hk, atInt_natCast, List.getElem?_eq_getElem hlt]
    simp only [bind, Option.bind]
    apply ih
    intro j hj
    obtain ⟨k', hk', hlt'⟩ := hlen j (by simp [hj])
    refine ⟨k', ?_, hlt'⟩
    rw [updateVariable_apply]
    have : ∀ f : ParVar F → ParVar F, (∀ v, (f v).fitterIndex = v.fitterIndex) → (h.modify i f j).fitterIndex = k' := by
      intro f hf
      by_cases hji : j = i
      · subst hji; rw [Pars.modify_same, hf, hk']
      · rw [Pars.modify_other _ _ hji, hk']
    have h3 := this (fun v => { v with changed := if force = true then true else decide (v.value ≠ values[k]) }) (fun _ => rfl)
    by_cases hq : j ∈ t.flat Node.params ∧
      (h.modify i (fun v => { v with changed := if force = true then true else decide (v.value ≠ values[k]) }) j).name = (h i).name
    · rw [if_pos hq]; exact h3
    · rw [if_neg hq]; exact h3

/-- `from_minuit_vector` for a manager whose indices are positions. -/
theorem fromMinuitVector_spec (t : Pdf L) (values : List F) (force : Bool) (h h' : Pars F)
    (hix : Indexed t.getParameters h) (hr : fromMinuitVector t values force h = some h') :
    (∀ (k i : Nat), t.getParameters[k]? = some i → ∃ x, values[k]? = some x
      ∧ h' i = { h i with value := sub x (h i).blind, changed := if force then true else decide ((h i).value ≠ x) })
    ∧ ∀ i, i ∉ t.getParameters → h' i = h i := by
  have hmem : ∀ j, j ∈ t.getParameters ↔ j ∈ t.flat Node.params := fun j => mem_gather Node.params t j
  obtain ⟨q1, q2⟩ := fromLoop_spec t values force t.getParameters h h' (fun i hi => (hmem i).mp hi)
    (fun i hi j hj hn => hix.inj hi ((hmem j).mpr hj) hn) hix.nodup hr
  refine ⟨?_, q2⟩
  intro k i hk
  obtain ⟨x, hx1, hx2⟩ := q1 i (List.mem_of_getElem? hk)
  rw [hix.2 k i hk, atInt_natCast] at hx1
  exact ⟨x, hx1, hx2⟩

theorem fromMinuitVector_some (t : Pdf L) (values : List F) (force : Bool) (h : Pars F)
    (hix : Indexed t.getParameters h) (hlen : t.getParameters.length ≤ values.length) :
    ∃ h', fromMinuitVector t values force h = some h' := by
  apply fromLoop_some
  intro i hi
  obtain ⟨k, hk⟩ := List.getElem?_of_mem hi
  refine ⟨k, hix.2 k i hk, ?_⟩
  have := (List.getElem?_eq_some_iff.mp hk).1
  omega

theorem fromMinuitVector_indexed (t : Pdf L) (values : List F) (force : Bool) (h h' : Pars F)
    (hix : Indexed t.getParameters h) (hr : fromMinuitVector t values force h = some h') :
    (∀ i, (h' i).name = (h i).name) ∧ (∀ i, (h' i).fitterIndex = (h i).fitterIndex) ∧ (∀ i, (h' i).blind = (h i).blind) := by
  obtain ⟨q1, q2⟩ := fromMinuitVector_spec t values force h h' hix hr
  have : ∀ i, (h' i).name = (h i).name ∧ (h' i).fitterIndex = (h i).fitterIndex ∧ (h' i).blind = (h i).blind := by
    intro i
    by_cases hi : i ∈ t.getParameters
    · obtain ⟨k, hk⟩ := List.getElem?_of_mem hi
      obtain ⟨x, _, hx⟩ := q1 k i hk
      rw [hx]; exact ⟨rfl, rfl, rfl⟩
    · rw [q2 i hi]; exact ⟨rfl, rfl, rfl⟩
  exact ⟨fun i => (this i).1, fun i => (this i).2.1, fun i => (this i).2.2⟩

omit [FpOps F] [DecidableEq F] in
theorem maxFitterIndex_eq (h : Pars F) (is : List Nat) (s : Nat)
    (hf : ∀ (k i : Nat), is[k]? = some i → (h i).fitterIndex = ((s + k : Nat) : Int)) :
    is.foldl (fun m i => max m (h i).fitterIndex) ((s : Int) - 1) = ((s + is.length : Nat) : Int) - 1 := by
  induction is generalizing s with
  | nil => simp
  | cons i is ih =>
    rw [List.foldl_cons, hf 0 i (by simp)]
    have : max ((s : Int) - 1) ((s + 0 : Nat) : Int) = ((s + 1 : Nat) : Int) - 1 := by omega
    rw [this, ih (s + 1) (fun k j hk => by rw [hf (k + 1) j (by simpa using hk)]; congr 1; omega), List.length_cons]
    omega

omit [DecidableEq F] in
theorem makeLoop_eq (h : Pars F) (is : List Nat) (pre : List F) (z : F)
    (hf : ∀ (k i : Nat), is[k]? = some i → (h i).fitterIndex = ((pre.length + k : Nat) : Int)) :
    is.foldlM (fun (vec : List F) i =>
      if (h i).fitterIndex < 0 ∨ (vec.length : Int) ≤ (h i).fitterIndex then none
      else some (vec.set (h i).fitterIndex.toNat (h i).value))
      (pre ++ List.replicate is.length z) = some (pre ++ is.map fun i => (h i).value) := by
  induction is generalizing pre with
  | nil => simp [List.foldlM]
  | cons i is ih =>
    rw [List.foldlM_cons, hf 0 i (by simp), if_neg (by simp; omega), Nat.add_zero, Int.toNat_natCast]
    simp only [bind, Option.bind]
    have e : (pre ++ List.replicate (i :: is).length z).set pre.length (h i).value
        = (pre ++ [(h i).value]) ++ List.replicate is.length z := by
      rw [List.length_cons, List.replicate_succ, List.set_append_right _ _ (Nat.le_refl _), Nat.sub_self, List.set_cons_zero,
        List.append_assoc]
      rfl
    rw [e]
    have := ih (pre ++ [(h i).value]) (fun k j hk => by
      rw [hf (k + 1) j (by simpa using hk), List.length_append, List.length_singleton]; congr 1; omega)
    rw [this]
    simp

omit [DecidableEq F] in
/-- The vector of current values. -/
theorem makeMinuitVector_eq (h : Pars F) (vars : List Nat) (hix : Indexed vars h) :
    makeMinuitVector vars h = some (vars.map fun i => (h i).value) := by
  unfold makeMinuitVector maxFitterIndex
  have := maxFitterIndex_eq h vars 0 (fun k i hk => by rw [hix.2 k i hk]; congr 1; omega)
  simp only [Nat.zero_add] at this
  rw [show (((0 : Nat) : Int) - 1) = -1 by rfl] at this
  rw [this, show (((vars.length : Nat) : Int) - 1 + 1).toNat = vars.length by omega]
  have h2 := makeLoop_eq h vars [] (lit 0) (fun k i hk => by rw [hix.2 k i hk]; simp)
  simpa using h2

omit [FpOps F] [DecidableEq F] in
theorem setGooFitParams_spec (vars : List Nat) (state : Int → F × F) (h : Pars F) :
    (∀ i, (setGooFitParams vars state h i).name = (h i).name)
    ∧ (∀ i, (setGooFitParams vars state h i).fitterIndex = (h i).fitterIndex)
    ∧ (∀ i ∈ vars, (setGooFitParams vars state h i).value = (state (h i).fitterIndex).1
        ∧ (setGooFitParams vars state h i).error = (state (h i).fitterIndex).2)
    ∧ (∀ i, i ∉ vars → setGooFitParams vars state h i = h i) := by
  unfold setGooFitParams
  induction vars generalizing h with
  | nil => simp
  | cons i is ih =>
    rw [List.foldl_cons]
    set h1 := h.modify i fun v => { v with value := (state v.fitterIndex).1, error := (state v.fitterIndex).2 } with hh1
    have hi1 : h1 i = { h i with value := (state (h i).fitterIndex).1, error := (state (h i).fitterIndex).2 } := by
      rw [hh1, Pars.modify_same]
    have hj1 : ∀ j, j ≠ i → h1 j = h j := fun j hj => by rw [hh1, Pars.modify_other _ _ hj]
    obtain ⟨a1, a2, a3, a4⟩ := ih h1
    have b1 : ∀ j, (h1 j).name = (h j).name ∧ (h1 j).fitterIndex = (h j).fitterIndex := by
      intro j
      by_cases hj : j = i
      · subst hj; rw [hi1]; exact ⟨rfl, rfl⟩
      · rw [hj1 j hj]; exact ⟨rfl, rfl⟩
    refine ⟨fun j => by rw [a1, (b1 j).1], fun j => by rw [a2, (b1 j).2], ?_, ?_⟩
    · intro j hj
      by_cases hm : j ∈ is
      · have := a3 j hm
        rw [(b1 j).2] at this
        exact this
      · rw [List.mem_cons] at hj
        obtain rfl : j = i := hj.resolve_right hm
        rw [a4 j hm, hi1]
        exact ⟨rfl, rfl⟩
    · intro j hj
      rw [List.mem_cons, not_or] at hj
      rw [a4 j hj.2, hj1 j hj.1]

omit [FpOps F] [DecidableEq F] in
theorem markChanged_spec (vars : List Nat) (h : Pars F) (i : Nat) :
    (vars.foldl (fun (h : Pars F) i => h.modify i fun v => { v with changed := true }) h) i
      = if i ∈ vars then { h i with changed := true } else h i := by
  induction vars generalizing h with
  | nil => simp
  | cons j is ih =>
    rw [List.foldl_cons, ih]
    by_cases hij : i = j
    · subst hij
      rw [Pars.modify_same]
      simp
    · rw [Pars.modify_other _ _ hij]
      simp [hij]

/-- Any history of a manager keeps names and positions. -/
theorem mnRun_indexed (t : Pdf L) (h h' : Pars F) (ops : List (MnOp F)) (hr : mnRun t h ops = some h') :
    Indexed t.getParameters h' ∧ ∀ i, (h' i).name = (h i).name := by
  unfold mnRun at hr
  simp only [bind, Option.bind] at hr
  cases hc : paramsCtor t h with
  | none => rw [hc] at hr; exact absurd hr (by simp)
  | some r =>
    obtain ⟨mn, h1⟩ := r
    rw [hc] at hr
    simp only at hr
    obtain ⟨_, _, c3, c4, c5⟩ := (paramsLoop_spec t.getParameters [] h).1 mn h1 hc
    have hn1 : ∀ i, (h1 i).name = (h i).name := by
      intro i
      by_cases hi : i ∈ t.getParameters
      · obtain ⟨k, hk⟩ := List.getElem?_of_mem hi
        rw [c4 k i hk]
      · rw [c5 i hi]
    have hix1 : Indexed t.getParameters h1 := by
      refine ⟨?_, fun k i hk => by rw [c4 k i hk]; simp⟩
      rw [show (t.getParameters.map fun i => (h1 i).name) = t.getParameters.map fun i => (h i).name from
        List.map_congr_left fun i _ => hn1 i]
      exact c3
    set h2 := t.getParameters.foldl (fun (h : Pars F) i => h.modify i fun v => { v with changed := true }) h1 with hh2
    have hn2 : ∀ i, (h2 i).name = (h1 i).name := fun i => by rw [hh2, markChanged_spec]; split <;> rfl
    have hf2 : ∀ i, (h2 i).fitterIndex = (h1 i).fitterIndex := fun i => by rw [hh2, markChanged_spec]; split <;> rfl
    have hix2 := hix1.congr hn2 hf2
    have hstep : ∀ (op : MnOp F) (g g' : Pars F), Indexed t.getParameters g → mnStep t g op = some g' →
        (∀ i, (g' i).name = (g i).name) ∧ ∀ i, (g' i).fitterIndex = (g i).fitterIndex := by
      intro op g g' hg hs
      have hmod : ∀ (i : Nat) (f : ParVar F → ParVar F), (∀ v, (f v).name = v.name ∧ (f v).fitterIndex = v.fitterIndex) →
          (∀ j, (g.modify i f j).name = (g j).name) ∧ ∀ j, (g.modify i f j).fitterIndex = (g j).fitterIndex := by
        intro i f hf
        constructor <;> intro j <;> by_cases hj : j = i
        · subst hj; rw [Pars.modify_same, (hf _).1]
        · rw [Pars.modify_other _ _ hj]
        · subst hj; rw [Pars.modify_same, (hf _).2]
        · rw [Pars.modify_other _ _ hj]
      cases op with
      | callAt v =>
        have := fromMinuitVector_indexed t v false g g' hg hs
        exact ⟨this.1, this.2.1⟩
      | callHere =>
        simp only [mnStep, fcnHere, bind, Option.bind, makeMinuitVector_eq g _ hg] at hs
        have := fromMinuitVector_indexed t _ true g g' hg hs
        exact ⟨this.1, this.2.1⟩
      | setParams s =>
        simp only [mnStep, Option.some.injEq] at hs
        subst hs
        have := setGooFitParams_spec t.getParameters s g
        exact ⟨this.1, this.2.1⟩
      | setValue i x => simp only [mnStep, Option.some.injEq] at hs; subst hs; exact hmod i _ fun _ => ⟨rfl, rfl⟩
      | setBlind i x => simp only [mnStep, Option.some.injEq] at hs; subst hs; exact hmod i _ fun _ => ⟨rfl, rfl⟩
      | setError i x => simp only [mnStep, Option.some.injEq] at hs; subst hs; exact hmod i _ fun _ => ⟨rfl, rfl⟩
      | setFixed i b => simp only [mnStep, Option.some.injEq] at hs; subst hs; exact hmod i _ fun _ => ⟨rfl, rfl⟩
    have hall : ∀ (ops : List (MnOp F)) (g g' : Pars F), Indexed t.getParameters g → ops.foldlM (mnStep t) g = some g' →
        Indexed t.getParameters g' ∧ ∀ i, (g' i).name = (g i).name := by
      intro ops
      induction ops with
      | nil =>
        intro g g' hg hs
        simp only [List.foldlM_nil, pure, Option.some.injEq] at hs
        subst hs
        exact ⟨hg, fun _ => rfl⟩
      | cons op ops ih =>
        intro g g' hg hs
        rw [List.foldlM_cons] at hs
        simp only [bind, Option.bind] at hs
        cases h3 : mnStep t g op with
        | none => rw [h3] at hs; exact absurd hs (by simp)
        | some g1 =>
          rw [h3] at hs
          obtain ⟨s1, s2⟩ := hstep op g g1 hg h3
          obtain ⟨r1, r2⟩ := ih g1 g' (hg.congr s1 s2) hs
          exact ⟨r1, fun i => by rw [r2, s1]⟩
    obtain ⟨r1, r2⟩ := hall ops h2 h' hix2 hr
    exact ⟨r1, fun i => by rw [r2, hn2, hn1]⟩

end GooFit
