import Verif.Spec.PyBind
import Mathlib.Tactic.ByContra
import Mathlib.Data.List.Basic

/-! Lemmas about the dispatcher of `Model/PyBind.lean`. -/

set_option autoImplicit false

namespace GooFit.PyBind

open Spec

/-- The keywords of a signature. -/
def kws (ps : List Param) : List String := ps.filterMap Param.kw

theorem mem_kws {ps : List Param} {n : String} :
    n ∈ kws ps ↔ ∃ (j : Nat) (p : Param), ps[j]? = some p ∧ p.kw = some n := by
  unfold kws
  rw [List.mem_filterMap]
  constructor
  · rintro ⟨p, hp, hn⟩
    obtain ⟨j, hj⟩ := List.getElem?_of_mem hp
    exact ⟨j, p, hj, hn⟩
  · rintro ⟨j, p, hj, hn⟩
    exact ⟨p, List.mem_of_getElem? hj, hn⟩

theorem lookup_mem {kw : List (String × PyVal)} {n : String} {v : PyVal}
    (h : kw.lookup n = some v) : (n, v) ∈ kw := by
  induction kw with
  | nil => simp at h
  | cons e es ih =>
    obtain ⟨m, w⟩ := e
    rw [List.lookup_cons] at h
    by_cases hm : n = m
    · subst hm; simp at h; subst h; simp
    · have : (n == m) = false := by simpa using hm
      rw [this] at h
      exact List.mem_cons_of_mem _ (ih h)

theorem lookup_none {kw : List (String × PyVal)} {n : String} :
    kw.lookup n = none ↔ ∀ v, (n, v) ∉ kw := by
  induction kw with
  | nil => simp
  | cons e es ih =>
    obtain ⟨m, w⟩ := e
    rw [List.lookup_cons]
    by_cases hm : n = m
    · subst hm
      simp only [BEq.rfl, reduceCtorEq, false_iff]
      intro h; exact h w (by simp)
    · have : (n == m) = false := by simpa using hm
      rw [this]
      simp only [List.mem_cons, Prod.mk.injEq, not_or]
      rw [ih]
      exact ⟨fun h v => ⟨fun e => hm e.1, h v⟩, fun h v => (h v).2⟩

theorem lookup_of_mem {kw : List (String × PyVal)} {n : String} {v : PyVal}
    (hn : (kw.map Prod.fst).Nodup) (h : (n, v) ∈ kw) : kw.lookup n = some v := by
  induction kw with
  | nil => simp at h
  | cons e es ih =>
    obtain ⟨m, w⟩ := e
    rw [List.map_cons, List.nodup_cons] at hn
    rw [List.lookup_cons]
    rcases List.mem_cons.1 h with h' | h'
    · obtain ⟨rfl, rfl⟩ := Prod.mk.inj h'
      simp
    · have hm : n ≠ m := by
        rintro rfl
        exact hn.1 (List.mem_map.2 ⟨_, h', rfl⟩)
      have : (n == m) = false := by simpa using hm
      rw [this]
      exact ih hn.2 h'

/-- Erasing the entry of a keyword that is given once leaves the entries of the others. -/
theorem mem_erase {kw : List (String × PyVal)} {n m : String} {w : PyVal}
    (hn : (kw.map Prod.fst).Nodup) :
    (m, w) ∈ kw.eraseP (fun e => e.1 == n) ↔ (m, w) ∈ kw ∧ m ≠ n := by
  induction kw with
  | nil => simp
  | cons e es ih =>
    obtain ⟨k, u⟩ := e
    rw [List.map_cons, List.nodup_cons] at hn
    by_cases hk : k = n
    · subst hk
      rw [List.eraseP_cons_of_pos (by simp)]
      constructor
      · intro h
        refine ⟨List.mem_cons_of_mem _ h, ?_⟩
        rintro rfl
        exact hn.1 (List.mem_map.2 ⟨_, h, rfl⟩)
      · rintro ⟨h, hne⟩
        rcases List.mem_cons.1 h with h | h
        · exact absurd (Prod.mk.inj h).1 hne
        · exact h
    · rw [List.eraseP_cons_of_neg (by simpa using hk)]
      simp only [List.mem_cons, Prod.mk.injEq]
      rw [ih hn.2]
      constructor
      · rintro (⟨rfl, rfl⟩ | h)
        · exact ⟨.inl ⟨rfl, rfl⟩, hk⟩
        · exact ⟨.inr h.1, h.2⟩
      · rintro ⟨h | h, hne⟩
        · exact .inl h
        · exact .inr ⟨h, hne⟩

theorem erase_nodup {kw : List (String × PyVal)} {n : String}
    (hn : (kw.map Prod.fst).Nodup) : ((kw.eraseP (fun e => e.1 == n)).map Prod.fst).Nodup :=
  hn.sublist (List.eraseP_sublist.map _)

theorem kws_cons (p : Param) (ps : List Param) : kws (p :: ps) = p.kw.toList ++ kws ps := by
  unfold kws
  rw [List.filterMap_cons]
  cases p.kw <;> rfl

/-- What `Fills` says of a signature and a call that begin with a parameter and a positional value. -/
theorem fills_position {p : Param} {ps : List Param} {a : PyVal} {as : List PyVal}
    {kw : List (String × PyVal)} {vs : List PyVal} (hk : (kws (p :: ps)).Nodup) :
    Fills (p :: ps) ⟨a :: as, kw⟩ vs ↔
      (∀ n v, p.kw = some n → (n, v) ∉ kw) ∧ ∃ vs', vs = a :: vs' ∧ Fills ps ⟨as, kw⟩ vs' := by
  constructor
  · intro h
    have hs := h.size
    cases vs with
    | nil => simp at hs
    | cons v vs' =>
    have h0 := h.each 0 p v rfl rfl
    have hv : v = a := by
      cases h0 with
      | position h => simpa using h.symm
      | keyword n h => simp at h
      | default h => simp at h
    refine ⟨?_, vs', by rw [hv], ?_, ?_, ?_, ?_⟩
    · intro n v hn hm
      obtain ⟨j, q, hj, hq, hqn⟩ := h.known n v hm
      cases j with
      | zero => simp at hj
      | succ j =>
        rw [kws_cons, hn] at hk
        simp only [Option.toList, List.singleton_append, List.nodup_cons] at hk
        exact hk.1 (mem_kws.2 ⟨j, q, by simpa using hq, hqn⟩)
    · have := h.few; simpa using this
    · intro n v hm
      obtain ⟨j, q, hj, hq, hqn⟩ := h.known n v hm
      cases j with
      | zero => simp at hj
      | succ j => exact ⟨j, q, by simpa using hj, by simpa using hq, hqn⟩
    · simpa using hs
    · intro j q w hq hw
      have := h.each (j + 1) q w (by simpa using hq) (by simpa using hw)
      cases this with
      | position h => exact .position (by simpa using h)
      | keyword n h1 h2 h3 => exact .keyword n (by simpa using h1) h2 h3
      | default h1 h2 h3 h4 => exact .default (by simpa using h1) h2 h3 h4
  · rintro ⟨hno, vs', rfl, h⟩
    refine ⟨?_, ?_, ?_, ?_⟩
    · have := h.few; simpa using this
    · intro n v hm
      obtain ⟨j, q, hj, hq, hqn⟩ := h.known n v hm
      exact ⟨j + 1, q, by simpa using hj, by simpa using hq, hqn⟩
    · simpa using h.size
    · intro j q w hq hw
      cases j with
      | zero =>
        simp at hq hw
        subst hq; subst hw
        exact .position rfl
      | succ j =>
        have := h.each j q w (by simpa using hq) (by simpa using hw)
        cases this with
        | position h => exact .position (by simpa using h)
        | keyword n h1 h2 h3 => exact .keyword n (by simpa using h1) h2 h3
        | default h1 h2 h3 h4 => exact .default (by simpa using h1) h2 h3 h4

/-- The same for a parameter given by keyword. -/
theorem fills_keyword {p : Param} {ps : List Param} {n : String} {v : PyVal}
    {kw : List (String × PyVal)} {vs : List PyVal} (hk : (kws (p :: ps)).Nodup)
    (ho : (kw.map Prod.fst).Nodup) (hn : p.kw = some n) (hv : (n, v) ∈ kw) :
    Fills (p :: ps) ⟨[], kw⟩ vs ↔
      ∃ vs', vs = v :: vs' ∧ Fills ps ⟨[], kw.eraseP (fun e => e.1 == n)⟩ vs' := by
  have huniq : ∀ w, (n, w) ∈ kw → w = v := by
    intro w hw
    have h1 := lookup_of_mem ho hw
    rw [lookup_of_mem ho hv] at h1
    exact (Option.some.inj h1).symm
  have hnot : ∀ (j : Nat) (q : Param), ps[j]? = some q → q.kw ≠ some n := by
    intro j q hq hqn
    rw [kws_cons, hn] at hk
    simp only [Option.toList, List.singleton_append, List.nodup_cons] at hk
    exact hk.1 (mem_kws.2 ⟨j, q, hq, hqn⟩)
  constructor
  · intro h
    have hs := h.size
    cases vs with
    | nil => simp at hs
    | cons w vs' =>
    have h0 := h.each 0 p w rfl rfl
    have hw : w = v := by
      cases h0 with
      | position h => simp at h
      | keyword m h1 h2 h3 =>
        rw [hn] at h2
        obtain rfl := Option.some.inj h2
        exact huniq w h3
      | default h1 h2 h3 h4 => exact absurd hv (h2 n v hn)
    refine ⟨vs', by rw [hw], ?_, ?_, ?_, ?_⟩
    · simp
    · intro m u hm
      obtain ⟨hm, hne⟩ := (mem_erase ho).1 hm
      obtain ⟨j, q, hj, hq, hqn⟩ := h.known m u hm
      cases j with
      | zero =>
        simp at hq
        subst hq
        rw [hn] at hqn
        exact absurd (Option.some.inj hqn).symm hne
      | succ j => exact ⟨j, q, by simp, by simpa using hq, hqn⟩
    · simpa using hs
    · intro j q u hq hu
      have hh := h.each (j + 1) q u (by simpa using hq) (by simpa using hu)
      cases hh with
      | position h => simp at h
      | keyword m h1 h2 h3 =>
        refine .keyword m (by simp) h2 ((mem_erase ho).2 ⟨h3, ?_⟩)
        rintro rfl
        exact hnot j q hq h2
      | default h1 h2 h3 h4 =>
        exact .default (by simp) (fun m z hm hz => h2 m z hm ((mem_erase ho).1 hz).1) h3 h4
  · rintro ⟨vs', rfl, h⟩
    refine ⟨by simp, ?_, ?_, ?_⟩
    · intro m u hm
      by_cases hmn : m = n
      · subst hmn
        exact ⟨0, p, by simp, rfl, hn⟩
      · obtain ⟨j, q, hj, hq, hqn⟩ := h.known m u ((mem_erase ho).2 ⟨hm, hmn⟩)
        exact ⟨j + 1, q, by simp, by simpa using hq, hqn⟩
    · simpa using h.size
    · intro j q u hq hu
      cases j with
      | zero =>
        simp at hq hu
        subst hq; subst hu
        exact .keyword n (by simp) hn hv
      | succ j =>
        have hq' : ps[j]? = some q := by simpa using hq
        have hh := h.each j q u hq' (by simpa using hu)
        cases hh with
        | position h => simp at h
        | keyword m h1 h2 h3 => exact .keyword m (by simp) h2 ((mem_erase ho).1 h3).1
        | default h1 h2 h3 h4 =>
          refine .default (by simp) (fun m z hm hz => h2 m z hm ((mem_erase ho).2 ⟨hz, ?_⟩)) h3 h4
          rintro rfl
          exact hnot j q hq' hm

/-- The same for a parameter that is not given. -/
theorem fills_default {p : Param} {ps : List Param}
    {kw : List (String × PyVal)} {vs : List PyVal}
    (hv : ∀ n v, p.kw = some n → (n, v) ∉ kw) :
    Fills (p :: ps) ⟨[], kw⟩ vs ↔
      p.kw ≠ none ∧ ∃ d vs', p.dflt = some d ∧ vs = d :: vs' ∧ Fills ps ⟨[], kw⟩ vs' := by
  constructor
  · intro h
    have hs := h.size
    cases vs with
    | nil => simp at hs
    | cons w vs' =>
    have h0 := h.each 0 p w rfl rfl
    have hw : p.kw ≠ none ∧ p.dflt = some w := by
      cases h0 with
      | position h => simp at h
      | keyword m h1 h2 h3 => exact absurd h3 (hv m w h2)
      | default h1 h2 h3 h4 => exact ⟨h3, h4⟩
    refine ⟨hw.1, w, vs', hw.2, rfl, by simp, ?_, by simpa using hs, ?_⟩
    · intro m u hm
      obtain ⟨j, q, hj, hq, hqn⟩ := h.known m u hm
      cases j with
      | zero =>
        simp at hq
        subst hq
        exact absurd hm (hv m u hqn)
      | succ j => exact ⟨j, q, by simp, by simpa using hq, hqn⟩
    · intro j q u hq hu
      have hh := h.each (j + 1) q u (by simpa using hq) (by simpa using hu)
      cases hh with
      | position h => simp at h
      | keyword m h1 h2 h3 => exact .keyword m (by simp) h2 h3
      | default h1 h2 h3 h4 => exact .default (by simp) h2 h3 h4
  · rintro ⟨hne, d, vs', hd, rfl, h⟩
    refine ⟨by simp, ?_, by simpa using h.size, ?_⟩
    · intro m u hm
      obtain ⟨j, q, hj, hq, hqn⟩ := h.known m u hm
      exact ⟨j + 1, q, by simp, by simpa using hq, hqn⟩
    · intro j q u hq hu
      cases j with
      | zero =>
        simp at hq hu
        subst hq; subst hu
        exact .default (by simp) hv hne hd
      | succ j =>
        have hh := h.each j q u (by simpa using hq) (by simpa using hu)
        cases hh with
        | position h => simp at h
        | keyword m h1 h2 h3 => exact .keyword m (by simp) h2 h3
        | default h1 h2 h3 h4 => exact .default (by simp) h2 h3 h4

/-- The dispatcher's filling of the parameters is the one the specification describes. -/
theorem fill_iff : ∀ (ps : List Param) (pos : List PyVal) (kw : List (String × PyVal))
    (vs : List PyVal), (kws ps).Nodup → (kw.map Prod.fst).Nodup →
    (fill ps pos kw = some vs ↔ Fills ps ⟨pos, kw⟩ vs)
  | [], [], [], vs, _, _ => by
    constructor
    · intro h
      simp [fill] at h
      subst h
      exact ⟨by simp, by simp, rfl, by simp⟩
    · intro h
      have := h.size
      simp at this
      subst this
      rfl
  | [], [], e :: es, vs, _, _ => by
    constructor
    · intro h; simp [fill] at h
    · intro h
      obtain ⟨j, q, _, hq, _⟩ := h.known e.1 e.2 (by simp)
      simp at hq
  | [], a :: as, kw, vs, _, _ => by
    constructor
    · intro h; simp [fill] at h
    · intro h
      have := h.few
      simp at this
  | p :: ps, a :: as, kw, vs, hk, ho => by
    have hk' : (kws ps).Nodup := by
      rw [kws_cons] at hk; exact (List.nodup_append.1 hk).2.1
    rw [fills_position hk, fill]
    have hl : p.kw.bind (fun n => kw.lookup n) = none ↔ ∀ n v, p.kw = some n → (n, v) ∉ kw := by
      cases hp : p.kw with
      | none => simp
      | some n =>
        simp only [Option.bind_some, Option.some.injEq]
        rw [lookup_none]
        exact ⟨fun h m v e => e ▸ h v, fun h v => h n v rfl⟩
    cases hb : p.kw.bind (fun n => kw.lookup n) with
    | some v =>
      simp only [reduceCtorEq, false_iff]
      rintro ⟨h, -⟩
      rw [hl.2 h] at hb
      simp at hb
    | none =>
      simp only [Option.map_eq_some_iff]
      constructor
      · rintro ⟨w, hw, rfl⟩
        exact ⟨hl.1 hb, w, rfl, (fill_iff ps as kw w hk' ho).1 hw⟩
      · rintro ⟨-, w, rfl, hw⟩
        exact ⟨w, (fill_iff ps as kw w hk' ho).2 hw, rfl⟩
  | p :: ps, [], kw, vs, hk, ho => by
    have hk' : (kws ps).Nodup := by
      rw [kws_cons] at hk; exact (List.nodup_append.1 hk).2.1
    rw [fill]
    cases hp : p.kw with
    | none =>
      rw [fills_default (by simp [hp])]
      simp [hp]
    | some n =>
      cases hlk : kw.lookup n with
      | some v =>
        rw [fills_keyword hk ho hp (lookup_mem hlk)]
        simp only [hlk, Option.map_eq_some_iff]
        constructor
        · rintro ⟨w, hw, rfl⟩
          exact ⟨w, rfl, (fill_iff ps [] _ w hk' (erase_nodup ho)).1 hw⟩
        · rintro ⟨w, rfl, hw⟩
          exact ⟨w, (fill_iff ps [] _ w hk' (erase_nodup ho)).2 hw, rfl⟩
      | none =>
        rw [fills_default (by
          intro m v hm
          rw [hp] at hm
          obtain rfl := Option.some.inj hm
          exact lookup_none.1 hlk v)]
        simp only [hlk]
        cases hd : p.dflt with
        | none => simp
        | some d =>
          simp only [Option.map_eq_some_iff]
          constructor
          · rintro ⟨w, hw, rfl⟩
            exact ⟨by simp [hp], d, w, rfl, rfl, (fill_iff ps [] kw w hk' ho).1 hw⟩
          · rintro ⟨-, e, w, he, rfl, hw⟩
            obtain rfl := Option.some.inj he
            exact ⟨w, (fill_iff ps [] kw w hk' ho).2 hw, rfl⟩

/-- A signature that is filled takes all the values given, and was given all it needs. -/
theorem fill_count : ∀ (ps : List Param) (pos : List PyVal) (kw : List (String × PyVal))
    (vs : List PyVal), fill ps pos kw = some vs →
    pos.length + kw.length ≤ ps.length ∧
      (ps.filter (fun p => p.dflt.isNone)).length ≤ pos.length + kw.length
  | [], [], [], vs, _ => by simp
  | [], [], e :: es, vs, h => by simp [fill] at h
  | [], a :: as, kw, vs, h => by simp [fill] at h
  | p :: ps, a :: as, kw, vs, h => by
    rw [fill] at h
    cases hb : p.kw.bind (fun n => kw.lookup n) with
    | some v => simp [hb] at h
    | none =>
      simp only [hb, Option.map_eq_some_iff] at h
      obtain ⟨w, hw, -⟩ := h
      have ih := fill_count ps as kw w hw
      rw [List.filter_cons]
      split <;> simp only [List.length_cons] <;> omega
  | p :: ps, [], kw, vs, h => by
    rw [fill] at h
    cases hp : p.kw with
    | none => simp [hp] at h
    | some n =>
      cases hlk : kw.lookup n with
      | some v =>
        simp only [hp, hlk, Option.map_eq_some_iff] at h
        obtain ⟨w, hw, -⟩ := h
        have ih := fill_count ps [] _ w hw
        have hl : (kw.eraseP (fun e => e.1 == n)).length = kw.length - 1 :=
          List.length_eraseP_of_mem (lookup_mem hlk) (by simp)
        have hpos : 0 < kw.length := List.length_pos_of_mem (lookup_mem hlk)
        rw [hl] at ih
        rw [List.filter_cons]
        split <;> simp only [List.length_cons, List.length_nil] at ih ⊢ <;> omega
      | none =>
        cases hd : p.dflt with
        | none => simp [hp, hlk, hd] at h
        | some d =>
          simp only [hp, hlk, hd, Option.map_eq_some_iff] at h
          obtain ⟨w, hw, -⟩ := h
          have ih := fill_count ps [] kw w hw
          rw [List.filter_cons]
          simp only [hd, Option.isNone_some, Bool.false_eq_true, if_false, List.length_cons]
          omega

theorem counts_iff {a : PyAtom} {n : Int} : Counts a n ↔ index a = some n := by
  constructor
  · rintro (_ | _ | _ | _) <;> rfl
  · intro h
    cases a with
    | int m => simp [index] at h; subst h; exact .int _
    | bool b =>
      cases b <;> simp [index] at h <;> subst h
      · exact .no
      · exact .yes
    | enumerator e m => simp [index] at h; subst h; exact .enumerator _ _
    | _ => simp [index] at h

theorem counts_obj {i : Nat} {bs : List Cls} {t : Option Bool} {n : Int}
    (h : Counts (.obj i bs t) n) : False := by cases h

theorem loadInt_iff {lo hi : Int} {a : PyAtom} {x : CAtom} :
    loadInt lo hi a = some x ↔ ∃ n, Counts a n ∧ lo ≤ n ∧ n < hi ∧ x = .int n := by
  unfold loadInt
  cases h : index a with
  | none =>
    simp only [reduceCtorEq, false_iff]
    rintro ⟨n, hn, -⟩
    rw [counts_iff.1 hn] at h
    simp at h
  | some n =>
    simp only
    constructor
    · intro hx
      split at hx
      · rename_i hr
        exact ⟨n, counts_iff.2 h, hr.1, hr.2, (Option.some.inj hx).symm⟩
      · simp at hx
    · rintro ⟨m, hm, h1, h2, rfl⟩
      rw [counts_iff.1 hm] at h
      obtain rfl := Option.some.inj h
      rw [if_pos ⟨h1, h2⟩]

/-- A proper value loads, with conversions, as what it stands for. -/
theorem loadAtom_proper {t : CTy} {a : PyAtom} {x : CAtom} (h : StandsFor t a x) :
    loadAtom true t a = some x := by
  cases h with
  | str => rfl
  | bool => rfl
  | int hc h1 h2 =>
    show loadInt _ _ _ = _
    exact loadInt_iff.2 ⟨_, hc, by omega, by omega, rfl⟩
  | uint hc h1 h2 =>
    show loadInt _ _ _ = _
    exact loadInt_iff.2 ⟨_, hc, by omega, by omega, rfl⟩
  | long hc h1 h2 =>
    show loadInt _ _ _ = _
    exact loadInt_iff.2 ⟨_, hc, by omega, by omega, rfl⟩
  | size hc h1 h2 =>
    show loadInt _ _ _ = _
    exact loadInt_iff.2 ⟨_, hc, by omega, by omega, rfl⟩
  | float => rfl
  | whole hc => cases hc <;> rfl
  | inst id truth hm => simp [loadAtom, hm]
  | ptr id truth hm => simp [loadAtom, hm]
  | null => rfl
  | enum => simp [loadAtom]

/-- What loads is a proper value, except that a `bool` also takes what is no truth value. -/
theorem loadAtom_sound {b : Bool} {t : CTy} {a : PyAtom} {x : CAtom}
    (h : loadAtom b t a = some x) (ht : t = .bool → ∃ v, a = .bool v) : StandsFor t a x := by
  cases t with
  | bool =>
    obtain ⟨v, rfl⟩ := ht rfl
    simp [loadAtom] at h
    subst h
    exact .bool v
  | int =>
    obtain ⟨n, hn, h1, h2, rfl⟩ := loadInt_iff.1 (show loadInt _ _ a = some x from h)
    exact .int hn (by omega) (by omega)
  | uint =>
    obtain ⟨n, hn, h1, h2, rfl⟩ := loadInt_iff.1 (show loadInt _ _ a = some x from h)
    exact .uint hn (by omega) (by omega)
  | long =>
    obtain ⟨n, hn, h1, h2, rfl⟩ := loadInt_iff.1 (show loadInt _ _ a = some x from h)
    exact .long hn (by omega) (by omega)
  | size =>
    obtain ⟨n, hn, h1, h2, rfl⟩ := loadInt_iff.1 (show loadInt _ _ a = some x from h)
    exact .size hn (by omega) (by omega)
  | str => cases a <;> simp [loadAtom] at h; subst h; exact .str _
  | flt =>
    cases a with
    | float q => simp [loadAtom] at h; subst h; exact .float q
    | int n =>
      cases b <;> simp [loadAtom, index] at h; subst h; exact .whole (.int n)
    | bool v =>
      cases b <;> cases v <;> simp [loadAtom, index] at h <;> subst h
      · exact .whole (n := 0) .no
      · exact .whole (n := 1) .yes
    | enumerator e n =>
      cases b <;> simp [loadAtom, index] at h; subst h; exact .whole (.enumerator e n)
    | _ => cases b <;> simp [loadAtom, index] at h
  | inst c =>
    cases a <;> simp [loadAtom] at h
    obtain ⟨h1, rfl⟩ := h
    exact .inst _ _ h1
  | ptr c =>
    cases a <;> simp [loadAtom] at h
    · obtain ⟨-, rfl⟩ := h
      exact .null c
    · obtain ⟨h1, rfl⟩ := h
      exact .ptr _ _ h1
  | enum e =>
    cases a <;> simp [loadAtom] at h
    obtain ⟨rfl, rfl⟩ := h
    exact .enum _ _
  | _ => cases a <;> simp [loadAtom] at h

/-- Conversions do not change what loads without them. -/
theorem loadAtom_mono {t : CTy} {a : PyAtom} {x : CAtom} (h : loadAtom false t a = some x) :
    loadAtom true t a = some x := by
  cases t with
  | bool => cases a <;> simp [loadAtom] at h ⊢; exact h
  | flt => cases a <;> simp [loadAtom] at h ⊢; exact h
  | ptr c => cases a <;> simp [loadAtom] at h ⊢; exact h
  | _ => cases a <;> exact h

theorem mapM_proper {t : CTy} {l : List PyAtom} {xs : List CAtom}
    (h : List.Forall₂ (StandsFor t) l xs) : l.mapM (loadAtom true t) = some xs := by
  induction h with
  | nil => rfl
  | cons h1 _ ih => simp [List.mapM_cons, loadAtom_proper h1, ih]

theorem mapM_sound {b : Bool} {t : CTy} (ht : t ≠ .bool) : ∀ {l : List PyAtom} {xs : List CAtom},
    l.mapM (loadAtom b t) = some xs → List.Forall₂ (StandsFor t) l xs
  | [], xs, h => by simp at h; subst h; exact .nil
  | a :: l, xs, h => by
    rw [List.mapM_cons] at h
    cases h1 : loadAtom b t a with
    | none => simp [h1] at h
    | some x =>
      cases h2 : l.mapM (loadAtom b t) with
      | none => simp [h1, h2] at h
      | some ys =>
        simp [h1, h2] at h
        subst h
        exact .cons (loadAtom_sound h1 (fun e => absurd e ht)) (mapM_sound ht h2)

theorem load_proper {t : CTy} {v : PyVal} {x : CVal} (h : Means t v x) : load true t v = some x := by
  cases h with
  | one h => 
    rename_i a y
    have : load true t (.atom a) = (loadAtom true t a).map .atom := by
      cases t <;> rfl
    rw [this, loadAtom_proper h]; rfl
  | insts h => simp [load, elem, mapM_proper h]
  | ptrs h => simp [load, elem, mapM_proper h]
  | floats h => simp [load, elem, mapM_proper h]
  | ints h => simp [load, elem, mapM_proper h]
  | spline h1 h2 h3 => simp [load, loadAtom_proper h1, loadAtom_proper h2, loadAtom_proper h3]

theorem load_seq {b : Bool} {t : CTy} (ht : t ≠ .spline) (l : List PyAtom) :
    load b t (.seq l) = match elem t with
      | some e => (l.mapM (loadAtom b e)).map .list
      | none => none := by
  cases t <;> first | rfl | exact absurd rfl ht

theorem load_atom {b : Bool} {t : CTy} (a : PyAtom) :
    load b t (.atom a) = (loadAtom b t a).map .atom := by
  cases t <;> rfl

theorem load_sound {b : Bool} {t : CTy} {v : PyVal} {x : CVal} (h : load b t v = some x)
    (ht : t = .bool → ∃ w, v = .atom (.bool w)) : Means t v x := by
  cases v with
  | atom a =>
    rw [load_atom, Option.map_eq_some_iff] at h
    obtain ⟨y, hy, rfl⟩ := h
    refine .one (loadAtom_sound hy ?_)
    intro e
    obtain ⟨w, hw⟩ := ht e
    exact ⟨w, PyVal.atom.inj hw⟩
  | seq l =>
    by_cases hs : t = .spline
    · subst hs
      match l, h with
      | [p, q, r], h =>
        simp only [load] at h
        split at h
        · rename_i x y z h1 h2 h3
          obtain rfl := Option.some.inj h
          exact .spline (loadAtom_sound h1 (by simp)) (loadAtom_sound h2 (by simp))
            (loadAtom_sound h3 (by simp))
        · simp at h
      | [], h => simp [load, elem] at h
      | [_], h => simp [load, elem] at h
      | [_, _], h => simp [load, elem] at h
      | _ :: _ :: _ :: _ :: _, h => simp [load, elem] at h
    · rw [load_seq hs] at h
      cases t with
      | vecInst c =>
        simp only [elem, Option.map_eq_some_iff] at h
        obtain ⟨xs, hx, rfl⟩ := h
        exact .insts (mapM_sound (by simp) hx)
      | vecPtr c =>
        simp only [elem, Option.map_eq_some_iff] at h
        obtain ⟨xs, hx, rfl⟩ := h
        exact .ptrs (mapM_sound (by simp) hx)
      | vecFlt =>
        simp only [elem, Option.map_eq_some_iff] at h
        obtain ⟨xs, hx, rfl⟩ := h
        exact .floats (mapM_sound (by simp) hx)
      | vecInt =>
        simp only [elem, Option.map_eq_some_iff] at h
        obtain ⟨xs, hx, rfl⟩ := h
        exact .ints (mapM_sound (by simp) hx)
      | _ => simp [elem] at h

theorem load_mono {t : CTy} {v : PyVal} {x : CVal} (h : load false t v = some x) :
    load true t v = some x := by
  by_cases hb : t = .bool
  · subst hb
    cases v with
    | atom a =>
      rw [load_atom, Option.map_eq_some_iff] at h ⊢
      obtain ⟨y, hy, rfl⟩ := h
      exact ⟨y, loadAtom_mono hy, rfl⟩
    | seq l => rw [load_seq (by simp)] at h; simp [elem] at h
  · exact load_proper (load_sound h (fun e => absurd e hb))

/-- Types no value of which is a proper value for one and loads for the other. -/
def clash (t t' : CTy) : Bool :=
  (seqTy t != seqTy t') || (objTy t && numTy t') || (numTy t && objTy t')
where
  seqTy : CTy → Bool
    | .vecInst _ | .vecPtr _ | .vecFlt | .vecInt | .spline => true
    | _ => false
  objTy : CTy → Bool
    | .inst _ => true
    | _ => false
  numTy : CTy → Bool
    | .int | .uint | .long | .size | .flt => true
    | _ => false

theorem means_seq {t : CTy} {v : PyVal} {x : CVal} (h : Means t v x) :
    clash.seqTy t = true ↔ ∃ l, v = .seq l := by
  cases h with
  | one h => cases h <;> simp [clash.seqTy]
  | _ => simp [clash.seqTy]

theorem load_isSeq {b : Bool} {t : CTy} {v : PyVal} {x : CVal} (h : load b t v = some x) :
    clash.seqTy t = true ↔ ∃ l, v = .seq l := by
  by_cases hb : t = .bool
  · subst hb
    cases v with
    | atom a => simp [clash.seqTy]
    | seq l => rw [load_seq (by simp)] at h; simp [elem] at h
  · exact means_seq (load_sound h (fun e => absurd e hb))

theorem clash_load {b : Bool} {t t' : CTy} {v : PyVal} {x : CVal} (h : Means t v x)
    (hc : clash t t' = true) : load b t' v = none := by
  cases hl : load b t' v with
  | none => rfl
  | some y =>
    exfalso
    have h1 := means_seq h
    have h2 := load_isSeq hl
    have h12 : clash.seqTy t = clash.seqTy t' := by
      rw [Bool.eq_iff_iff, h1, h2]
    have hb : ∀ {c}, t' = c → clash.objTy c = true ∨ clash.numTy c = true → Means t' v y := by
      rintro c rfl hc
      refine load_sound hl ?_
      rintro rfl
      simp [clash.objTy, clash.numTy] at hc
    unfold clash at hc
    rw [h12] at hc
    simp only [bne_self_eq_false, Bool.false_or, Bool.or_eq_true, Bool.and_eq_true] at hc
    rcases hc with ⟨ho, hn⟩ | ⟨hn, ho⟩
    · have hm := hb rfl (.inr hn)
      clear hl h1 h2 h12 hb
      cases t <;> simp [clash.objTy] at ho
      cases h with
      | one h =>
        cases h
        cases hm with
        | one hm => cases hm <;> first | exact counts_obj ‹_› | simp [clash.numTy] at hn
    · have hm := hb rfl (.inl ho)
      clear hl h1 h2 h12 hb
      cases t' <;> simp [clash.objTy] at ho
      cases hm with
      | one hm =>
        cases hm
        cases h with
        | one h => cases h <;> first | exact counts_obj ‹_› | simp [clash.numTy] at hn

theorem loadAll_iff {b : Bool} : ∀ {ps : List Param} {vs : List PyVal} {xs : List CVal},
    loadAll b ps vs = some xs ↔ vs.length = ps.length ∧ xs.length = ps.length ∧
      ∀ (j : Nat) (p : Param) (v : PyVal) (x : CVal), ps[j]? = some p → vs[j]? = some v →
        xs[j]? = some x → load b p.ty v = some x
  | [], [], xs => by
    constructor
    · intro h; simp [loadAll] at h; subst h; simp
    · rintro ⟨-, h, -⟩; simp at h; subst h; rfl
  | [], v :: vs, xs => by simp [loadAll]
  | p :: ps, [], xs => by simp [loadAll]
  | p :: ps, v :: vs, xs => by
    rw [loadAll]
    constructor
    · intro h
      split at h
      · rename_i x ys h1 h2
        obtain rfl := Option.some.inj h
        obtain ⟨l1, l2, ih⟩ := loadAll_iff.1 h2
        refine ⟨by simp [l1], by simp [l2], ?_⟩
        intro j q w y hq hw hy
        cases j with
        | zero =>
          simp at hq hw hy
          subst hq; subst hw; subst hy
          exact h1
        | succ j => exact ih j q w y (by simpa using hq) (by simpa using hw) (by simpa using hy)
      · simp at h
    · rintro ⟨l1, l2, ih⟩
      cases xs with
      | nil => simp at l2
      | cons x ys =>
        have h1 := ih 0 p v x rfl rfl rfl
        have h2 : loadAll b ps vs = some ys := loadAll_iff.2 ⟨by simpa using l1, by simpa using l2,
          fun j q w y hq hw hy =>
            ih (j + 1) q w y (by simpa using hq) (by simpa using hw) (by simpa using hy)⟩
        rw [h1, h2]

theorem loadAll_mono {ps : List Param} {vs : List PyVal} {xs : List CVal}
    (h : loadAll false ps vs = some xs) : loadAll true ps vs = some xs := by
  obtain ⟨h1, h2, h3⟩ := loadAll_iff.1 h
  exact loadAll_iff.2 ⟨h1, h2, fun j p v x hp hv hx => load_mono (h3 j p v x hp hv hx)⟩

/-- Two signatures that no call can be meant for at once: they take different numbers of values, or one
needs a parameter of a name and a type the other does not take. -/
def needs (o o' : Sig) (other : Bool) : Bool :=
  o.zipIdx.any fun (p, j) =>
    p.dflt.isNone && (match p.kw with | some n => !(kws o').contains n | none => false) &&
      (match o'[j]? with
       | some p' => if other then clash p'.ty p.ty else clash p.ty p'.ty
       | none => true)

def required (o : Sig) : Nat := (o.filter (fun p => p.dflt.isNone)).length

def apart (o o' : Sig) : Bool :=
  decide (o.length < required o') || decide (o'.length < required o) ||
    needs o o' false || needs o' o true

theorem needs_spec {o o' : Sig} {other : Bool} (h : needs o o' other = true) :
    ∃ (j : Nat) (p : Param) (n : String), o[j]? = some p ∧ p.dflt = none ∧ p.kw = some n ∧
      n ∉ kws o' ∧ ∀ p', o'[j]? = some p' →
        (if other then clash p'.ty p.ty else clash p.ty p'.ty) = true := by
  unfold needs at h
  rw [List.any_eq_true] at h
  obtain ⟨⟨p, j⟩, hm, hh⟩ := h
  have hj : o[j]? = some p := by
    have := List.mem_zipIdx_iff_getElem?.1 hm
    simpa using this
  simp only [Bool.and_eq_true] at hh
  obtain ⟨⟨h1, h2⟩, h3⟩ := hh
  cases hk : p.kw with
  | none => rw [hk] at h2; simp at h2
  | some n =>
    rw [hk] at h2
    refine ⟨j, p, n, hj, by simpa using h1, hk, by simpa using h2, ?_⟩
    intro p' hp'
    rw [hp'] at h3
    exact h3

theorem apart_none {o o' : Sig} {c : PyCall} {vs : List PyVal} {xs : List CVal} (b : Bool)
    (hk : (kws o).Nodup) (hk' : (kws o').Nodup) (h : Fits o c vs xs) (ha : apart o o' = true) :
    tryCall b o' c = none := by
  cases ht : tryCall b o' c with
  | none => rfl
  | some ys =>
    exfalso
    unfold tryCall at ht
    cases hf' : fill o' c.positional c.keyword with
    | none => simp [hf'] at ht
    | some vs' =>
    rw [hf'] at ht
    have hl' := loadAll_iff.1 ht
    have F' : Fills o' c vs' := (fill_iff o' _ _ vs' hk' h.once).1 hf'
    have F := h.fills
    have hf := (fill_iff o _ _ vs hk h.once).2 F
    have c1 := fill_count _ _ _ _ hf
    have c2 := fill_count _ _ _ _ hf'
    unfold apart at ha
    simp only [Bool.or_eq_true, decide_eq_true_eq] at ha
    unfold required at ha
    have pick : ∀ {ps : Sig} {ws : List PyVal} {j : Nat} {p : Param}, ws.length = ps.length →
        ps[j]? = some p → ∃ w, ws[j]? = some w := by
      intro ps ws j p hl hp
      have : j < ws.length := by
        rw [hl]; exact (List.getElem?_eq_some_iff.1 hp).1
      exact ⟨ws[j], List.getElem?_eq_getElem this⟩
    have pickC : ∀ {ps : Sig} {ws : List CVal} {j : Nat} {p : Param}, ws.length = ps.length →
        ps[j]? = some p → ∃ w, ws[j]? = some w := by
      intro ps ws j p hl hp
      have : j < ws.length := by
        rw [hl]; exact (List.getElem?_eq_some_iff.1 hp).1
      exact ⟨ws[j], List.getElem?_eq_getElem this⟩
    have pickP : ∀ {ps : Sig} {j : Nat} {v : PyVal}, c.positional.length ≤ ps.length →
        c.positional[j]? = some v → ∃ p, ps[j]? = some p := by
      intro ps j v hl hp
      have : j < ps.length := lt_of_lt_of_le (List.getElem?_eq_some_iff.1 hp).1 hl
      exact ⟨ps[j], List.getElem?_eq_getElem this⟩
    have posv : ∀ {ps : Sig} {ws : List PyVal} {j : Nat} {p : Param} {v w : PyVal},
        Fills ps c ws → ps[j]? = some p → ws[j]? = some w → c.positional[j]? = some v → w = v := by
      intro ps ws j p v w hF hp hw hv
      have hlt := (List.getElem?_eq_some_iff.1 hv).1
      cases hF.each j p w hp hw with
      | position h => rw [hv] at h; exact (Option.some.inj h).symm
      | keyword n h => omega
      | default h => omega
    rcases ha with ((ha | ha) | ha) | ha
    · omega
    · omega
    · obtain ⟨j, p, n, hp, hd, hkw, hno, hcl⟩ := needs_spec ha
      obtain ⟨v, hv⟩ := pick F.size hp
      obtain ⟨x, hx⟩ := pickC h.size hp
      cases F.each j p v hp hv with
      | position hpos =>
        obtain ⟨p', hp'⟩ := pickP F'.few hpos
        obtain ⟨v', hv'⟩ := pick F'.size hp'
        obtain ⟨y, hy⟩ := pickC hl'.2.1 hp'
        obtain rfl := posv F' hp' hv' hpos
        have := clash_load (b := b) (h.proper j p v' x hp hv hx) (by simpa using hcl p' hp')
        rw [hl'.2.2 j p' v' y hp' hv' hy] at this
        simp at this
      | keyword m h1 h2 h3 =>
        rw [hkw] at h2
        obtain rfl := Option.some.inj h2
        obtain ⟨i, q, -, hq, hqn⟩ := F'.known n v h3
        exact hno (mem_kws.2 ⟨i, q, hq, hqn⟩)
      | default h1 h2 h3 h4 => rw [hd] at h4; simp at h4
    · obtain ⟨j, p', n, hp', hd, hkw, hno, hcl⟩ := needs_spec ha
      obtain ⟨v', hv'⟩ := pick F'.size hp'
      obtain ⟨y, hy⟩ := pickC hl'.2.1 hp'
      cases F'.each j p' v' hp' hv' with
      | position hpos =>
        obtain ⟨p, hp⟩ := pickP F.few hpos
        obtain ⟨v, hv⟩ := pick F.size hp
        obtain ⟨x, hx⟩ := pickC h.size hp
        obtain rfl := posv F hp hv hpos
        have := clash_load (b := b) (h.proper j p v x hp hv hx) (by simpa using hcl p hp)
        rw [hl'.2.2 j p' v y hp' hv' hy] at this
        simp at this
      | keyword m h1 h2 h3 =>
        rw [hkw] at h2
        obtain rfl := Option.some.inj h2
        obtain ⟨i, q, -, hq, hqn⟩ := F.known n v' h3
        exact hno (mem_kws.2 ⟨i, q, hq, hqn⟩)
      | default h1 h2 h3 h4 => rw [hd] at h4; simp at h4

theorem tryCall_fits {o : Sig} {c : PyCall} {vs : List PyVal} {xs : List CVal}
    (hk : (kws o).Nodup) (h : Fits o c vs xs) : tryCall true o c = some xs := by
  unfold tryCall
  rw [(fill_iff o _ _ vs hk h.once).2 h.fills]
  exact loadAll_iff.2 ⟨h.fills.size, h.size, fun j p v x hp hv hx =>
    load_proper (h.proper j p v x hp hv hx)⟩

theorem tryCall_mono {o : Sig} {c : PyCall} {xs : List CVal} (h : tryCall false o c = some xs) :
    tryCall true o c = some xs := by
  unfold tryCall at h ⊢
  cases hf : fill o c.positional c.keyword with
  | none => simp [hf] at h
  | some vs => rw [hf] at h; exact loadAll_mono h

theorem firstMatch_some {b : Bool} {c : PyCall} : ∀ {ss : List Sig} {k i : Nat} {xs : List CVal},
    firstMatch b c k ss = some (i, xs) → ∃ (d : Nat) (s : Sig), i = k + d ∧ ss[d]? = some s ∧
      tryCall b s c = some xs
  | [], k, i, xs, h => by simp [firstMatch] at h
  | s :: ss, k, i, xs, h => by
    rw [firstMatch] at h
    split at h
    · rename_i cs hc
      obtain ⟨rfl, rfl⟩ := Prod.mk.inj (Option.some.inj h)
      exact ⟨0, s, rfl, rfl, hc⟩
    · obtain ⟨d, s', rfl, hs, ht⟩ := firstMatch_some h
      exact ⟨d + 1, s', by omega, by simpa using hs, ht⟩

theorem firstMatch_only {b : Bool} {c : PyCall} : ∀ {ss : List Sig} {k d : Nat} {s : Sig}
    {xs : List CVal}, ss[d]? = some s → tryCall b s c = some xs →
    (∀ (e : Nat) (s' : Sig), e ≠ d → ss[e]? = some s' → tryCall b s' c = none) →
    firstMatch b c k ss = some (k + d, xs)
  | [], k, d, s, xs, hs, _, _ => by simp at hs
  | t :: ss, k, 0, s, xs, hs, hx, _ => by
    simp at hs
    subst hs
    rw [firstMatch, hx]
    rfl
  | t :: ss, k, d + 1, s, xs, hs, hx, hno => by
    rw [firstMatch, hno 0 t (by simp) rfl]
    have := firstMatch_only (k := k + 1) (d := d) (by simpa using hs) hx
      (fun e s' he hs' => hno (e + 1) s' (by omega) (by simpa using hs'))
    simp only [this]
    congr 2
    omega

theorem dispatch_some {ss : List Sig} {c : PyCall} {i : Nat} {xs : List CVal}
    (h : dispatch ss c = some (i, xs)) :
    ∃ s, ss[i]? = some s ∧ tryCall true s c = some xs := by
  unfold dispatch at h
  split at h
  · obtain ⟨d, s, hi, hs, ht⟩ := firstMatch_some h
    rw [Nat.zero_add] at hi
    exact ⟨s, hi ▸ hs, ht⟩
  · split at h
    · rename_i hr
      obtain rfl := Option.some.inj h
      obtain ⟨d, s, hi, hs, ht⟩ := firstMatch_some hr
      rw [Nat.zero_add] at hi
      exact ⟨s, hi ▸ hs, tryCall_mono ht⟩
    · obtain ⟨d, s, hi, hs, ht⟩ := firstMatch_some h
      rw [Nat.zero_add] at hi
      exact ⟨s, hi ▸ hs, ht⟩

theorem dispatch_only {ss : List Sig} {c : PyCall} {i : Nat} {s : Sig} {xs : List CVal}
    (hs : ss[i]? = some s) (hx : tryCall true s c = some xs)
    (hno : ∀ (e : Nat) (s' : Sig), e ≠ i → ss[e]? = some s' → tryCall true s' c = none) :
    dispatch ss c = some (i, xs) := by
  have h2 := firstMatch_only (k := 0) hs hx hno
  rw [Nat.zero_add] at h2
  unfold dispatch
  split
  · exact h2
  · cases hf : firstMatch false c 0 ss with
    | none => exact h2
    | some r =>
      obtain ⟨d, s', hi, hs', ht⟩ := firstMatch_some (i := r.1) (xs := r.2) hf
      rw [Nat.zero_add] at hi
      subst hi
      by_cases hd : r.1 = i
      · rw [hd] at hs'
        rw [hs] at hs'
        obtain rfl := Option.some.inj hs'
        have := tryCall_mono ht
        rw [hx] at this
        obtain ⟨r1, r2⟩ := r
        simp at hd this ⊢
        exact ⟨hd, this.symm⟩
      · have := hno r.1 s' hd hs'
        rw [tryCall_mono ht] at this
        simp at this

end GooFit.PyBind
