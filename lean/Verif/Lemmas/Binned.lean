import Verif.Spec.Binned
import Verif.Lemmas.Grid
import Mathlib.Algebra.Order.Floor.Ring
import Mathlib.Algebra.Order.Floor.Semiring
import Mathlib.Algebra.BigOperators.Ring.List
import Mathlib.Data.List.GetD
import Mathlib.Data.BitVec
set_option autoImplicit false
namespace GooFit
open Spec

/-! ### Integer widths -/

theorem signExtend_toNat_of_lt (a : BitVec 32) (h : a.toNat < 2 ^ 31) : (a.signExtend 64).toNat = a.toNat := by
  have hm : a.msb = false := by
    rw [BitVec.msb_eq_false_iff_two_mul_lt]; omega
  rw [BitVec.signExtend_eq_setWidth_of_msb_false hm]
  simp
  omega

theorem prod_pos_of_pos (ns : List Nat) (h : ∀ n ∈ ns, 0 < n) : 0 < ns.prod := by
  induction ns with
  | nil => simp
  | cons n ns ih =>
    rw [List.prod_cons]
    exact Nat.mul_pos (h n (by simp)) (ih fun m hm => h m (by simp [hm]))

theorem numBinsAcc_eq (ns : List Nat) (h : ∀ n ∈ ns, 0 < n) :
    ∀ a : BitVec 32, a.toNat * ns.prod < 2 ^ 31 → (numBinsAcc a ns).toNat = a.toNat * ns.prod := by
  induction ns with
  | nil => intro a _; simp [numBinsAcc]
  | cons n ns ih =>
    intro a ha
    have hp : 0 < ns.prod := prod_pos_of_pos ns fun m hm => h m (by simp [hm])
    have hn : 0 < n := h n (by simp)
    rw [List.prod_cons, ← Nat.mul_assoc] at ha
    have h1 : a.toNat * n < 2 ^ 31 := lt_of_le_of_lt (Nat.le_mul_of_pos_right _ hp) ha
    have h2 : a.toNat < 2 ^ 31 := lt_of_le_of_lt (Nat.le_mul_of_pos_right _ hn) h1
    have hstep : ((a.signExtend 64 * BitVec.ofNat 64 n).truncate 32).toNat = a.toNat * n := by
      rw [BitVec.truncate, BitVec.toNat_setWidth, BitVec.toNat_mul, signExtend_toNat_of_lt a h2, BitVec.toNat_ofNat,
        Nat.mul_mod_mod]
      rw [Nat.mod_eq_of_lt (a := a.toNat * n) (by omega), Nat.mod_eq_of_lt (by omega)]
    rw [numBinsAcc, ih (fun m hm => h m (by simp [hm])), hstep, List.prod_cons, Nat.mul_assoc]
    rw [hstep]; exact ha

theorem getNumBins_eq (ns : List Nat) (h : ∀ n ∈ ns, 0 < n) (hp : ns.prod < 2 ^ 31) : getNumBins ns = ns.prod := by
  have h1 := numBinsAcc_eq ns h 1#32 (by simpa using hp)
  simp at h1
  unfold getNumBins
  rw [signExtend_toNat_of_lt _ (by rw [h1]; exact hp), h1]

theorem localToGlobalLoop_eq (os ls ns : List Nat) (h1 : ls.length = os.length) (h2 : ns.length = os.length)
    (prior ret : BitVec 32) :
    localToGlobalLoop os ls ns prior ret = some (ret + prior * BitVec.ofNat 32 (globalOf ns ls)) := by
  induction os generalizing ls ns prior ret with
  | nil =>
    cases ls with
    | nil => cases ns with
      | nil => simp [localToGlobalLoop, globalOf]
      | cons _ _ => simp at h2
    | cons _ _ => simp at h1
  | cons o os ih =>
    cases ls with
    | nil => simp at h1
    | cons l ls =>
      cases ns with
      | nil => simp at h2
      | cons n ns =>
        simp only [localToGlobalLoop, globalOf]
        rw [ih ls ns (by simpa using h1) (by simpa using h2)]
        congr 1
        rw [BitVec.ofNat_add, BitVec.ofNat_mul]
        ring

/-! ### Mixed radix numbers -/

theorem globalOf_lt (ns ls : List Nat) (h : ValidLocals ns ls) (hp : ∀ n ∈ ns, 0 < n) :
    globalOf ns ls < ns.prod := by
  obtain ⟨hl, hv⟩ := h
  induction ns generalizing ls with
  | nil => cases ls <;> simp [globalOf]
  | cons n ns ih =>
    cases ls with
    | nil => simp at hl
    | cons l ls =>
      have h0 : l < n := hv 0 n l rfl rfl
      have hr := ih ls (fun m hm => hp m (by simp [hm])) (by simpa using hl)
        (fun j m k hj hk => hv (j + 1) m k (by simpa using hj) (by simpa using hk))
      simp only [globalOf, List.prod_cons]
      have : n * (globalOf ns ls + 1) ≤ n * ns.prod := Nat.mul_le_mul_left _ hr
      have h3 : n * (globalOf ns ls + 1) = n * globalOf ns ls + n := by ring
      omega

/-- The digits of `g`. -/
def digits : List Nat → Nat → List Nat
  | [], _ => []
  | n :: ns, g => g % n :: digits ns (g / n)

theorem globalToLocalLoop_eq (os ns : List Nat) (h : ns.length = os.length) (hp : ∀ n ∈ ns, 0 < n) (g : Nat) :
    globalToLocalLoop os ns g = some (digits ns g) := by
  induction os generalizing ns g with
  | nil => cases ns with
    | nil => rfl
    | cons _ _ => simp at h
  | cons o os ih =>
    cases ns with
    | nil => simp at h
    | cons n ns =>
      have hn : n ≠ 0 := by have := hp n (by simp); omega
      simp only [globalToLocalLoop, hn, if_false, digits]
      rw [ih ns (by simpa using h) (fun m hm => hp m (by simp [hm]))]
      rfl

theorem digits_length (ns : List Nat) (g : Nat) : (digits ns g).length = ns.length := by
  induction ns generalizing g with
  | nil => rfl
  | cons n ns ih => simp [digits, ih]

theorem digits_getElem (ns : List Nat) (g j : Nat) (hj : j < ns.length) :
    (digits ns g)[j]? = some (digit ns j g) := by
  induction ns generalizing g j with
  | nil => simp at hj
  | cons n ns ih =>
    cases j with
    | zero => simp [digits, digit]
    | succ j =>
      have hj' : j < ns.length := by simpa using hj
      simp only [digits, List.getElem?_cons_succ]
      rw [ih (g / n) j hj']
      simp [digit, Nat.div_div_eq_div_mul]

theorem digits_valid (ns : List Nat) (g : Nat) (hp : ∀ n ∈ ns, 0 < n) : ValidLocals ns (digits ns g) := by
  refine ⟨digits_length ns g, ?_⟩
  intro j n l hj hl
  have hlt : j < ns.length := (List.getElem?_eq_some_iff.mp hj).1
  rw [digits_getElem ns g j hlt] at hl
  obtain rfl : digit ns j g = l := by simpa using hl
  have hn : ns[j]! = n := by
    rw [List.getElem!_eq_getElem?_getD, hj]; rfl
  unfold digit
  rw [hn]
  exact Nat.mod_lt _ (hp n (List.mem_of_getElem? hj))

theorem globalOf_digits (ns : List Nat) (g : Nat) (h : g < ns.prod) : globalOf ns (digits ns g) = g := by
  induction ns generalizing g with
  | nil => simp at h; simp [h, globalOf]
  | cons n ns ih =>
    have hn : 0 < n := by
      rcases Nat.eq_zero_or_pos n with h0 | h0
      · simp [h0] at h
      · exact h0
    have h1 : g / n < ns.prod := by
      rw [List.prod_cons] at h
      exact Nat.div_lt_of_lt_mul h
    simp only [digits, globalOf, ih _ h1]
    exact Nat.mod_add_div g n

theorem digits_globalOf (ns ls : List Nat) (h : ValidLocals ns ls) : digits ns (globalOf ns ls) = ls := by
  obtain ⟨hl, hv⟩ := h
  induction ns generalizing ls with
  | nil => cases ls with
    | nil => rfl
    | cons _ _ => simp at hl
  | cons n ns ih =>
    cases ls with
    | nil => simp at hl
    | cons l ls =>
      have h0 : l < n := hv 0 n l rfl rfl
      have hr := ih ls (by simpa using hl)
        (fun j m k hj hk => hv (j + 1) m k (by simpa using hj) (by simpa using hk))
      simp only [globalOf, digits, Nat.add_mul_mod_self_left, Nat.mod_eq_of_lt h0,
        Nat.add_mul_div_left _ _ (by omega : 0 < n), Nat.div_eq_of_lt h0, Nat.zero_add, hr]

/-! ### Well-formed binned datasets -/

variable {K : Type} [Field K] [LinearOrder K] [IsStrictOrderedRing K] [FloorRing K]

/-- Invariant of reachable binned datasets of representable size. -/
structure BDS.WF (d : BDS K) : Prop where
  len : d.binsizes.length = d.obs.length
  pos : ∀ n ∈ d.binsizes, 0 < n
  small : d.binsizes.prod < 2 ^ 31
  vals : d.values.length = d.binsizes.prod

theorem wf_new (s : Store K) (obs : List Nat) (hp : ∀ o ∈ obs, 0 < (s o).numBins)
    (hs : (obs.map fun o => (s o).numBins).prod < 2 ^ 31) (d : BDS K) (h : BDS.new s obs = .ok d) :
    d.WF ∧ d.obs = obs ∧ d.binsizes = (obs.map fun o => (s o).numBins) ∧ d.errors = [] ∧ d.num = 0 ∧
      d.values = List.replicate d.binsizes.prod 0 := by
  have hpos : ∀ n ∈ obs.map (fun o => (s o).numBins), 0 < n := by
    intro n hn
    obtain ⟨o, ho, rfl⟩ := List.mem_map.mp hn
    exact hp o ho
  have hN := getNumBins_eq _ hpos hs
  unfold BDS.new at h
  simp only [hN] at h
  split at h
  · injection h with h
    subst h
    exact ⟨⟨by simp, hpos, hs, by simp⟩, rfl, rfl, rfl, rfl, rfl⟩
  · cases h

theorem step_frame (st : BSt K) (op : BOp K) :
    (st.step op).1.ds.obs = st.ds.obs ∧ (st.step op).1.ds.binsizes = st.ds.binsizes ∧
    (st.step op).1.ds.values.length = st.ds.values.length := by
  have hw : ∀ (st : BSt K) (w : K), (st.addWeightedEvent w).1.ds.obs = st.ds.obs ∧
      (st.addWeightedEvent w).1.ds.binsizes = st.ds.binsizes ∧
      (st.addWeightedEvent w).1.ds.values.length = st.ds.values.length := by
    intro st w
    unfold BSt.addWeightedEvent
    split
    · split
      · exact ⟨rfl, rfl, rfl⟩
      · split
        · exact ⟨rfl, rfl, rfl⟩
        · exact ⟨rfl, rfl, by simp⟩
    · exact ⟨rfl, rfl, rfl⟩
  cases op with
  | setObs o c => exact ⟨rfl, rfl, rfl⟩
  | addEvent => exact hw st 1
  | addEventV v vs =>
    simp only [BSt.step, BSt.addEventV]
    split
    · exact ⟨rfl, rfl, rfl⟩
    · exact hw _ 1
  | addWeightedEvent w => exact hw st w
  | setBinContent i x =>
    simp only [BSt.step, BSt.setBinContent]
    split
    · exact ⟨rfl, rfl, by simp⟩
    · exact ⟨rfl, rfl, rfl⟩
  | setBinError i x =>
    simp only [BSt.step, BSt.setBinError]
    generalize (if st.ds.errors.length = 0 then List.replicate st.ds.values.length 0 else st.ds.errors) = errs
    split <;> exact ⟨rfl, rfl, rfl⟩

theorem run_frame (ops : List (BOp K)) (st : BSt K) :
    (st.run ops).1.ds.obs = st.ds.obs ∧ (st.run ops).1.ds.binsizes = st.ds.binsizes ∧
    (st.run ops).1.ds.values.length = st.ds.values.length := by
  induction ops generalizing st with
  | nil => exact ⟨rfl, rfl, rfl⟩
  | cons op ops ih =>
    have h1 := step_frame st op
    have h2 := ih (st.step op).1
    exact ⟨h2.1.trans h1.1, h2.2.1.trans h1.2.1, h2.2.2.trans h1.2.2⟩

theorem wf_run (ops : List (BOp K)) (st : BSt K) (h : st.ds.WF) : (st.run ops).1.ds.WF := by
  obtain ⟨h1, h2, h3⟩ := run_frame ops st
  exact ⟨by rw [h1, h2]; exact h.len, by rw [h2]; exact h.pos, by rw [h2]; exact h.small,
    by rw [h3, h2]; exact h.vals⟩

theorem localToGlobal_eq (d : BDS K) (h : d.WF) (ls : List Nat) (hv : ValidLocals d.binsizes ls) :
    d.localToGlobal ls = some (globalOf d.binsizes ls) := by
  unfold BDS.localToGlobal
  rw [localToGlobalLoop_eq _ _ _ (hv.1.trans h.len) h.len]
  simp
  have h1 := globalOf_lt _ _ hv h.pos
  have h2 := h.small
  omega

theorem globalToLocal_eq (d : BDS K) (h : d.WF) (g : Nat) : d.globalToLocal g = some (digits d.binsizes g) :=
  globalToLocalLoop_eq _ _ h.len h.pos g

/-! ### One axis -/

theorem axis_width_pos (a : Axis K) (h : a.lower < a.upper) (hn : 0 < a.n) : 0 < a.width := by
  unfold Axis.width
  have : (0 : K) < a.n := by exact_mod_cast hn
  exact div_pos (by linarith) this

theorem axis_bin_unique (a : Axis K) (h : a.lower < a.upper) (hn : 0 < a.n) (v : K) (b c : Nat)
    (hb : a.InBin b v) (hc : a.InBin c v) : b = c := by
  have hw := axis_width_pos a h hn
  unfold Axis.InBin at hb hc
  have h1 : (b : K) * a.width < ((c : K) + 1) * a.width := by linarith
  have h2 : (c : K) * a.width < ((b : K) + 1) * a.width := by linarith
  have h1' : (b : K) < (c : K) + 1 := lt_of_mul_lt_mul_right h1 hw.le
  have h2' : (c : K) < (b : K) + 1 := lt_of_mul_lt_mul_right h2 hw.le
  have h3 : b < c + 1 := by exact_mod_cast h1'
  have h4 : c < b + 1 := by exact_mod_cast h2'
  omega

theorem axis_bin_floor (a : Axis K) (h : a.lower < a.upper) (hn : 0 < a.n) (v : K) (h0 : a.lower ≤ v)
    (h1 : v < a.upper) :
    0 ≤ ⌊(v - a.lower) / a.width⌋ ∧ ⌊(v - a.lower) / a.width⌋.toNat < a.n ∧
    a.InBin ⌊(v - a.lower) / a.width⌋.toNat v := by
  have hw := axis_width_pos a h hn
  have hnK : (0 : K) < a.n := by exact_mod_cast hn
  have hq : 0 ≤ (v - a.lower) / a.width := div_nonneg (by linarith) hw.le
  have hf : 0 ≤ ⌊(v - a.lower) / a.width⌋ := Int.floor_nonneg.mpr hq
  obtain ⟨k, hk⟩ := Int.eq_ofNat_of_zero_le hf
  have hk1 : (k : K) ≤ (v - a.lower) / a.width := by
    have := Int.floor_le ((v - a.lower) / a.width)
    rw [hk] at this; simpa using this
  have hk2 : (v - a.lower) / a.width < (k : K) + 1 := by
    have := Int.lt_floor_add_one ((v - a.lower) / a.width)
    rw [hk] at this; simpa using this
  rw [le_div_iff₀ hw] at hk1
  rw [div_lt_iff₀ hw] at hk2
  have hwn : a.upper - a.lower = (a.n : K) * a.width := by unfold Axis.width; field_simp
  rw [hk]
  refine ⟨by omega, ?_, ?_⟩
  · have : (k : K) * a.width < (a.n : K) * a.width := by linarith
    have := lt_of_mul_lt_mul_right this hw.le
    have : k < a.n := by exact_mod_cast this
    simpa using this
  · simp only [Int.ofNat_eq_natCast, Int.toNat_natCast]
    exact ⟨by linarith, by linarith⟩

/-! ### Cells -/

theorem axesOf_n (st : BSt K) (h : st.ds.binsizes.length = st.ds.obs.length) :
    (axesOf st).map (·.n) = st.ds.binsizes := by
  unfold axesOf
  rw [List.map_map]
  exact List.map_snd_zip (by omega)

theorem cell_exists (axes : List (Axis K)) (vs : List K) (hl : vs.length = axes.length)
    (hn : ∀ a ∈ axes, 0 < a.n)
    (hin : ∀ (j : Nat) (a : Axis K) (v : K), axes[j]? = some a → vs[j]? = some v → a.lower ≤ v ∧ v < a.upper) :
    ∃ ls, ValidLocals (axes.map (·.n)) ls ∧
      ls = (axes.zip vs).map (fun p => ⌊(p.2 - p.1.lower) / p.1.width⌋.toNat) ∧
      (∀ (j : Nat) (a : Axis K) (v : K) (l : Nat), axes[j]? = some a → vs[j]? = some v → ls[j]? = some l →
        a.InBin l v) ∧ InCell axes (globalOf (axes.map (·.n)) ls) vs := by
  refine ⟨_, ?_, rfl, ?_, ?_⟩
  · refine ⟨by simp [hl], ?_⟩
    intro j n l hj hl'
    rw [List.getElem?_map] at hj hl'
    cases ha : axes[j]? with
    | none => simp [ha] at hj
    | some a =>
      cases hv : vs[j]? with
      | none =>
        have h1 := (List.getElem?_eq_some_iff.mp ha).1
        rw [List.getElem?_eq_none_iff] at hv
        omega
      | some v =>
        have hz : (axes.zip vs)[j]? = some (a, v) := by
          rw [List.getElem?_zip_eq_some]; exact ⟨ha, hv⟩
        rw [hz] at hl'
        rw [ha] at hj
        obtain ⟨h0, h1⟩ := hin j a v ha hv
        have := (axis_bin_floor a (lt_of_le_of_lt h0 h1) (hn a (List.mem_of_getElem? ha)) v h0 h1).2.1
        simp at hj hl'
        omega
  · intro j a v l ha hv hl'
    rw [List.getElem?_map] at hl'
    have hz : (axes.zip vs)[j]? = some (a, v) := by
      rw [List.getElem?_zip_eq_some]; exact ⟨ha, hv⟩
    rw [hz] at hl'
    obtain ⟨h0, h1⟩ := hin j a v ha hv
    have := (axis_bin_floor a (lt_of_le_of_lt h0 h1) (hn a (List.mem_of_getElem? ha)) v h0 h1).2.2
    simp at hl'
    rw [← hl']; exact this
  · intro j a v ha hv
    have hz : (axes.zip vs)[j]? = some (a, v) := by
      rw [List.getElem?_zip_eq_some]; exact ⟨ha, hv⟩
    obtain ⟨h0, h1⟩ := hin j a v ha hv
    have hb := (axis_bin_floor a (lt_of_le_of_lt h0 h1) (hn a (List.mem_of_getElem? ha)) v h0 h1).2.2
    have hval : ValidLocals (axes.map (·.n)) ((axes.zip vs).map (fun p => ⌊(p.2 - p.1.lower) / p.1.width⌋.toNat)) := by
      refine ⟨by simp [hl], ?_⟩
      intro j n l hj hl'
      rw [List.getElem?_map] at hj hl'
      cases ha : axes[j]? with
      | none => simp [ha] at hj
      | some a =>
        cases hv : vs[j]? with
        | none =>
          have h1 := (List.getElem?_eq_some_iff.mp ha).1
          rw [List.getElem?_eq_none_iff] at hv
          omega
        | some v =>
          have hz : (axes.zip vs)[j]? = some (a, v) := by
            rw [List.getElem?_zip_eq_some]; exact ⟨ha, hv⟩
          rw [hz] at hl'
          rw [ha] at hj
          obtain ⟨h0, h1⟩ := hin j a v ha hv
          have := (axis_bin_floor a (lt_of_le_of_lt h0 h1) (hn a (List.mem_of_getElem? ha)) v h0 h1).2.1
          simp at hj hl'
          omega
    have hd := digits_globalOf _ _ hval
    have hjl : j < (axes.map (·.n)).length := by
      have := (List.getElem?_eq_some_iff.mp ha).1; simpa using this
    have hg := digits_getElem (axes.map (·.n)) (globalOf (axes.map (·.n))
      ((axes.zip vs).map (fun p => ⌊(p.2 - p.1.lower) / p.1.width⌋.toNat))) j hjl
    rw [hd, List.getElem?_map, hz] at hg
    simp at hg
    rw [← hg]; exact hb

theorem cell_unique (axes : List (Axis K)) (vs : List K) (hl : vs.length = axes.length)
    (hn : ∀ a ∈ axes, 0 < a.n) (hlim : ∀ a ∈ axes, a.lower < a.upper) (g g' : Nat)
    (hg : g < cells axes) (hg' : g' < cells axes) (h : InCell axes g vs) (h' : InCell axes g' vs) : g = g' := by
  have hd : digits (axes.map (·.n)) g = digits (axes.map (·.n)) g' := by
    apply List.ext_getElem?
    intro j
    by_cases hj : j < axes.length
    · have hj' : j < (axes.map (·.n)).length := by simpa using hj
      rw [digits_getElem _ _ _ hj', digits_getElem _ _ _ hj']
      have ha : axes[j]? = some axes[j] := List.getElem?_eq_getElem _
      have hv : vs[j]? = some (vs[j]'(by omega)) := List.getElem?_eq_getElem _
      have hm : axes[j] ∈ axes := List.getElem_mem _
      rw [axis_bin_unique axes[j] (hlim _ hm) (hn _ hm) _ _ _ (h j _ _ ha hv) (h' j _ _ ha hv)]
    · rw [List.getElem?_eq_none (by rw [digits_length]; simpa using hj),
        List.getElem?_eq_none (by rw [digits_length]; simpa using hj)]
  rw [← globalOf_digits _ g hg, ← globalOf_digits _ g' hg', hd]

theorem valuesToBins_eq (s : Store K) (obs ns : List Nat) (hl : ns.length = obs.length) (hp : ∀ n ∈ ns, 0 < n)
    (hin : ∀ o ∈ obs, (s o).lower ≤ (s o).value ∧ (s o).value < (s o).upper) :
    valuesToBins s obs ns = some
      ((((obs.zip ns).map fun p => (⟨(s p.1).lower, (s p.1).upper, p.2⟩ : Axis K)).zip
        (obs.map fun o => (s o).value)).map (fun p => ⌊(p.2 - p.1.lower) / p.1.width⌋.toNat)) := by
  induction obs generalizing ns with
  | nil => simp [valuesToBins]
  | cons o os ih =>
    cases ns with
    | nil => simp at hl
    | cons n ns =>
      obtain ⟨h0, h1⟩ := hin o (by simp)
      have IH := ih ns (by simpa using hl) (fun m hm => hp m (by simp [hm])) (fun p hp' => hin p (by simp [hp']))
      have hn := hp n (by simp)
      have hf := axis_bin_floor (⟨(s o).lower, (s o).upper, n⟩ : Axis K) (lt_of_le_of_lt h0 h1) hn _ h0 h1
      have hw := axis_width_pos (⟨(s o).lower, (s o).upper, n⟩ : Axis K) (lt_of_le_of_lt h0 h1) hn
      have hv : valueToBin s o n (s o).value =
          some ⌊((s o).value - (s o).lower) / (⟨(s o).lower, (s o).upper, n⟩ : Axis K).width⌋.toNat := by
        unfold valueToBin
        rw [max_eq_left h0, min_eq_left h1.le]
        have hbs : binSize s o n = (⟨(s o).lower, (s o).upper, n⟩ : Axis K).width := rfl
        simp only [hbs, hw.ne', if_false]
        rw [if_neg (by have := hf.1; simp only at this; omega)]
      simp only [valuesToBins, hv, IH]
      rfl

end GooFit
