import Verif.Spec.Application
import Mathlib.Tactic.Linarith
import Mathlib.Tactic.Push
/-!
# C96: the application picks an existing device and finds files where they are looked for
-/
set_option autoImplicit false
namespace GooFit
open Spec

/-! ### Devices -/

private theorem nodes_eq (e : MpiEnv) : e.nodes = nodeCount e := by
  unfold MpiEnv.nodes nodeCount
  cases e.pbsNumNodes with
  | none => rfl
  | some n =>
    dsimp only
    split
    · next h => subst h; rfl
    · next h => split <;> simp_all

private theorem procs_pos (e : MpiEnv) (h : Launched e) : 0 < e.numProcs.tdiv e.nodes ∧ e.numProcs.tdiv e.nodes = e.numProcs / nodeCount e := by
  obtain ⟨⟨h0, h1⟩, _, h2, h3⟩ := h
  have : e.numProcs.tdiv e.nodes = e.numProcs / nodeCount e := by rw [nodes_eq]; exact Int.tdiv_eq_ediv_of_nonneg (by omega)
  rw [this]
  exact ⟨by have := (Int.le_ediv_iff_mul_le h2).mpr (show 1 * nodeCount e ≤ e.numProcs by omega); omega, rfl⟩

/-- **C96, devices** (what is missing: the process whose number on its node is the number of devices, see the violation).  In every
MPI program on nodes with GPUs and at least one process per node, every process picks a device that exists, and the processes of a
node take the devices in turn: the device is the number of the process on its node, modulo the number of devices. -/
theorem C96_device_partial (e : MpiEnv) (h : Launched e) (hd : 0 < e.deviceCount)
    (hne : e.deviceCount = 1 ∨ e.myId % (e.numProcs / nodeCount e) ≠ e.deviceCount) :
    ∃ d, e.chooseDevice = .device d ∧ 0 ≤ d ∧ d < e.deviceCount ∧ d = e.myId % (e.numProcs / nodeCount e) % e.deviceCount := by
  obtain ⟨hp, hq⟩ := procs_pos e h
  have hr : e.myId.tmod (e.numProcs.tdiv e.nodes) = e.myId % (e.numProcs / nodeCount e) := by
    rw [hq]; exact Int.tmod_eq_emod_of_nonneg h.rank.1
  have hr0 : 0 ≤ e.myId % (e.numProcs / nodeCount e) := Int.emod_nonneg _ (by omega)
  have hr1 : e.myId % (e.numProcs / nodeCount e) < e.numProcs / nodeCount e := Int.emod_lt_of_pos _ (by omega)
  unfold MpiEnv.chooseDevice
  dsimp only
  rw [hr, hq, if_neg (by omega), if_neg (by omega)]
  set r := e.myId % (e.numProcs / nodeCount e) with hrdef
  have hin : 0 ≤ r % e.deviceCount ∧ r % e.deviceCount < e.deviceCount :=
    ⟨Int.emod_nonneg _ (by omega), Int.emod_lt_of_pos _ hd⟩
  split
  · next h1 =>
    refine ⟨0, rfl, le_refl _, hd, ?_⟩
    rw [h1.1, Int.emod_one]
  · split
    · next h2 =>
      split
      · next h3 =>
        have hlt : r < e.deviceCount := by omega
        exact ⟨r, rfl, hr0, hlt, (Int.emod_eq_of_lt hr0 hlt).symm⟩
      · next h3 => exact ⟨_, rfl, by rw [Int.tmod_eq_emod_of_nonneg hr0]; exact hin.1,
          by rw [Int.tmod_eq_emod_of_nonneg hr0]; exact hin.2, Int.tmod_eq_emod_of_nonneg hr0⟩
    · next h2 =>
      refine ⟨0, rfl, le_refl _, hd, ?_⟩
      by_cases h1 : e.deviceCount = 1
      · rw [h1, Int.emod_one]
      · have : r = 0 := by omega
        rw [this, Int.zero_emod]

/-- **C96, devices.**  Without GPUs the constructor throws. -/
theorem C96_no_device (e : MpiEnv) (h : Launched e) (hd : e.deviceCount = 0) : e.chooseDevice = .thrown := by
  obtain ⟨hp, hq⟩ := procs_pos e h
  unfold MpiEnv.chooseDevice
  dsimp only
  rw [if_neg (by omega), if_pos hd]

/-- **C96 (violated by the code).**  With two or more devices on the node and more processes than devices, the process whose number
on the node is the number of devices picks a device that does not exist. -/
theorem C96_violation_device (e : MpiEnv) (h : Launched e) (hd : 1 < e.deviceCount)
    (heq : e.myId % (e.numProcs / nodeCount e) = e.deviceCount) : e.chooseDevice = .device e.deviceCount := by
  obtain ⟨hp, hq⟩ := procs_pos e h
  have hr : e.myId.tmod (e.numProcs.tdiv e.nodes) = e.myId % (e.numProcs / nodeCount e) := by
    rw [hq]; exact Int.tmod_eq_emod_of_nonneg h.rank.1
  have hr1 : e.myId % (e.numProcs / nodeCount e) < e.numProcs / nodeCount e := Int.emod_lt_of_pos _ (by omega)
  unfold MpiEnv.chooseDevice
  dsimp only
  rw [hr, hq, if_neg (by omega), if_neg (by omega), if_neg (by omega), if_pos (by omega), if_pos (by omega), heq]

/-- **C96 (violated by the code).**  With fewer processes than nodes the remainder by zero is taken. -/
theorem C96_violation_nodes (e : MpiEnv) (hn : 0 ≤ e.numProcs) (hlt : e.numProcs < nodeCount e) : e.chooseDevice = .ub := by
  unfold MpiEnv.chooseDevice
  dsimp only
  rw [if_pos]
  rw [nodes_eq, Int.tdiv_eq_ediv_of_nonneg hn]
  exact Int.ediv_eq_zero_of_lt hn hlt

/-- Two nodes with two devices each and six processes: the third process of the second node picks device 2. -/
example : Launched ⟨6, 5, 2, some 2⟩ ∧ (⟨6, 5, 2, some 2⟩ : MpiEnv).chooseDevice = .device 2 :=
  ⟨⟨by decide, by decide, by decide⟩, C96_violation_device ⟨6, 5, 2, some 2⟩ ⟨by decide, by decide, by decide⟩ (by decide) (by decide)⟩

/-- One node with two devices and five processes: the fourth shares device 1. -/
example : Launched ⟨5, 3, 2, none⟩ ∧ (⟨5, 3, 2, none⟩ : MpiEnv).chooseDevice = .device 1 := by
  have h : Launched ⟨5, 3, 2, none⟩ := ⟨by decide, by decide, by decide⟩
  obtain ⟨d, h1, _, _, h2⟩ := C96_device_partial ⟨5, 3, 2, none⟩ h (by decide) (Or.inr (by decide))
  exact ⟨h, by rw [h1, h2]; rfl⟩

example : Launched ⟨2, 1, 0, some 0⟩ ∧ (⟨3, 1, 4, some 8⟩ : MpiEnv).chooseDevice = .ub :=
  ⟨⟨by decide, by decide, by decide⟩, C96_violation_nodes _ (by decide) (by decide)⟩

/-! ### Files -/

private theorem rfind_none (s : List Char) : rfindChar '/' s = none ↔ '/' ∉ s := by
  induction s with
  | nil => simp [rfindChar]
  | cons x xs ih =>
    rw [rfindChar]
    cases h : rfindChar '/' xs with
    | some i =>
      rw [h] at ih
      simp only [reduceCtorEq, false_iff, not_not] at ih
      simp [ih]
    | none =>
      rw [h] at ih
      simp only [true_iff] at ih
      by_cases hx : x = '/'
      · simp [hx]
      · simp [hx, ih, Ne.symm hx]

private theorem rfind_dir (s : List Char) : ∀ dir, IsDirOf s dir ↔ ∃ loc, rfindChar '/' s = some loc ∧ dir = s.take loc := by
  induction s with
  | nil => intro dir; simp [IsDirOf, rfindChar]
  | cons x xs ih =>
    intro dir
    rw [rfindChar]
    cases h : rfindChar '/' xs with
    | some i =>
      have hmem : '/' ∈ xs := by
        by_contra hc
        rw [(rfind_none xs).mpr hc] at h
        exact absurd h (by simp)
      constructor
      · rintro ⟨name, hs, hn⟩
        cases dir with
        | nil =>
          simp only [List.nil_append, List.cons.injEq] at hs
          exact absurd (hs.2 ▸ hmem) hn
        | cons y dir =>
          simp only [List.cons_append, List.cons.injEq] at hs
          obtain ⟨loc, h1, h2⟩ := (ih dir).mp ⟨name, hs.2, hn⟩
          rw [h] at h1
          simp only [Option.some.injEq] at h1
          subst h1
          exact ⟨i + 1, rfl, by rw [List.take_succ_cons, ← h2, hs.1]⟩
      · rintro ⟨loc, h1, h2⟩
        simp only [Option.some.injEq] at h1
        subst h1
        obtain ⟨name, h3, h4⟩ := (ih (xs.take i)).mpr ⟨i, h, rfl⟩
        refine ⟨name, ?_, h4⟩
        rw [h2, List.take_succ_cons, List.cons_append, ← h3]
    | none =>
      have hmem := (rfind_none xs).mp h
      constructor
      · rintro ⟨name, hs, hn⟩
        cases dir with
        | nil =>
          simp only [List.nil_append, List.cons.injEq] at hs
          exact ⟨0, by simp [hs.1], by simp⟩
        | cons y dir =>
          simp only [List.cons_append, List.cons.injEq] at hs
          exact absurd (by rw [hs.2]; simp) hmem
      · rintro ⟨loc, h1, h2⟩
        by_cases hx : x = '/'
        · simp only [hx, if_true, Option.some.injEq] at h1
          subst h1
          exact ⟨xs, by simp [h2, hx], hmem⟩
        · simp [hx] at h1

/-- **C96, files.**  Whatever the name of the program, the file and the directory asked for: what `get_filename` returns is a file in
the best of the places in which one is found, and it throws only if there is no such file in any of them. -/
theorem C96_file (file : List Char → Bool) (argv0 source input base : List Char) :
    (∀ p, getFilename file argv0 source input base = .found p →
      file p = true ∧ ∃ k, Place argv0 source input base k p ∧ ∀ j < k, ∀ q, Place argv0 source input base j q → file q = false) ∧
    (∀ x, getFilename file argv0 source input base = .thrown x →
      x = input ∧ ∀ k q, Place argv0 source input base k q → file q = false) := by
  -- what the places are
  have p0 : ∀ q, Place argv0 source input base 0 q → q = input := by rintro q ⟨⟩; rfl
  have p1 : ∀ q, Place argv0 source input base 1 q → ∃ loc, rfindChar '/' argv0 = some loc ∧ q = argv0.take loc ++ '/' :: input := by
    rintro q h
    cases h with
    | program dir hdir =>
      obtain ⟨loc, h1, h2⟩ := (rfind_dir argv0 dir).mp hdir
      exact ⟨loc, h1, by rw [h2]⟩
  have p2 : ∀ q, Place argv0 source input base 2 q → base ≠ [] ∧ q = source ++ '/' :: base ++ '/' :: input := by
    rintro q h
    cases h with
    | base hb => exact ⟨hb, rfl⟩
  have p3 : ∀ q, Place argv0 source input base 3 q → q = source ++ ['/', '.', '.', '/'] ++ input := by rintro q ⟨⟩; rfl
  have p4 : ∀ k q, Place argv0 source input base k q → k < 4 := by rintro k q ⟨⟩ <;> omega
  unfold getFilename
  by_cases h0 : file input = true
  · rw [if_pos h0]
    exact ⟨fun p hp => by cases hp; exact ⟨h0, 0, .given, fun j hj => absurd hj (by omega)⟩, fun x hx => by cases hx⟩
  rw [if_neg h0]
  have f0 : ∀ q, Place argv0 source input base 0 q → file q = false := fun q hq => by rw [p0 q hq]; simpa using h0
  dsimp only
  -- the second place
  cases h1 : inProgramDir file argv0 input with
  | some p =>
    refine ⟨fun p' hp => ?_, fun x hx => by cases hx⟩
    cases hp
    unfold inProgramDir at h1
    cases hl : rfindChar '/' argv0 with
    | none => rw [hl] at h1; exact absurd h1 (by simp)
    | some loc =>
      rw [hl] at h1
      dsimp only at h1
      split at h1
      · next hf =>
        cases h1
        refine ⟨hf, 1, .program _ ((rfind_dir argv0 _).mpr ⟨loc, hl, rfl⟩), fun j hj q hq => ?_⟩
        obtain rfl : j = 0 := by omega
        exact f0 q hq
      · exact absurd h1 (by simp)
  | none =>
    have f1 : ∀ q, Place argv0 source input base 1 q → file q = false := by
      intro q hq
      obtain ⟨loc, hl, rfl⟩ := p1 q hq
      unfold inProgramDir at h1
      rw [hl] at h1
      dsimp only at h1
      split at h1
      · exact absurd h1 (by simp)
      · next hf => simpa using hf
    -- the third place
    cases h2 : inBaseDir file source input base with
    | some p =>
      dsimp only
      refine ⟨fun p' hp => ?_, fun x hx => by cases hx⟩
      cases hp
      unfold inBaseDir at h2
      dsimp only at h2
      split at h2
      · next hb =>
        split at h2
        · next hf =>
          cases h2
          refine ⟨hf, 2, .base (List.ne_nil_of_length_pos hb), fun j hj q hq => ?_⟩
          match j, hj with
          | 0, _ => exact f0 q hq
          | 1, _ => exact f1 q hq
        · exact absurd h2 (by simp)
      · exact absurd h2 (by simp)
    | none =>
      dsimp only
      have f2 : ∀ q, Place argv0 source input base 2 q → file q = false := by
        intro q hq
        obtain ⟨hb, rfl⟩ := p2 q hq
        unfold inBaseDir at h2
        dsimp only at h2
        rw [if_pos (List.length_pos_iff.mpr hb)] at h2
        split at h2
        · exact absurd h2 (by simp)
        · next hf => simpa using hf
      by_cases h3 : file (source ++ ['/', '.', '.', '/'] ++ input) = true
      · rw [if_pos h3]
        refine ⟨fun p hp => ?_, fun x hx => by cases hx⟩
        cases hp
        refine ⟨h3, 3, .sources, fun j hj q hq => ?_⟩
        match j, hj with
        | 0, _ => exact f0 q hq
        | 1, _ => exact f1 q hq
        | 2, _ => exact f2 q hq
      · rw [if_neg h3]
        refine ⟨fun p hp => (by cases hp), fun x hx => ?_⟩
        cases hx
        refine ⟨rfl, fun k q hq => ?_⟩
        match k, p4 k q hq with
        | 0, _ => exact f0 q hq
        | 1, _ => exact f1 q hq
        | 2, _ => exact f2 q hq
        | 3, _ => rw [p3 q hq]; simpa using h3

/-- The file lies next to the program. -/
example : getFilename (fun p => p == "bin/fit/data.txt".toList) "bin/fit/run".toList "src".toList "data.txt".toList []
    = .found "bin/fit/data.txt".toList := by decide

/-- The file is nowhere. -/
example : getFilename (fun _ => false) "run".toList "src".toList "data.txt".toList "examples".toList = .thrown "data.txt".toList := by
  decide

end GooFit
