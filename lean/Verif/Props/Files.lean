import Verif.Lemmas.Files
/-!
# C34: saving and restoring parameters

`fmt` and `num` are the C++ library's printing and parsing of one number; `back x` is the number that the
printed form of `x` denotes (six significant digits).
-/
set_option autoImplicit false
namespace GooFit
open Spec
variable {F : Type}

/-- **C34, round trip.**  A file written from any list of parameters (distinct plain names, numbers that print as
words) and read into any PDF with distinct parameter names: reading ends, every parameter whose name is in the
file gets the printed value, error and limits, and everything else stays as it was.  Missing from the full
property: lines of unknown names longer than the buffer, names with blanks, and numbers that are not read back
(`C34_violation_*`). -/
theorem C34_round_trip_partial {fmt : F → List Char} {num : List Char → NumRead F} {zero : F} {back : F → F}
    (written : List (ParVar F)) (params : List Nat) (h : Pars F)
    (hwritten : (written.map fun v => v.name).Nodup) (hplain : ∀ v ∈ written, PlainName v.name)
    (hprint : ∀ v ∈ written, PrintsAs fmt num v.value (back v.value) ∧ PrintsAs fmt num v.error (back v.error)
      ∧ PrintsAs fmt num v.lower (back v.lower) ∧ PrintsAs fmt num v.upper (back v.upper))
    (hparams : (params.map fun i => (h i).name).Nodup)
    (hshort : ∀ v ∈ written, (∀ i ∈ params, (h i).name ≠ v.name) → (writeLine fmt v).length ≤ 1000) :
    ∃ h' : Pars F,
      (∀ fuel, written.length < fuel →
        readFromFile num zero fuel (some (writeToFile fmt written)) params h = some (.done h'))
      ∧ (∀ i ∈ params, ∀ v ∈ written, v.name = (h i).name →
          h' i = { h i with value := back v.value, error := back v.error, lower := back v.lower, upper := back v.upper })
      ∧ (∀ i, (i ∉ params ∨ ∀ v ∈ written, v.name ≠ (h i).name) → h' i = h i) := by
  set look := tempMap h params with hlook
  have hiff := tempMap_iff h params hparams
  have hsize : (params.map fun i => (h i).name.toList).dedup.length = params.length := by
    rw [List.Nodup.dedup, List.length_map]
    have : (params.map fun i => (h i).name.toList) = (params.map fun i => (h i).name).map String.toList := by simp
    rw [this]
    exact hparams.map fun a b hab => String.toList_inj.mp hab
  have hcount : 0 + known look written ≤ params.length := by
    have h1 : ((written.filter fun v => (look v.name.toList).isSome).map fun v => v.name).Nodup :=
      hwritten.sublist (List.filter_sublist.map _)
    have h2 : ((written.filter fun v => (look v.name.toList).isSome).map fun v => v.name) ⊆ params.map fun i => (h i).name := by
      intro nm hnm
      obtain ⟨v, hv, rfl⟩ := List.mem_map.mp hnm
      obtain ⟨i, hi⟩ := Option.isSome_iff_exists.mp (List.mem_filter.mp hv).2
      obtain ⟨hi1, hi2⟩ := (hiff v.name i).mp hi
      exact List.mem_map.mpr ⟨i, hi1, hi2⟩
    have := (List.subperm_of_subset h1 h2).length_le
    simp only [List.length_map] at this
    unfold known
    omega
  refine ⟨restoreAll look back written h, ?_, ?_, ?_⟩
  · intro fuel hfuel
    have := readLoop_written (zero := zero) (fmt := fmt) look params.length written hplain hprint
      (fun v hv hn => hshort v hv fun i hi hne => by
        rw [hlook, (hiff v.name i).mpr ⟨hi, hne⟩] at hn
        exact absurd hn (by simp)) [] (by simp) [] [] 0 h hcount fuel hfuel
    rw [readFromFile, hsize]
    exact this
  · intro i hi v hv hname
    refine (restoreAll_apply look back written h hwritten i ?_).1 v hv ((hiff v.name i).mpr ⟨hi, hname.symm⟩)
    intro a b ha hb
    have ha' := (hiff (String.ofList a) i).mp (by rw [String.toList_ofList]; exact ha)
    have hb' := (hiff (String.ofList b) i).mp (by rw [String.toList_ofList]; exact hb)
    have := ha'.2.symm.trans hb'.2
    simpa using congrArg String.toList this
  · intro i hi
    refine (restoreAll_apply look back written h hwritten i ?_).2 ?_
    · intro a b ha hb
      have ha' := (hiff (String.ofList a) i).mp (by rw [String.toList_ofList]; exact ha)
      have hb' := (hiff (String.ofList b) i).mp (by rw [String.toList_ofList]; exact hb)
      have := ha'.2.symm.trans hb'.2
      simpa using congrArg String.toList this
    · intro v hv hc
      obtain ⟨h1, h2⟩ := (hiff v.name i).mp hc
      rcases hi with hi | hi
      · exact hi h1
      · exact hi v hv h2.symm

theorem loop_eof (num : List Char → NumRead F) (zero : F) (look : List Char → Option Nat) (size fuel : Nat) (s : In)
    (buf : List Char) (unk : List (List Char)) (k : Nat) (h : Pars F) (he : s.eof = true) :
    readLoop num zero look size (fuel + 1) s buf unk k h = some (.done h) := by
  rw [readLoop]
  simp [In.readWord, In.good, he]

theorem loop_failed_known (num : List Char → NumRead F) (zero : F) (look : List Char → Option Nat) (size fuel : Nat)
    (s : In) (buf : List Char) (unk : List (List Char)) (k : Nat) (h : Pars F) (he : s.eof = false) (hf : s.fail = true)
    (i : Nat) (hl : look buf = some i) : readLoop num zero look size (fuel + 1) s buf unk k h = some .ub := by
  rw [readLoop]
  simp [In.readWord, In.readNum, In.good, he, hf, hl]

theorem loop_failed_unknown (num : List Char → NumRead F) (zero : F) (look : List Char → Option Nat) (size fuel : Nat)
    (s : In) (buf : List Char) (unk : List (List Char)) (k : Nat) (h : Pars F) (he : s.eof = false) (hf : s.fail = true)
    (hl : look buf = none) : readLoop num zero look size fuel s buf unk k h = none := by
  induction fuel generalizing s unk with
  | zero => rfl
  | succ fuel ih =>
    rw [readLoop]
    have h1 : s.readWord buf = (s, buf) := by
      obtain ⟨r, e, f⟩ := s
      simp only at he hf
      simp [In.readWord, In.good, he, hf]
    have h2 : s.getline = s := by
      obtain ⟨r, e, f⟩ := s
      simp only at he hf
      simp [In.getline, In.good, he, hf]
    rw [h1]
    simp only [he, Bool.false_eq_true, if_false, hl, h2]
    exact ih s _ he hf

/-- Reading a number leaves a stream that has ended, failed, or is further on. -/
theorem readNum_progress (num : List Char → NumRead F) (zero : F) (hnum : ∀ l x r, num l = .ok x r → r <:+ l)
    (s : In) (old : Option F) (r0 : List Char) (hs : s.eof = true ∨ s.fail = true ∨ s.rest <:+ r0) :
    (s.readNum num zero old).1.eof = true ∨ (s.readNum num zero old).1.fail = true
      ∨ (s.readNum num zero old).1.rest <:+ r0 := by
  unfold In.readNum
  by_cases hg : s.good = true
  · rw [if_pos hg]
    have hr : s.rest <:+ r0 := by
      simp only [In.good, Bool.and_eq_true, Bool.not_eq_true'] at hg
      rcases hs with hs | hs | hs
      · rw [hg.1] at hs; exact absurd hs (by simp)
      · rw [hg.2] at hs; exact absurd hs (by simp)
      · exact hs
    cases hd : s.rest.dropWhile isSpace with
    | nil => left; rfl
    | cons c r =>
      dsimp only
      cases hn : num (c :: r) with
      | ok x r' =>
        right; right
        have h1 : s.rest.dropWhile isSpace <:+ s.rest := List.dropWhile_suffix _
        rw [hd] at h1
        exact ((hnum _ _ _ hn).trans h1).trans hr
      | bad e => right; left; rfl
  · rw [if_neg hg]
    right; left; rfl

theorem loop_terminates (num : List Char → NumRead F) (zero : F) (hnum : ∀ l x r, num l = .ok x r → r <:+ l)
    (look : List Char → Option Nat) (size : Nat) (n : Nat) (rest : List Char) (hn : rest.length ≤ n)
    (hshort : ∀ r : List Char, r <:+ rest → (r.takeWhile fun c => c != '\n').length ≤ 999)
    (buf : List Char) (unk : List (List Char)) (k : Nat) (h : Pars F) (fuel : Nat) (hfuel : n + 2 ≤ fuel) :
    ∃ r, readLoop num zero look size fuel ⟨rest, false, false⟩ buf unk k h = some r := by
  induction n using Nat.strongRecOn generalizing rest buf unk k h fuel with
  | _ n ih =>
  obtain ⟨fuel, rfl⟩ : ∃ m, fuel = m + 2 := ⟨fuel - 2, by omega⟩
  rw [readLoop]
  cases hd : rest.dropWhile isSpace with
  | nil => exact ⟨_, by simp [In.readWord, In.good, hd]; rfl⟩
  | cons c r =>
    have hsuf : c :: r <:+ rest := hd ▸ List.dropWhile_suffix _
    set r' := (c :: r).dropWhile (fun c => !isSpace c) with hr'
    have hc : isSpace c = false := by
      have := List.head?_dropWhile_not isSpace rest
      rw [hd] at this
      simpa using this
    have hlt : r'.length < rest.length := by
      have h1 : r' = r.dropWhile (fun c => !isSpace c) := by rw [hr', List.dropWhile_cons, hc]; simp
      have h2 := (List.dropWhile_suffix (l := r) (fun c => !isSpace c)).length_le
      have h3 := hsuf.length_le
      simp only [List.length_cons] at h3
      rw [h1]
      omega
    have hsuf' : r' <:+ rest := (List.dropWhile_suffix _).trans hsuf
    have hw : (⟨rest, false, false⟩ : In).readWord buf
        = (⟨r', r'.isEmpty, false⟩, (c :: r).takeWhile (fun c => !isSpace c)) := by
      simp only [In.readWord, In.good, Bool.not_false, Bool.and_self, if_true, hd]
      rfl
    rw [hw]
    generalize (c :: r).takeWhile (fun c => !isSpace c) = w
    by_cases hemp : r'.isEmpty = true
    · exact ⟨_, by simp only [hemp, if_true]; rfl⟩
    · rw [Bool.not_eq_true] at hemp
      simp only [hemp, Bool.false_eq_true, if_false]
      cases hl : look w with
      | none =>
        dsimp only
        have hlen := hshort r' hsuf'
        by_cases hdn : r'.dropWhile (fun c => c != '\n') = []
        · have hg : (⟨r', false, false⟩ : In).getline = ⟨[], true, (r'.takeWhile fun c => c != '\n').isEmpty⟩ := by
            simp only [In.getline, In.good, Bool.not_false, Bool.and_self, if_true, hdn]
            rw [if_neg (by omega)]
          rw [hg]
          exact ⟨_, loop_eof num zero look size fuel _ _ _ _ _ rfl⟩
        · obtain ⟨c2, r2, h2⟩ := List.exists_cons_of_ne_nil hdn
          have hg : (⟨r', false, false⟩ : In).getline = ⟨r2, false, false⟩ := by
            simp only [In.getline, In.good, Bool.not_false, Bool.and_self, if_true, h2]
            rw [if_neg (by omega)]
          rw [hg]
          have hs2 : r2 <:+ r' := (List.suffix_cons c2 r2).trans (h2 ▸ List.dropWhile_suffix _)
          have hl2 := hs2.length_le
          exact ih (n - 1) (by omega) r2 (by omega) (fun q hq => hshort q ((hq.trans hs2).trans hsuf')) _ _ _ _ _ (by omega)
      | some i =>
        dsimp only
        have g1 := readNum_progress num zero hnum ⟨r', false, false⟩ none r' (Or.inr (Or.inr List.suffix_rfl))
        generalize (⟨r', false, false⟩ : In).readNum num zero none = p1 at g1 ⊢
        have g2 := readNum_progress num zero hnum p1.1 none r' g1
        generalize p1.1.readNum num zero none = p2 at g2 ⊢
        have g3 := readNum_progress num zero hnum p2.1 none r' g2
        generalize p2.1.readNum num zero none = p3 at g3 ⊢
        have g4 := readNum_progress num zero hnum p3.1 none r' g3
        generalize p3.1.readNum num zero none = p4 at g4 ⊢
        cases p1.2 with
        | none => exact ⟨_, rfl⟩
        | some v =>
        cases p2.2 with
        | none => exact ⟨_, rfl⟩
        | some e =>
        cases p3.2 with
        | none => exact ⟨_, rfl⟩
        | some lo =>
        cases p4.2 with
        | none => exact ⟨_, rfl⟩
        | some hi =>
        dsimp only
        split
        · exact ⟨_, rfl⟩
        · generalize p4.1 = s4 at g4 ⊢
          obtain ⟨r4, e4, f4⟩ := s4
          cases e4 with
          | true => exact ⟨_, loop_eof num zero look size fuel _ _ _ _ _ rfl⟩
          | false =>
            cases f4 with
            | true => exact ⟨_, loop_failed_known num zero look size fuel _ _ _ _ _ rfl rfl i hl⟩
            | false =>
              have hs4 : r4 <:+ r' := by simpa using g4
              have hl4 := hs4.length_le
              exact ih (n - 1) (by omega) r4 (by omega) (fun q hq => hshort q ((hq.trans hs4).trans hsuf')) _ _ _ _ _ (by omega)

/-- **C34, termination.**  For every existing file without a stretch of 1000 characters on one line, whatever it
contains, and every PDF, reading ends. -/
theorem C34_terminates_partial (num : List Char → NumRead F) (zero : F) (hnum : ∀ l x r, num l = .ok x r → r <:+ l)
    (text : List Char) (hshort : ∀ r : List Char, r <:+ text → (r.takeWhile fun c => c != '\n').length ≤ 999)
    (params : List Nat) (h : Pars F) :
    ∃ result, readFromFile num zero (text.length + 2) (some text) params h = some result :=
  loop_terminates num zero hnum _ _ text.length text (Nat.le_refl _) hshort _ _ _ _ _ (Nat.le_refl _)

/-- **Violation of C34.**  If the file does not exist, `readFromFile` never returns. -/
theorem C34_violation_missing_file (num : List Char → NumRead F) (zero : F) (params : List Nat) (h : Pars F)
    (hne : ∀ i ∈ params, (h i).name ≠ "") (fuel : Nat) : readFromFile num zero fuel none params h = none := by
  refine loop_failed_unknown num zero _ _ fuel _ _ _ _ _ rfl rfl ?_
  unfold tempMap
  rw [List.find?_eq_none]
  intro i hi
  have := hne i (by simpa using hi)
  intro hc
  apply this
  exact String.toList_inj.mp (by simpa using hc)

/-- **Violation of C34.**  If the file contains, for a name the PDF does not have, a line with 1000 characters after
the name, `readFromFile` never returns. -/
theorem C34_violation_long_line (num : List Char → NumRead F) (zero : F) (params : List Nat) (h : Pars F)
    (name : String) (hname : PlainName name) (hunknown : ∀ i ∈ params, (h i).name ≠ name)
    (line more : List Char) (hline : ∀ c ∈ line, c ≠ '\n') (hlong : 999 ≤ line.length) (fuel : Nat) :
    readFromFile num zero fuel (some (name.toList ++ (' ' :: line ++ more))) params h = none := by
  have hlook : tempMap h params name.toList = none := by
    unfold tempMap
    rw [List.find?_eq_none]
    intro i hi hc
    exact hunknown i (by simpa using hi) (String.toList_inj.mp (by simpa using hc))
  cases fuel with
  | zero => rfl
  | succ fuel =>
    unfold readFromFile
    rw [readLoop]
    have h1 := readWord_eq [] name.toList (' ' :: line ++ more) [] (by simp) hname.1 hname.2
      (by intro c r hcr; rw [List.cons_append, List.cons.injEq] at hcr; rw [← hcr.1]; decide)
    rw [List.nil_append, List.cons_append] at h1
    simp only [In.open, List.cons_append, h1, List.isEmpty_cons, Bool.false_eq_true, if_false, hlook]
    refine loop_failed_unknown num zero _ _ fuel _ _ _ _ _ ?_ ?_ hlook
    all_goals
      have hlen : 999 < ((' ' :: (line ++ more)).takeWhile fun c => c != '\n').length := by
        rw [← List.cons_append, List.takeWhile_append_of_pos (by
          intro c hc
          rw [List.mem_cons] at hc
          rcases hc with rfl | hc
          · decide
          · simpa using hline c hc)]
        simp only [List.length_append, List.length_cons]
        omega
      simp only [In.getline, In.good, Bool.not_false, Bool.and_self, if_true]
      rw [if_pos hlen]

/-- **Violation of C34.**  A parameter whose value prints as something that is not read back as a number (`nan`,
`inf`) makes reading its own file use uninitialised variables. -/
theorem C34_violation_not_a_number {fmt : F → List Char} {num : List Char → NumRead F} {zero : F} (v : ParVar F)
    (params : List Nat) (h : Pars F) (i : Nat) (hi : i ∈ params) (hparams : (params.map fun i => (h i).name).Nodup)
    (hname : (h i).name = v.name) (hplain : PlainName v.name) (hword : ∀ c ∈ fmt v.value, isSpace c = false)
    (hne : fmt v.value ≠ []) (hnan : ∀ rest, num (fmt v.value ++ rest) = .bad false) (fuel : Nat) :
    readFromFile num zero (fuel + 1) (some (writeToFile fmt [v])) params h = some .ub := by
  have hlook := (tempMap_iff h params hparams v.name i).mpr ⟨hi, hname⟩
  unfold readFromFile
  rw [readLoop]
  have h1 := readWord_eq [] v.name.toList (' ' :: (fmt v.value ++ ' ' :: (fmt v.error ++ ' ' :: (fmt v.lower ++ ' ' ::
    (fmt v.upper ++ ['\n']))))) [] (by simp) hplain.1 hplain.2
    (by intro c r hcr; rw [List.cons.injEq] at hcr; rw [← hcr.1]; decide)
  rw [List.nil_append] at h1
  have ht : writeToFile fmt [v] = v.name.toList ++ (' ' :: (fmt v.value ++ ' ' :: (fmt v.error ++ ' ' :: (fmt v.lower
    ++ ' ' :: (fmt v.upper ++ ['\n']))))) := by
    simp [writeToFile, writeLine]
  obtain ⟨c, w, hcw⟩ := List.exists_cons_of_ne_nil hne
  have hd : ∀ rest, (' ' :: (fmt v.value ++ rest)).dropWhile isSpace = fmt v.value ++ rest := by
    intro rest
    refine dropWhile_spaces [' '] (fmt v.value ++ rest) (by decide) ?_
    intro c' r hcr
    rw [hcw, List.cons_append, List.cons.injEq] at hcr
    rw [← hcr.1]
    exact hword c (by rw [hcw]; simp)
  have h2 : ∀ rest, (⟨' ' :: (fmt v.value ++ rest), false, false⟩ : In).readNum num zero none = (⟨[], false, true⟩, some zero) := by
    intro rest
    have := hnan rest
    have hd' := hd rest
    rw [hcw, List.cons_append] at this hd'
    simp only [In.readNum, In.good, Bool.not_false, Bool.and_self, if_true, hcw, List.cons_append, hd', this]
  rw [ht]
  simp only [In.open, h1, List.isEmpty_cons, Bool.false_eq_true, if_false, hlook, h2]
  simp [In.readNum, In.good]

/-- **C34, lists.**  A list of numbers written and read back. -/
theorem C34_list_round_trip {fmt : F → List Char} {num : List Char → NumRead F} {zero : F} {back : F → F} (xs : List F)
    (hprint : ∀ x ∈ xs, PrintsAs fmt num x (back x)) (fuel : Nat) (hfuel : xs.length < fuel) :
    readListOfNumbers num zero fuel (some (writeListOfNumbers fmt xs)) = some (xs.map back) := by
  have key : ∀ (xs : List F), (∀ x ∈ xs, PrintsAs fmt num x (back x)) → ∀ (ws : List Char), (∀ c ∈ ws, isSpace c = true) →
      ∀ (fuel : Nat), xs.length < fuel → ∀ (buf : F) (out : List F),
      readListLoop num zero fuel ⟨ws ++ writeListOfNumbers fmt xs, false, false⟩ buf out = some (out ++ xs.map back) := by
    intro xs
    induction xs with
    | nil =>
      intro _ ws hws fuel hfuel buf out
      obtain ⟨fuel, rfl⟩ : ∃ k, fuel = k + 1 := ⟨fuel - 1, by simp at hfuel; omega⟩
      have hd : ws.dropWhile isSpace = [] := by simpa using dropWhile_spaces ws [] hws (by simp)
      rw [readListLoop]
      simp [writeListOfNumbers, In.readNum, In.good, hd]
    | cons x xs ih =>
      intro hp ws hws fuel hfuel buf out
      obtain ⟨fuel, rfl⟩ : ∃ k, fuel = k + 1 := ⟨fuel - 1, by simp at hfuel; omega⟩
      have e : ws ++ writeListOfNumbers fmt (x :: xs) = ws ++ (fmt x ++ ([' '] ++ writeListOfNumbers fmt xs)) := by
        simp [writeListOfNumbers]
      rw [readListLoop, e, readNum_eq (zero := zero) (hp x (by simp)) ws ([' '] ++ writeListOfNumbers fmt xs) (some buf) hws
        (by intro c r hcr; rw [List.cons_append, List.cons.injEq] at hcr; rw [← hcr.1]; decide)]
      simp only [List.cons_append, List.nil_append, List.isEmpty_cons, Bool.false_eq_true, if_false, Option.getD_some]
      have := ih (fun y hy => hp y (by simp [hy])) [' '] (by decide) fuel (by simp only [List.length_cons] at hfuel; omega)
        (back x) (out ++ [back x])
      simp only [List.cons_append, List.nil_append] at this
      rw [this]
      simp
  have := key xs hprint [] (by simp) fuel hfuel zero []
  simpa [readListOfNumbers, In.open] using this

/-- **Violation of C34.**  In a list file that does not end with white space, the last number is ignored. -/
theorem C34_violation_last_number {fmt : F → List Char} {num : List Char → NumRead F} {zero : F} {back : F → F} (xs : List F)
    (hprint : ∀ x ∈ xs, PrintsAs fmt num x (back x)) (last : F) (hlast : PrintsAs fmt num last (back last))
    (fuel : Nat) (hfuel : xs.length < fuel) :
    readListOfNumbers num zero fuel (some (writeListOfNumbers fmt xs ++ fmt last)) = some (xs.map back) := by
  have key : ∀ (xs : List F), (∀ x ∈ xs, PrintsAs fmt num x (back x)) → ∀ (ws : List Char), (∀ c ∈ ws, isSpace c = true) →
      ∀ (fuel : Nat), xs.length < fuel → ∀ (buf : F) (out : List F),
      readListLoop num zero fuel ⟨ws ++ (writeListOfNumbers fmt xs ++ fmt last), false, false⟩ buf out = some (out ++ xs.map back) := by
    intro xs
    induction xs with
    | nil =>
      intro _ ws hws fuel hfuel buf out
      obtain ⟨fuel, rfl⟩ : ∃ k, fuel = k + 1 := ⟨fuel - 1, by simp at hfuel; omega⟩
      have := readNum_eq (zero := zero) hlast ws [] (some buf) hws (by simp)
      rw [List.append_nil] at this
      rw [readListLoop]
      simp [writeListOfNumbers, this]
    | cons x xs ih =>
      intro hp ws hws fuel hfuel buf out
      obtain ⟨fuel, rfl⟩ : ∃ k, fuel = k + 1 := ⟨fuel - 1, by simp at hfuel; omega⟩
      have e : ws ++ (writeListOfNumbers fmt (x :: xs) ++ fmt last) = ws ++ (fmt x ++ ([' '] ++ (writeListOfNumbers fmt xs ++ fmt last))) := by
        simp [writeListOfNumbers]
      rw [readListLoop, e, readNum_eq (zero := zero) (hp x (by simp)) ws ([' '] ++ (writeListOfNumbers fmt xs ++ fmt last)) (some buf) hws
        (by intro c r hcr; rw [List.cons_append, List.cons.injEq] at hcr; rw [← hcr.1]; decide)]
      simp only [List.cons_append, List.nil_append, List.isEmpty_cons, Bool.false_eq_true, if_false, Option.getD_some]
      have := ih (fun y hy => hp y (by simp [hy])) [' '] (by decide) fuel (by simp only [List.length_cons] at hfuel; omega)
        (back x) (out ++ [back x])
      simp only [List.cons_append, List.nil_append] at this
      rw [this]
      simp
  have := key xs hprint [] (by simp) fuel hfuel zero []
  simpa [readListOfNumbers, In.open] using this

/-- **Violation of C34.**  Reading a list from a file that does not exist never returns. -/
theorem C34_violation_missing_list (num : List Char → NumRead F) (zero : F) (fuel : Nat) :
    readListOfNumbers num zero fuel none = none := by
  have key : ∀ (fuel : Nat) (buf : F) (out : List F), readListLoop num zero fuel ⟨[], false, true⟩ buf out = none := by
    intro fuel
    induction fuel with
    | zero => intros; rfl
    | succ fuel ih =>
      intro buf out
      rw [readListLoop]
      simp only [In.readNum, In.good, Bool.not_false, Bool.not_true, Bool.and_false, Bool.false_eq_true, if_false,
        Option.getD_some]
      exact ih _ _
  exact key fuel _ _

/-! ### A concrete file: numbers below ten, printed as a digit -/

namespace FilesDemo

/-- one digit -/
def fmt (n : Nat) : List Char := [Char.ofNat (48 + n)]

/-- one digit -/
def num : List Char → NumRead Nat
  | [] => .bad true
  | c :: r => if c.isDigit then .ok (c.toNat - 48) r else .bad false

/-- A variable. -/
def par (name : String) (v e lo hi : Nat) : ParVar Nat :=
  { name := name, value := v, error := e, lower := lo, upper := hi, blind := 0, fixed := false, changed := false, fitterIndex := 0 }

theorem prints : ∀ n < 10, PrintsAs fmt num n n := by
  have key : ∀ n : Fin 10, (isSpace (Char.ofNat (48 + n.val)) = false ∧ (Char.ofNat (48 + n.val)).isDigit = true
      ∧ (Char.ofNat (48 + n.val)).toNat - 48 = n.val) := by decide
  intro n hn
  obtain ⟨h1, h2, h3⟩ := key ⟨n, hn⟩
  refine ⟨by simpa [fmt] using h1, by simp [fmt], ?_⟩
  intro rest _
  simp only [fmt, List.cons_append, List.nil_append, num]
  rw [if_pos h2]
  exact congrArg (fun k => NumRead.ok k rest) h3

/-- Parameters of the PDF that is read into: `sigma`, `mean` and one that is not in the file. -/
def heap : Pars Nat := fun i => if i = 0 then par "sigma" 0 0 0 0 else if i = 1 then par "mean" 0 0 0 0 else par "other" 8 0 0 9

/-- The file: `mean`, an unknown name, `sigma`. -/
def saved : List (ParVar Nat) := [par "mean" 3 1 0 5, par "alpha" 4 1 0 6, par "sigma" 2 1 0 7]

end FilesDemo

open FilesDemo in
/-- The hypotheses of the round trip are met. -/
example : ∃ h' : Pars Nat, readFromFile num 0 4 (some (writeToFile fmt saved)) [0, 1, 2] heap = some (.done h')
    ∧ h' 0 = par "sigma" 2 1 0 7 ∧ h' 1 = par "mean" 3 1 0 5 ∧ h' 2 = heap 2 := by
  obtain ⟨h', h1, h2, h3⟩ := C34_round_trip_partial (fmt := fmt) (num := num) (zero := 0) (back := id) saved [0, 1, 2] heap
    (by decide) (by
      intro v hv
      simp only [saved, List.mem_cons, List.not_mem_nil, or_false] at hv
      rcases hv with rfl | rfl | rfl <;> exact ⟨by decide, by decide⟩)
    (by
      intro v hv
      simp only [saved, List.mem_cons, List.not_mem_nil, or_false] at hv
      rcases hv with rfl | rfl | rfl <;> exact ⟨prints _ (by decide), prints _ (by decide), prints _ (by decide), prints _ (by decide)⟩)
    (by decide) (by decide)
  refine ⟨h', h1 4 (by decide), ?_, ?_, h3 2 (Or.inr (by decide))⟩
  · exact h2 0 (by decide) (par "sigma" 2 1 0 7) (by simp [saved]) rfl
  · exact h2 1 (by decide) (par "mean" 3 1 0 5) (by simp [saved]) rfl

open FilesDemo in
/-- **Violation of C34.**  A name with a blank: the file is read without complaint and the parameter is not
restored. -/
theorem C34_violation_blank_in_name :
    ∃ h' : Pars Nat, readFromFile num 0 3 (some (writeToFile fmt [par "my mean" 3 1 0 5])) [0]
        (fun _ => par "my mean" 0 0 0 0) = some (.done h') ∧ (h' 0).value = 0 := by
  refine ⟨fun _ => par "my mean" 0 0 0 0, ?_, rfl⟩
  rfl

open FilesDemo in
example : readListOfNumbers num 0 4 (some (writeListOfNumbers fmt [3, 1, 4])) = some [3, 1, 4] :=
  (C34_list_round_trip (back := id) [3, 1, 4] (by
    intro x hx
    exact prints x (by revert x; decide)) 4 (by decide))

open FilesDemo in
/-- Termination applies to this file, and the reading function gives suffixes. -/
example : ∃ r, readFromFile num 0 23 (some "alpha 1 2\nmean 3 x 4\n".toList) [0, 1] heap = some r := by
  refine C34_terminates_partial num 0 ?_ "alpha 1 2\nmean 3 x 4\n".toList ?_ [0, 1] heap
  · intro l x r hl
    cases l with
    | nil => simp [num] at hl
    | cons c l' =>
      simp only [num] at hl
      split at hl
      · injection hl with h1 h2; subst h2; exact List.suffix_cons _ _
      · exact absurd hl (by simp)
  · intro r hr
    have h1 := hr.length_le
    have h2 := (List.takeWhile_prefix (l := r) (fun c => c != '\n')).length_le
    have h3 : "alpha 1 2\nmean 3 x 4\n".toList.length = 21 := by decide
    omega

end GooFit
