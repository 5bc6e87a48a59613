import Verif.Spec.Files
import Verif.Lemmas.Minuit
import Mathlib.Data.List.Perm.Subperm
import Mathlib.Data.List.Dedup
/-!
# Lemmas on reading back written files
-/
set_option autoImplicit false
namespace GooFit
open Spec
variable {F : Type}

theorem dropWhile_spaces (ws w : List Char) (hws : ∀ c ∈ ws, isSpace c = true) (hw : ∀ c r, w = c :: r → isSpace c = false) :
    (ws ++ w).dropWhile isSpace = w := by
  induction ws with
  | nil =>
    cases w with
    | nil => rfl
    | cons c r => rw [List.nil_append, List.dropWhile_cons, hw c r rfl]; rfl
  | cons c ws ih =>
    rw [List.cons_append, List.dropWhile_cons, hws c (by simp), if_pos rfl]
    exact ih fun c hc => hws c (by simp [hc])

theorem word_split (w rest : List Char) (hw : ∀ c ∈ w, isSpace c = false)
    (hr : ∀ c r, rest = c :: r → isSpace c = true) :
    (w ++ rest).takeWhile (fun c => !isSpace c) = w ∧ (w ++ rest).dropWhile (fun c => !isSpace c) = rest := by
  induction w with
  | nil =>
    cases rest with
    | nil => exact ⟨rfl, rfl⟩
    | cons c r => simp [hr c r rfl]
  | cons c w ih =>
    obtain ⟨h1, h2⟩ := ih fun c hc => hw c (by simp [hc])
    have hc : isSpace c = false := hw c (by simp)
    refine ⟨?_, ?_⟩
    · rw [List.cons_append, List.takeWhile_cons, hc]; simp [h1]
    · rw [List.cons_append, List.dropWhile_cons, hc]; simpa using h2

/-- Reading a word after white space. -/
theorem readWord_eq (ws w rest buf : List Char) (hws : ∀ c ∈ ws, isSpace c = true) (hw0 : w ≠ [])
    (hw : ∀ c ∈ w, isSpace c = false) (hr : ∀ c r, rest = c :: r → isSpace c = true) :
    (⟨ws ++ (w ++ rest), false, false⟩ : In).readWord buf = (⟨rest, rest.isEmpty, false⟩, w) := by
  obtain ⟨c, w', rfl⟩ := List.exists_cons_of_ne_nil hw0
  have h1 : (ws ++ (c :: w' ++ rest)).dropWhile isSpace = c :: w' ++ rest :=
    dropWhile_spaces ws _ hws (by
      intro c' r hcr
      rw [List.cons_append, List.cons.injEq] at hcr
      rw [← hcr.1]
      exact hw c (by simp))
  obtain ⟨h2, h3⟩ := word_split (c :: w') rest hw hr
  rw [List.cons_append] at h1 h2 h3
  simp only [In.readWord, In.good, Bool.not_false, Bool.and_self, if_true, List.cons_append, h1, h2, h3]

/-- Only white space left. -/
theorem readWord_end (ws buf : List Char) (hws : ∀ c ∈ ws, isSpace c = true) :
    (⟨ws, false, false⟩ : In).readWord buf = (⟨[], true, true⟩, buf) := by
  have h1 : ws.dropWhile isSpace = [] := by
    have := dropWhile_spaces ws [] hws (by simp)
    simpa using this
  simp only [In.readWord, In.good, Bool.not_false, Bool.and_self, if_true, h1]

/-- Reading a printed number after white space. -/
theorem readNum_eq {fmt : F → List Char} {num : List Char → NumRead F} {x back zero : F} (hp : PrintsAs fmt num x back)
    (ws rest : List Char) (old : Option F) (hws : ∀ c ∈ ws, isSpace c = true)
    (hr : ∀ c r, rest = c :: r → isSpace c = true) :
    (⟨ws ++ (fmt x ++ rest), false, false⟩ : In).readNum num zero old = (⟨rest, rest.isEmpty, false⟩, some back) := by
  have hread := hp.read rest hr
  obtain ⟨c, w', hcw⟩ := List.exists_cons_of_ne_nil hp.nonempty
  have h1 : (ws ++ (fmt x ++ rest)).dropWhile isSpace = fmt x ++ rest :=
    dropWhile_spaces ws _ hws (by
      intro c' r hcr
      rw [hcw, List.cons_append, List.cons.injEq] at hcr
      rw [← hcr.1]
      exact hp.word c (by rw [hcw]; simp))
  rw [hcw, List.cons_append] at h1 hread
  simp only [In.readNum, In.good, Bool.not_false, Bool.and_self, if_true, hcw, List.cons_append, h1, hread]

/-- The parameters a file restores, one after the other. -/
def restoreAll (look : List Char → Option Nat) (back : F → F) (vs : List (ParVar F)) (h : Pars F) : Pars F :=
  vs.foldl (fun h v => match look v.name.toList with
    | some i => h.modify i fun p =>
        { p with value := back v.value, error := back v.error, lower := back v.lower, upper := back v.upper }
    | none => h) h

/-- Every number of the variable is printed and read back. -/
def Printable (fmt : F → List Char) (num : List Char → NumRead F) (back : F → F) (v : ParVar F) : Prop :=
  PrintsAs fmt num v.value (back v.value) ∧ PrintsAs fmt num v.error (back v.error)
    ∧ PrintsAs fmt num v.lower (back v.lower) ∧ PrintsAs fmt num v.upper (back v.upper)

/-- How many of the lines name a parameter. -/
def known (look : List Char → Option Nat) (vs : List (ParVar F)) : Nat :=
  (vs.filter fun v => (look v.name.toList).isSome).length

theorem restoreAll_unknown (look : List Char → Option Nat) (back : F → F) (vs : List (ParVar F)) (h : Pars F)
    (hk : known look vs = 0) : restoreAll look back vs h = h := by
  induction vs generalizing h with
  | nil => rfl
  | cons v vs ih =>
    unfold known at hk
    rw [List.filter_cons] at hk
    cases hl : look v.name.toList with
    | some i => rw [hl] at hk; simp at hk
    | none =>
      rw [hl] at hk
      simp only [Option.isSome_none, Bool.false_eq_true, if_false] at hk
      have := ih h hk
      unfold restoreAll at this ⊢
      rw [List.foldl_cons, hl]
      exact this

theorem getline_eq (line rest : List Char) (hl : ∀ c ∈ line, c ≠ '\n') (hlen : line.length ≤ 999) :
    (⟨line ++ '\n' :: rest, false, false⟩ : In).getline = ⟨rest, false, false⟩ := by
  have h1 : (line ++ '\n' :: rest).takeWhile (fun c => c != '\n') = line := by
    rw [List.takeWhile_append_of_pos (by intro c hc; simpa using hl c hc)]
    simp
  have h2 : (line ++ '\n' :: rest).dropWhile (fun c => c != '\n') = '\n' :: rest := by
    rw [List.dropWhile_append_of_pos (by intro c hc; simpa using hl c hc)]
    simp
  simp only [In.getline, In.good, Bool.not_false, Bool.and_self, if_true, h1, h2]
  rw [if_neg (by omega)]

theorem not_newline {c : Char} (h : isSpace c = false) : c ≠ '\n' := by
  rintro rfl
  revert h
  decide

/-- The loop on the rest of a written file. -/
theorem readLoop_written {fmt : F → List Char} {num : List Char → NumRead F} {zero : F} {back : F → F}
    (look : List Char → Option Nat) (size : Nat) (vs : List (ParVar F))
    (hplain : ∀ v ∈ vs, PlainName v.name) (hprint : ∀ v ∈ vs, Printable fmt num back v)
    (hshort : ∀ v ∈ vs, look v.name.toList = none → (writeLine fmt v).length ≤ 1000)
    (ws : List Char) (hws : ∀ c ∈ ws, isSpace c = true) (buf : List Char) (unk : List (List Char)) (numSet : Nat)
    (h : Pars F) (hcount : numSet + known look vs ≤ size) (fuel : Nat) (hfuel : vs.length < fuel) :
    readLoop num zero look size fuel ⟨ws ++ writeToFile fmt vs, false, false⟩ buf unk numSet h
      = some (.done (restoreAll look back vs h)) := by
  induction vs generalizing ws buf unk numSet h fuel with
  | nil =>
    obtain ⟨fuel, rfl⟩ : ∃ k, fuel = k + 1 := ⟨fuel - 1, by simp at hfuel; omega⟩
    rw [readLoop, show ws ++ writeToFile fmt ([] : List (ParVar F)) = ws by simp [writeToFile], readWord_end ws buf hws]
    rfl
  | cons v vs ih =>
    obtain ⟨fuel, rfl⟩ : ∃ k, fuel = k + 1 := ⟨fuel - 1, by simp at hfuel; omega⟩
    obtain ⟨hn0, hns⟩ := hplain v (by simp)
    obtain ⟨p1, p2, p3, p4⟩ := hprint v (by simp)
    set tail := writeToFile fmt vs with htail
    have e0 : ws ++ writeToFile fmt (v :: vs) = ws ++ (v.name.toList ++ ([' '] ++ (fmt v.value ++ ([' '] ++ (fmt v.error
        ++ ([' '] ++ (fmt v.lower ++ ([' '] ++ (fmt v.upper ++ (['\n'] ++ tail)))))))))) := by
      rw [htail]
      simp [writeToFile, writeLine]
    have hsp : ∀ (c0 : Char) (l : List Char), isSpace c0 = true → ∀ c r, [c0] ++ l = c :: r → isSpace c = true := by
      intro c0 l h0 c r hcr
      rw [List.cons_append, List.cons.injEq] at hcr
      rw [← hcr.1]; exact h0
    have hb : isSpace ' ' = true := by decide
    have hnl : isSpace '\n' = true := by decide
    have hb1 : ∀ c ∈ [' '], isSpace c = true := by simp [hb]
    rw [readLoop, e0, readWord_eq ws _ _ buf hws hn0 hns (hsp _ _ hb)]
    simp only [List.cons_append, List.nil_append, List.isEmpty_cons, Bool.false_eq_true, if_false]
    have hrest : restoreAll look back (v :: vs) h = restoreAll look back vs (match look v.name.toList with
        | some i => h.modify i fun p =>
            { p with value := back v.value, error := back v.error, lower := back v.lower, upper := back v.upper }
        | none => h) := rfl
    rw [hrest]
    cases hl : look v.name.toList with
    | some i =>
      have r1 := readNum_eq (zero := zero) p1 [' '] ([' '] ++ (fmt v.error ++ ([' '] ++ (fmt v.lower ++ ([' '] ++ (fmt v.upper ++ (['\n'] ++ tail))))))) none hb1 (hsp _ _ hb)
      have r2 := readNum_eq (zero := zero) p2 [' '] ([' '] ++ (fmt v.lower ++ ([' '] ++ (fmt v.upper ++ (['\n'] ++ tail))))) none hb1 (hsp _ _ hb)
      have r3 := readNum_eq (zero := zero) p3 [' '] ([' '] ++ (fmt v.upper ++ (['\n'] ++ tail))) none hb1 (hsp _ _ hb)
      have r4 := readNum_eq (zero := zero) p4 [' '] (['\n'] ++ tail) none hb1 (hsp _ _ hnl)
      simp only [List.cons_append, List.nil_append, List.isEmpty_cons] at r1 r2 r3 r4
      simp only [r1, r2, r3, r4]
      have hk : known look (v :: vs) = known look vs + 1 := by
        unfold known
        rw [List.filter_cons, hl]
        simp
      rw [hk] at hcount
      by_cases hstop : numSet + 1 = size + unk.length
      · rw [if_pos hstop, restoreAll_unknown]
        omega
      · rw [if_neg hstop]
        have := ih (fun w hw => hplain w (by simp [hw])) (fun w hw => hprint w (by simp [hw]))
          (fun w hw => hshort w (by simp [hw])) ['\n'] (by simp [hnl]) v.name.toList unk (numSet + 1)
          (h.modify i fun p => { p with value := back v.value, error := back v.error, lower := back v.lower, upper := back v.upper })
          (by omega) fuel (by simp only [List.length_cons] at hfuel; omega)
        exact this
    | none =>
      have hk : known look (v :: vs) = known look vs := by
        unfold known
        rw [List.filter_cons, hl]
        simp
      rw [hk] at hcount
      have hlen := hshort v (by simp) hl
      have hg := getline_eq (' ' :: (fmt v.value ++ ' ' :: (fmt v.error ++ ' ' :: (fmt v.lower ++ ' ' :: fmt v.upper)))) tail
        (by
          intro c hc
          simp only [List.mem_cons, List.mem_append] at hc
          rcases hc with rfl | hc | rfl | hc | rfl | hc | rfl | hc
          · decide
          · exact not_newline (p1.word c hc)
          · decide
          · exact not_newline (p2.word c hc)
          · decide
          · exact not_newline (p3.word c hc)
          · decide
          · exact not_newline (p4.word c hc))
        (by
          have : 1 ≤ v.name.toList.length := List.length_pos_iff.mpr hn0
          simp only [writeLine, List.length_append, List.length_cons, List.length_nil] at hlen
          simp only [List.length_append, List.length_cons]
          omega)
      simp only [List.cons_append, List.append_assoc] at hg
      simp only [hg]
      have := ih (fun w hw => hplain w (by simp [hw])) (fun w hw => hprint w (by simp [hw]))
        (fun w hw => hshort w (by simp [hw])) [] (by simp) v.name.toList
        (if v.name.toList ∈ unk then unk else v.name.toList :: unk) numSet h hcount fuel
        (by simp only [List.length_cons] at hfuel; omega)
      exact this

/-- With distinct names, at most one line restores a given parameter. -/
theorem restoreAll_apply (look : List Char → Option Nat) (back : F → F) (vs : List (ParVar F)) (h : Pars F)
    (hnd : (vs.map fun v => v.name).Nodup) (i : Nat) (hone : ∀ a b, look a = some i → look b = some i → a = b) :
    (∀ v ∈ vs, look v.name.toList = some i → restoreAll look back vs h i
        = { h i with value := back v.value, error := back v.error, lower := back v.lower, upper := back v.upper })
      ∧ ((∀ v ∈ vs, look v.name.toList ≠ some i) → restoreAll look back vs h i = h i) := by
  induction vs generalizing h with
  | nil => simp [restoreAll]
  | cons v vs ih =>
    rw [List.map_cons, List.nodup_cons] at hnd
    set h1 : Pars F := (match look v.name.toList with
      | some i => h.modify i fun p =>
          { p with value := back v.value, error := back v.error, lower := back v.lower, upper := back v.upper }
      | none => h) with hh1
    have hrest : restoreAll look back (v :: vs) h = restoreAll look back vs h1 := rfl
    obtain ⟨q1, q2⟩ := ih h1 hnd.2
    rw [hrest]
    by_cases hv : look v.name.toList = some i
    · have h1i : h1 i = { h i with value := back v.value, error := back v.error, lower := back v.lower, upper := back v.upper } := by
        rw [hh1, hv]
        exact Pars.modify_same _ _ _
      have hno : ∀ w ∈ vs, look w.name.toList ≠ some i := by
        intro w hw hc
        have := hone _ _ hv hc
        exact hnd.1 (List.mem_map.mpr ⟨w, hw, (String.toList_inj.mp this).symm⟩)
      constructor
      · intro w hw hwi
        rw [List.mem_cons] at hw
        rcases hw with rfl | hw
        · rw [q2 hno, h1i]
        · exact absurd hwi (hno w hw)
      · intro hall
        exact absurd hv (hall v (by simp))
    · have h1i : h1 i = h i := by
        rw [hh1]
        cases hl : look v.name.toList with
        | none => rfl
        | some j =>
          refine Pars.modify_other _ _ ?_
          rintro rfl
          exact hv hl
      constructor
      · intro w hw hwi
        rw [List.mem_cons] at hw
        rcases hw with rfl | hw
        · exact absurd hwi hv
        · rw [q1 w hw hwi, h1i]
      · intro hall
        rw [q2 fun w hw => hall w (by simp [hw]), h1i]

/-- Looking up a name among parameters with distinct names. -/
theorem tempMap_iff (h : Pars F) (params : List Nat) (hnd : (params.map fun i => (h i).name).Nodup) (nm : String) (i : Nat) :
    tempMap h params nm.toList = some i ↔ i ∈ params ∧ (h i).name = nm := by
  unfold tempMap
  have hinj : ∀ a ∈ params, ∀ b ∈ params, (h a).name = (h b).name → a = b := fun a ha b hb hab =>
    List.inj_on_of_nodup_map hnd ha hb hab
  constructor
  · intro hf
    have h1 := List.mem_of_find?_eq_some hf
    have h2 := List.find?_some hf
    exact ⟨by simpa using h1, String.toList_inj.mp (by simpa using h2)⟩
  · rintro ⟨hi, rfl⟩
    cases hf : params.reverse.find? fun j => (h j).name.toList == (h i).name.toList with
    | none =>
      have := List.find?_eq_none.mp hf i (by simpa using hi)
      simp at this
    | some j =>
      have h1 := List.mem_of_find?_eq_some hf
      have h2 := List.find?_some hf
      rw [hinj j (by simpa using h1) i hi (String.toList_inj.mp (by simpa using h2))]

end GooFit
