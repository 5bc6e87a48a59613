import Verif.Lemmas.Numpy
import Verif.Spec.Numpy
import Verif.Props.Binned
/-!
# C85: tables of numbers go in and out of a dataset unchanged
-/
set_option autoImplicit false
namespace GooFit
open Spec

/-- The columns of a table, as the events they describe. -/
theorem readColumn_assign {F : Type} {obs : List Nat} (hn : obs.Nodup) {arr : List (List F)} {n : Nat}
    (ht : Table arr n) (s : Store F) {j : Nat} (hj : j < n) :
    ReadColumn obs arr j s (assign obs (arrayColumn arr j) s) := by
  have hlt : ∀ r ∈ arr, j < r.length := fun r hr => by rw [ht r hr]; exact hj
  refine ⟨?_, ?_, ?_⟩
  · intro i o r x ho hr hx
    exact assign_get hn _ _ ho (by rw [arrayColumn_get arr j hlt, hr]; exact hx)
  · intro i o ho hi
    unfold assign
    have : (obs.zip (arrayColumn arr j)).find? (fun p => p.1 == o) = none := by
      rw [List.find?_eq_none]
      rintro ⟨a, b⟩ hab
      obtain ⟨k, hk⟩ := List.mem_iff_getElem?.mp hab
      rw [List.getElem?_zip_eq_some] at hk
      simp only [beq_iff_eq]
      rintro rfl
      have hki : k = i := by
        obtain ⟨a1, a2⟩ := List.getElem?_eq_some_iff.mp hk.1
        obtain ⟨b1, b2⟩ := List.getElem?_eq_some_iff.mp ho
        exact (List.Nodup.getElem_inj_iff hn).mp (a2.trans b2.symm)
      have := (List.getElem?_eq_some_iff.mp hk.2).1
      rw [arrayColumn_length arr j hlt] at this
      omega
    rw [this]
  · intro o ho
    unfold assign
    have : (obs.zip (arrayColumn arr j)).find? (fun p => p.1 == o) = none := by
      rw [List.find?_eq_none]
      rintro ⟨a, b⟩ hab
      have := (List.of_mem_zip hab).1
      simp only [beq_iff_eq]
      rintro rfl
      exact ho this
    rw [this]

/-- C85 (import). Reading a table that has no more rows than the dataset has observables: its columns
describe observables `t 0, t 1, ...`; with the filter exactly those in range are appended, in order;
without, all are appended if all are in range, and otherwise the call throws at the first that is not and
the ones before it have been appended.  Events stored before stay. -/
theorem C85_from_numpy {F : Type} [FpCmp F] (st : USt F) (es : List (Event F)) (hn : st.ds.obs.Nodup)
    (hh : Holds st.ds es) (arr : List (List F)) (n : Nat) (ht : Table arr n)
    (hrows : arr.length ≤ st.ds.obs.length) :
    ∃ t : Nat → Store F, (∀ j < n, ReadColumn st.ds.obs arr j st.store (t j)) ∧
      ((st.fromNumpy arr n true).2 = .done ∧
        Holds (st.fromNumpy arr n true).1.ds
          (es ++ ((List.range n).filter fun j => decide (AllInRange st.ds.obs (t j))).map fun j o => (t j o).value)) ∧
      ((∀ j < n, AllInRange st.ds.obs (t j)) → (st.fromNumpy arr n false).2 = .done ∧
        Holds (st.fromNumpy arr n false).1.ds (es ++ (List.range n).map fun j o => (t j o).value)) ∧
      ∀ k < n, (∀ j < k, AllInRange st.ds.obs (t j)) → ¬AllInRange st.ds.obs (t k) →
        (st.fromNumpy arr n false).2 = .threw .outOfRange ∧
        Holds (st.fromNumpy arr n false).1.ds (es ++ (List.range k).map fun j o => (t j o).value) := by
  have hc : ∀ c ∈ (List.range n).map (arrayColumn arr), c.length = arr.length := by
    intro c hc
    obtain ⟨j, hj, rfl⟩ := List.mem_map.1 hc
    exact arrayColumn_length arr j fun r hr => by rw [ht r hr]; exact List.mem_range.1 hj
  have T := fromNumpyLoop_spec st.ds.obs arr.length hn hrows true st.store _ hc st es rfl hh (fun _ _ => rfl)
  have U := fromNumpyLoop_spec st.ds.obs arr.length hn hrows false st.store _ hc st es rfl hh (fun _ _ => rfl)
  simp only [List.map_map] at T U
  refine ⟨fun j => assign st.ds.obs (arrayColumn arr j) st.store,
    fun j hj => readColumn_assign hn ht st.store hj, ?_, ?_, ?_⟩
  · have := T.2.1 trivial
    rw [List.filter_map, List.map_map] at this
    exact this
  · intro hall
    have := (U.2.2 trivial).1 (by
      intro s hs
      obtain ⟨j, hj, rfl⟩ := List.mem_map.1 hs
      exact hall j (List.mem_range.1 hj))
    exact this
  · intro k hk hbefore hbad
    have := (U.2.2 trivial).2 ⟨_, List.mem_map.2 ⟨k, List.mem_range.2 hk, rfl⟩, hbad⟩
    rw [List.takeWhile_map, List.map_map] at this
    have htake : (List.range n).takeWhile ((fun s => decide (AllInRange st.ds.obs s)) ∘
        ((fun c => assign st.ds.obs c st.store) ∘ arrayColumn arr)) = List.range k := by
      have hsplit : List.range n = List.range k ++ (k :: (List.range (n - k - 1)).map fun i => k + 1 + i) := by
        have h1 : n = k + (1 + (n - k - 1)) := by omega
        conv_lhs => rw [h1]
        rw [List.range_add, List.range_add]
        simp [Nat.add_assoc, Function.comp_def]
      rw [hsplit, List.takeWhile_append_of_pos]
      · simp [hbad]
      · intro j hj
        simpa using hbefore j (List.mem_range.1 hj)
    rw [htake] at this
    exact this

example : Table [[1, 100], [2, 3]] 2 ∧ ([0, 1] : List Nat).Nodup ∧
    Holds (USt.fromNumpy ⟨Demo.store, UDS.new Int [0, 1]⟩ [[1, 100], [2, 3]] 2 true).1.ds
      [fun o => if o = 0 then 1 else 2] ∧
    (match (USt.fromNumpy ⟨Demo.store, UDS.new Int [0, 1]⟩ [[1, 100], [2, 3]] 2 false).2 with
      | .threw .outOfRange => True | _ => False) := by
  refine ⟨by unfold Table; decide, by decide, ⟨rfl, rfl⟩, trivial⟩

/-- C85 (shape). A table with more rows than observables is refused, no event is added (unless the table
has no column, when nothing happens). -/
theorem C85_too_many_rows {F : Type} [FpCmp F] (st : USt F) (arr : List (List F)) (n : Nat) (filter : Bool)
    (hrows : st.ds.obs.length < arr.length) :
    (st.fromNumpy arr n filter).1.ds = st.ds ∧
    (0 < n → (st.fromNumpy arr n filter).2 = .threw .stdOutOfRange) ∧
    (n = 0 → st.fromNumpy arr n filter = (st, .done)) := by
  cases n with
  | zero => exact ⟨rfl, by simp, fun _ => rfl⟩
  | succ n =>
    have : (List.range (n + 1)).map (arrayColumn arr) =
        arrayColumn arr 0 :: (List.range n).map (fun j => arrayColumn arr (j + 1)) := by
      rw [List.range_succ_eq_map]; simp [Function.comp_def]
    simp only [USt.fromNumpy, this, fromNumpyLoop, if_pos hrows]
    exact ⟨trivial, fun _ => trivial, by simp⟩

example : ([0] : List Nat).length < ([[1], [2]] : List (List Int)).length := by decide

/-- C85 (export). `to_numpy` returns row `i` of the events in order, one row per observable, and it is the
same table as that of `to_matrix`. -/
theorem C85_to_numpy {F : Type} (d : UDS F) (es : List (Event F)) (hn : d.obs.Nodup) (hh : Holds d es) :
    d.toNumpy = some (d.obs.map fun o => es.map fun e => e o) ∧
    (d.obs ≠ [] → d.toMatrix = d.toNumpy) := by
  refine ⟨toNumpy_of_holds d es hn hh, fun hne => ?_⟩
  rw [toNumpy_of_holds d es hn hh]
  unfold UDS.toMatrix
  rw [hh.2]
  cases hob : d.obs with
  | nil => exact absurd hob hne
  | cons o os => simp

example : Holds (UDS.new Int [0, 1]) [] ∧ (UDS.new Int [0, 1]).toNumpy = some [[], []] :=
  ⟨holds_new _ _, rfl⟩

/-- C85 (round trip). A table with one row per observable and all values in range, read into an empty
dataset and exported, comes back unchanged, whether filtered or not. -/
theorem C85_round_trip {F : Type} [FpCmp F] (obs : List Nat) (hn : obs.Nodup) (s : Store F)
    (arr : List (List F)) (n : Nat) (ht : Table arr n) (hrows : arr.length = obs.length)
    (hr : ∀ (i o : Nat) (r : List F), obs[i]? = some o → arr[i]? = some r → ∀ x ∈ r,
      InLimits ({ s o with value := x } : ObsCell F)) (filter : Bool) :
    (USt.fromNumpy ⟨s, UDS.new F obs⟩ arr n filter).2 = .done ∧
    (USt.fromNumpy ⟨s, UDS.new F obs⟩ arr n filter).1.ds.toNumpy = some arr := by
  set st : USt F := ⟨s, UDS.new F obs⟩
  have hso : st.ds.obs = obs := rfl
  have hss : st.store = s := rfl
  obtain ⟨t, hread, h1, h2, -⟩ := C85_from_numpy st [] hn (holds_new F obs) arr n ht (by rw [hso, hrows])
  rw [hso, hss] at hread
  rw [hso] at h1 h2
  have hentry : ∀ j < n, ∀ (i o : Nat), obs[i]? = some o → ∃ r x, arr[i]? = some r ∧ r[j]? = some x ∧
      t j o = { s o with value := x } := by
    intro j hj i o ho
    have hi : i < arr.length := by rw [hrows]; exact (List.getElem?_eq_some_iff.1 ho).1
    have hlen : (arr[i]).length = n := ht _ (List.getElem_mem hi)
    have hj' : j < (arr[i]).length := by omega
    exact ⟨arr[i], (arr[i])[j], List.getElem?_eq_getElem hi, List.getElem?_eq_getElem hj',
      (hread j hj).1 i o _ _ ho (List.getElem?_eq_getElem hi) (List.getElem?_eq_getElem hj')⟩
  have hgood : ∀ j < n, AllInRange obs (t j) := by
    intro j hj o ho
    obtain ⟨i, hi⟩ := List.mem_iff_getElem?.mp ho
    obtain ⟨r, x, hri, hxj, hto⟩ := hentry j hj i o hi
    rw [hto]
    exact hr i o r hi hri x (List.mem_of_getElem? hxj)
  have hres : (st.fromNumpy arr n filter).2 = .done ∧
      Holds (st.fromNumpy arr n filter).1.ds ((List.range n).map fun j o => (t j o).value) := by
    cases filter with
    | true =>
      have := h1
      rw [List.filter_eq_self.mpr (fun j hj => by simpa using hgood j (List.mem_range.1 hj))] at this
      simpa using this
    | false => simpa using h2 hgood
  have hobs' : (st.fromNumpy arr n filter).1.ds.obs = obs := by
    have hc : ∀ c ∈ (List.range n).map (arrayColumn arr), c.length = arr.length := by
      intro c hc
      obtain ⟨j, hj, rfl⟩ := List.mem_map.1 hc
      exact arrayColumn_length arr j fun r hr => by rw [ht r hr]; exact List.mem_range.1 hj
    exact (fromNumpyLoop_spec obs arr.length hn (by omega) filter s _ hc st [] rfl (holds_new F obs)
      (fun _ _ => rfl)).1
  refine ⟨hres.1, ?_⟩
  rw [toNumpy_of_holds _ _ (by rw [hobs']; exact hn) hres.2, hobs']
  congr 1
  apply List.ext_getElem?
  intro i
  rw [List.getElem?_map]
  cases hob : obs[i]? with
  | none =>
    have : arr.length ≤ i := by rw [hrows]; exact List.getElem?_eq_none_iff.1 hob
    rw [List.getElem?_eq_none this]
    rfl
  | some o =>
    have hi : i < arr.length := by rw [hrows]; exact (List.getElem?_eq_some_iff.1 hob).1
    rw [List.getElem?_eq_getElem hi]
    simp only [Option.map_some, List.map_map, Option.some.injEq]
    have hlen : (arr[i]).length = n := ht _ (List.getElem_mem hi)
    apply List.ext_getElem
    · simp [hlen]
    · intro j hj1 hj2
      have hj : j < n := by simpa using hj1
      obtain ⟨r, x, hri, hxj, hto⟩ := hentry j hj i o hob
      rw [List.getElem?_eq_getElem hi] at hri
      obtain rfl : arr[i] = r := by simpa using hri
      rw [List.getElem?_eq_getElem hj2] at hxj
      simp only [List.getElem_map, List.getElem_range, Function.comp]
      rw [hto]
      simpa using hxj.symm

example : Table [[1, 3, 5], [2, 4, 6]] 3 ∧
    (USt.fromNumpy ⟨Demo.store, UDS.new Int [0, 1]⟩ [[1, 3, 5], [2, 4, 6]] 3 false).1.ds.toNumpy =
      some [[1, 3, 5], [2, 4, 6]] := ⟨by unfold Table; decide, rfl⟩

/-- C85 (copy). A dataset exported and read into an empty dataset with the same observables gives the same
events, if its values are in the limits the observables have now. -/
theorem C85_copy {F : Type} [FpCmp F] (d : UDS F) (es : List (Event F)) (hn : d.obs.Nodup) (hh : Holds d es)
    (s : Store F) (hr : ∀ e ∈ es, ∀ o ∈ d.obs, InLimits ({ s o with value := e o } : ObsCell F))
    (filter : Bool) :
    ∃ arr, d.toNumpy = some arr ∧ arr.length = d.obs.length ∧ Table arr d.num ∧
      (USt.fromNumpy ⟨s, UDS.new F d.obs⟩ arr d.num filter).2 = .done ∧
      (USt.fromNumpy ⟨s, UDS.new F d.obs⟩ arr d.num filter).1.ds.toNumpy = some arr := by
  have htab : Table (d.obs.map fun o => es.map fun e => e o) d.num := by
    intro r hr
    obtain ⟨o, -, rfl⟩ := List.mem_map.1 hr
    simp [hh.1]
  refine ⟨_, toNumpy_of_holds d es hn hh, by simp, htab, ?_⟩
  refine C85_round_trip d.obs hn s _ d.num htab (by simp) ?_ filter
  intro i o r ho hri x hx
  rw [List.getElem?_map, ho] at hri
  obtain rfl : (es.map fun e => e o) = r := by simpa using hri
  obtain ⟨e, he, rfl⟩ := List.mem_map.1 hx
  exact hr e he o (List.mem_of_getElem? ho)

example : Holds (⟨[0, 1], [[1, 2], [5, 6]], 2⟩ : UDS Int) [fun o => if o = 0 then 1 else 5, fun o => if o = 0 then 2 else 6] ∧
    ∀ e ∈ [(fun o => if o = 0 then 1 else 5 : Event Int), fun o => if o = 0 then 2 else 6], ∀ o ∈ [0, 1],
      InLimits ({ Demo.store o with value := e o } : ObsCell Int) := by
  refine ⟨⟨rfl, rfl⟩, ?_⟩
  intro e he o ho
  simp only [List.mem_cons, List.not_mem_nil, or_false] at he ho
  rcases he with rfl | rfl <;> rcases ho with rfl | rfl <;> decide

/-- C85 is violated by `from_numpy` when the table lacks a row: nothing is refused, every event gets the
value the last observable happened to have.  `from_matrix` numbers the events instead. -/
theorem C85_violation_missing_row :
    (USt.fromNumpy ⟨Demo.store, UDS.new Int [0, 1]⟩ [[4, 5]] 2 false).1.ds.toNumpy = some [[4, 5], [3, 3]] ∧
    (USt.fromMatrix ⟨Demo.store, UDS.new Int [0, 1]⟩ Int.ofNat 1 [[4], [5]] false).1.ds.toNumpy =
      some [[4, 5], [0, 1]] := ⟨rfl, rfl⟩

section Centers
variable {K : Type} [Field K] [LinearOrder K] [IsStrictOrderedRing K] [FloorRing K]

/-- C85 (bin centres). `bin_centers` of an observable are the points of the grid of that observable and the
bin centres of a histogram in it, in order. -/
theorem C85_bin_centers (o : Nat) (s : Store K) (hE : (s o).isEventNumber = false)
    (hlim : (s o).lower ≤ (s o).upper) (hpos : 0 < (s o).numBins) (hsmall : (s o).numBins < 2 ^ 31)
    (d : BDS K) (hd : BDS.new s [o] = .ok d) :
    (s o).binCenters.length = (s o).numBins ∧
    ∀ (g : Nat) (x : K), (s o).binCenters[g]? = some x →
      (USt.fillWithGrid ⟨s, UDS.new K [o]⟩).1.ds.getValue o g = .val x ∧
      BSt.getBinCenter ⟨s, d⟩ 0 g = .val x := by
  refine ⟨by simp [ObsCell.binCenters], ?_⟩
  intro g x hx
  obtain ⟨hg, hx⟩ := List.getElem?_eq_some_iff.1 hx
  simp only [ObsCell.binCenters, List.length_map, List.length_range] at hg
  simp only [ObsCell.binCenters, List.getElem_map, List.getElem_range] at hx
  have hgp : gridPoints s [o] = (s o).numBins := by simp [gridPoints, hE]
  have G := (C07_grid [o] (by simp) s (by simpa using fun _ => hlim) (by simp) (by simp [hE])).2.2 g
    (by rw [hgp]; exact hg) 0 o rfl
  obtain ⟨hwf, hdo, hdb, _, _, _⟩ := wf_new s [o] (by simpa using hpos) (by simpa using hsmall) d hd
  have hN : getNumBins d.binsizes = d.binsizes.prod := getNumBins_eq _ hwf.pos hwf.small
  have B := C07_grid_is_bin_centers [o] (by simp) s (by simpa using hE) (by simpa using hlim)
    (by simpa using hpos) (by simpa using hsmall) d hd g (by
      rw [hN, hdb]; simpa using hg) 0 o rfl
  rw [← B.2, G]
  simp only [hE, Bool.false_eq_true, if_false, List.take_zero]
  have h1 : gridPoints s [] = 1 := by simp [gridPoints]
  rw [h1, Nat.div_one, Nat.mod_eq_of_lt hg]
  subst hx
  exact ⟨rfl, rfl⟩

example : (⟨0, 0, 10, 4, false⟩ : ObsCell ℚ).binCenters = [5 / 4, 15 / 4, 25 / 4, 35 / 4] := by
  simp [ObsCell.binCenters, List.range_succ]
  norm_num

end Centers
end GooFit
