import Verif.Spec.PyArrays
/-!
# Lemmas for C108
-/
set_option autoImplicit false
namespace GooFit.PyArr
open Spec

theorem loop_inv {S : Type} (body : Nat → S → ArrOut S) (P : Nat → S → Prop) (top : Nat)
    (step : ∀ i s, i < top → P i s → ∃ s', body i s = .ok s' ∧ P (i + 1) s') :
    ∀ n i s, i + n = top → P i s → ∃ s', arrLoop body n i s = .ok s' ∧ P top s' := by
  intro n
  induction n with
  | zero => intro i s h hp; exact ⟨s, rfl, by rw [← h]; exact hp⟩
  | succ n ih =>
    intro i s h hp
    obtain ⟨s', e, hp'⟩ := step i s (by omega) hp
    obtain ⟨s'', e', hp''⟩ := ih (i + 1) s' (by omega) hp'
    refine ⟨s'', ?_, hp''⟩
    unfold arrLoop
    rw [e]
    exact e'

/-- The array has this shape, and holds `v` at the indices in `W`. -/
def Filled {α : Type} (sh : List Nat) (v : List Nat → α) (W : List Nat → Prop) (a : NdArray α) : Prop :=
  a.shape = sh ∧ ∀ q, W q → a.cells q = some (v q)

theorem Filled.mono {α : Type} {sh : List Nat} {v : List Nat → α} {W W' : List Nat → Prop} {a : NdArray α}
    (h : Filled sh v W a) (hw : ∀ q, W' q → W q) : Filled sh v W' a := ⟨h.1, fun q hq => h.2 q (hw q hq)⟩

theorem set_filled {α : Type} (sh : List Nat) (v : List Nat → α) (W : List Nat → Prop) (a : NdArray α) (h : Filled sh v W a)
    (idx : List Nat) (hi : inShape sh idx = true) (x : α) (hx : x = v idx) :
    ∃ a', a.setAt idx x = .ok a' ∧ Filled sh v (fun q => W q ∨ q = idx) a' := by
  unfold NdArray.setAt
  rw [h.1, if_pos hi]
  refine ⟨_, rfl, rfl, ?_⟩
  intro q hq
  by_cases e : q = idx
  · simp only [e, if_true, hx]
  · simp only [e, if_false]
    exact h.2 q (hq.resolve_right e)

theorem vecAt_ok {α : Type} (l : List α) (i : Nat) (x : α) (h : l[i]? = some x) : vecAt l i = .ok x := by
  unfold vecAt
  rw [h]

theorem copyList_ok {α : Type} (l : List α) : ∃ a, copyList l.length l = .ok a ∧ IsRow a l := by
  cases hl : l with
  | nil => exact ⟨NdArray.new α [0], rfl, rfl, fun i hi => absurd hi (by simp)⟩
  | cons d rest =>
    rw [← hl]
    obtain ⟨a, e, h⟩ := loop_inv (fun i (a : NdArray α) => (vecAt l i).next fun x => a.setAt [i] x)
      (fun i => Filled [l.length] (fun q => l.getD (q.headD 0) d) fun q => ∃ j < i, q = [j]) l.length (by
        intro i a hi hp
        have hx : l[i]? = some (l.getD i d) := by simp [List.getD_eq_getElem?_getD, List.getElem?_eq_getElem hi]
        obtain ⟨a', e, h⟩ := set_filled _ _ _ a hp [i] (by simp [inShape, hi]) (l.getD i d) rfl
        refine ⟨a', ?_, h.mono ?_⟩
        · rw [vecAt_ok l i _ hx]
          exact e
        · rintro q ⟨j, hj, rfl⟩
          by_cases ej : j = i
          · exact Or.inr (by rw [ej])
          · exact Or.inl ⟨j, by omega, rfl⟩)
      l.length 0 (NdArray.new α [l.length]) (by omega) ⟨rfl, by rintro q ⟨j, hj, -⟩; omega⟩
    refine ⟨a, e, h.1, ?_⟩
    intro i hi
    rw [h.2 [i] ⟨i, hi, rfl⟩]
    simp [List.getD_eq_getElem?_getD, List.getElem?_eq_getElem hi]

theorem copyVars_ok {F : Type} (n : Nat) (vs : List (List F)) (hn : ∀ l ∈ vs, l.length = n) (d : F) :
    ∃ a, copyVars vs.length n vs = .ok a ∧ a.shape = [vs.length, n]
      ∧ ∀ (i : Nat) (l : List F), vs[i]? = some l → IsRowOf a i l := by
  let v : List Nat → F := fun q => (vs.getD (q.getD 0 0) []).getD (q.getD 1 0) d
  obtain ⟨a, e, h⟩ := loop_inv (fun i => arrLoop (fun j (a : NdArray F) =>
      (vecAt vs i).next fun l => (vecAt l j).next fun x => a.setAt [i, j] x) n 0)
    (fun i => Filled [vs.length, n] v fun q => ∃ i' < i, ∃ j < n, q = [i', j]) vs.length (by
      intro i a hi hp
      have hrow : (vs[i]).length = n := hn _ (List.getElem_mem hi)
      obtain ⟨a', e, h⟩ := loop_inv (fun j (a : NdArray F) =>
          (vecAt vs i).next fun l => (vecAt l j).next fun x => a.setAt [i, j] x)
        (fun j => Filled [vs.length, n] v fun q => (∃ i' < i, ∃ j < n, q = [i', j]) ∨ ∃ j' < j, q = [i, j']) n (by
          intro j a hj hp
          have hj' : j < (vs[i]).length := by omega
          obtain ⟨a', e, h⟩ := set_filled _ _ _ a hp [i, j] (by simp [inShape, hi, hj]) ((vs[i])[j])
            (by simp [v, List.getD_eq_getElem?_getD, List.getElem?_eq_getElem hi, List.getElem?_eq_getElem hj'])
          refine ⟨a', ?_, h.mono ?_⟩
          · rw [vecAt_ok vs i _ (List.getElem?_eq_getElem hi)]
            show (vecAt vs[i] j).next _ = _
            rw [vecAt_ok (vs[i]) j _ (List.getElem?_eq_getElem hj')]
            exact e
          · rintro q (hq | ⟨j', hj', rfl⟩)
            · exact Or.inl (Or.inl hq)
            · by_cases ej : j' = j
              · exact Or.inr (by rw [ej])
              · exact Or.inl (Or.inr ⟨j', by omega, rfl⟩))
        n 0 a (by omega) (hp.mono (by
          rintro q (hq | ⟨j', hj', -⟩)
          · exact hq
          · omega))
      refine ⟨a', e, h.mono ?_⟩
      rintro q ⟨i', hi', j, hj, rfl⟩
      by_cases ei : i' = i
      · exact Or.inr ⟨j, hj, by rw [ei]⟩
      · exact Or.inl ⟨i', by omega, j, hj, rfl⟩)
    vs.length 0 (NdArray.new F [vs.length, n]) (by omega) ⟨rfl, by rintro q ⟨j, hj, -⟩; omega⟩
  refine ⟨a, e, h.1, ?_⟩
  intro i l hl j hj
  have hi : i < vs.length := (List.getElem?_eq_some_iff.1 hl).1
  have hln : l.length = n := hn l (List.mem_of_getElem? hl)
  rw [h.2 [i, j] ⟨i, hi, j, by omega, rfl⟩]
  simp [v, List.getD_eq_getElem?_getD, hl, List.getElem?_eq_getElem hj]

/-- The components in the order of the array. -/
def comp {F : Type} (v : LV F) (k : Nat) : F := if k = 0 then v.e else if k = 1 then v.x else if k = 2 then v.y else v.z

theorem fourGet_ok {F : Type} (v : LV F) (k : Nat) (hk : k < 4) : fourGet v k = .ok (comp v k) := by
  match k with
  | 0 => rfl
  | 1 => rfl
  | 2 => rfl
  | 3 => rfl
  | k + 4 => omega

theorem copyParticles_ok {F : Type} (nc n : Nat) (hc : nc ≤ 4) (ps : List (List (LV F))) (hn : ∀ l ∈ ps, l.length = n)
    (d : LV F) :
    ∃ a, copyParticles ps.length nc n ps = .ok a ∧ a.shape = [ps.length, n, nc]
      ∧ ∀ (i j k : Nat) (l : List (LV F)) (x : LV F), ps[i]? = some l → l[j]? = some x → k < nc →
        a.cells [i, j, k] = some (comp x k) := by
  let v : List Nat → F := fun q => comp ((ps.getD (q.getD 0 0) []).getD (q.getD 1 0) d) (q.getD 2 0)
  have hgen : ∃ a, copyParticles ps.length nc n ps = .ok a
      ∧ Filled [ps.length, n, nc] v (fun q => ∃ i' < ps.length, ∃ j < n, ∃ k < nc, q = [i', j, k]) a := by
    unfold copyParticles
    refine loop_inv _ (fun i => Filled [ps.length, n, nc] v fun q => ∃ i' < i, ∃ j < n, ∃ k < nc, q = [i', j, k]) ps.length ?_
      ps.length 0 (NdArray.new F [ps.length, n, nc]) (by omega) ⟨rfl, by rintro q ⟨j, hj, -⟩; omega⟩
    intro i a hi hp
    have hrow : (ps[i]).length = n := hn _ (List.getElem_mem hi)
    obtain ⟨a', e, h⟩ := loop_inv (fun j => arrLoop (fun k (a : NdArray F) =>
        (vecAt ps i).next fun l => (vecAt l j).next fun v => (fourGet v k).next fun x => a.setAt [i, j, k] x) nc 0)
      (fun j => Filled [ps.length, n, nc] v fun q =>
        (∃ i' < i, ∃ j < n, ∃ k < nc, q = [i', j, k]) ∨ ∃ j' < j, ∃ k < nc, q = [i, j', k]) n (by
        intro j a hj hp
        have hj' : j < (ps[i]).length := by omega
        obtain ⟨a', e, h⟩ := loop_inv (fun k (a : NdArray F) =>
            (vecAt ps i).next fun l => (vecAt l j).next fun v => (fourGet v k).next fun x => a.setAt [i, j, k] x)
          (fun k => Filled [ps.length, n, nc] v fun q =>
            ((∃ i' < i, ∃ j < n, ∃ k < nc, q = [i', j, k]) ∨ ∃ j' < j, ∃ k < nc, q = [i, j', k])
              ∨ ∃ k' < k, q = [i, j, k']) nc (by
            intro k a hk hp
            obtain ⟨a', e, h⟩ := set_filled _ _ _ a hp [i, j, k] (by simp [inShape, hi, hj, hk]) (comp ((ps[i])[j]) k)
              (by simp [v, List.getD_eq_getElem?_getD, List.getElem?_eq_getElem hi, List.getElem?_eq_getElem hj'])
            refine ⟨a', ?_, h.mono ?_⟩
            · rw [vecAt_ok ps i _ (List.getElem?_eq_getElem hi)]
              show (vecAt ps[i] j).next _ = _
              rw [vecAt_ok (ps[i]) j _ (List.getElem?_eq_getElem hj')]
              show (fourGet _ k).next _ = _
              rw [fourGet_ok _ k (by omega)]
              exact e
            · rintro q (hq | ⟨k', hk', rfl⟩)
              · exact Or.inl (Or.inl hq)
              · by_cases ek : k' = k
                · exact Or.inr (by rw [ek])
                · exact Or.inl (Or.inr ⟨k', by omega, rfl⟩))
          nc 0 a (by omega) (hp.mono (by
            rintro q (hq | ⟨j', hj', -⟩)
            · exact hq
            · omega))
        refine ⟨a', e, h.mono ?_⟩
        rintro q (hq | ⟨j', hj', k, hk, rfl⟩)
        · exact Or.inl (Or.inl hq)
        · by_cases ej : j' = j
          · exact Or.inr ⟨k, hk, by rw [ej]⟩
          · exact Or.inl (Or.inr ⟨j', by omega, k, hk, rfl⟩))
      n 0 a (by omega) (hp.mono (by
        rintro q (hq | ⟨j', hj', -⟩)
        · exact hq
        · omega))
    refine ⟨a', e, h.mono ?_⟩
    rintro q ⟨i', hi', j, hj, k, hk, rfl⟩
    by_cases ei : i' = i
    · exact Or.inr ⟨j, hj, k, hk, by rw [ei]⟩
    · exact Or.inl ⟨i', by omega, j, hj, k, hk, rfl⟩
  obtain ⟨a, e, h⟩ := hgen
  refine ⟨a, e, h.1, ?_⟩
  intro i j k l x hl hx hk
  have hi : i < ps.length := (List.getElem?_eq_some_iff.1 hl).1
  have hln : l.length = n := hn l (List.mem_of_getElem? hl)
  have hj : j < l.length := (List.getElem?_eq_some_iff.1 hx).1
  rw [h.2 [i, j, k] ⟨i, hi, j, by omega, k, hk, rfl⟩]
  simp [v, List.getD_eq_getElem?_getD, hl, hx]

theorem copySample_ok {F : Type} (nc n : Nat) (hc : nc ≤ 4) (h : HostSample F) (h31 : n < 2 ^ 31)
    (hp : ∀ l ∈ h.particles, l.length = n) (hv : ∀ l ∈ h.vars, l.length = n) (hw : h.weights.length = n)
    (hf : h.flags.length = n) (d : LV F) :
    ∃ a, copySample h.particles.length nc h.vars.length n h = .ok a
      ∧ a.particles.shape = [h.particles.length, n, nc]
      ∧ (∀ (i j k : Nat) (l : List (LV F)) (x : LV F), h.particles[i]? = some l → l[j]? = some x → k < nc →
        a.particles.cells [i, j, k] = some (comp x k))
      ∧ a.vars.shape = [h.vars.length, n]
      ∧ (∀ (i : Nat) (l : List F), h.vars[i]? = some l → IsRowOf a.vars i l)
      ∧ IsRow a.weights h.weights ∧ IsRow a.flags h.flags := by
  obtain ⟨p, e1, p1, p2⟩ := copyParticles_ok nc n hc h.particles hp d
  obtain ⟨v, e2, v1, v2⟩ := copyVars_ok n h.vars hv d.e
  obtain ⟨w, e3, w1⟩ := copyList_ok h.weights
  obtain ⟨f, e4, f1⟩ := copyList_ok h.flags
  rw [hw] at e3
  rw [hf] at e4
  refine ⟨⟨p, v, w, f⟩, ?_, p1, p2, v1, v2, w1, f1⟩
  unfold copySample
  rw [if_neg (by omega), e1]
  show ArrOut.next (copyVars _ _ _) _ = _
  rw [e2]
  show ArrOut.next (copyList _ _) _ = _
  rw [e3]
  show ArrOut.next (copyList _ _) _ = _
  rw [e4]
  rfl

theorem momenta_of {a : NdArray ℝ} {ps : List (List (LV ℝ))}
    (h : ∀ (i j k : Nat) (l : List (LV ℝ)) (x : LV ℝ), ps[i]? = some l → l[j]? = some x → k < 4 →
      a.cells [i, j, k] = some (comp x k)) (i : Nat) (l : List (LV ℝ)) (hl : ps[i]? = some l) : IsMomenta a i l :=
  fun j v hv => ⟨h i j 0 l v hl hv (by omega), h i j 1 l v hl hv (by omega), h i j 2 l v hl hv (by omega),
    h i j 3 l v hl hv (by omega)⟩

theorem momentaXY_of {a : NdArray ℝ} {ps : List (List (LV ℝ))}
    (h : ∀ (i j k : Nat) (l : List (LV ℝ)) (x : LV ℝ), ps[i]? = some l → l[j]? = some x → k < 3 →
      a.cells [i, j, k] = some (comp x k)) (i : Nat) (l : List (LV ℝ)) (hl : ps[i]? = some l) : IsMomentaXY a i l :=
  fun j v hv => ⟨h i j 0 l v hl hv (by omega), h i j 1 l v hl hv (by omega), h i j 2 l v hl hv (by omega)⟩

theorem flagBack_id (b : Bool) : flagBack b = b := by
  unfold flagBack
  cases b <;> simp

theorem flags_back (l : List Bool) : l.map flagBack = l := by
  have : flagBack = id := funext flagBack_id
  rw [this, List.map_id]

end GooFit.PyArr
