import Verif.Lemmas.LikelihoodInv
/-!
# Normalising a sound tree gives its density
-/
set_option autoImplicit false
namespace GooFit
open Spec
variable {K : Type} [Field K] [LinearOrder K] [IsStrictOrderedRing K] [FloorRing K]
attribute [local instance] FpOps.ofField
variable {L : Lib K} {cfg : NormSetup L} {sem : LeafSem K L} {val : Nat → K} {idx : Nat → Int}
  {f : Nat → K → K} {os : List Nat}

theorem storable_field (np nk : Nat) (l : List Int) : Storable K np nk l :=
  ⟨exact_field _, exact_field _, exact_field _, exact_field 1, fun _ _ => exact_field _⟩

theorem ofNat_field (n : Nat) : (FpOps.ofNat n : K) = (n : K) := by
  show (((n : Rat)) : K) = _
  norm_cast

theorem mapNormL_length (ν : Nat → K) (cs : List (Pdf L)) : (mapNormL ν cs).length = cs.length := by
  rw [mapNormL_eq, List.length_map]

theorem basic_wf (ν : Nat → K) {k : L.Leaf} {n : Node L} {o : Nat} (hk : n.fn = .leaf k)
    (h : BasicOK sem val idx f os k n o) :
    WellFormed sem ⟨val, idx⟩ ((Pdf.mk n []).mapNorm ν) := by
  rw [Pdf.mapNorm, WellFormed]
  refine ⟨storable_field _ _ _, ?_, trivial⟩
  simp only [Registered, hk, mapNormL, true_and]
  obtain ⟨h1, _, h2, _⟩ := h
  simpa [h1] using h2

mutual
theorem sound_wf (ν : Nat → K) : ∀ u : Pdf L, SumProduct cfg sem val idx f os u →
    WellFormed sem ⟨val, idx⟩ (u.mapNorm ν)
  | .mk n cs, h => by
    rw [SumProduct.eq_def] at h
    dsimp only at h
    split at h
    · rename_i k hk
      obtain ⟨rfl, o, hb, _⟩ := h
      exact basic_wf ν hk hb
    · rename_i hk
      rw [Pdf.mapNorm, WellFormed]
      refine ⟨storable_field _ _ _, ?_, soundL_wf ν cs h.2.2⟩
      simp only [Registered, hk, mapNormL_length]
      exact h.1
    · rename_i hk
      rw [Pdf.mapNorm, WellFormed]
      refine ⟨storable_field _ _ _, ?_, soundL_wf ν cs h.2.2.2⟩
      simp only [Registered, hk, mapNormL_length]
      exact h.1
    · rename_i hk
      rw [Pdf.mapNorm, WellFormed]
      refine ⟨storable_field _ _ _, ?_, ?_⟩
      · simp only [Registered, hk, mapNormL_length]
        exact ⟨h.1, by rw [ofNat_field]; exact h.2.1, exact_field _⟩
      · have h3 := h.2.2
        split at h3
        · obtain ⟨o, _, _, hc, _⟩ := h3
          rw [mapNormL_eq, wellFormedList_iff]
          intro t ht
          obtain ⟨c, hc', rfl⟩ := List.mem_map.1 ht
          obtain ⟨_, k, hk, he, hb⟩ := hc c hc'
          obtain ⟨n', cs'⟩ := c
          have : cs' = [] := he
          subst this
          exact basic_wf ν hk hb
        · exact soundL_wf ν cs h3.2
    · rename_i hk
      rw [Pdf.mapNorm, WellFormed]
      refine ⟨storable_field _ _ _, ?_, soundL_wf ν cs h.2.2.2.2.2⟩
      simp only [Registered, hk, mapNormL_length, ofNat_field]
      refine ⟨h.1, h.2.1, exact_field _, ?_, h.2.2.2.1⟩
      intro h0
      apply h.2.2.1
      rw [← List.length_eq_zero_iff, ← mapNormL_length ν cs, h0]
      rfl
    · rename_i hk
      rw [Pdf.mapNorm, WellFormed]
      refine ⟨storable_field _ _ _, ?_, soundL_wf ν cs h.2.2.2.2⟩
      simp only [Registered, hk, mapNormL_length, ofNat_field]
      exact ⟨h.1, h.2.1, exact_field _, h.2.2.1⟩
    · rename_i hk
      cases cs with
      | nil => exact absurd h (by simp)
      | cons mf ts =>
        obtain ⟨hc, ⟨k, o, hk', hcomp, hb⟩, hts⟩ := h
        rw [Pdf.mapNorm, WellFormed]
        refine ⟨storable_field _ _ _, ?_, ?_⟩
        · simp only [Registered, hk, mapNormL]
          refine ⟨_, _, rfl, ?_, fun _ _ => exact_field _⟩
          rw [hc, mapNormL_length, ofNat_field, mapNormL_eq, List.map_map]
          congr 1
          apply List.map_congr_left
          intro c _
          simp only [Function.comp_apply, mapNorm_size, ofNat_field]
        · rw [mapNormL]
          refine ⟨?_, soundL_wf ν ts hts⟩
          obtain ⟨n', cs'⟩ := mf
          have : cs' = [] := hcomp
          subst this
          exact basic_wf ν hk' hb
    · rename_i hk
      obtain ⟨⟨o, core, shell, _, hcs, _⟩, hsl⟩ := h
      rw [Pdf.mapNorm, WellFormed]
      refine ⟨storable_field _ _ _, ?_, soundL_wf ν cs hsl⟩
      simp only [Registered, hk, mapNormL_length, hcs]
      rfl
    · exact absurd h (by simp)
theorem soundL_wf (ν : Nat → K) : ∀ us : List (Pdf L), SumProducts cfg sem val idx f os us →
    WellFormedList sem ⟨val, idx⟩ (mapNormL ν us)
  | [], _ => trivial
  | c :: cs, h => by
    rw [SumProducts] at h
    exact ⟨sound_wf ν c h.1, soundL_wf ν cs h.2⟩
end

/-- with these normalisations, value times normalisation is the density -/
def Gives (cfg : NormSetup L) (sem : LeafSem K L) (val : Nat → K) (idx : Nat → Int) (f : Nat → K → K)
    (os : List Nat) (ν : Nat → K) (u : Pdf L) : Prop :=
  ∀ (x : Nat → K) (e : Evt K), DefinedAt f x u → (∀ o ∈ os, at_ e (idx o) = some (x o)) →
    ∃ v, denote sem ⟨val, idx⟩ (u.mapNorm ν) e = some v ∧ v * ν u.node.oid = density cfg val f u x

theorem Gives.congr {ν ν' : Nat → K} {u : Pdf L} (h : Gives cfg sem val idx f os ν u)
    (hν : ∀ o ∈ u.oids, ν' o = ν o) : Gives cfg sem val idx f os ν' u := by
  intro x e hd he
  rw [mapNorm_congr ν' ν u hν, hν _ (oid_mem (node_mem_subtrees u))]
  exact h x e hd he

theorem basic_denote (ν : Nat → K) {k : L.Leaf} {c : Pdf L} {o : Nat} (hk : c.node.fn = .leaf k)
    (h : BasicOK sem val idx f os k c.node o) (e : Evt K) (X : K) (he : at_ e (idx o) = some X) :
    denote sem ⟨val, idx⟩ (c.mapNorm ν) e = some (f c.node.oid X) := by
  obtain ⟨n, cs⟩ := c
  rw [Pdf.mapNorm, denote]
  have hk' : n.fn = .leaf k := hk
  simp only [hk', meaning]
  obtain ⟨h1, _, _, h2⟩ := h
  have h1' : n.obs = [o] := h1
  rw [h1']
  exact h2 e X he

theorem at_onlyAt (i : Int) (hi : 0 ≤ i) (X : K) : at_ (onlyAt i X) i = some X := by
  unfold at_ onlyAt
  rw [if_pos hi, if_pos (by omega)]

variable {t : Pdf L} {m : L.Metric} {ν δ : Nat → K} {s : Machine L}

/-- the integral on the grid, through the arrays -/
theorem Holds.grid (h : Holds ⟨val, idx⟩ t m ν δ s) (ht : SumProduct cfg sem val idx f os t)
    (u : Pdf L) (hu : u ∈ subtrees t) (o : Nat) (hobs : u.node.obs = [o])
    (hidx : 0 ≤ idx o ∧ idx o < 10) (fuel : Nat) (hfuel : u.size ≤ fuel) (hg : HasGrid cfg u.node.oid o)
    (g : K → K)
    (hval : ∀ X, denote sem ⟨val, idx⟩ (u.mapNorm δ) (onlyAt (idx o) X) = some (g X))
    (hpos : 0 < gridOver cfg u.node.oid o g) :
    normalizeGrid (cfg.fineness u.node.oid) (u.node.obs.map cfg.range)
      (GooFit.gridOperator L s.onDevice fuel (s.host.slots u.node.oid).fn
        (normRanges (cfg.fineness u.node.oid) (u.node.obs.map cfg.range))) =
      .ok (gridOver cfg u.node.oid o g) (1 / gridOver cfg u.node.oid o g) := by
  obtain ⟨k, hk⟩ := List.mem_iff_getElem?.1 hu
  have hfn := slots_fn s.host.slots t Cursor.zero h.slots k u hk
  have hfn' : (s.host.slots u.node.oid).fn = k := by rw [hfn]; simp [Cursor.zero]
  rw [h.gridOperator s.host, hfn', hobs]
  have hk' : (subtrees (t.mapNorm δ))[k]? = some (u.mapNorm δ) := by
    rw [subtrees_mapNorm, List.getElem?_map, hk]; rfl
  obtain ⟨norm, h1, h2⟩ := C24_one_observable_partial sem ⟨val, idx⟩ (t.mapNorm δ) m s.host
    (sound_wf δ t ht) k (u.mapNorm δ) hk' o (by rw [mapNorm_node]; exact hobs) hidx
    (cfg.range o).1 (cfg.range o).2.1 hg.1 (cfg.range o).2.2 (cfg.fineness u.node.oid)
    (gridCells cfg u.node.oid o) rfl hg.2 g (fun b _ => hval _) hpos fuel (by rw [mapNorm_size]; exact hfuel)
  have h1' : normalizeGrid (cfg.fineness u.node.oid) ([o].map cfg.range)
      (GooFit.gridOperator L (s.host.setIndices ⟨val, idx⟩ (t.mapNorm δ) m) fuel k
        (normRanges (cfg.fineness u.node.oid) ([o].map cfg.range))) =
      .ok (gridOver cfg u.node.oid o g) norm := h1
  rw [h1']
  rw [gridIntegral1_mul_right] at h2
  congr 1
  exact eq_one_div_of_mul_eq_one_right h2

theorem weighted_combine (ws : List K) : ∀ (vs ns : List K),
    ((ws.zip (vs.zip ns)).map fun p => p.1 * p.2.1 * p.2.2).sum =
      combine ws (List.zipWith (· * ·) vs ns) := by
  induction ws with
  | nil => intro vs ns; simp [combine]
  | cons w ws ih =>
    intro vs ns
    cases vs with
    | nil => simp [combine]
    | cons v vs =>
      cases ns with
      | nil => simp [combine]
      | cons n ns =>
        have := ih vs ns
        simp only [combine] at this ⊢
        simp only [List.zip_cons_cons, List.map_cons, List.sum_cons, List.zipWith_cons_cons, this]
        rw [mul_assoc]

/-- values of components of which each gives its density -/
theorem gives_list {ν : Nat → K} (x : Nat → K) (e : Evt K) (he : ∀ o ∈ os, at_ e (idx o) = some (x o)) :
    ∀ cs : List (Pdf L), DefinedAll f x cs → (∀ c ∈ cs, Gives cfg sem val idx f os ν c) →
      ∃ vs : List K, List.Forall₂ (fun c v => denote sem ⟨val, idx⟩ c e = some v) (mapNormL ν cs) vs ∧
        List.zipWith (· * ·) vs ((mapNormL ν cs).map fun c => c.node.norm) = densities cfg val f cs x
  | [], _, _ => ⟨[], .nil, rfl⟩
  | c :: cs, hd, h => by
    rw [DefinedAll] at hd
    obtain ⟨v, h1, h2⟩ := h c (by simp) x e hd.1 he
    obtain ⟨vs, h3, h4⟩ := gives_list x e he cs hd.2 (fun c' hc => h c' (by simp [hc]))
    refine ⟨v :: vs, .cons h1 h3, ?_⟩
    rw [mapNormL, densities, ← h4, ← h2, List.map_cons, List.zipWith_cons_cons, mapNorm_node]

theorem forall₂_const {env : Env K} {e : Evt K} {cs : List (Pdf L)} {vs : List K}
    (h : List.Forall₂ (fun c v => denote sem env c e = some v) cs vs) :
    List.Forall₂ (fun c (g : Evt K → K) => denote sem env c e = some (g e)) cs (vs.map fun v _ => v) := by
  induction h with
  | nil => exact .nil
  | cons h1 _ ih => exact .cons h1 ih

theorem defined_comps {n : Node L} {cs : List (Pdf L)} {x : Nat → K}
    (hfn : n.fn = .add ∨ n.fn = .addExt ∨ n.fn = .prod ∨ n.fn = .evtAdd) (h : DefinedAt f x (.mk n cs)) :
    DefinedAll f x cs := by
  rw [DefinedAt.eq_def] at h
  dsimp only at h
  rcases hfn with hfn | hfn | hfn | hfn <;> · rw [hfn] at h; exact h

theorem gives_add {ν : Nat → K} {n : Node L} {cs : List (Pdf L)} (hfn : n.fn = .add)
    (hl : n.params.length + 1 = cs.length) (hcom : cfg.flags.common n.oid = false) (h1 : ν n.oid = 1)
    (h : ∀ c ∈ cs, Gives cfg sem val idx f os ν c) : Gives cfg sem val idx f os ν (.mk n cs) := by
  intro x e hdef he
  obtain ⟨vs, h3, h4⟩ := gives_list x e he cs (defined_comps (Or.inl hfn) hdef) h
  have hd := denote_add (sem := sem) (env := ⟨val, idx⟩) { n with norm := ν n.oid } (mapNormL ν cs)
    (vs.map fun v _ => v) e hfn (by rw [mapNormL_length]; exact hl) (forall₂_const h3)
  refine ⟨_, hd, ?_⟩
  show _ * ν n.oid = _
  rw [h1, mul_one, weighted_combine, List.map_map]
  simp only [Function.comp_def, List.map_id']
  rw [h4, density.eq_def]
  simp only [hfn]
  simp only [hcom, Bool.false_eq_true, if_false]
  rfl

theorem gives_addExt {ν : Nat → K} {n : Node L} {cs : List (Pdf L)} (hfn : n.fn = .addExt)
    (hcom : cfg.flags.common n.oid = false) (h1 : ν n.oid = 1)
    (h : ∀ c ∈ cs, Gives cfg sem val idx f os ν c) : Gives cfg sem val idx f os ν (.mk n cs) := by
  intro x e hdef he
  obtain ⟨vs, h3, h4⟩ := gives_list x e he cs (defined_comps (Or.inr (Or.inl hfn)) hdef) h
  have hd := denote_addExt (sem := sem) (env := ⟨val, idx⟩) { n with norm := ν n.oid } (mapNormL ν cs)
    (vs.map fun v _ => v) e hfn (forall₂_const h3)
  refine ⟨_, hd, ?_⟩
  show _ * ν n.oid = _
  rw [h1, mul_one, weighted_combine, List.map_map]
  simp only [Function.comp_def, List.map_id']
  rw [h4, density.eq_def]
  simp only [hfn]
  simp only [hcom, Bool.false_eq_true, if_false]

/-- components that are basic PDFs: their values, with a common normalisation -/
theorem basic_list {ν : Nat → K} (x : Nat → K) (e : Evt K) (he : ∀ o ∈ os, at_ e (idx o) = some (x o)) (y : K) :
    ∀ cs : List (Pdf L), SumProducts cfg sem val idx f os cs → (∀ c ∈ cs, IsBasic c) →
      (∀ c ∈ cs, ν c.node.oid = y) →
      List.Forall₂ (fun c v => denote sem ⟨val, idx⟩ c e = some v) (mapNormL ν cs) (cs.map (basicValue f x)) ∧
        List.zipWith (· * ·) (cs.map (basicValue f x)) ((mapNormL ν cs).map fun c => c.node.norm) =
          cs.map fun c => basicValue f x c * y
  | [], _, _, _ => ⟨.nil, rfl⟩
  | c :: cs, hs, hb, hy => by
    rw [SumProducts] at hs
    obtain ⟨h1, h2⟩ := basic_list x e he y cs hs.2 (fun c' h' => hb c' (by simp [h']))
      (fun c' h' => hy c' (by simp [h']))
    obtain ⟨k, hk⟩ := hb c (by simp)
    have hc : ∃ o, BasicOK sem val idx f os k c.node o := by
      obtain ⟨n, cc⟩ := c
      have hk' : n.fn = .leaf k := hk
      have hs1 := hs.1
      rw [SumProduct.eq_def] at hs1
      simp only [hk'] at hs1
      obtain ⟨_, o, ho, _⟩ := hs1
      exact ⟨o, ho⟩
    obtain ⟨o, ho⟩ := hc
    have hv : basicValue f x c = f c.node.oid (x o) := by
      unfold basicValue
      rw [ho.1]
    refine ⟨?_, ?_⟩
    · rw [mapNormL, List.map_cons, hv]
      exact .cons (basic_denote ν hk ho e (x o) (he o ho.2.1)) h1
    · rw [mapNormL, List.map_cons, List.map_cons, List.zipWith_cons_cons, h2, mapNorm_node, List.map_cons]
      show _ * ν c.node.oid :: _ = _
      rw [hy c (by simp)]

theorem combine_scaled (y : K) : ∀ ws ds : List K, combine ws (ds.map (· * y)) = combine ws ds * y := by
  intro ws
  induction ws with
  | nil => intro ds; simp [combine]
  | cons w ws ih =>
    intro ds
    cases ds with
    | nil => simp [combine]
    | cons d ds =>
      have := ih ds
      simp only [combine] at this ⊢
      simp only [List.map_cons, List.zipWith_cons_cons, List.sum_cons, this]
      ring

/-- sums with common normalisation -/
theorem gives_common {ν : Nat → K} {n : Node L} {cs : List (Pdf L)}
    (hfn : n.fn = .add ∧ n.params.length + 1 = cs.length ∨ n.fn = .addExt ∧ (n.params.map val).sum ≠ 0)
    (hcom : cfg.flags.common n.oid = true) (hs : SumProducts cfg sem val idx f os cs)
    (hb : ∀ c ∈ cs, IsBasic c) (h1 : ν n.oid = 1)
    (hy : ∀ c ∈ cs, ν c.node.oid = 1 / (match n.fn with
      | .add => combine (fractions (n.params.map val)) (cs.map (integralOf cfg val f))
      | _ => combine (n.params.map val) (cs.map (integralOf cfg val f)) / (n.params.map val).sum)) :
    Gives cfg sem val idx f os ν (.mk n cs) := by
  intro x e _ he
  obtain ⟨h3, h4⟩ := basic_list x e he _ cs hs hb hy
  have h5 : (cs.map fun c => basicValue f x c * (1 / (match n.fn with
      | .add => combine (fractions (n.params.map val)) (cs.map (integralOf cfg val f))
      | _ => combine (n.params.map val) (cs.map (integralOf cfg val f)) / (n.params.map val).sum))) =
      (cs.map (basicValue f x)).map (· * (1 / (match n.fn with
      | .add => combine (fractions (n.params.map val)) (cs.map (integralOf cfg val f))
      | _ => combine (n.params.map val) (cs.map (integralOf cfg val f)) / (n.params.map val).sum))) := by
    rw [List.map_map]; rfl
  rw [h5] at h4
  rcases hfn with ⟨hfn, hl⟩ | ⟨hfn, h0⟩
  · have hd := denote_add (sem := sem) (env := ⟨val, idx⟩) { n with norm := ν n.oid } (mapNormL ν cs)
      ((cs.map (basicValue f x)).map fun v _ => v) e hfn (by rw [mapNormL_length]; exact hl) (forall₂_const h3)
    refine ⟨_, hd, ?_⟩
    show _ * ν n.oid = _
    rw [h1, mul_one, weighted_combine, List.map_map (l := cs.map (basicValue f x))]
    simp only [Function.comp_def, List.map_id']
    rw [h4, combine_scaled, density.eq_def]
    simp only [hfn]
    simp only [hcom, if_true]
    exact mul_one_div _ _
  · have hd := denote_addExt (sem := sem) (env := ⟨val, idx⟩) { n with norm := ν n.oid } (mapNormL ν cs)
      ((cs.map (basicValue f x)).map fun v _ => v) e hfn (forall₂_const h3)
    refine ⟨_, hd, ?_⟩
    show _ * ν n.oid = _
    rw [h1, mul_one, weighted_combine, List.map_map (l := cs.map (basicValue f x))]
    simp only [Function.comp_def, List.map_id']
    rw [h4, combine_scaled, density.eq_def]
    simp only [hfn]
    simp only [hcom, if_true]
    rw [one_div_div]
    field_simp

/-- weights that are observables -/
theorem weights_read (x : Nat → K) (e : Evt K) (he : ∀ o ∈ os, at_ e (idx o) = some (x o)) (l : List Nat)
    (hl : ∀ o ∈ l, o ∈ os) (k : Nat) :
    allSome (((l.map idx).take k).map (at_ e)) = some ((l.take k).map x) := by
  induction l generalizing k with
  | nil => simp [allSome]
  | cons o l ih =>
    cases k with
    | zero => simp [allSome]
    | succ k =>
      rw [List.map_cons, List.take_succ_cons, List.map_cons, he o (hl o (by simp)), allSome,
        ih (fun o' h => hl o' (by simp [h])), List.take_succ_cons]
      rfl

theorem gives_evtAdd {ν : Nat → K} {n : Node L} {cs : List (Pdf L)} (hfn : n.fn = .evtAdd) (hne : cs ≠ [])
    (hl : cs.length ≤ n.obs.length + 1) (hos : ∀ o ∈ n.obs, o ∈ os) (h1 : ν n.oid = 1)
    (h : ∀ c ∈ cs, Gives cfg sem val idx f os ν c) : Gives cfg sem val idx f os ν (.mk n cs) := by
  intro x e hdef he
  obtain ⟨vs, h3, h4⟩ := gives_list x e he cs (defined_comps (Or.inr (Or.inr (Or.inr hfn))) hdef) h
  have hv := denoteList_values e _ _ (forall₂_const h3)
  rw [List.map_map] at hv
  simp only [Function.comp_def, List.map_id'] at hv
  have hlen : (mapNormL ν cs).length = vs.length := h3.length_eq
  have hlen' := mapNormL_length ν cs
  have hcl : 0 < cs.length := List.length_pos_of_ne_nil hne
  have hvs : vs ≠ [] := fun h0 => by
    have : vs.length = 0 := by rw [h0]; rfl
    omega
  have hns : ((mapNormL ν cs).map fun c => c.node.norm) ≠ [] := fun h0 => by
    have : ((mapNormL ν cs).map fun c : Pdf L => c.node.norm).length = 0 := by rw [h0]; rfl
    rw [List.length_map] at this
    omega
  have hv' := List.getLast?_eq_some_getLast hvs
  have hn' := List.getLast?_eq_some_getLast hns
  have hw := weights_read x e he n.obs hos (cs.length - 1)
  have hdl : (denoteList sem (⟨val, idx⟩ : Env K) (mapNormL ν cs)).length = cs.length := by
    have := congrArg List.length (denoteList_norms (sem := sem) (env := (⟨val, idx⟩ : Env K)) (mapNormL ν cs))
    rw [List.length_map, List.length_map] at this
    omega
  refine ⟨mixture ((n.obs.take (cs.length - 1)).map x) vs ((mapNormL ν cs).map fun c => c.node.norm)
    (vs.getLast hvs) (((mapNormL ν cs).map fun c => c.node.norm).getLast hns), ?_, ?_⟩
  · rw [Pdf.mapNorm, denote, hfn]
    simp only [meaning, hv, denoteList_norms, hdl, bind, Option.bind]
    rw [hw]
    simp only [hv', hn']
    rfl
  · show _ * ν n.oid = _
    rw [h1, mul_one, mixture_as_weighted _ _ _ _ _ hv' hn' (by simp only [List.length_map, List.length_take]; omega) (by simp only [List.length_map]; omega), weighted_combine, h4,
      density.eq_def]
    simp only [hfn]
    rfl

theorem gives_evtAddExt {ν : Nat → K} {n : Node L} {cs : List (Pdf L)} (hfn : n.fn = .evtAddExt)
    (hos : ∀ o ∈ n.obs, o ∈ os) (h1 : ν n.oid = 1)
    (h : ∀ c ∈ cs, Gives cfg sem val idx f os ν c) : Gives cfg sem val idx f os ν (.mk n cs) := by
  intro x e hdef he
  rw [DefinedAt.eq_def] at hdef
  simp only [hfn] at hdef
  obtain ⟨vs, h3, h4⟩ := gives_list x e he cs hdef.2 h
  have hv := denoteList_values e _ _ (forall₂_const h3)
  rw [List.map_map] at hv
  simp only [Function.comp_def, List.map_id'] at hv
  have hw := weights_read x e he n.obs hos cs.length
  have hdl : (denoteList sem (⟨val, idx⟩ : Env K) (mapNormL ν cs)).length = cs.length := by
    have := congrArg List.length (denoteList_norms (sem := sem) (env := (⟨val, idx⟩ : Env K)) (mapNormL ν cs))
    rw [List.length_map, List.length_map, mapNormL_length] at this
    exact this
  refine ⟨mixtureExt ((n.obs.take cs.length).map x) vs ((mapNormL ν cs).map fun c => c.node.norm), ?_, ?_⟩
  · rw [Pdf.mapNorm, denote, hfn]
    simp only [meaning, hv, denoteList_norms, hdl, bind, Option.bind]
    rw [hw]
    rfl
  · show _ * ν n.oid = _
    rw [h1, mul_one, spec_mixtureExt, weighted_combine, h4, density.eq_def]
    simp only [hfn]

theorem nearest_field (y : K) : FpOps.nearest y = ⌊y + 1 / 2⌋ := by
  unfold FpOps.nearest
  show truncK ((⌊((1 / 2 : Rat) : K) + y⌋ : K)) = _
  have : (((1 / 2 : Rat) : K) + y) = y + 1 / 2 := by push_cast; ring
  rw [this]
  unfold truncK
  split <;> simp

theorem denoteList_nth (env : Env K) : ∀ (i : Nat) (ts : List (Pdf L)) (t : Pdf L), ts[i]? = some t →
    (denoteList sem env ts)[i]? = some ⟨denote sem env t, t.node.norm, t.node.obs.map env.idx⟩
  | _, [], _, h => by simp at h
  | 0, .mk n cs :: ts, t, h => by
    simp only [List.getElem?_cons_zero, Option.some.injEq] at h
    subst h
    rw [denoteList]
    rfl
  | i + 1, .mk n cs :: ts, t, h => by
    rw [denoteList, List.getElem?_cons_succ]
    rw [List.getElem?_cons_succ] at h
    exact denoteList_nth env i ts t h

theorem defined_nth {x : Nat → K} : ∀ (i : Nat) (ts : List (Pdf L)), DefinedNth f x i ts →
    ∃ t, ts[i]? = some t ∧ DefinedAt f x t
  | _, [], h => by rw [DefinedNth] at h; exact h.elim
  | 0, c :: cs, h => by rw [DefinedNth] at h; exact ⟨c, rfl, h⟩
  | i + 1, c :: cs, h => by
    rw [DefinedNth] at h
    obtain ⟨t, h1, h2⟩ := defined_nth i cs h
    exact ⟨t, by rw [List.getElem?_cons_succ]; exact h1, h2⟩

theorem densities_nth (x : Nat → K) : ∀ (i : Nat) (ts : List (Pdf L)) (t : Pdf L), ts[i]? = some t →
    (densities cfg val f ts x)[i]? = some (density cfg val f t x)
  | _, [], _, h => by simp at h
  | 0, c :: ts, t, h => by
    simp only [List.getElem?_cons_zero, Option.some.injEq] at h
    subst h
    rw [densities]
    rfl
  | i + 1, c :: ts, t, h => by
    rw [densities, List.getElem?_cons_succ]
    rw [List.getElem?_cons_succ] at h
    exact densities_nth x i ts t h

theorem gives_mapped {ν : Nat → K} {n : Node L} {mf : Pdf L} {ts : List (Pdf L)} (hfn : n.fn = .mapped) {k : L.Leaf}
    {o : Nat} (hk : mf.node.fn = .leaf k) (hb : BasicOK sem val idx f os k mf.node o) (h1 : ν n.oid = 1)
    (h : ∀ c ∈ ts, Gives cfg sem val idx f os ν c) : Gives cfg sem val idx f os ν (.mk n (mf :: ts)) := by
  intro x e hdef he
  rw [DefinedAt.eq_def] at hdef
  simp only [hfn] at hdef
  obtain ⟨h0, hnth⟩ := hdef
  obtain ⟨t, ht, htd⟩ := defined_nth _ _ hnth
  obtain ⟨v, hv1, hv2⟩ := h t (List.mem_of_getElem? ht) x e htd he
  have hm := basic_denote ν hk hb e (x o) (he o hb.2.1)
  have hbv : basicValue f x mf = f mf.node.oid (x o) := by
    unfold basicValue
    rw [hb.1]
  have hch : FpOps.nearest (f mf.node.oid (x o)) = chosen f x mf := by
    rw [nearest_field, chosen, hbv]
  have hd := denoteList_nth (sem := sem) ⟨val, idx⟩ (chosen f x mf).toNat (mapNormL ν ts) (t.mapNorm ν)
    (by rw [mapNormL_eq, List.getElem?_map, ht]; rfl)
  have hm0 := denoteList_nth (sem := sem) ⟨val, idx⟩ 0 (mapNormL ν (mf :: ts)) (mf.mapNorm ν) (by rw [mapNormL]; rfl)
  have hcons : denoteList sem (⟨val, idx⟩ : Env K) (mapNormL ν (mf :: ts)) =
      ⟨denote sem ⟨val, idx⟩ (mf.mapNorm ν), (mf.mapNorm ν).node.norm, (mf.mapNorm ν).node.obs.map idx⟩ ::
        denoteList sem ⟨val, idx⟩ (mapNormL ν ts) := by
    rw [mapNormL]
    cases hmf : mf.mapNorm ν
    rw [denoteList]
    rfl
  refine ⟨v * ν t.node.oid, ?_, ?_⟩
  · rw [Pdf.mapNorm, denote, hfn, hcons]
    simp only [meaning, hm, bind, Option.bind]
    rw [hch, if_pos h0]
    simp only [hd, hv1]
    rw [mapNorm_node]
    rfl
  · show _ * ν n.oid = _
    rw [h1, mul_one, hv2, density.eq_def cfg val f (.mk n (mf :: ts))]
    dsimp only
    rw [hfn]
    dsimp only
    rw [densities_nth x _ _ _ ht]
    rfl

/-- a function of a function -/
theorem denote_composite {ν : Nat → K} {n : Node L} {core shell : Pdf L} {o : Nat} (hfn : n.fn = .composite)
    {k k' : L.Leaf} (hk : core.node.fn = .leaf k) (hb : BasicOK sem val idx f os k core.node o)
    (hk' : shell.node.fn = .leaf k') (hb' : BasicOK sem val idx f os k' shell.node o)
    (hidx : 0 ≤ idx o ∧ idx o < 10) (e : Evt K) (X : K) (he : at_ e (idx o) = some X) :
    denote sem ⟨val, idx⟩ ((Pdf.mk n [core, shell]).mapNorm ν) e =
      some (f shell.node.oid (f core.node.oid X)) := by
  have hcons : denoteList sem (⟨val, idx⟩ : Env K) (mapNormL ν [core, shell]) =
      [⟨denote sem ⟨val, idx⟩ (core.mapNorm ν), (core.mapNorm ν).node.norm, (core.mapNorm ν).node.obs.map idx⟩,
        ⟨denote sem ⟨val, idx⟩ (shell.mapNorm ν), (shell.mapNorm ν).node.norm, (shell.mapNorm ν).node.obs.map idx⟩] := by
    rw [mapNormL, mapNormL, mapNormL]
    cases core.mapNorm ν
    rw [denoteList]
    cases shell.mapNorm ν
    rw [denoteList, denoteList]
    rfl
  have h1 := basic_denote ν hk hb e X he
  have h2 := basic_denote ν hk' hb' (fun k => if (k : Int) = idx o then some (f core.node.oid X) else none)
    (f core.node.oid X) (by
      unfold at_
      rw [if_pos hidx.1]
      exact if_pos (by omega))
  have ho : (shell.mapNorm ν).node.obs.map idx = [idx o] := by
    rw [mapNorm_node]
    show shell.node.obs.map idx = _
    rw [hb'.1]
    rfl
  rw [Pdf.mapNorm, denote, hfn, hcons]
  simp only [meaning, h1, ho, List.head?_cons, bind, Option.bind]
  rw [if_pos hidx]
  exact h2

theorem zip_mul (vs ns : List K) : ((vs.zip ns).map fun p => p.1 * p.2) = List.zipWith (· * ·) vs ns := by
  rw [List.zip, List.map_zipWith]

theorem density_prod_separate {n : Node L} {cs : List (Pdf L)} (hfn : n.fn = .prod) (x : Nat → K)
    (hj : ¬ (n.obs.length = 1 ∧ 2 ≤ cs.length)) :
    density cfg val f (.mk n cs) x = (densities cfg val f cs x).prod := by
  rw [density.eq_def]
  simp only [hfn]
  split
  · rename_i o ho
    rw [if_neg (fun hc => hj ⟨by rw [ho]; rfl, hc⟩)]
  · rfl

theorem gives_prod {ν : Nat → K} {n : Node L} {cs : List (Pdf L)} (hfn : n.fn = .prod)
    (hj : ¬ (n.obs.length = 1 ∧ 2 ≤ cs.length)) (h1 : ν n.oid = 1)
    (h : ∀ c ∈ cs, Gives cfg sem val idx f os ν c) : Gives cfg sem val idx f os ν (.mk n cs) := by
  intro x e hdef he
  obtain ⟨vs, h3, h4⟩ := gives_list x e he cs (defined_comps (Or.inr (Or.inr (Or.inl hfn))) hdef) h
  have hd := denote_prod (sem := sem) (env := ⟨val, idx⟩) { n with norm := ν n.oid } (mapNormL ν cs) vs e
    hfn h3
  refine ⟨_, hd, ?_⟩
  show _ * ν n.oid = _
  rw [h1, mul_one, zip_mul, h4, density_prod_separate hfn x hj]

/-- a product of basic PDFs of one observable whose normalisations are one -/
theorem denote_joint {ν : Nat → K} {n : Node L} {cs : List (Pdf L)} (hfn : n.fn = .prod) (o : Nat)
    (hc : ∀ c ∈ cs, ∃ k, c.node.fn = .leaf k ∧ BasicOK sem val idx f os k c.node o)
    (h1 : ∀ c ∈ cs, ν c.node.oid = 1) (e : Evt K) (X : K) (he : at_ e (idx o) = some X) :
    denote sem ⟨val, idx⟩ ((Pdf.mk n cs).mapNorm ν) e = some (cs.map fun c => f c.node.oid X).prod := by
  have key : ∀ cs : List (Pdf L), (∀ c ∈ cs, ∃ k, c.node.fn = .leaf k ∧ BasicOK sem val idx f os k c.node o) →
      (∀ c ∈ cs, ν c.node.oid = 1) →
      List.Forall₂ (fun c v => denote sem ⟨val, idx⟩ c e = some v) (mapNormL ν cs)
        (cs.map fun c => f c.node.oid X) ∧
      List.zipWith (· * ·) (cs.map fun c => f c.node.oid X) ((mapNormL ν cs).map fun c => c.node.norm) =
        cs.map fun c => f c.node.oid X := by
    intro cs
    induction cs with
    | nil => intro _ _; exact ⟨.nil, rfl⟩
    | cons c cs ih =>
      intro hc h1
      obtain ⟨i1, i2⟩ := ih (fun c' h => hc c' (by simp [h])) (fun c' h => h1 c' (by simp [h]))
      obtain ⟨k, hk, hb⟩ := hc c (by simp)
      refine ⟨.cons (basic_denote ν hk hb e X he) i1, ?_⟩
      rw [mapNormL, List.map_cons, List.map_cons, List.zipWith_cons_cons, i2, mapNorm_node]
      show _ * ν c.node.oid :: _ = _
      rw [h1 c (by simp), mul_one]
  obtain ⟨k1, k2⟩ := key cs hc h1
  have := denote_prod (sem := sem) (env := ⟨val, idx⟩) { n with norm := ν n.oid } (mapNormL ν cs) _ e hfn k1
  rw [zip_mul, k2] at this
  exact this

/-- in a product of PDFs with the same single observable the check finds the overlap -/
theorem varOverlaps_same (o : Nat) (cs : List (List Nat × Bool)) (h2 : 2 ≤ cs.length)
    (h : ∀ c ∈ cs, o ∈ c.1 ∧ c.2 = false) : varOverlaps cs = true := by
  unfold varOverlaps
  rw [Bool.and_eq_true]
  constructor
  · rw [overlapLoop_iff]
    obtain ⟨a, b, rest, rfl⟩ : ∃ a b rest, cs = a :: b :: rest := by
      match cs, h2 with
      | a :: b :: rest, _ => exact ⟨a, b, rest, rfl⟩
    exact ⟨1, a.1, b.1, rfl, rfl, o, (h b (by simp)).1, (h a (by simp)).1⟩
  · rw [Bool.not_eq_true', Bool.eq_false_iff]
    intro hc
    obtain ⟨c, hc1, hc2⟩ := List.any_eq_true.1 hc
    rw [(h c hc1).2] at hc2
    exact absurd hc2 (by simp)

theorem getObservables_leaf (n : Node L) : (Pdf.mk n []).getObservables = n.obs := by
  rfl

mutual
theorem size_of_mem : ∀ (t u : Pdf L), u ∈ subtrees t → u.size ≤ t.size
  | .mk n cs, u, h => by
    rw [subtrees, List.mem_cons] at h
    rcases h with rfl | h
    · exact Nat.le_refl _
    · have := size_of_memL cs u h
      rw [Pdf.size]; omega
theorem size_of_memL : ∀ (ts : List (Pdf L)) (u : Pdf L), u ∈ subtreesList ts → u.size ≤ Pdf.sizeList ts
  | [], u, h => by simp [subtreesList] at h
  | t :: ts, u, h => by
    rw [subtreesList, List.mem_append] at h
    rw [Pdf.sizeList]
    rcases h with h | h
    · have := size_of_mem t u h; omega
    · have := size_of_memL ts u h; omega
end

theorem normalizeOwn_grid (cfg : NormSetup L) (fuel : Nat) (n : Node L) (s : Machine L)
    (hn : ∀ k, n.fn ≠ .leaf k) (a b : K)
    (h : normalizeGrid (cfg.fineness n.oid) (n.obs.map cfg.range)
      (GooFit.gridOperator L s.onDevice fuel (s.host.slots n.oid).fn
        (normRanges (cfg.fineness n.oid) (n.obs.map cfg.range))) = .ok a b) :
    s.normalizeOwn cfg fuel n = .done (a, s.setNorm n.oid b) := by
  unfold Machine.normalizeOwn
  dsimp only
  split
  · rename_i k hk; exact absurd hk (hn k)
  · rw [h]

/-- a basic PDF -/
theorem normalize_basic_sound (hn : t.oids.Nodup) (ht : SumProduct cfg sem val idx f os t)
    (hidx : ∀ o ∈ os, 0 ≤ idx o ∧ idx o < 10) (fuel : Nat) (hfuel : t.size ≤ fuel)
    (h : Holds ⟨val, idx⟩ t m ν δ s) (n : Node L) (hu : Pdf.mk n [] ∈ subtrees t) (k : L.Leaf) (o : Nat)
    (hk : n.fn = .leaf k) (hb : BasicOK sem val idx f os k n o) (hg : HasGrid cfg n.oid o)
    (hp : 0 < basicIntegral cfg val f n k o) :
    s.normalizeOwn cfg fuel n =
      .done (basicIntegral cfg val f n k o, s.setNorm n.oid (1 / basicIntegral cfg val f n k o)) := by
  have hps := h.params (.mk n []) hu
  have hps' : collect (fun i => (s.host.slots n.oid).getParameter s.host.bufs i) n.params.length =
      some (n.params.map val) := hps
  unfold Machine.normalizeOwn
  rw [hk]
  dsimp only
  rw [hps']
  dsimp only
  unfold basicIntegral at hp ⊢
  cases ha : cfg.analytic k (n.params.map val) n.consts with
  | none =>
    rw [ha] at hp
    have := h.grid ht (.mk n []) hu o hb.1 (hidx o hb.2.1) fuel
      (Nat.le_trans (size_of_mem t _ hu) hfuel) hg (f n.oid)
      (fun X => basic_denote (c := .mk n []) δ hk hb _ X (at_onlyAt _ (hidx o hb.2.1).1 X)) hp
    have this' : normalizeGrid (cfg.fineness n.oid) (n.obs.map cfg.range)
      (GooFit.gridOperator L s.onDevice fuel (s.host.slots n.oid).fn
        (normRanges (cfg.fineness n.oid) (n.obs.map cfg.range))) = _ := this
    dsimp only
    rw [this']
    rfl
  | some integral =>
    dsimp only
    rw [hb.1]
    simp only [normalizeAnalytic, List.map_cons, List.map_nil, List.foldl_cons, List.foldl_nil, one_mul]

/-- the integral whose inverse an object's own normalisation is -/
def ownIntegral (cfg : NormSetup L) (val : Nat → K) (f : Nat → K → K) : Pdf L → K
  | .mk n cs =>
    match n.fn, n.obs with
    | .leaf k, [o] => basicIntegral cfg val f n k o
    | .prod, [o] => if 2 ≤ cs.length then gridOver cfg n.oid o fun X => (cs.map fun c => f c.node.oid X).prod else 1
    | .composite, [o] =>
      match cs with
      | [core, shell] => gridOver cfg n.oid o fun X => f shell.node.oid (f core.node.oid X)
      | _ => 1
    | _, _ => 1

theorem oidsL_flatMap (cs : List (Pdf L)) : Pdf.oidsL cs = cs.flatMap Pdf.oids := by
  induction cs with
  | nil => rfl
  | cons a cs ih => rw [oidsL_cons, ih]; rfl

theorem foldl_setNorm_is (hn : t.oids.Nodup) (x : K) : ∀ (cs : List (Pdf L)) (ν : Nat → K) (s : Machine L),
    (∀ c ∈ cs, c.node.oid ∈ t.oids) → Holds ⟨val, idx⟩ t m ν δ s →
      Holds ⟨val, idx⟩ t m (fun p => if p ∈ cs.map (fun c => c.node.oid) then x else ν p) δ
        (cs.foldl (fun s c => s.setNorm c.node.oid x) s)
  | [], ν, s, _, h => by simpa using h
  | c :: cs, ν, s, hc, h => by
    have := foldl_setNorm_is hn x cs _ _ (fun c' h' => hc c' (by simp [h'])) (h.setNorm hn _ (hc c (by simp)) x)
    refine (congrArg (fun q => Holds ⟨val, idx⟩ t m q δ _) ?_).mp this
    funext p
    by_cases h1 : p ∈ cs.map (fun c : Pdf L => c.node.oid)
    · rw [if_pos h1, if_pos (by rw [List.map_cons]; exact List.mem_cons_of_mem _ h1)]
    · rw [if_neg h1]
      by_cases h2 : p = c.node.oid
      · rw [if_pos (by rw [List.map_cons, h2]; exact List.mem_cons_self), h2]
        exact if_pos rfl
      · rw [if_neg (by rw [List.map_cons, List.mem_cons, not_or]; exact ⟨h2, h1⟩)]
        exact upd_other _ _ _ _ h2

/-- the sum of the components' integrals, as `AddPdf::normalize` forms it -/
theorem combine_fractions (ws rs : List K) (hl : ws.length + 1 = rs.length) :
    ((ws.zip rs).map fun p => p.2 * p.1).sum + (1 - ws.sum) * rs.getLastD 0 = combine (fractions ws) rs := by
  have hne : rs ≠ [] := fun h => by rw [h] at hl; simp at hl
  obtain ⟨init, last, rfl⟩ : ∃ init last, rs = init ++ [last] := ⟨_, _, (List.dropLast_append_getLast hne).symm⟩
  simp only [List.length_append, List.length_singleton] at hl
  have hl' : ws.length = init.length := by omega
  have h1 : (ws.zip (init ++ [last])) = ws.zip init := by
    have := List.zip_append (l₁ := ws) (r₁ := []) (l₂ := init) (r₂ := [last]) hl'
    simpa using this
  rw [h1]
  unfold combine fractions
  rw [List.zipWith_append hl', List.sum_append, List.getLastD_concat]
  congr 1
  · rw [List.zip, List.map_zipWith]
    congr 2
    funext a b
    exact mul_comm _ _
  · simp

theorem combine_yields (ws rs : List K) : ((ws.zip rs).map fun p => p.2 * p.1).sum = combine ws rs := by
  unfold combine
  rw [List.zip, List.map_zipWith]
  congr 2
  funext a b
  exact mul_comm _ _

/-- what the components that are basic PDFs return is their integrals -/
theorem returned_integrals {us : List (Pdf L)} {rs : List K} (hb : ∀ c ∈ us, IsBasic c)
    (hs : SumProducts cfg sem val idx f os us)
    (h : List.Forall₂ (fun (u : Pdf L) r => IsBasic u → r = ownIntegral cfg val f u) us rs) :
    rs = us.map (integralOf cfg val f) := by
  induction h with
  | nil => rfl
  | @cons u r us rs h1 _ ih =>
    rw [SumProducts] at hs
    rw [List.map_cons, ← ih (fun c hc => hb c (by simp [hc])) hs.2, h1 (hb u (by simp))]
    congr 1
    obtain ⟨k, hk⟩ := hb u (by simp)
    obtain ⟨n, cs⟩ := u
    have hk' : n.fn = .leaf k := hk
    have hs1 := hs.1
    rw [SumProduct.eq_def] at hs1
    simp only [hk'] at hs1
    obtain ⟨_, o, ho, _⟩ := hs1
    unfold ownIntegral integralOf
    simp only [Pdf.node, hk', ho.1]

theorem comp_oid_ne {n : Node L} {cs : List (Pdf L)} (h : n.oid ∉ Pdf.oidsL cs) (c : Pdf L) (hc : c ∈ cs) :
    c.node.oid ≠ n.oid := by
  intro he
  apply h
  rw [← he]
  clear he h
  induction cs with
  | nil => exact absurd hc (by simp)
  | cons a cs ih =>
    rw [oidsL_cons, List.mem_append]
    rcases List.mem_cons.1 hc with rfl | hc
    · exact Or.inl (oid_mem (node_mem_subtrees _))
    · exact Or.inr (ih hc)

mutual
theorem normalize_sound (hn : t.oids.Nodup) (ht : SumProduct cfg sem val idx f os t)
    (hidx : ∀ o ∈ os, 0 ≤ idx o ∧ idx o < 10) (fuel : Nat) (hfuel : t.size ≤ fuel) :
    ∀ (u : Pdf L) (ν δ : Nat → K) (s : Machine L), SumProduct cfg sem val idx f os u → u.oids.Nodup →
      (∀ w ∈ subtrees u, w ∈ subtrees t) → Holds ⟨val, idx⟩ t m ν δ s →
      ∃ r ν' δ' s', s.normalize cfg val fuel u = .done (r, s') ∧ Holds ⟨val, idx⟩ t m ν' δ' s' ∧
        (∀ o, o ∉ u.oids → ν' o = ν o) ∧ (0 < ν' u.node.oid ∧ ν' u.node.oid = 1 / ownIntegral cfg val f u) ∧
        Gives cfg sem val idx f os ν' u ∧ (IsBasic u → r = ownIntegral cfg val f u)
  | .mk n cs, ν, δ, s, hs, hnd, hu, h => by
    have hcs : ∀ w ∈ subtreesList cs, w ∈ subtrees t :=
      fun w hw => hu w (by rw [subtrees, List.mem_cons]; exact Or.inr hw)
    have hut : Pdf.mk n cs ∈ subtrees t := hu _ (node_mem_subtrees _)
    have ho : n.oid ∈ t.oids := oid_mem hut
    rw [oids_mk, List.nodup_cons] at hnd
    -- after the components, the object's own normalisation is set
    have hset : ∀ (ν1 : Nat → K) (x : K), (∀ o, o ∉ Pdf.oidsL cs → ν1 o = ν o) →
        ∀ o, o ∉ (Pdf.mk n cs).oids → upd ν1 n.oid x o = ν o := by
      intro ν1 x h1 o ho
      rw [oids_mk, List.mem_cons, not_or] at ho
      rw [upd_other _ _ _ _ ho.1, h1 o ho.2]
    have hgive : ∀ (ν1 : Nat → K) (x : K), (∀ c ∈ cs, Gives cfg sem val idx f os ν1 c) →
        ∀ c ∈ cs, Gives cfg sem val idx f os (upd ν1 n.oid x) c := by
      intro ν1 x h1 c hc
      refine (h1 c hc).congr (fun o ho => upd_other _ _ _ _ ?_)
      rintro rfl
      apply hnd.1
      rw [oidsL_flatMap, List.mem_flatMap]
      exact ⟨c, hc, ho⟩
    have hself : ∀ (ν1 : Nat → K) (x : K), upd ν1 n.oid x n.oid = x := fun ν1 x => if_pos rfl
    rw [SumProduct.eq_def] at hs
    dsimp only at hs
    split at hs
    · rename_i k hk
      obtain ⟨rfl, o, hb, hg, hp⟩ := hs
      have hr := normalize_basic_sound hn ht hidx fuel hfuel h n hut k o hk hb hg hp
      refine ⟨basicIntegral cfg val f n k o, _, δ, _, ?_, h.setNorm hn n.oid ho (1 / basicIntegral cfg val f n k o),
        hset ν _ (fun _ _ => rfl), ?_, ?_, ?_⟩
      · rw [Machine.normalize.eq_def]
        dsimp only
        rw [hk]
        exact hr
      · show 0 < upd ν n.oid _ n.oid ∧ upd ν n.oid _ n.oid = _
        rw [hself]
        refine ⟨one_div_pos.2 hp, ?_⟩
        unfold ownIntegral
        dsimp only
        rw [hk, hb.1]
      · intro x e _ he
        refine ⟨_, basic_denote (c := .mk n []) _ hk hb e (x o) (he o hb.2.1), ?_⟩
        show _ * upd ν n.oid _ n.oid = _
        rw [hself, density.eq_def]
        simp only [hk]
        rw [hb.1]
        exact mul_one_div _ _
      · intro _
        unfold ownIntegral
        dsimp only
        rw [hk, hb.1]
    · rename_i hk
      have hnb : ¬ IsBasic (Pdf.mk n cs) := by
        rintro ⟨k, hk'⟩
        rw [show n.fn = _ from hk'] at hk
        exact absurd hk (by simp)
      obtain ⟨hl, hc, hsl⟩ := hs
      obtain ⟨rs, ν1, δ1, s1, e1, h1, g1, g2, g3⟩ :=
        normalizeAll_sound hn ht hidx fuel hfuel cs ν δ s hsl hnd.2 hcs h
      cases hcom : cfg.flags.common n.oid with
      | false =>
        obtain ⟨r, hr⟩ : ∃ r, s.normalize cfg val fuel (.mk n cs) = .done (r, s1.setNorm n.oid 1) := by
          rw [Machine.normalize.eq_def]
          dsimp only
          rw [hk]
          dsimp only
          rw [e1]
          simp only [Ran.andThen, hcom, Bool.false_eq_true, if_false]
          exact ⟨_, rfl⟩
        refine ⟨r, _, δ1, _, hr, h1.setNorm hn n.oid ho 1, hset ν1 _ g1, ?_, ?_, fun hb => absurd hb hnb⟩
        · show 0 < upd ν1 n.oid _ n.oid ∧ upd ν1 n.oid _ n.oid = _
          rw [hself]
          refine ⟨one_pos, ?_⟩
          unfold ownIntegral
          dsimp only
          rw [hk]
          simp
        · exact gives_add hk hl hcom (hself _ _) (hgive ν1 1 g2)
      | true =>
        obtain ⟨hbas, _⟩ := hc hcom
        have hrs := returned_integrals hbas hsl g3
        obtain ⟨r, hr⟩ : ∃ r, s.normalize cfg val fuel (.mk n cs) = .done (r, cs.foldl (fun s c =>
            s.setNorm c.node.oid (1 / (combine (fractions (n.params.map val)) (cs.map (integralOf cfg val f))))) (s1.setNorm n.oid 1)) := by
          rw [Machine.normalize.eq_def]
          dsimp only
          rw [hk]
          dsimp only
          rw [e1]
          simp only [Ran.andThen, hcom, if_true]
          rw [combine_fractions _ _ (by rw [hrs, List.length_map, List.length_map]; exact hl), hrs]
          exact ⟨_, rfl⟩
        have h2 := foldl_setNorm_is hn (1 / (combine (fractions (n.params.map val)) (cs.map (integralOf cfg val f)))) cs _ _
          (comps_oid_mem hu) (h1.setNorm hn n.oid ho 1)
        have hroot : (fun p => if p ∈ cs.map (fun c => c.node.oid) then
            1 / (combine (fractions (n.params.map val)) (cs.map (integralOf cfg val f))) else upd ν1 n.oid 1 p) n.oid = 1 := by
          refine (if_neg ?_).trans (hself ν1 1)
          intro hm
          obtain ⟨c, hc', he⟩ := List.mem_map.1 hm
          exact comp_oid_ne hnd.1 c hc' he
        refine ⟨r, _, δ1, _, hr, h2, ?_, ?_, ?_, fun hb => absurd hb hnb⟩
        · intro o ho'
          rw [oids_mk, List.mem_cons, not_or] at ho'
          rw [if_neg, upd_other _ _ _ _ ho'.1, g1 o ho'.2]
          intro hm
          obtain ⟨c, hc', rfl⟩ := List.mem_map.1 hm
          exact ho'.2 (by
            rw [oidsL_flatMap, List.mem_flatMap]
            exact ⟨c, hc', oid_mem (node_mem_subtrees c)⟩)
        · refine ⟨?_, ?_⟩
          · exact lt_of_lt_of_eq one_pos hroot.symm
          refine hroot.trans ?_
          unfold ownIntegral
          dsimp only
          rw [hk]
          simp
        · refine gives_common (Or.inl ⟨hk, hl⟩) hcom hsl hbas hroot ?_
          intro c hc'
          rw [hk]
          exact if_pos (List.mem_map.2 ⟨c, hc', rfl⟩)
    · rename_i hk
      have hnb : ¬ IsBasic (Pdf.mk n cs) := by
        rintro ⟨k, hk'⟩
        rw [show n.fn = _ from hk'] at hk
        exact absurd hk (by simp)
      obtain ⟨hl, hc, h0, hsl⟩ := hs
      obtain ⟨rs, ν1, δ1, s1, e1, h1, g1, g2, g3⟩ :=
        normalizeAll_sound hn ht hidx fuel hfuel cs ν δ s hsl hnd.2 hcs h
      cases hcom : cfg.flags.common n.oid with
      | false =>
        obtain ⟨r, hr⟩ : ∃ r, s.normalize cfg val fuel (.mk n cs) = .done (r, s1.setNorm n.oid 1) := by
          rw [Machine.normalize.eq_def]
          dsimp only
          rw [hk]
          dsimp only
          rw [e1]
          simp only [Ran.andThen, hcom, Bool.false_eq_true, if_false]
          exact ⟨_, rfl⟩
        refine ⟨r, _, δ1, _, hr, h1.setNorm hn n.oid ho 1, hset ν1 _ g1, ?_, ?_, fun hb => absurd hb hnb⟩
        · show 0 < upd ν1 n.oid _ n.oid ∧ upd ν1 n.oid _ n.oid = _
          rw [hself]
          refine ⟨one_pos, ?_⟩
          unfold ownIntegral
          dsimp only
          rw [hk]
          simp
        · exact gives_addExt hk hcom (hself _ _) (hgive ν1 1 g2)
      | true =>
        obtain ⟨hbas, _⟩ := hc hcom
        have hrs := returned_integrals hbas hsl g3
        obtain ⟨r, hr⟩ : ∃ r, s.normalize cfg val fuel (.mk n cs) = .done (r, cs.foldl (fun s c =>
            s.setNorm c.node.oid (1 / (combine (n.params.map val) (cs.map (integralOf cfg val f)) / (n.params.map val).sum))) (s1.setNorm n.oid 1)) := by
          rw [Machine.normalize.eq_def]
          dsimp only
          rw [hk]
          dsimp only
          rw [e1]
          simp only [Ran.andThen, hcom, if_true]
          rw [combine_yields, hrs]
          exact ⟨_, rfl⟩
        have h2 := foldl_setNorm_is hn (1 / (combine (n.params.map val) (cs.map (integralOf cfg val f)) / (n.params.map val).sum)) cs _ _
          (comps_oid_mem hu) (h1.setNorm hn n.oid ho 1)
        have hroot : (fun p => if p ∈ cs.map (fun c => c.node.oid) then
            1 / (combine (n.params.map val) (cs.map (integralOf cfg val f)) / (n.params.map val).sum) else upd ν1 n.oid 1 p) n.oid = 1 := by
          refine (if_neg ?_).trans (hself ν1 1)
          intro hm
          obtain ⟨c, hc', he⟩ := List.mem_map.1 hm
          exact comp_oid_ne hnd.1 c hc' he
        refine ⟨r, _, δ1, _, hr, h2, ?_, ?_, ?_, fun hb => absurd hb hnb⟩
        · intro o ho'
          rw [oids_mk, List.mem_cons, not_or] at ho'
          rw [if_neg, upd_other _ _ _ _ ho'.1, g1 o ho'.2]
          intro hm
          obtain ⟨c, hc', rfl⟩ := List.mem_map.1 hm
          exact ho'.2 (by
            rw [oidsL_flatMap, List.mem_flatMap]
            exact ⟨c, hc', oid_mem (node_mem_subtrees c)⟩)
        · refine ⟨?_, ?_⟩
          · exact lt_of_lt_of_eq one_pos hroot.symm
          refine hroot.trans ?_
          unfold ownIntegral
          dsimp only
          rw [hk]
          simp
        · refine gives_common (Or.inr ⟨hk, h0⟩) hcom hsl hbas hroot ?_
          intro c hc'
          rw [hk]
          exact if_pos (List.mem_map.2 ⟨c, hc', rfl⟩)
    · rename_i hk
      have hnb : ¬ IsBasic (Pdf.mk n cs) := by
        rintro ⟨k, hk'⟩
        rw [show n.fn = _ from hk'] at hk
        exact absurd hk (by simp)
      obtain ⟨_, _, h3⟩ := hs
      by_cases hj : n.obs.length = 1 ∧ 2 ≤ cs.length
      · rw [if_pos hj] at h3
        obtain ⟨o, hob, hg, hc, hp⟩ := h3
        have hbas : ∀ c ∈ cs, ∃ k, c.node.fn = .leaf k ∧ BasicOK sem val idx f os k c.node o := by
          intro c hc'
          obtain ⟨_, k, h1, _, h2⟩ := hc c hc'
          exact ⟨k, h1, h2⟩
        have hov : varOverlaps (cs.map fun c => (c.getObservables, cfg.flags.separate c.node.oid)) = true := by
          apply varOverlaps_same o _ (by rw [List.length_map]; exact hj.2)
          intro p hp
          obtain ⟨c, hc', rfl⟩ := List.mem_map.1 hp
          obtain ⟨hsep, k, _, hcomp, hb⟩ := hc c hc'
          refine ⟨?_, hsep⟩
          obtain ⟨n', cs'⟩ := c
          have : cs' = [] := hcomp
          subst this
          rw [getObservables_leaf, show n'.obs = [o] from hb.1]
          simp
        have hos : o ∈ os := by
          obtain ⟨c, hc'⟩ : ∃ c, c ∈ cs := by
            cases cs with
            | nil => exact absurd hj.2 (by simp)
            | cons c cs => exact ⟨c, by simp⟩
          obtain ⟨k, _, h2⟩ := hbas c hc'
          exact h2.2.1
        have h1 := (h.recursiveSet hn (.mk n cs) (oids_sub hu) 1).sync
        have hone : ∀ c ∈ cs, (fun p => if p ∈ (Pdf.mk n cs).oids then (1 : K) else ν p) c.node.oid = 1 := by
          intro c hc'
          refine if_pos ?_
          exact oid_mem (by
            rw [subtrees, List.mem_cons]
            exact Or.inr (mem_subtreesList.2 ⟨c, hc', node_mem_subtrees c⟩))
        have hgr := h1.grid ht (.mk n cs) hut o hob (hidx o hos) fuel
          (Nat.le_trans (size_of_mem t _ hut) hfuel) hg (fun X => (cs.map fun c : Pdf L => f c.node.oid X).prod)
          (fun X => denote_joint hk o hbas hone _ X (at_onlyAt _ (hidx o hos).1 X)) hp
        have hown := normalizeOwn_grid cfg fuel n ((s.recursiveSet 1 (.mk n cs)).sync)
          (fun k hc => by rw [hk] at hc; exact absurd hc (by simp)) _ _ hgr
        have hneq : ∀ c ∈ cs, c.node.oid ≠ n.oid := by
          intro c hc' hc
          apply hnd.1
          have : c.node.oid ∈ Pdf.oidsL cs := by
            clear * - hc'
            induction cs with
            | nil => simp at hc'
            | cons a cs ih =>
              rw [oidsL_cons, List.mem_append]
              rcases List.mem_cons.1 hc' with rfl | h
              · exact Or.inl (oid_mem (node_mem_subtrees _))
              · exact Or.inr (ih h)
          rw [← hc]; exact this
        have hr : s.normalize cfg val fuel (.mk n cs) =
            .done (gridOver cfg n.oid o fun X => (cs.map fun c : Pdf L => f c.node.oid X).prod,
              (s.recursiveSet 1 (.mk n cs)).sync.setNorm n.oid
                (1 / gridOver cfg n.oid o fun X => (cs.map fun c : Pdf L => f c.node.oid X).prod)) := by
          rw [Machine.normalize.eq_def]
          dsimp only
          rw [hk]
          dsimp only
          rw [hov, if_pos rfl]
          exact hown
        refine ⟨_, _, _, _, hr, h1.setNorm hn n.oid ho
          (1 / gridOver cfg n.oid o fun X => (cs.map fun c : Pdf L => f c.node.oid X).prod), ?_, ?_, ?_,
          fun hb => absurd hb hnb⟩
        · intro p hp'
          rw [upd_other _ _ _ _ (by rintro rfl; exact hp' (by rw [oids_mk]; simp))]
          exact if_neg hp'
        · show 0 < upd _ n.oid _ n.oid ∧ upd _ n.oid _ n.oid = _
          rw [hself]
          refine ⟨one_div_pos.2 hp, ?_⟩
          unfold ownIntegral
          dsimp only
          rw [hk, hob]
          simp only [hj.2, if_true]
        · intro x e _ he
          refine ⟨_, denote_joint hk o hbas (fun c hc' => ?_) e (x o) (he o hos), ?_⟩
          · rw [upd_other _ _ _ _ (hneq c hc')]
            exact hone c hc'
          · show _ * upd _ n.oid _ n.oid = _
            rw [hself, density.eq_def]
            simp only [hk]
            rw [hob]
            dsimp only
            rw [if_pos hj.2]
            exact mul_one_div _ _
      · rw [if_neg hj] at h3
        obtain ⟨rs, ν1, δ1, s1, e1, h1, g1, g2, _⟩ :=
          normalizeAll_sound hn ht hidx fuel hfuel cs ν δ s h3.2 hnd.2 hcs h
        have hov : varOverlaps (cs.map fun c => (c.getObservables, cfg.flags.separate c.node.oid)) = false := by
          apply varOverlaps_disjoint
          rw [List.map_map]
          exact h3.1.imp (fun hd o h1 h2 => hd h1 h2)
        refine ⟨1, _, δ1, s1.setNorm n.oid 1, ?_, h1.setNorm hn n.oid ho 1, hset ν1 _ g1, ?_, ?_,
          fun hb => absurd hb hnb⟩
        · rw [Machine.normalize.eq_def]
          dsimp only
          rw [hk]
          dsimp only
          rw [hov, if_neg (by simp), e1]
          rfl
        · show 0 < upd ν1 n.oid _ n.oid ∧ upd ν1 n.oid _ n.oid = _
          rw [hself]
          refine ⟨one_pos, ?_⟩
          unfold ownIntegral
          dsimp only
          rw [hk]
          cases hob : n.obs with
          | nil => exact (div_one 1).symm
          | cons o l =>
            cases l with
            | nil =>
              rw [hob] at hj
              dsimp only
              rw [if_neg (fun h => hj ⟨rfl, h⟩), div_one]
            | cons p l => exact (div_one 1).symm
        · exact gives_prod hk hj (hself _ _) (hgive ν1 1 g2)
    · rename_i hk
      have hnb : ¬ IsBasic (Pdf.mk n cs) := by
        rintro ⟨k, hk'⟩
        rw [show n.fn = _ from hk'] at hk
        exact absurd hk (by simp)
      obtain ⟨_, _, hne, hl, hos, hsl⟩ := hs
      obtain ⟨rs, ν1, δ1, s1, e1, h1, g1, g2, _⟩ :=
        normalizeAll_sound hn ht hidx fuel hfuel cs ν δ s hsl hnd.2 hcs h
      refine ⟨1, _, δ1, s1.setNorm n.oid 1, ?_, h1.setNorm hn n.oid ho 1, hset ν1 _ g1, ?_, ?_,
        fun hb => absurd hb hnb⟩
      · rw [Machine.normalize.eq_def]
        dsimp only
        rw [hk]
        dsimp only
        rw [e1]
        rfl
      · show 0 < upd ν1 n.oid _ n.oid ∧ upd ν1 n.oid _ n.oid = _
        rw [hself]
        refine ⟨one_pos, ?_⟩
        unfold ownIntegral
        dsimp only
        rw [hk]
        simp
      · exact gives_evtAdd hk hne hl hos (hself _ _) (hgive ν1 1 g2)
    · rename_i hk
      have hnb : ¬ IsBasic (Pdf.mk n cs) := by
        rintro ⟨k, hk'⟩
        rw [show n.fn = _ from hk'] at hk
        exact absurd hk (by simp)
      obtain ⟨_, _, _, hos, hsl⟩ := hs
      obtain ⟨rs, ν1, δ1, s1, e1, h1, g1, g2, _⟩ :=
        normalizeAll_sound hn ht hidx fuel hfuel cs ν δ s hsl hnd.2 hcs h
      refine ⟨1, _, δ1, s1.setNorm n.oid 1, ?_, h1.setNorm hn n.oid ho 1, hset ν1 _ g1, ?_, ?_,
        fun hb => absurd hb hnb⟩
      · rw [Machine.normalize.eq_def]
        dsimp only
        rw [hk]
        dsimp only
        rw [e1]
        rfl
      · show 0 < upd ν1 n.oid _ n.oid ∧ upd ν1 n.oid _ n.oid = _
        rw [hself]
        refine ⟨one_pos, ?_⟩
        unfold ownIntegral
        dsimp only
        rw [hk]
        simp
      · exact gives_evtAddExt hk hos (hself _ _) (hgive ν1 1 g2)
    · rename_i hk
      have hnb : ¬ IsBasic (Pdf.mk n cs) := by
        rintro ⟨k, hk'⟩
        rw [show n.fn = _ from hk'] at hk
        exact absurd hk (by simp)
      cases cs with
      | nil => exact absurd hs (by simp)
      | cons mf ts =>
        obtain ⟨_, ⟨k, o, hk', _, hb⟩, hsl⟩ := hs
        have hnd' := hnd.2
        rw [oidsL_cons, List.nodup_append] at hnd'
        obtain ⟨rs, ν1, δ1, s1, e1, h1, g1, g2, _⟩ :=
          normalizeAll_sound hn ht hidx fuel hfuel ts ν δ s hsl hnd'.2.1
            (fun w hw => hcs w (by rw [subtreesList, List.mem_append]; exact Or.inr hw)) h
        refine ⟨rs.sum, _, δ1, s1.setNorm n.oid 1, ?_, h1.setNorm hn n.oid ho 1, hset ν1 _ ?_, ?_, ?_,
          fun hb => absurd hb hnb⟩
        · rw [Machine.normalize.eq_def]
          dsimp only
          rw [hk]
          dsimp only
          rw [e1]
          rfl
        · intro o ho'
          rw [oidsL_cons, List.mem_append, not_or] at ho'
          exact g1 o ho'.2
        · show 0 < upd ν1 n.oid _ n.oid ∧ upd ν1 n.oid _ n.oid = _
          rw [hself]
          refine ⟨one_pos, ?_⟩
          unfold ownIntegral
          dsimp only
          rw [hk]
          simp
        · refine gives_mapped hk hk' hb (hself _ _) ?_
          intro c hc
          refine (g2 c hc).congr (fun o ho => upd_other _ _ _ _ ?_)
          rintro rfl
          apply hnd.1
          rw [oidsL_flatMap, List.mem_flatMap]
          exact ⟨c, by simp [hc], ho⟩
    · rename_i hk
      have hnb : ¬ IsBasic (Pdf.mk n cs) := by
        rintro ⟨k, hk'⟩
        rw [show n.fn = _ from hk'] at hk
        exact absurd hk (by simp)
      obtain ⟨⟨o, core, shell, hob, rfl, hco, hso, ⟨k, hk1⟩, ⟨k', hk2⟩, hg, hp⟩, hsl⟩ := hs
      have hbasic : ∀ c ∈ [core, shell], ∀ k, c.node.fn = .leaf k → c.node.obs = [o] →
          SumProduct cfg sem val idx f os c → BasicOK sem val idx f os k c.node o := by
        intro c _ k hk ho hc
        obtain ⟨n', cs'⟩ := c
        have hk' : n'.fn = .leaf k := hk
        rw [SumProduct.eq_def] at hc
        simp only [hk'] at hc
        obtain ⟨_, o', hb, _⟩ := hc
        have : [o'] = [o] := by rw [← hb.1]; exact ho
        simp only [List.cons.injEq, and_true] at this
        rw [this] at hb
        exact hb
      have hsl' := hsl
      simp only [SumProducts, and_true] at hsl'
      have hb1 := hbasic core (by simp) k hk1 hco hsl'.1
      have hb2 := hbasic shell (by simp) k' hk2 hso hsl'.2
      have hos : o ∈ os := hb1.2.1
      have h0 := h.recursiveSet hn (.mk n [core, shell]) (oids_sub hu) 1
      obtain ⟨rs, ν1, δ1, s1, e1, h1, g1, g2, g3⟩ :=
        normalizeAll_sound hn ht hidx fuel hfuel [core, shell] _ _ _ hsl hnd.2 hcs h0
      have hgr := h1.grid ht (.mk n [core, shell]) hut o hob (hidx o hos) fuel
        (Nat.le_trans (size_of_mem t _ hut) hfuel) hg (fun X => f shell.node.oid (f core.node.oid X))
        (fun X => denote_composite hk hk1 hb1 hk2 hb2 (hidx o hos) _ X (at_onlyAt _ (hidx o hos).1 X)) hp
      have hown := normalizeOwn_grid cfg fuel n s1
        (fun k hc => by rw [hk] at hc; exact absurd hc (by simp)) _ _ hgr
      refine ⟨gridOver cfg n.oid o fun X => f shell.node.oid (f core.node.oid X), _, δ1, _, ?_, h1.setNorm hn n.oid ho
        (1 / gridOver cfg n.oid o fun X => f shell.node.oid (f core.node.oid X)), ?_, ?_, ?_,
        fun hb => absurd hb hnb⟩
      · rw [Machine.normalize.eq_def]
        dsimp only
        rw [hk]
        dsimp only
        rw [e1]
        exact hown
      · intro p hp'
        rw [oids_mk, List.mem_cons, not_or] at hp'
        rw [upd_other _ _ _ _ hp'.1, g1 p hp'.2]
        exact if_neg (by rw [oids_mk, List.mem_cons, not_or]; exact hp')
      · show 0 < upd _ n.oid _ n.oid ∧ upd _ n.oid _ n.oid = _
        rw [hself]
        refine ⟨one_div_pos.2 hp, ?_⟩
        unfold ownIntegral
        dsimp only
        rw [hk, hob]
      · intro x e _ he
        refine ⟨_, denote_composite hk hk1 hb1 hk2 hb2 (hidx o hos) e (x o) (he o hos), ?_⟩
        show _ * upd _ n.oid _ n.oid = _
        rw [hself, density.eq_def]
        simp only [hk, hob]
        exact mul_one_div _ _
    · exact absurd hs (by simp)
theorem normalizeAll_sound (hn : t.oids.Nodup) (ht : SumProduct cfg sem val idx f os t)
    (hidx : ∀ o ∈ os, 0 ≤ idx o ∧ idx o < 10) (fuel : Nat) (hfuel : t.size ≤ fuel) :
    ∀ (us : List (Pdf L)) (ν δ : Nat → K) (s : Machine L), SumProducts cfg sem val idx f os us →
      (Pdf.oidsL us).Nodup → (∀ w ∈ subtreesList us, w ∈ subtrees t) → Holds ⟨val, idx⟩ t m ν δ s →
      ∃ rs ν' δ' s', s.normalizeAll cfg val fuel us = .done (rs, s') ∧ Holds ⟨val, idx⟩ t m ν' δ' s' ∧
        (∀ o, o ∉ Pdf.oidsL us → ν' o = ν o) ∧ (∀ u ∈ us, Gives cfg sem val idx f os ν' u) ∧
        List.Forall₂ (fun (u : Pdf L) r => IsBasic u → r = ownIntegral cfg val f u) us rs
  | [], ν, δ, s, _, _, _, h => ⟨[], ν, δ, s, rfl, h, fun _ _ => rfl, fun u hu => absurd hu (by simp), .nil⟩
  | c :: cs, ν, δ, s, hs, hnd, hu, h => by
    rw [SumProducts] at hs
    rw [oidsL_cons, List.nodup_append] at hnd
    obtain ⟨r, ν1, δ1, s1, e1, h1, g1, _, k1, q1⟩ := normalize_sound hn ht hidx fuel hfuel c ν δ s hs.1 hnd.1
      (fun w hw => hu w (by rw [subtreesList, List.mem_append]; exact Or.inl hw)) h
    obtain ⟨rs, ν2, δ2, s2, e2, h2, g2, k2, q2⟩ := normalizeAll_sound hn ht hidx fuel hfuel cs ν1 δ1 s1 hs.2
      hnd.2.1 (fun w hw => hu w (by rw [subtreesList, List.mem_append]; exact Or.inr hw)) h1
    refine ⟨r :: rs, ν2, δ2, s2, ?_, h2, ?_, ?_, .cons q1 q2⟩
    · rw [Machine.normalizeAll, e1]
      show (s1.normalizeAll cfg val fuel cs).andThen _ = _
      rw [e2]
      rfl
    · intro o ho
      rw [oidsL_cons, List.mem_append, not_or] at ho
      rw [g2 o ho.2, g1 o ho.1]
    · intro u hu'
      rcases List.mem_cons.1 hu' with rfl | hu'
      · exact k1.congr (fun o ho => g2 o (fun hc => hnd.2.2 o ho o hc rfl))
      · exact k2 u hu'
end

end GooFit
