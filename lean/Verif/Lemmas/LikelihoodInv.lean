import Verif.Lemmas.Likelihood
/-!
# The arrays during normalisation
-/
set_option autoImplicit false
namespace GooFit
open Spec
variable {K : Type} [Field K] [LinearOrder K] [IsStrictOrderedRing K] [FloorRing K]
attribute [local instance] FpOps.ofField
variable {L : Lib K}

theorem oids_eq_map (t : Pdf L) : t.oids = (subtrees t).map fun u => u.node.oid := by
  have h := flat_eq_nodes (fun n : Node L => [n.oid]) t.size t (Nat.le_refl _)
  rw [Pdf.oids, h, nodes]
  generalize subtrees t = l
  induction l with
  | nil => rfl
  | cons a l ih => simpa using ih

/-- the arrays hold the tree, with normalisations `ν` on the host and `δ` on the device -/
structure Holds (env : Env K) (t : Pdf L) (m : L.Metric) (ν δ : Nat → K) (s : Machine L) : Prop where
  par : s.host.bufs.par = t.flat (parOf env)
  con : s.host.bufs.con = t.flat conOf
  obs : s.host.bufs.obs = t.flat (obsOf env)
  nrm : s.host.bufs.nrm = nrmList ν t
  dev : s.dev = nrmList δ t
  table : s.host.table = t.flat fnOf ++ [.metric m]
  slots : SlotsAt s.host.slots Cursor.zero t

variable {env : Env K} {t : Pdf L} {m : L.Metric} {ν δ : Nat → K} {s : Machine L}

theorem Holds.setNorm (h : Holds env t m ν δ s) (hn : t.oids.Nodup) (o : Nat) (ho : o ∈ t.oids) (x : K) :
    Holds env t m (upd ν o x) δ (s.setNorm o x) where
  par := h.par
  con := h.con
  obs := h.obs
  nrm := by
    show s.host.bufs.nrm.set _ x = _
    rw [h.nrm]
    have := set_nrmList s.host.slots ν o x t Cursor.zero [] [] h.slots rfl hn ho
    simpa using this
  dev := h.dev
  table := h.table
  slots := h.slots

theorem Holds.sync (h : Holds env t m ν δ s) : Holds env t m ν ν s.sync where
  par := h.par
  con := h.con
  obs := h.obs
  nrm := h.nrm
  dev := h.nrm
  table := h.table
  slots := h.slots

theorem Holds.recursiveSet (h : Holds env t m ν δ s) (hn : t.oids.Nodup) (u : Pdf L)
    (hu : ∀ o ∈ u.oids, o ∈ t.oids) (x : K) :
    Holds env t m (fun p => if p ∈ u.oids then x else ν p) (fun p => if p ∈ u.oids then x else ν p)
      (s.recursiveSet x u) := by
  refine Holds.sync (δ := δ) ⟨h.par, h.con, h.obs, ?_, h.dev, h.table, h.slots⟩
  show setNormalizations x s.host.slots u s.host.bufs.nrm = _
  rw [setNormalizations_foldl, h.nrm, set_many s.host.slots t h.slots hn x u.oids ν hu]

theorem Holds.update (h : Holds env t m ν δ s) (env' : Env K) (hidx : env'.idx = env.idx) :
    Holds env' t m ν δ (s.updateParameters env' t) where
  par := by
    show GooFit.updateParameters env' s.host.slots t s.host.bufs.par = _
    rw [h.par]
    have := updateParameters_eq env env' s.host.slots t.size t (Nat.le_refl _) Cursor.zero [] [] h.slots rfl
    simpa using this
  con := h.con
  obs := by
    show s.host.bufs.obs = _
    rw [h.obs]
    have : (obsOf env : Node L → List K) = obsOf env' := by
      funext n; unfold obsOf; rw [hidx]
    rw [this]
  nrm := h.nrm
  dev := h.dev
  table := h.table
  slots := h.slots

theorem Holds.start (env : Env K) (t : Pdf L) (m : L.Metric) (h₀ : Host L) (hn : t.oids.Nodup) :
    ∃ ν, Holds env t m ν ν ⟨h₀.setIndices env t m, (h₀.setIndices env t m).bufs.nrm⟩ := by
  obtain ⟨ν, hν⟩ := mapNorm_self t hn
  obtain ⟨h1, h2⟩ := populate_eq (env := env) t h₀.clear
  have hs := populate_slotsAt env t h₀.clear hn
  have hb : (h₀.setIndices env t m).bufs = _ := h1
  have e : nrmList ν t = t.flat nrmOf := by unfold nrmList; rw [hν]
  refine ⟨ν, ⟨?_, ?_, ?_, ?_, ?_, table_setIndices t m h₀, hs⟩⟩
  all_goals first | (show (h₀.setIndices env t m).bufs.nrm = _; rw [e, hb]; rfl) | (rw [hb]; rfl)

/-- what a kernel sees -/
theorem Holds.device (h : Holds env t m ν δ s) (h₀ : Host L) :
    s.onDevice.bufs = (h₀.setIndices env (t.mapNorm δ) m).bufs ∧
    s.onDevice.table = (h₀.setIndices env (t.mapNorm δ) m).table := by
  obtain ⟨h1, h2⟩ := populate_eq (env := env) (t.mapNorm δ) h₀.clear
  have hb : (h₀.setIndices env (t.mapNorm δ) m).bufs = _ := h1
  constructor
  · rw [hb, flat_mapNorm δ (parOf env) (fun _ _ => rfl), flat_mapNorm δ conOf (fun _ _ => rfl),
      flat_mapNorm δ (obsOf env) (fun _ _ => rfl)]
    show (⟨s.host.bufs.par, s.host.bufs.con, s.host.bufs.obs, s.dev⟩ : Bufs K) = _
    rw [h.par, h.con, h.obs, h.dev]
    rfl
  · rw [table_setIndices, flat_mapNorm δ fnOf (fun _ _ => rfl)]
    exact h.table

theorem Holds.gridOperator (h : Holds env t m ν δ s) (h₀ : Host L) (fuel k : Nat) (rs : List (Range K)) :
    GooFit.gridOperator L s.onDevice fuel k rs =
      GooFit.gridOperator L (h₀.setIndices env (t.mapNorm δ) m) fuel k rs := by
  funext b
  unfold GooFit.gridOperator
  rw [(h.device h₀).1, (h.device h₀).2]

theorem Holds.treeAt (h : Holds env t m ν δ s) :
    TreeAt env s.host.bufs s.host.table Cursor.zero (t.mapNorm ν) := by
  have := (Holds.device (s := ⟨s.host, s.host.bufs.nrm⟩) (ν := ν) (δ := ν) (env := env) (t := t) (m := m)
    ⟨h.par, h.con, h.obs, h.nrm, h.nrm, h.table, h.slots⟩ s.host)
  have e : Machine.onDevice (⟨s.host, s.host.bufs.nrm⟩ : Machine L) = s.host := rfl
  rw [e] at this
  rw [this.1, this.2]
  exact treeAt_setIndices _ _ _

/-- reading an object's parameters -/
theorem Holds.params (h : Holds env t m ν δ s) (u : Pdf L) (hu : u ∈ subtrees t) :
    collect (fun i => (s.host.slots u.node.oid).getParameter s.host.bufs i) u.node.params.length =
      some (u.node.params.map env.val) := by
  have hs : SlotsAt s.host.slots Cursor.zero (t.mapNorm ν) := (slotsAt_mapNorm ν _ t _).2 h.slots
  have hm : u.mapNorm ν ∈ subtrees (t.mapNorm ν) := by
    rw [subtrees_mapNorm]; exact List.mem_map_of_mem hu
  have hat := slots_treeAt env _ _ s.host.slots _ _ hs h.treeAt _ hm
  have hno := hat.node
  rw [mapNorm_node] at hno
  rw [collect_eq _ (fun i => ((u.node.params.map env.val)[i]?).getD 0)]
  · congr 1
    apply List.ext_getElem (by simp)
    intro i h1 h2
    simp at h1
    simp [h1]
  · intro i hi
    have := hno.par_get i hi
    show (s.host.slots u.node.oid).getParameter s.host.bufs i = _
    rw [show (s.host.slots u.node.oid).getParameter s.host.bufs i = _ from this]
    simp [hi]

theorem Holds.norm (h : Holds env t m ν δ s) (u : Pdf L) (hu : u ∈ subtrees t) :
    s.host.bufs.nrm[(s.host.slots u.node.oid).nrm + 1]? = some (ν u.node.oid) := by
  have hs : SlotsAt s.host.slots Cursor.zero (t.mapNorm ν) := (slotsAt_mapNorm ν _ t _).2 h.slots
  have hm : u.mapNorm ν ∈ subtrees (t.mapNorm ν) := by
    rw [subtrees_mapNorm]; exact List.mem_map_of_mem hu
  have hat := slots_treeAt env _ _ s.host.slots _ _ hs h.treeAt _ hm
  have hno := hat.node
  rw [mapNorm_node] at hno
  have := hno.nrm.get_succ 0 (by simp)
  simpa using this

/-! ### Every normalisation leaves the arrays holding the tree -/

theorem Ran.andThen_done {α β : Type} {x : Ran α} {f : α → Ran β} {b : β} (h : x.andThen f = .done b) :
    ∃ a, x = .done a ∧ f a = .done b := by
  cases x with
  | done a => exact ⟨a, rfl, h⟩
  | aborted => exact absurd h (by simp [Ran.andThen])
  | ub => exact absurd h (by simp [Ran.andThen])

theorem normalizeOwn_holds (cfg : NormSetup L) (fuel : Nat) (n : Node L) (hn : t.oids.Nodup)
    (ho : n.oid ∈ t.oids) (h : Holds env t m ν δ s) (r : K) (s' : Machine L)
    (he : s.normalizeOwn cfg fuel n = .done (r, s')) : ∃ ν', Holds env t m ν' δ s' := by
  have key : ∀ x : NormResult K, (match x with
      | .ok ret norm => Ran.done (ret, s.setNorm n.oid norm)
      | .aborted => .aborted
      | .ub => .ub) = .done (r, s') → ∃ ν', Holds env t m ν' δ s' := by
    intro x hx
    cases x with
    | ok ret norm =>
      simp only [Ran.done.injEq, Prod.mk.injEq] at hx
      rw [← hx.2]
      exact ⟨_, h.setNorm hn n.oid ho norm⟩
    | aborted => exact absurd hx (by simp)
    | ub => exact absurd hx (by simp)
  unfold Machine.normalizeOwn at he
  dsimp only at he
  split at he
  · split at he
    · exact absurd he (by simp)
    · split at he
      · exact key (normalizeGrid _ _ _) he
      · exact key (normalizeAnalytic _ _) he
  · exact key (normalizeGrid _ _ _) he

theorem foldl_setNorm_holds (hn : t.oids.Nodup) (x : K) : ∀ (cs : List (Pdf L)) (ν : Nat → K) (s : Machine L),
    (∀ c ∈ cs, c.node.oid ∈ t.oids) → Holds env t m ν δ s →
      ∃ ν', Holds env t m ν' δ (cs.foldl (fun s c => s.setNorm c.node.oid x) s)
  | [], ν, s, _, h => ⟨ν, h⟩
  | c :: cs, ν, s, hc, h =>
    foldl_setNorm_holds hn x cs _ _ (fun c' h' => hc c' (by simp [h'])) (h.setNorm hn _ (hc c (by simp)) x)

theorem node_mem_subtrees (u : Pdf L) : u ∈ subtrees u := by
  cases u; simp [subtrees]

theorem mem_subtreesList {ts : List (Pdf L)} {w : Pdf L} :
    w ∈ subtreesList ts ↔ ∃ c ∈ ts, w ∈ subtrees c := by
  induction ts with
  | nil => simp [subtreesList]
  | cons c cs ih => rw [subtreesList, List.mem_append, ih]; simp

theorem comps_oid_mem {n : Node L} {cs : List (Pdf L)} (hu : ∀ w ∈ subtrees (.mk n cs), w ∈ subtrees t)
    (c : Pdf L) (hc : c ∈ cs) : c.node.oid ∈ t.oids :=
  oid_mem (hu c (by rw [subtrees, List.mem_cons]; exact Or.inr (mem_subtreesList.2 ⟨c, hc, node_mem_subtrees c⟩)))

theorem oids_sub {u : Pdf L} (hu : ∀ w ∈ subtrees u, w ∈ subtrees t) : ∀ o ∈ u.oids, o ∈ t.oids := by
  intro o ho
  rw [oids_eq_map, List.mem_map] at ho ⊢
  obtain ⟨w, hw, rfl⟩ := ho
  exact ⟨w, hu w hw, rfl⟩

mutual
theorem normalize_holds (cfg : NormSetup L) (val : Nat → K) (fuel : Nat) (hn : t.oids.Nodup) :
    ∀ (u : Pdf L) (ν δ : Nat → K) (s : Machine L) (r : K) (s' : Machine L),
      (∀ w ∈ subtrees u, w ∈ subtrees t) → Holds env t m ν δ s →
      s.normalize cfg val fuel u = .done (r, s') → ∃ ν' δ', Holds env t m ν' δ' s'
  | .mk n cs, ν, δ, s, r, s', hu, h, he => by
    have hcs : ∀ w ∈ subtreesList cs, w ∈ subtrees t :=
      fun w hw => hu w (by rw [subtrees, List.mem_cons]; exact Or.inr hw)
    have ho : n.oid ∈ t.oids := oid_mem (hu _ (node_mem_subtrees _))
    have hadd : ∀ (p : List K × Machine L) (ret : K) (ν δ : Nat → K), Holds env t m ν δ p.2 →
        Ran.done (ret, if cfg.flags.common n.oid then
          cs.foldl (fun s c => s.setNorm c.node.oid (1 / ret)) (p.2.setNorm n.oid 1)
          else p.2.setNorm n.oid 1) = .done (r, s') → ∃ ν' δ', Holds env t m ν' δ' s' := by
      intro p ret ν δ hp hx
      simp only [Ran.done.injEq, Prod.mk.injEq] at hx
      rw [← hx.2]
      have h1 := hp.setNorm hn n.oid ho 1
      split
      · obtain ⟨ν', h'⟩ := foldl_setNorm_holds hn (1 / ret) cs _ _ (comps_oid_mem hu) h1
        exact ⟨ν', δ, h'⟩
      · exact ⟨_, δ, h1⟩
    have hone : ∀ (p : List K × Machine L) (ret : K) (ν δ : Nat → K), Holds env t m ν δ p.2 →
        Ran.done (ret, p.2.setNorm n.oid 1) = .done (r, s') → ∃ ν' δ', Holds env t m ν' δ' s' := by
      intro p ret ν δ hp hx
      simp only [Ran.done.injEq, Prod.mk.injEq] at hx
      rw [← hx.2]
      exact ⟨_, δ, hp.setNorm hn n.oid ho 1⟩
    rw [Machine.normalize.eq_def] at he
    dsimp only at he
    split at he
    · obtain ⟨p, hp, he⟩ := Ran.andThen_done he
      obtain ⟨ν1, δ1, h1⟩ := normalizeAll_holds cfg val fuel hn cs ν δ s p.1 p.2 hcs h hp
      exact hadd p _ ν1 δ1 h1 he
    · obtain ⟨p, hp, he⟩ := Ran.andThen_done he
      obtain ⟨ν1, δ1, h1⟩ := normalizeAll_holds cfg val fuel hn cs ν δ s p.1 p.2 hcs h hp
      exact hadd p _ ν1 δ1 h1 he
    · split at he
      · have h1 := (h.recursiveSet hn (.mk n cs) (oids_sub hu) 1).sync
        obtain ⟨ν', h'⟩ := normalizeOwn_holds cfg fuel n hn ho h1 r s' he
        exact ⟨ν', _, h'⟩
      · obtain ⟨p, hp, he⟩ := Ran.andThen_done he
        obtain ⟨ν1, δ1, h1⟩ := normalizeAll_holds cfg val fuel hn cs ν δ s p.1 p.2 hcs h hp
        exact hone p _ ν1 δ1 h1 he
    · cases cs with
      | nil => exact absurd he (by simp)
      | cons c ts =>
        obtain ⟨p, hp, he⟩ := Ran.andThen_done he
        obtain ⟨ν1, δ1, h1⟩ := normalizeAll_holds cfg val fuel hn ts ν δ s p.1 p.2
          (fun w hw => hcs w (by rw [subtreesList, List.mem_append]; exact Or.inr hw)) h hp
        exact hone p _ ν1 δ1 h1 he
    · obtain ⟨p, hp, he⟩ := Ran.andThen_done he
      obtain ⟨ν1, δ1, h1⟩ := normalizeAll_holds cfg val fuel hn cs ν δ s p.1 p.2 hcs h hp
      exact hone p _ ν1 δ1 h1 he
    · obtain ⟨p, hp, he⟩ := Ran.andThen_done he
      obtain ⟨ν1, δ1, h1⟩ := normalizeAll_holds cfg val fuel hn cs ν δ s p.1 p.2 hcs h hp
      exact hone p _ ν1 δ1 h1 he
    · obtain ⟨ν', h'⟩ := normalizeOwn_holds cfg fuel n hn ho h r s' he
      exact ⟨ν', δ, h'⟩
    · obtain ⟨p, hp, he⟩ := Ran.andThen_done he
      obtain ⟨ν1, δ1, h1⟩ := normalizeAll_holds cfg val fuel hn cs _ _ _ p.1 p.2 hcs
        (h.recursiveSet hn (.mk n cs) (oids_sub hu) 1) hp
      obtain ⟨ν', h'⟩ := normalizeOwn_holds cfg fuel n hn ho h1 r s' he
      exact ⟨ν', _, h'⟩
    all_goals
      simp only [Ran.done.injEq, Prod.mk.injEq] at he
      rw [← he.2]
      exact ⟨ν, δ, h⟩
theorem normalizeAll_holds (cfg : NormSetup L) (val : Nat → K) (fuel : Nat) (hn : t.oids.Nodup) :
    ∀ (us : List (Pdf L)) (ν δ : Nat → K) (s : Machine L) (rs : List K) (s' : Machine L),
      (∀ w ∈ subtreesList us, w ∈ subtrees t) → Holds env t m ν δ s →
      s.normalizeAll cfg val fuel us = .done (rs, s') → ∃ ν' δ', Holds env t m ν' δ' s'
  | [], ν, δ, s, rs, s', _, h, he => by
    rw [Machine.normalizeAll] at he
    simp only [Ran.done.injEq, Prod.mk.injEq] at he
    rw [← he.2]
    exact ⟨ν, δ, h⟩
  | c :: cs, ν, δ, s, rs, s', hu, h, he => by
    rw [Machine.normalizeAll] at he
    obtain ⟨p, hp, he⟩ := Ran.andThen_done he
    obtain ⟨q, hq, he⟩ := Ran.andThen_done he
    obtain ⟨ν1, δ1, h1⟩ := normalize_holds cfg val fuel hn c ν δ s p.1 p.2
      (fun w hw => hu w (by rw [subtreesList, List.mem_append]; exact Or.inl hw)) h hp
    obtain ⟨ν2, δ2, h2⟩ := normalizeAll_holds cfg val fuel hn cs ν1 δ1 p.2 q.1 q.2
      (fun w hw => hu w (by rw [subtreesList, List.mem_append]; exact Or.inr hw)) h1 hq
    simp only [Ran.done.injEq, Prod.mk.injEq] at he
    rw [← he.2]
    exact ⟨ν2, δ2, h2⟩
end

end GooFit
