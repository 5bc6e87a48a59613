import Verif.Spec.Mix3
import Verif.Props.Fit3
/-!
# C104: a fit of a three-body amplitude and backgrounds minimises the likelihood of the sum
-/
set_option autoImplicit false
namespace GooFit
open Spec FpOps
attribute [local instance] FpOps.ofField

/-! ### Sums over the components -/

theorem sum_range_getD : ∀ (ws qs : List ℝ), ws.length ≤ qs.length →
    ((List.range ws.length).map fun i => ws.getD i 0 * qs.getD i 0).sum = (List.zipWith (· * ·) ws qs).sum
  | [], _, _ => by simp
  | w :: ws, [], h => by simp at h
  | w :: ws, q :: qs, h => by
    have ih := sum_range_getD ws qs (by simpa using h)
    rw [List.length_cons, List.range_succ_eq_map, List.map_cons, List.map_map, List.zipWith_cons_cons, List.sum_cons,
      List.sum_cons, ← ih]
    rfl

theorem map_range_getD (ws : List ℝ) : (List.range ws.length).map (fun i => ws.getD i 0) = ws := by
  apply List.ext_getElem (by simp)
  intro k h1 h2
  simp [h2]

theorem value_getD (h : Nat → ℝ) (l : List Nat) (i : Nat) (hi : i < l.length) : h (l.getD i 0) = (l.map h).getD i 0 := by
  simp [List.getD_eq_getElem?_getD, List.getElem?_eq_getElem hi]

theorem zip_rest (ws qs : List ℝ) (c : ℝ) (hl : qs.length = ws.length + 1) :
    (List.zipWith (· * ·) (ws ++ [c]) qs).sum
      = ((List.range ws.length).map fun i => ws.getD i 0 * qs.getD i 0).sum + c * qs.getD ws.length 0 := by
  rw [← sum_range_getD _ _ (by simp [hl]), List.length_append, List.length_singleton, List.range_succ, List.map_append, List.sum_append]
  congr 1
  · congr 1
    apply List.map_congr_left
    intro i hi
    rw [List.mem_range] at hi
    rw [List.getD_eq_getElem?_getD, List.getElem?_append_left hi, ← List.getD_eq_getElem?_getD]
  · simp

theorem zip_div (c : ℝ) : ∀ ws qs : List ℝ,
    (List.zipWith (· * ·) (ws.map (· / c)) qs).sum = (List.zipWith (· * ·) ws qs).sum / c
  | [], _ => by simp
  | _ :: _, [] => by simp
  | w :: ws, q :: qs => by
    simp only [List.map_cons, List.zipWith_cons_cons, List.sum_cons, zip_div c ws qs]
    ring

theorem zip_scale (c : ℝ) : ∀ ws qs : List ℝ,
    (List.zipWith (fun a b => a * (b / c)) ws qs).sum = (List.zipWith (· * ·) ws qs).sum * c⁻¹
  | [], _ => by simp
  | _ :: _, [] => by simp
  | w :: ws, q :: qs => by
    simp only [List.zipWith_cons_cons, List.sum_cons, zip_scale c ws qs]
    ring

variable {M : Mix3}

theorem Mix3.cases (hM : M.accepted = true) :
    (M.extended = true ∧ M.weights.length = M.count) ∨ (M.extended = false ∧ M.weights.length + 1 = M.count) := by
  unfold Mix3.accepted at hM
  unfold Mix3.extended
  simp only [Bool.not_eq_true', Bool.and_eq_false_iff, bne_eq_false_iff_eq] at hM
  rcases hM with h | h
  · left; simp [h]
  · right; simp; omega

/-- What the device computes. -/
theorem mix_device (hM : M.accepted = true) (h : Nat → ℝ) (raws norms : List ℝ) (hr : raws.length = M.count)
    (hn : norms.length = M.count) :
    M.device h raws norms
      = (List.zipWith (· * ·) (shares M.count (M.weights.map h)) (List.zipWith (· * ·) raws norms)).sum := by
  set ws := M.weights.map h with hws
  have hwl : ws.length = M.weights.length := by simp [hws]
  set qs := List.zipWith (· * ·) raws norms with hqs
  have hql : qs.length = M.count := by simp [hqs, hr, hn]
  have hq : ∀ i, i < M.count → qs.getD i 0 = raws.getD i 0 * norms.getD i 0 := by
    intro i hi
    have h1 : i < raws.length := hr.symm ▸ hi
    have h2 : i < norms.length := hn.symm ▸ hi
    have h3 : i < qs.length := hql.symm ▸ hi
    rw [List.getD_eq_getElem?_getD, List.getElem?_eq_getElem h3, List.getD_eq_getElem?_getD, List.getElem?_eq_getElem h1,
      List.getD_eq_getElem?_getD, List.getElem?_eq_getElem h2]
    simp [hqs]
  have e2 : ((List.range M.weights.length).map fun i => h (M.weights.getD i 0)) = ws := by
    rw [← map_range_getD ws, hwl]
    apply List.map_congr_left
    intro i hi
    exact value_getD h _ i (List.mem_range.mp hi)
  have e1 : M.weights.length ≤ M.count → ((List.range M.weights.length).map fun i => h (M.weights.getD i 0) * raws.getD i 0 * norms.getD i 0)
      = (List.range ws.length).map fun i => ws.getD i 0 * qs.getD i 0 := by
    intro hle
    rw [hwl]
    apply List.map_congr_left
    intro i hi
    have hi' := List.mem_range.mp hi
    rw [value_getD h _ i hi', hq i (by omega), mul_assoc]
  unfold Mix3.device
  dsimp only
  rw [e2]
  rcases Mix3.cases hM with ⟨he, hl⟩ | ⟨he, hl⟩
  · rw [he, if_pos rfl, e1 hl.le, sum_range_getD _ _ (by omega)]
    unfold shares
    rw [if_pos (by omega), zip_div]
  · rw [he, if_neg (by simp), e1 (by omega)]
    unfold shares
    rw [if_neg (by omega), zip_rest _ _ _ (by omega), hwl, hq _ (by omega), mul_assoc]

/-- What the host computes. -/
theorem mix_host (hM : M.accepted = true) (h : Nat → ℝ) (rets : List ℝ) (hr : rets.length = M.count) :
    M.hostSum h rets = (List.zipWith (· * ·) (shares M.count (M.weights.map h)) rets).sum := by
  set ws := M.weights.map h with hws
  have hwl : ws.length = M.weights.length := by simp [hws]
  have hc : M.count = (M.pre.length + M.post.length) + 1 := by unfold Mix3.count; omega
  set m := M.pre.length + M.post.length with hm
  have e2 : ∀ k ≤ M.weights.length, ((List.range k).map fun i => h (M.weights.getD i 0)) = (List.range k).map fun i => ws.getD i 0 := by
    intro k hk
    apply List.map_congr_left
    intro i hi
    exact value_getD h _ i (by have := List.mem_range.mp hi; omega)
  have e1 : ∀ k ≤ M.weights.length, ((List.range k).map fun i => rets.getD i 0 * h (M.weights.getD i 0))
      = (List.range k).map fun i => ws.getD i 0 * rets.getD i 0 := by
    intro k hk
    apply List.map_congr_left
    intro i hi
    rw [value_getD h _ i (by have := List.mem_range.mp hi; omega), mul_comm]
  unfold Mix3.hostSum
  dsimp only
  rw [hr, hc, Nat.add_sub_cancel]
  rcases Mix3.cases hM with ⟨he, hl⟩ | ⟨he, hl⟩
  · rw [he, if_pos rfl, e1 m (by omega), e2 m (by omega), value_getD h _ m (by omega)]
    have s1 : ((List.range m).map fun i => ws.getD i 0 * rets.getD i 0).sum + rets.getD m 0 * ws.getD m 0
        = (List.zipWith (· * ·) ws rets).sum := by
      rw [← sum_range_getD _ _ (by omega), show ws.length = m + 1 by omega, List.range_succ, List.map_append, List.sum_append]
      simp [mul_comm]
    have s2 : ((List.range m).map fun i => ws.getD i 0).sum + ws.getD m 0 = ws.sum := by
      conv_rhs => rw [← map_range_getD ws, show ws.length = m + 1 by omega, List.range_succ, List.map_append, List.sum_append]
      simp
    rw [s1, s2]
    unfold shares
    rw [if_pos (by omega), zip_div]
  · rw [he, if_neg (by simp), e1 m (by omega), e2 m (by omega)]
    unfold shares
    rw [if_neg (by omega), zip_rest _ _ _ (by omega), show ws.length = m by omega, ← show ws.length = m by omega, map_range_getD]

/-! ### Integrals -/

theorem overGrid_add (g : NormRange ℝ) (p q : ℝ → ℝ → ℝ) :
    overGrid g (fun x y => p x y + q x y) = overGrid g p + overGrid g q := by
  unfold overGrid gridIntegral2
  simp only [add_mul, Finset.sum_add_distrib]

theorem overGrid_mul (g : NormRange ℝ) (c : ℝ) (p : ℝ → ℝ → ℝ) : overGrid g (fun x y => c * p x y) = c * overGrid g p := by
  unfold overGrid gridIntegral2
  simp only [Finset.mul_sum]
  refine Finset.sum_congr rfl fun j _ => Finset.sum_congr rfl fun i _ => by ring

theorem overGrid_mixed (g : NormRange ℝ) : ∀ (fs : List ℝ) (ps : List (ℝ → ℝ → ℝ)),
    overGrid g (mixed fs ps) = (List.zipWith (· * ·) fs (ps.map (overGrid g))).sum
  | [], _ => by simp [overGrid, gridIntegral2, mixed]
  | _ :: _, [] => by simp [overGrid, gridIntegral2, mixed]
  | f :: fs, p :: ps => by
    have : mixed (f :: fs) (p :: ps) = fun x y => (fun x y => f * p x y) x y + mixed fs ps x y := by
      funext x y
      simp [mixed]
    rw [this, overGrid_add, overGrid_mul, overGrid_mixed g fs ps]
    simp

theorem mixed_eq (fs : List ℝ) (ps : List (ℝ → ℝ → ℝ)) (x y : ℝ) :
    mixed fs ps x y = (List.zipWith (· * ·) fs (ps.map fun p => p x y)).sum := by
  unfold mixed
  rw [List.zipWith_map_right]

/-- **C104, normalisation.**  The density of a sum of functions whose integrals are not zero has integral one: with shares that add
up to one, or with a common normalisation. -/
theorem C104_normalized (g : NormRange ℝ) (common : Bool) (ws : List ℝ) (ps : List (ℝ → ℝ → ℝ))
    (hl : (ws.length = ps.length ∧ ws.sum ≠ 0) ∨ ws.length + 1 = ps.length) (hp : ∀ p ∈ ps, overGrid g p ≠ 0)
    (hc : common = true → overGrid g (mixed (shares ps.length ws) ps) ≠ 0) :
    overGrid g (sumDensity g common ws ps) = 1 := by
  have hn : ∀ p, overGrid g p ≠ 0 → overGrid g (normalized g p) = 1 := by
    intro p hp
    have : normalized g p = fun x y => (overGrid g p)⁻¹ * p x y := by
      funext x y
      unfold normalized
      rw [div_eq_mul_inv, mul_comm]
    rw [this, overGrid_mul, inv_mul_cancel₀ hp]
  unfold sumDensity
  cases common with
  | true => exact hn _ (hc rfl)
  | false =>
    rw [if_neg (by simp), overGrid_mixed]
    have hone : (ps.map (normalized g)).map (overGrid g) = List.replicate ps.length 1 := by
      rw [List.map_map, List.eq_replicate_iff]
      refine ⟨by simp, ?_⟩
      intro b hb
      obtain ⟨p, hp1, rfl⟩ := List.mem_map.mp hb
      exact hn p (hp p hp1)
    have hz : ∀ (n : Nat) (fs : List ℝ), fs.length = n → (List.zipWith (· * ·) fs (List.replicate n 1)).sum = fs.sum := by
      intro n fs h
      subst h
      congr 1
      apply List.ext_getElem (by simp)
      intro k h1 h2
      simp
    rw [hone]
    rcases hl with ⟨h1, h2⟩ | h1
    · rw [hz _ _ (by simp [shares, h1])]
      unfold shares
      rw [if_pos h1]
      simp only [div_eq_mul_inv]
      rw [List.sum_map_mul_right, List.map_id', mul_inv_cancel₀ h2]
    · rw [hz _ _ (by unfold shares; rw [if_neg (by omega)]; simp [h1])]
      unfold shares
      rw [if_neg (by omega)]
      simp

/-! ### The fit -/

section
variable {L : Lib ℝ}

private theorem sum_pos_part (p : ℝ → ℝ → ℝ) (data : List Ev3) :
    (data.map fun ev => if p ev.m12 ev.m13 * 1 > 0 then -Real.log (p ev.m12 ev.m13 * 1) else 0).sum = nllSum p data := by
  unfold nllSum
  rw [← sum_map_filter]
  congr 1
  apply List.map_congr_left
  intro ev _
  rw [mul_one]
  by_cases hc : 0 < p ev.m12 ev.m13
  · rw [if_pos hc, if_pos (by simpa using hc)]
  · rw [if_neg hc, if_neg (by simpa using hc)]

/-- The sum of the metric over the events, when the values are those of `p`. -/
private theorem mix_sum (M : Mix3) (s : Mix3State) (h : Nat → ℝ) (norms : List ℝ) (data : List Ev3) (p : ℝ → ℝ → ℝ)
    (hent : s.entries = data.length)
    (hval : ∀ (k : Nat) ev, data[k]? = some ev → M.value s h norms k = some (p ev.m12 ev.m13)) :
    ((List.range s.entries).mapM fun k => (M.value s h norms k).bind fun raw =>
      MetricKind.nll.apply Real.log s.entries raw (fun _ => none) 1).map List.sum = some (nllSum p data) := by
  rw [hent, mapM_to_map _ (fun k => match data[k]? with
    | some ev => if p ev.m12 ev.m13 * 1 > 0 then -Real.log (p ev.m12 ev.m13 * 1) else 0
    | none => 0)]
  · rw [Option.map_some, ← sum_pos_part]
    congr 2
    apply List.ext_getElem (by simp)
    intro k h1 h2
    have hk : k < data.length := by simpa using h1
    simp [List.getElem?_eq_getElem hk]
  · intro k hk
    rw [List.mem_range] at hk
    rw [hval k data[k] (List.getElem?_eq_getElem hk), List.getElem?_eq_getElem hk]
    rfl

/-- What the amplitude in a sum sees. -/
private def ampOps : List Mix3Op → List D3Op
  | [] => []
  | .setData d :: ops => .parentData d :: ampOps ops
  | .amp op :: ops => op :: ampOps ops

private theorem given (M : Mix3) (s : Mix3State) (data : List Ev3) (give : List Mix3Op) (hg : GivesSum data give) :
    GivesData data (ampOps give) ∧ ∃ a, M.amp.run s.amp (ampOps give) = some a ∧ M.run s give = some ⟨a, data.length, data.length⟩ := by
  cases hg
  · exact ⟨.parent, _, rfl, rfl⟩
  · exact ⟨.parentFirst, _, rfl, rfl⟩

/-- The data of the amplitude after it was given data and evaluated. -/
theorem data_kept (D : D3) : ∀ (evs : List ((ResObj → Bool) × (Nat → ℝ))) (s s' : D3State),
    D.run s (evs.map fun e => .eval e.1 e.2) = some s' → s'.data = s.data
  | [], s, s', h => by
    rw [← Option.some.inj h]
  | e :: evs, s, s', h => by
    rw [List.map_cons, D3.run] at h
    obtain ⟨s1, h1, h2⟩ := Option.bind_eq_some_iff.mp h
    rw [data_kept D evs s1 s' h2]
    obtain ⟨q, hq, rfl⟩ := Option.map_eq_some_iff.mp h1
    unfold D3.normalize at hq
    split_ifs at hq
    rw [← Option.some.inj hq]
    rfl

/-- The events of the amplitude after it was given data and evaluated. -/
theorem data_given (D : D3) (s s' : D3State) (data : List Ev3) (give : List D3Op) (hg : GivesData data give)
    (evs : List ((ResObj → Bool) × (Nat → ℝ))) (h : D.run s (give ++ evs.map fun e => .eval e.1 e.2) = some s') :
    s'.data = data := by
  rw [run_append3] at h
  obtain ⟨s1, h1, h2⟩ := Option.bind_eq_some_iff.mp h
  rw [data_kept D evs s1 s' h2]
  cases hg <;> (rw [← Option.some.inj h1])

/-- **C104** (what is missing: as in C93 splines, more than 16 resonances, different numbers of bins, efficiencies with parameters
and blinded parameters, and PDFs among the others that keep a state of their own; the code aborts when the sum is exactly zero).
In every fit of a sum of a three-body amplitude and other PDFs, whatever has been done before with the PDFs, the fit manager and the
variables: once the sum has been given the data and the amplitude their number, every value the minimiser gets is minus the logarithm
of the likelihood of the data under the density of the sum, each part normalised on the grid, or with a common normalisation all
together, with the shares and all other parameters at the values the minimiser has asked for; with yields it includes the term of the
total yield. -/
theorem C104_likelihood_partial (d : DalitzCtx) (hd : GoodMasses d) (table : Nat → ℝ) (rs : List (ResUse ResNew))
    (built : List (ResUse ResObj)) (hb : resBuildAll rs = some built) (hs : ∀ r ∈ rs, ¬ IsSplineRes r.res)
    (h16 : rs.length ≤ 16) (eff : (Nat → ℝ) → ℝ → ℝ → ℝ) (heff : ∀ h h', eff h = eff h')
    (pre post : List Other3) (weights : List Nat) (common : Bool)
    (leaf : ResObj → L.Leaf) (other : Other3 → L.Leaf) (efficiency : Pdf L)
    (before : List (MnOp ℝ)) (h₀ h : Pars ℝ) :
    let M : Mix3 := ⟨pre, d3Pdf d table built eff, post, weights, common⟩
    let t := M.tree leaf other efficiency
    let n := pre.length + 1 + post.length
    M.accepted = true → mnRun t h₀ before = some h → (∀ i ∈ t.getParameters, (h i).blind = 0) →
    ∀ (s : Mix3State) (_ : s.amp.grid.nb12 = s.amp.grid.nb13) (_ : 0 < s.amp.grid.nb12) (data : List Ev3) (_ : Numbered data)
      (give : List Mix3Op) (_ : GivesSum data give) (calls : List (List ℝ)),
    let at_ := fun v => valuesAt t.getParameters v fun i => (h i).value
    let p := fun v => sumDensity s.amp.grid common (weights.map (at_ v)) (summands d rs eff pre post (at_ v))
    (∀ v ∈ calls, t.getParameters.length ≤ v.length ∧ (∀ o ∈ pre ++ post, NormalizesItself s.amp.grid (at_ v) o) ∧
      Normalizable s.amp.grid (weights.map (at_ v)) (summands d rs eff pre post (at_ v)) ∧ nllSum (p v) data ≠ 0) →
    ∃ s1 h2 s2, M.run s give = some s1 ∧
      M.fcnAll t calls h s1 = .done (calls.map fun v =>
        nllSum (p v) data + yieldTerm n (weights.map (at_ v)) data.length, h2, s2) := by
  intro M t n hM hrun hblind s hbins hpos data hnum give hgive calls at_ p hcalls
  have hix : Indexed t.getParameters h := (mnRun_indexed t h₀ h before hrun).1
  obtain ⟨hgd, a1, ha1, hs1⟩ := given M s data give hgive
  have key : ∀ (calls : List (List ℝ)) (evs : List ((ResObj → Bool) × (Nat → ℝ))) (g : Pars ℝ) (a : D3State),
      (∀ v ∈ calls, t.getParameters.length ≤ v.length ∧ (∀ o ∈ pre ++ post, NormalizesItself s.amp.grid (at_ v) o) ∧
        Normalizable s.amp.grid (weights.map (at_ v)) (summands d rs eff pre post (at_ v)) ∧ nllSum (p v) data ≠ 0) →
      Indexed t.getParameters g → (∀ i ∈ t.getParameters, (g i).blind = 0) →
      (∀ i, i ∉ t.getParameters → (g i).value = (h i).value) →
      M.amp.run s.amp (ampOps give ++ evs.map fun e => .eval e.1 e.2) = some a → MarksFrom3 none evs →
      (∀ h0, (evs.getLast?.map (·.2)) = some h0 → ∀ i, (g i).value = h0 i) →
      ∃ h2 s2, M.fcnAll t calls g ⟨a, data.length, data.length⟩ = .done (calls.map fun v =>
        nllSum (p v) data + yieldTerm n (weights.map (at_ v)) data.length, h2, s2) := by
    intro calls
    induction calls with
    | nil => intro evs g a _ _ _ _ _ _ _; exact ⟨g, _, rfl⟩
    | cons v calls ih =>
      intro evs g a hc hgi hgb hgo hrun' hm hlast
      obtain ⟨hlen, hoth, -, hnz⟩ := hc v (by simp)
      obtain ⟨g', a', hfcn, hat, hnorm, hent, hval, hgi', hgb', hgo', evs', e2, hm', hlast'⟩ := one_state d hd table rs built hb hs
        h16 eff heff t s.amp hbins hpos data hnum (ampOps give) hgd h g evs a hgi hgb hgo hrun' hm hlast v hlen
      obtain ⟨h2, s2, hrest⟩ := ih evs' g' a' (fun w hw => hc w (by simp [hw])) hgi' hgb' hgo' e2 hm' hlast'
      refine ⟨h2, s2, ?_⟩
      have hdata : a'.data = data := data_given M.amp s.amp a' data _ hgd evs' e2
      set hv := at_ v with hhv
      have hhv' : valuesAt t.getParameters v (fun i => (h i).value) = hv := rfl
      rw [hhv'] at hat hnorm hval
      set ps := summands d rs eff pre post hv with hps
      have hpl : ps.length = n := by simp [hps, summands, n]; omega
      have hcount : M.count = n := rfl
      -- what the components return
      have hrets : pre.map (fun o => o.ret (o.params.map hv)) ++ [total3 d rs eff hv s.amp.grid]
          ++ post.map (fun o => o.ret (o.params.map hv)) = ps.map (overGrid s.amp.grid) := by
        simp only [hps, summands, List.map_append, List.map_map, List.map_cons, List.map_nil]
        congr 1
        · congr 1
          apply List.map_congr_left
          intro o ho
          exact (hoth o (by simp [ho])).1
        · apply List.map_congr_left
          intro o ho
          exact (hoth o (by simp [ho])).1
      have hnorms : pre.map (fun o => o.norm (o.params.map hv)) ++ [1 / total3 d rs eff hv s.amp.grid]
          ++ post.map (fun o => o.norm (o.params.map hv)) = ps.map fun q => 1 / overGrid s.amp.grid q := by
        simp only [hps, summands, List.map_append, List.map_map, List.map_cons, List.map_nil]
        congr 1
        · congr 1
          apply List.map_congr_left
          intro o ho
          exact (hoth o (by simp [ho])).2
        · apply List.map_congr_left
          intro o ho
          exact (hoth o (by simp [ho])).2
      set norms : List ℝ := if common then List.replicate n (1 / overGrid s.amp.grid (mixed (shares n (weights.map hv)) ps))
        else ps.map fun q => 1 / overGrid s.amp.grid q with hnormsdef
      have hN : M.normalize ⟨a, data.length, data.length⟩ (marksOf g') hv = some (⟨a', data.length, data.length⟩, norms) := by
        unfold Mix3.normalize
        rw [show M.amp.normalize a (marksOf g') hv = _ from hnorm]
        rw [Option.map_some]
        dsimp only
        rw [hrets, hnorms, mix_host hM hv _ (by rw [List.length_map, hpl, hcount]), ← overGrid_mixed]
        rfl
      have hvalue : ∀ (k : Nat) ev, data[k]? = some ev →
          M.value ⟨a', data.length, data.length⟩ hv norms k = some (p v ev.m12 ev.m13) := by
        intro k ev hk
        unfold Mix3.value
        dsimp only
        rw [hdata, hk, Option.bind_some, show M.amp.value a' hv k = _ from hval k ev hk, Option.map_some]
        congr 1
        have hraws : pre.map (fun o => o.raw (o.params.map hv) ev.m12 ev.m13) ++ [density3 d rs eff hv ev.m12 ev.m13]
            ++ post.map (fun o => o.raw (o.params.map hv) ev.m12 ev.m13) = ps.map fun q => q ev.m12 ev.m13 := by
          simp only [hps, summands, List.map_append, List.map_map, List.map_cons, List.map_nil]
          rfl
        have hnl : norms.length = n := by
          rw [hnormsdef]
          split_ifs <;> simp [hpl]
        rw [hraws, mix_device hM hv _ _ (by rw [List.length_map, hpl, hcount]) (by rw [hnl, hcount])]
        show _ = sumDensity s.amp.grid common (weights.map hv) ps ev.m12 ev.m13
        unfold sumDensity
        rw [hpl, hnormsdef]
        cases common with
        | true =>
          simp only [if_true]
          unfold normalized
          rw [mixed_eq (shares n (weights.map hv)) ps ev.m12 ev.m13]
          set c := overGrid s.amp.grid (mixed (shares n (weights.map hv)) ps)
          have : List.zipWith (· * ·) (ps.map fun q => q ev.m12 ev.m13) (List.replicate n (1 / c))
              = (ps.map fun q => q ev.m12 ev.m13).map (· / c) := by
            apply List.ext_getElem (by simp [hpl])
            intro k h1 h2
            simp [div_eq_mul_inv]
          rw [this, List.zipWith_map_right, div_eq_mul_inv, ← zip_scale]
          rfl
        | false =>
          simp only [Bool.false_eq_true, if_false]
          rw [mixed_eq, List.map_map]
          have : List.zipWith (· * ·) (ps.map fun q => q ev.m12 ev.m13) (ps.map fun q => 1 / overGrid s.amp.grid q)
              = ps.map fun q => normalized s.amp.grid q ev.m12 ev.m13 := by
            rw [List.zipWith_map, List.zipWith_self]
            apply List.map_congr_left
            intro q _
            unfold normalized
            ring
          rw [this]
          rfl
      have hsum := mix_sum M ⟨a', data.length, data.length⟩ hv norms data (p v) rfl hvalue
      have hnll : M.calculateNLL ⟨a, data.length, data.length⟩ g'
          = .done (nllSum (p v) data + yieldTerm n (weights.map hv) data.length, ⟨a', data.length, data.length⟩) := by
        unfold Mix3.calculateNLL
        rw [hat, hN]
        dsimp only
        dsimp only at hsum
        rw [hsum]
        dsimp only
        rw [if_neg hnz]
        unfold yieldTerm
        rw [List.length_map]
        rcases Mix3.cases hM with ⟨he, hl⟩ | ⟨he, hl⟩
        · have hl' : weights.length = n := hl
          rw [he, if_pos rfl, if_pos hl', hcount, ← hl']
          have : ((List.range weights.length).map fun i => (g' (weights.getD i 0)).value) = weights.map hv := by
            rw [← map_range_getD (weights.map hv), List.length_map]
            apply List.map_congr_left
            intro i hi
            rw [← value_getD hv _ i (List.mem_range.mp hi), ← hat]
          rw [show M.weights = weights from rfl, this]
        · have hl' : weights.length + 1 = n := hl
          rw [he, if_neg (by simp), if_neg (by omega), add_zero]
      unfold Mix3.fcnAll Mix3.fcn
      rw [hfcn]
      dsimp only
      rw [hnll]
      simp only [Ran.andThen, hrest, List.map_cons]
      rfl
  obtain ⟨h2, s2, hk⟩ := key calls [] h a1 hcalls hix hblind (fun _ _ => rfl) (by simpa using ha1) trivial (by simp)
  exact ⟨_, h2, s2, hs1, hk⟩

/-- **C104, parameters.**  The density of the sum depends only on the parameters the minimiser gets. -/
theorem C104_parameters (d : DalitzCtx) (table : Nat → ℝ) (rs : List (ResUse ResNew)) (built : List (ResUse ResObj))
    (hb : resBuildAll rs = some built) (hs : ∀ r ∈ rs, ¬ IsSplineRes r.res) (eff : (Nat → ℝ) → ℝ → ℝ → ℝ)
    (heff : ∀ h h', eff h = eff h') (pre post : List Other3) (weights : List Nat) (common : Bool)
    (leaf : ResObj → L.Leaf) (other : Other3 → L.Leaf) (efficiency : Pdf L) (g : NormRange ℝ) (h h' : Nat → ℝ)
    (hv : ∀ i ∈ ((⟨pre, d3Pdf d table built eff, post, weights, common⟩ : Mix3).tree leaf other efficiency).getParameters, h i = h' i) :
    sumDensity g common (weights.map h) (summands d rs eff pre post h)
      = sumDensity g common (weights.map h') (summands d rs eff pre post h') := by
  have hw : weights.map h = weights.map h' := by
    apply List.map_congr_left
    intro i hi
    apply hv
    unfold Pdf.getParameters Mix3.tree
    rw [mem_gather_own]
    exact Or.inl hi
  have ha : density3 d rs eff h = density3 d rs eff h' := by
    apply C93_parameters d table rs built hb hs eff heff leaf efficiency
    intro i hi
    apply hv
    unfold Pdf.getParameters Mix3.tree
    rw [mem_gather_own]
    refine Or.inr ⟨(d3Pdf d table built eff).tree leaf efficiency, ?_, hi⟩
    simp
  have ho : ∀ o ∈ pre ++ post, o.params.map h = o.params.map h' := by
    intro o ho
    apply List.map_congr_left
    intro i hi
    apply hv
    unfold Pdf.getParameters Mix3.tree
    rw [mem_gather_own]
    refine Or.inr ⟨.mk ⟨0, .leaf (other o), o.params, [], [0, 1], 1⟩ [], ?_, hi⟩
    rw [List.mem_append] at ho
    simp only [List.mem_append, List.mem_map, List.mem_singleton]
    rcases ho with ho | ho
    · exact Or.inl (Or.inl ⟨o, ho, rfl⟩)
    · exact Or.inr ⟨o, ho, rfl⟩
  have hp : summands d rs eff pre post h = summands d rs eff pre post h' := by
    unfold summands
    rw [ha]
    congr 1
    · congr 1
      apply List.map_congr_left
      intro o hm
      rw [ho o (by simp [hm])]
    · apply List.map_congr_left
      intro o hm
      rw [ho o (by simp [hm])]
  rw [hw, hp]

/-- **C104, violation (number of events).**  When the sum is given the data but the amplitude was never given their number, the first
evaluation reads arrays that do not exist. -/
theorem C104_violation_size (M : Mix3) (hres : M.amp.res ≠ []) (s : Mix3State) (ha : s.amp.alloc = none) (ev : Ev3)
    (data : List Ev3) (hin : M.amp.inside ev.m12 ev.m13 = true) (h : Pars ℝ) :
    ∃ s1, M.run s [.setData (ev :: data)] = some s1 ∧ M.calculateNLL s1 h = .ub := by
  refine ⟨_, rfl, ?_⟩
  unfold Mix3.calculateNLL Mix3.normalize
  cases hn : M.amp.normalize { s.amp with data := ev :: data } (marksOf h) fun i => (h i).value with
  | none => rfl
  | some q =>
    obtain ⟨a, total⟩ := q
    have h1 : a.data = ev :: data ∧ a.alloc = none := by
      unfold D3.normalize at hn
      split_ifs at hn
      have := (Prod.mk.inj (Option.some.inj hn)).1
      rw [← this]
      exact ⟨rfl, ha⟩
    rw [Option.map_some]
    dsimp only
    have hval : ∀ norms, M.value ⟨a, (ev :: data).length, (ev :: data).length⟩ (fun i => (h i).value) norms 0 = none := by
      intro norms
      unfold Mix3.value D3.value
      simp only [h1.1, List.getElem?_cons_zero, Option.bind_some, hin, Bool.not_true, Bool.false_eq_true, if_false, h1.2,
        Option.getD_none, Nat.cast_zero]
      rw [if_pos ⟨hres, Or.inr (lt_or_ge _ _)⟩]
      rfl
    rw [List.length_cons, List.range_succ_eq_map, List.mapM_cons]
    rw [List.length_cons] at hval
    simp only [hval]
    rfl

end

/-! ### Examples -/

namespace DemoMix3

/-- A constant background with one parameter. -/
noncomputable def flat : Other3 := ⟨[2], fun ps _ _ => ps.getD 0 0, fun ps => 1 / (4 * ps.getD 0 0), fun ps => 4 * ps.getD 0 0⟩

theorem over_const (c : ℝ) : overGrid Demo3.demoGrid (fun _ _ => c) = 4 * c := by
  unfold overGrid gridIntegral2 Demo3.demoGrid
  norm_num
  ring

theorem flat_normal (h : Nat → ℝ) : NormalizesItself Demo3.demoGrid h flat := by
  have := over_const (h 2)
  constructor
  · exact this.symm
  · show 1 / (4 * h 2) = 1 / overGrid Demo3.demoGrid (fun _ _ => h 2)
    rw [this]

theorem over_amp (h : Nat → ℝ) : overGrid Demo3.demoGrid (density3 Demo3.decay Demo3.rs DemoFit3.eff h) = (h 0 ^ 2 + h 1 ^ 2) * 4 :=
  DemoFit3.total_eq h

/-- The sum with fractions, at an event in the region and at one outside. -/
theorem fractions_at (h : Nat → ℝ) (ha : h 0 ^ 2 + h 1 ^ 2 ≠ 0) (hb : h 2 ≠ 0) :
    let p := sumDensity Demo3.demoGrid false [h 3] (summands Demo3.decay Demo3.rs DemoFit3.eff [] [flat] h)
    p 4 4 = 1 / 4 ∧ p 0 0 = (1 - h 3) / 4 := by
  have h4 : density3 Demo3.decay Demo3.rs DemoFit3.eff h 4 4 = h 0 ^ 2 + h 1 ^ 2 := by
    rw [DemoFit3.density_eq, Demo3.inside_centre, if_pos rfl]
  have h0 : density3 Demo3.decay Demo3.rs DemoFit3.eff h 0 0 = 0 := by
    rw [DemoFit3.density_eq, Demo3.outside_low _ _ (by norm_num)]
    rfl
  have hf : overGrid Demo3.demoGrid (flat.raw (flat.params.map h)) = 4 * h 2 := over_const (h 2)
  have hr : ∀ x y, flat.raw (flat.params.map h) x y = h 2 := fun _ _ => rfl
  constructor <;>
    simp only [sumDensity, Bool.false_eq_true, if_false, summands, List.map_nil, List.nil_append, List.map_cons,
      List.singleton_append, List.length_cons, List.length_nil, shares, mixed, List.zipWith_cons_cons, List.zipWith_nil_right,
      List.sum_cons, List.sum_nil, zero_add, add_zero, one_add_one_eq_two, OfNat.one_ne_ofNat, List.cons_append, List.append_nil,
      normalized, over_amp, hf, hr, h4, h0, zero_div, mul_zero]
  · field_simp
    ring
  · field_simp

/-- The sum with yields and a common normalisation. -/
theorem yields_at (h : Nat → ℝ) (hw : h 3 + h 4 ≠ 0) (hc : (h 3 * (h 0 ^ 2 + h 1 ^ 2) + h 4 * h 2) ≠ 0) :
    let p := sumDensity Demo3.demoGrid true [h 3, h 4] (summands Demo3.decay Demo3.rs DemoFit3.eff [] [flat] h)
    p 4 4 = 1 / 4 ∧ p 0 0 = h 4 * h 2 / (4 * (h 3 * (h 0 ^ 2 + h 1 ^ 2) + h 4 * h 2)) := by
  have h4 : density3 Demo3.decay Demo3.rs DemoFit3.eff h 4 4 = h 0 ^ 2 + h 1 ^ 2 := by
    rw [DemoFit3.density_eq, Demo3.inside_centre, if_pos rfl]
  have h0 : density3 Demo3.decay Demo3.rs DemoFit3.eff h 0 0 = 0 := by
    rw [DemoFit3.density_eq, Demo3.outside_low _ _ (by norm_num)]
    rfl
  have hf : overGrid Demo3.demoGrid (flat.raw (flat.params.map h)) = 4 * h 2 := over_const (h 2)
  have hr : ∀ x y, flat.raw (flat.params.map h) x y = h 2 := fun _ _ => rfl
  constructor <;>
    simp only [sumDensity, if_true, summands, List.map_nil, List.nil_append, List.map_cons, normalized, overGrid_mixed,
      List.singleton_append, List.length_cons, List.length_nil, shares, mixed, List.zipWith_cons_cons, List.zipWith_nil_right,
      List.sum_cons, List.sum_nil, zero_add, add_zero, over_amp, hf, hr, h4, h0, zero_div, mul_zero] <;>
    field_simp

/-- Variables with different names. -/
def vars (i : Nat) : ParVar ℝ :=
  ⟨if i = 0 then "re" else if i = 1 then "im" else if i = 2 then "bg" else if i = 3 then "f" else "n", 1, 1, 0, 0, 0, false, false, -1⟩

/-- Two events, one of them outside the decay region. -/
noncomputable def events : List Ev3 := [⟨4, 4, 0⟩, ⟨0, 0, 1⟩]

theorem events_numbered : Numbered events := by
  intro k ev h
  match k, h with
  | 0, h => simp [events] at h; subst h; norm_num
  | 1, h => simp [events] at h; subst h; norm_num

end DemoMix3
open DemoMix3

/-- A signal fraction and a constant background: two events, one of which only the background explains; two calls. -/
example (L : Lib ℝ) (l : L.Leaf) (s : Mix3State) (hg : s.amp.grid = Demo3.demoGrid) :
    let M : Mix3 := ⟨[], d3Pdf Demo3.decay (fun _ => 0) Demo3.built DemoFit3.eff, [flat], [3], false⟩
    let t := M.tree (L := L) (fun _ => l) (fun _ => l) (.mk ⟨9, .leaf l, [], [], [], 1⟩ [])
    ∃ h, mnRun t vars [] = some h ∧ ∃ s1 h2 s2, M.run s [.setData events, .amp (.setDataSize 2)] = some s1 ∧
      M.fcnAll t [[1 / 2, 1, 0, 1], [1 / 4, 2, 3, 7]] h s1
        = .done ([-Real.log (1 / 4) + -Real.log (1 / 8), -Real.log (1 / 4) + -Real.log (3 / 16)], h2, s2) := by
  intro M t
  have hp : t.getParameters = [3, 0, 1, 2] := rfl
  obtain ⟨h, hh, hb⟩ : ∃ h, mnRun t vars [] = some h ∧ ∀ i, (h i).blind = 0 := by
    refine ⟨_, rfl, ?_⟩
    intro i
    match i with
    | 0 => rfl
    | 1 => rfl
    | 2 => rfl
    | 3 => rfl
    | _ + 4 => rfl
  refine ⟨h, hh, ?_⟩
  have hnll : ∀ g : Nat → ℝ, g 0 ^ 2 + g 1 ^ 2 ≠ 0 → g 2 ≠ 0 → g 3 < 1 →
      nllSum (sumDensity s.amp.grid false ([3].map g) (summands Demo3.decay Demo3.rs DemoFit3.eff [] [flat] g)) events
        = -Real.log (1 / 4) + -Real.log ((1 - g 3) / 4) := by
    intro g h1 h2 h3
    obtain ⟨e1, e2⟩ := fractions_at g h1 h2
    unfold nllSum events
    rw [hg, List.map_cons, List.map_nil]
    have h4 : (0 : ℝ) < (1 - g 3) / 4 := by linarith
    simp only [List.filter_cons, List.filter_nil, e1, e2, h4, decide_true, if_true]
    norm_num [e1, e2]
  have hok : ∀ g : Nat → ℝ, 0 < g 0 ^ 2 + g 1 ^ 2 → 0 < g 2 → 0 < g 3 → g 3 < 1 →
      Normalizable s.amp.grid ([3].map g) (summands Demo3.decay Demo3.rs DemoFit3.eff [] [flat] g) := by
    intro g h1 h2 h3 h4
    have hf : overGrid Demo3.demoGrid (flat.raw (flat.params.map g)) = 4 * g 2 := over_const (g 2)
    rw [hg]
    refine ⟨?_, ?_, ?_⟩
    · intro q hq
      simp only [summands, List.map_nil, List.nil_append, List.map_cons, List.singleton_append, List.mem_cons, List.not_mem_nil,
        or_false] at hq
      rcases hq with rfl | rfl
      · rw [over_amp]; positivity
      · rw [hf]; positivity
    · intro e; simp [summands] at e
    · simp [overGrid_mixed, summands, shares, over_amp, hf]
      have : 0 < 1 - g 3 := by linarith
      positivity
  have hlog : ∀ x : ℝ, 0 < x → x < 1 → 0 < -Real.log x := fun x h0 h1 => neg_pos.mpr (Real.log_neg h0 h1)
  have key := C104_likelihood_partial (L := L) Demo3.decay Demo3.good (fun _ => 0) Demo3.rs Demo3.built Demo3.built_eq
    (by intro r hr; simp [Demo3.rs] at hr; subst hr; exact id) (by decide) DemoFit3.eff (fun _ _ => rfl) [] [flat] [3] false
    (fun _ => l) (fun _ => l) (.mk ⟨9, .leaf l, [], [], [], 1⟩ []) [] vars h (by decide) hh (fun i _ => hb i) s (by rw [hg]; rfl)
    (by rw [hg]; decide) events events_numbered _ .dataFirst [[1 / 2, 1, 0, 1], [1 / 4, 2, 3, 7]]
  dsimp only at key
  rw [show (Mix3.tree (L := L) ⟨[], d3Pdf Demo3.decay (fun _ => 0) Demo3.built DemoFit3.eff, [flat], [3], false⟩ (fun _ => l)
    (fun _ => l) (.mk ⟨9, .leaf l, [], [], [], 1⟩ [])).getParameters = [3, 0, 1, 2] from rfl] at key
  have v0 : ∀ a b c d : ℝ, valuesAt [3, 0, 1, 2] [a, b, c, d] (fun i => (h i).value) 0 = b := by
    intros; norm_num [valuesAt, List.idxOf_cons]
  have v1 : ∀ a b c d : ℝ, valuesAt [3, 0, 1, 2] [a, b, c, d] (fun i => (h i).value) 1 = c := by
    intros; norm_num [valuesAt, List.idxOf_cons]
  have v2 : ∀ a b c d : ℝ, valuesAt [3, 0, 1, 2] [a, b, c, d] (fun i => (h i).value) 2 = d := by
    intros; norm_num [valuesAt, List.idxOf_cons]
  have v3 : ∀ a b c d : ℝ, valuesAt [3, 0, 1, 2] [a, b, c, d] (fun i => (h i).value) 3 = a := by
    intros; norm_num [valuesAt, List.idxOf_cons]
  obtain ⟨s1, h2, s2, q1, q2⟩ := key (by
    intro v hv
    simp only [List.mem_cons, List.not_mem_nil, or_false] at hv
    rcases hv with rfl | rfl
    · refine ⟨by simp, ?_, hok _ (by rw [v0, v1]; norm_num) (by rw [v2]; norm_num) (by rw [v3]; norm_num) (by rw [v3]; norm_num), ?_⟩
      · intro o ho
        simp only [List.nil_append, List.mem_singleton] at ho
        rw [ho, hg]
        exact flat_normal _
      · rw [hnll _ (by rw [v0, v1]; norm_num) (by rw [v2]; norm_num) (by rw [v3]; norm_num), v3]
        have a := hlog (1 / 4) (by norm_num) (by norm_num)
        have b := hlog ((1 - 1 / 2) / 4) (by norm_num) (by norm_num)
        linarith
    · refine ⟨by simp, ?_, hok _ (by rw [v0, v1]; norm_num) (by rw [v2]; norm_num) (by rw [v3]; norm_num) (by rw [v3]; norm_num), ?_⟩
      · intro o ho
        simp only [List.nil_append, List.mem_singleton] at ho
        rw [ho, hg]
        exact flat_normal _
      · rw [hnll _ (by rw [v0, v1]; norm_num) (by rw [v2]; norm_num) (by rw [v3]; norm_num), v3]
        have a := hlog (1 / 4) (by norm_num) (by norm_num)
        have b := hlog ((1 - 1 / 4) / 4) (by norm_num) (by norm_num)
        linarith)
  refine ⟨s1, h2, s2, q1, q2.trans ?_⟩
  have two : ∀ (f : List ℝ → ℝ) (a b : List ℝ), [a, b].map f = [f a, f b] := fun _ _ _ => rfl
  rw [two]
  rw [hnll _ (by rw [v0, v1]; norm_num) (by rw [v2]; norm_num) (by rw [v3]; norm_num), v3,
    hnll _ (by rw [v0, v1]; norm_num) (by rw [v2]; norm_num) (by rw [v3]; norm_num), v3]
  norm_num [yieldTerm]

/-- Yields and a common normalisation: the density of the sum is normalised. -/
example (h : Nat → ℝ) (h2 : 0 < h 2) (h3 : 0 < h 3) (h4 : 0 < h 4) (ha : 0 < h 0 ^ 2 + h 1 ^ 2) :
    overGrid Demo3.demoGrid (sumDensity Demo3.demoGrid true [h 3, h 4]
      (summands Demo3.decay Demo3.rs DemoFit3.eff [] [flat] h)) = 1 := by
  have hf : overGrid Demo3.demoGrid (flat.raw (flat.params.map h)) = 4 * h 2 := over_const (h 2)
  refine C104_normalized _ _ _ _ (Or.inl ⟨rfl, ?_⟩) ?_ ?_
  · simp only [List.sum_cons, List.sum_nil]
    positivity
  · intro q hq
    simp only [summands, List.map_nil, List.nil_append, List.map_cons, List.singleton_append, List.mem_cons, List.not_mem_nil,
      or_false] at hq
    rcases hq with rfl | rfl
    · rw [over_amp]; positivity
    · rw [hf]; positivity
  · intro _
    simp only [overGrid_mixed, summands, shares, List.map_nil, List.nil_append, List.map_cons, List.singleton_append, over_amp, hf,
      List.length_cons, List.length_nil, if_true, List.zipWith_cons_cons, List.zipWith_nil_right, List.sum_cons, List.sum_nil]
    positivity

/-- The parameters of the sum with a fraction are the coefficients, that of the background and the fraction. -/
example (L : Lib ℝ) (l : L.Leaf) (h h' : Nat → ℝ) (hv : ∀ i ∈ [0, 1, 2, 3], h i = h' i) :
    sumDensity Demo3.demoGrid false [h 3] (summands Demo3.decay Demo3.rs DemoFit3.eff [] [flat] h)
      = sumDensity Demo3.demoGrid false [h' 3] (summands Demo3.decay Demo3.rs DemoFit3.eff [] [flat] h') := by
  refine C104_parameters (L := L) Demo3.decay (fun _ => 0) Demo3.rs Demo3.built Demo3.built_eq
    (by intro r hr; simp [Demo3.rs] at hr; subst hr; exact id) DemoFit3.eff (fun _ _ => rfl) [] [flat] [3] false
    (fun _ => l) (fun _ => l) (.mk ⟨9, .leaf l, [], [], [], 1⟩ []) Demo3.demoGrid h h' ?_
  intro i hi
  have : i ∈ [3, 0, 1, 2] := hi
  apply hv
  simp only [List.mem_cons, List.not_mem_nil, or_false] at this ⊢
  omega

/-- The data are given to the sum only. -/
example (s : Mix3State) (hs : s.amp.alloc = none) (h : Pars ℝ) :
    let M : Mix3 := ⟨[], Demo3.pdf, [flat], [3], false⟩
    ∃ s1, M.run s [.setData events] = some s1 ∧ M.calculateNLL s1 h = .ub :=
  C104_violation_size ⟨[], Demo3.pdf, [flat], [3], false⟩ (by intro h; cases h) s hs ⟨4, 4, 0⟩ [⟨0, 0, 1⟩] Demo3.inside_centre h

end GooFit
