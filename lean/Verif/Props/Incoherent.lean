import Verif.Model.Incoherent
import Verif.Spec.Incoherent
import Verif.Props.Amp3Body
/-!
# C66: the incoherent sum of resonances
-/
set_option autoImplicit false
namespace GooFit
open FpOps Spec

section
variable {F : Type} [FpOps F] {L : Lib F}

theorem incoherentLoop_works {B : Bufs F} {pc : Cursor} {cache : F} {num : Int} :
    ∀ (ss : List F) (i : Nat) (ws : List (F × F)) (ret : F),
      (∀ k : Nat, k < ss.length → pc.getParameter B (i + k) = ss[k]?) →
      (List.range ss.length).map (fun j => L.wave (i + j) cache num) = ws.map some →
      incoherentLoop L B pc cache num ss.length i ret =
        some ((ss.zip ws).foldl (fun t p => add t (mul p.1 (add (mul p.2.1 p.2.1) (mul p.2.2 p.2.2)))) ret)
  | [], i, ws, ret, _, _ => by simp [incoherentLoop]
  | s :: ss, i, [], ret, _, hw => by simp at hw
  | s :: ss, i, w :: ws, ret, hp, hw => by
    have h0 := hp 0 (by simp)
    simp only [Nat.add_zero, List.getElem?_cons_zero] at h0
    rw [List.length_cons, List.range_succ_eq_map, List.map_cons, List.map_cons, List.cons.injEq, Nat.add_zero] at hw
    rw [List.length_cons]
    simp only [incoherentLoop]
    rw [h0, hw.1]
    simp only [Option.bind_eq_bind, Option.bind_some]
    rw [incoherentLoop_works ss (i + 1) ws _ (by
      intro k hk
      have := hp (k + 1) (by simp; omega)
      rw [show i + 1 + k = i + (k + 1) by omega, this]; simp) (by
      rw [← hw.2, List.map_map]
      apply List.map_congr_left
      intro j _
      simp only [Function.comp]
      congr 1; omega)]
    simp

theorem sizeList_of_leaves (l : List (Pdf L)) (h : ∀ r ∈ l, r.comps = []) : Pdf.sizeList l = l.length := by
  induction l with
  | nil => rfl
  | cons a l ih =>
    have ha := h a (by simp)
    cases a with
    | mk na ca =>
      have : ca = [] := ha
      subst this
      simp [Pdf.sizeList, Pdf.size, ih (fun r hr => h r (by simp [hr]))]; omega

theorem flatMap_len_ge {α β : Type} (g : α → List β) (hg : ∀ a, 1 ≤ (g a).length) (l : List α) :
    l.length ≤ (l.flatMap g).length := by
  induction l with
  | nil => simp
  | cons a l ih => have := hg a; rw [List.flatMap_cons, List.length_append, List.length_cons]; omega

/-- There are at least as many stored numbers as PDFs. -/
theorem stored_length (env : Env F) (cs : List (Pdf L)) : cs.length ≤ (stored env cs).length := by
  have h1 : cs.length ≤ (subtreesList cs).length := by
    rw [subtreesList_length]
    induction cs with
    | nil => simp
    | cons a cs ih => cases a; simp [Pdf.sizeList, Pdf.size]; omega
  refine Nat.le_trans h1 ?_
  unfold stored
  refine Nat.le_trans ?_ (flatMap_len_ge _ ?_ _)
  · simp
  · intro n; simp

/-- **C66, value as computed.**  Stored after anything and before anything in the arrays, an incoherent sum of `res` with any
efficiency tree evaluates to `(Σ xᵢ |Bᵢ|²) ε`, where the `xᵢ` are the first numbers stored for the parameters of its
components, and the cursor is left after all its PDFs.  Missing: the `xᵢ` are not the squares of the amplitudes
(`C66_violation_amplitudes`, `C66_violation_linear`). -/
theorem C66_value_partial (sem : LeafSem F L) (env : Env F) (oid : Nat) (fn : Fn L) (m12 m13 num : Nat)
    (res : List (Pdf L)) (eff : Pdf L) (cache norm : F) (h₀ : Host L) (suffix : List (Fn L))
    (hres : ∀ r ∈ res, r.comps = []) (hx : Exact F res.length)
    (hsto : Storable F 0 6 [env.idx m12, env.idx m13, env.idx num])
    (hwf : WellFormedList sem env (res ++ [eff]))
    (e : Evt F) (fuel : Nat) (hfuel : eff.size ≤ fuel)
    (evtNum : F) (hnum : at_ e (env.idx num) = some evtNum)
    (ws : List (F × F)) (hws : (List.range res.length).map (fun j => L.wave j cache (nearest evtNum)) = ws.map some)
    (ε : F) (hε : denote sem env eff e = some ε) :
    let t := Pdf.mk (incoherentNode oid fn m12 m13 num res.length cache norm) (res ++ [eff])
    let h := Host.populate env t h₀
    ∃ c, deviceIncoherent L (callFunction L h.bufs (h.table ++ suffix) fuel) h.bufs
        ⟨h₀.table.length, h₀.bufs.par.length, h₀.bufs.con.length, h₀.bufs.obs.length, h₀.bufs.nrm.length⟩ e
      = some (mul (incoherent ((stored env (res ++ [eff])).take res.length) ws) ε, c) ∧
      c.fn = h₀.table.length + (nodes t).length := by
  intro t h
  have hat := treeAt_populate (env := env) t h₀ suffix
  have hpar := (populate_eq (env := env) t h₀).1
  generalize hcd : (⟨h₀.table.length, h₀.bufs.par.length, h₀.bufs.con.length, h₀.bufs.obs.length, h₀.bufs.nrm.length⟩ : Cursor) = c at hat ⊢
  have hcp : c.par = h₀.bufs.par.length := by rw [← hcd]
  have hcf : c.fn = h₀.table.length := by rw [← hcd]
  have hstored : ∀ i : Nat, h.bufs.par[c.par + i + 1]? = (stored env (res ++ [eff]))[i]? := by
    intro i
    have hfl : t.flat (parOf env) = (ofNat 0 : F) :: stored env (res ++ [eff]) := by
      rw [flat_eq_nodes (parOf env) t.size t (Nat.le_refl _)]
      rfl
    show (Host.populate env t h₀).bufs.par[c.par + i + 1]? = _
    rw [hpar, hcp]
    show (h₀.bufs.par ++ t.flat (parOf env))[_]? = _
    rw [hfl, List.getElem?_append_right (by omega), show h₀.bufs.par.length + i + 1 - h₀.bufs.par.length = i + 1 by omega,
      List.getElem?_cons_succ]
  rw [TreeAt] at hat
  obtain ⟨hn, ht⟩ := hat
  rw [TreesAt.append_iff, TreesAt] at ht
  have hwl := (wellFormedList_iff (sem := sem) (env := env) (res ++ [eff])).1 hwf
  have hskip := TreesAt.skip (sem := sem) res _ ht.1 ((wellFormedList_iff _).2 fun t' h' => hwl t' (by simp [h']))
  rw [sizeList_of_leaves res hres] at hskip
  have hskip' : Cursor.skip h.bufs res.length (c.advN (incoherentNode oid fn m12 m13 num res.length cache norm)) = _ := hskip
  have hnext : c.next h.bufs = some (c.advN (incoherentNode oid fn m12 m13 num res.length cache norm)) :=
    hn.next (n := incoherentNode oid fn m12 m13 num res.length cache norm) hsto
  have hcall : callFunction L h.bufs (h.table ++ suffix) fuel
      ((c.advN (incoherentNode oid fn m12 m13 num res.length cache norm)).advL res) e = _ := callFunction_works fuel eff hfuel (hwl eff (by simp)) _ e ε ht.2.1 hε
  have g1 : c.getObservable h.bufs 2 = some (ofInt (env.idx num)) := by
    rw [hn.obs_get 2 (by simp [incoherentNode])]; rfl
  have g2 : countAt h.bufs.con (c.con + 5) = some res.length := by
    have hc := hn.con
    have h5 := hc 5 (by simp [conOf, incoherentNode])
    have : h.bufs.con[c.con + 5]? = some (ofNat res.length) := by rw [h5]; rfl
    have hx' : toInt (ofNat res.length : F) = (res.length : Int) := hx
    simp only [countAt, this, hx']
    simp
  have g3 : c.getConstant h.bufs 5 = some cache := by
    rw [hn.con_get 5 (by simp [incoherentNode])]; rfl
  have g4 : e.read (ofInt (env.idx num) : F) = some evtNum := by
    rw [read_ofInt e _ (hsto.2.2.2.2 _ (by simp))]; exact hnum
  have hlen : ((stored env (res ++ [eff])).take res.length).length = res.length := by
    have := stored_length env (res ++ [eff])
    rw [List.length_append] at this
    rw [List.length_take]; omega
  have hloop := incoherentLoop_works (L := L) (B := h.bufs) (pc := c) (cache := cache) (num := nearest evtNum)
    ((stored env (res ++ [eff])).take res.length) 0 ws (lit 0) (by
      intro k hk
      rw [hlen] at hk
      rw [Nat.zero_add, List.getElem?_take, if_pos hk, ← hstored k]
      rfl) (by rw [hlen]; simpa using hws)
  rw [hlen] at hloop
  refine ⟨((c.advN (incoherentNode oid fn m12 m13 num res.length cache norm)).advL res).adv eff, ?_, ?_⟩
  · unfold deviceIncoherent
    simp only [g1, g2, g3, g4, hloop, hnext, hskip', hcall, Option.bind_eq_bind, Option.bind_some, Option.pure_def]
    rfl
  · rw [Cursor.adv_fn, Cursor.advL_fn, sizeList_of_leaves res hres, nodes, List.length_map, subtrees_length]
    show (c.advN _).fn + res.length + eff.size = _
    rw [← hcf]
    simp only [Cursor.advN, Cursor.incrementIndex, t, Pdf.size, sizeList_append, sizeList_of_leaves res hres, Pdf.sizeList]
    omega

/-- **C66, same numbers.**  The normalisation uses the numbers the evaluation uses. -/
theorem C66_norm_strengths (env : Env F) (oid : Nat) (fn : Fn L) (m12 m13 num : Nat)
    (res : List (Pdf L)) (eff : Pdf L) (cache norm : F) (h₀ : Host L) (i : Nat) :
    hostAmplitude (Host.populate env (Pdf.mk (incoherentNode oid fn m12 m13 num res.length cache norm) (res ++ [eff])) h₀)
        ⟨h₀.table.length, h₀.bufs.par.length, h₀.bufs.con.length, h₀.bufs.obs.length, h₀.bufs.nrm.length⟩ i
      = (stored env (res ++ [eff]))[i]? := by
  unfold hostAmplitude
  rw [(populate_eq (env := env) _ h₀).1]
  have hfl : (Pdf.mk (incoherentNode oid fn m12 m13 num res.length cache norm) (res ++ [eff])).flat (parOf env)
      = (ofNat 0 : F) :: stored env (res ++ [eff]) := by
    rw [flat_eq_nodes (parOf env) _ _ (Nat.le_refl _)]
    rfl
  show (h₀.bufs.par ++ Pdf.flat (parOf env) _)[h₀.bufs.par.length + i + 1]? = _
  rw [hfl, List.getElem?_append_right (by omega), show h₀.bufs.par.length + i + 1 - h₀.bufs.par.length = i + 1 by omega,
    List.getElem?_cons_succ]

/-- The number used for the first resonance is the number of parameters of that resonance. -/
theorem C66_first_strength (env : Env F) (n : Node L) (cs : List (Pdf L)) :
    (stored env (Pdf.mk n [] :: cs))[0]? = some (ofNat n.params.length) := by
  simp [stored, subtreesList, subtrees, Pdf.node]

end

/-! An incoherent sum of one resonance (`lin`, with one parameter of its own, variable 1) and efficiency 1·`m12`: variable 7 is
the amplitude of the resonance, `DecayInfo3::resonances[0]->amp_real`. -/

/-- All variables 2 except the amplitude. -/
def Demo.isEnv (a : ℚ) : Env ℚ := ⟨fun v => if v = 7 then a else 2, fun o => o⟩
/-- The incoherent sum. -/
def Demo.isTree : Pdf Demo.lib :=
  .mk (incoherentNode 0 .amp3 0 1 2 1 0 1) [Demo.lin 1 1 0 1, Demo.val 2 0]

/-- The first numbers stored, in this tree: the number of parameters of the resonance, then their values. -/
example (a : ℚ) : (stored (Demo.isEnv a) Demo.isTree.comps).take 2 = [ofNat 1, 2] := rfl

/-- The hypotheses of `C66_value_partial` are met, for every value of the amplitude. -/
example (a : ℚ) : WellFormedList Demo.sem (Demo.isEnv a) Demo.isTree.comps ∧
    at_ (Demo.ampEvt 3) ((Demo.isEnv a).idx 2) = some 0 ∧
    denote Demo.sem (Demo.isEnv a) (Demo.val 2 0) (Demo.ampEvt 3) = some 1 ∧
    (List.range 1).map (fun j => Demo.lib.wave j 0 0) = [(1, 0)].map some := by
  refine ⟨⟨Demo.lin_wf _ _ _ _ _, Demo.val_wf _ _ _, trivial⟩, rfl, rfl, by decide +kernel⟩

/-- **C66 (violated by the code).**  The value does not depend on the amplitude at all: whatever the amplitude is, a resonance of
value 1 and efficiency 1 give 1, the number of parameters of the resonance, instead of the square of the amplitude. -/
theorem C66_violation_amplitudes (a : ℚ) :
    (deviceIncoherent Demo.lib
      (callFunction Demo.lib (Demo.host.setIndices (Demo.isEnv a) Demo.isTree true).bufs
        (Demo.host.setIndices (Demo.isEnv a) Demo.isTree true).table 3)
      (Demo.host.setIndices (Demo.isEnv a) Demo.isTree true).bufs Cursor.zero (Demo.ampEvt 3)).map Prod.fst = some 1 ∧
    incoherentDensity (fun _ _ => true) [(a, fun _ _ => (⟨1, 0⟩ : Cx ℚ))] (fun x _ => x) 1 3 = a ^ 2 := by
  constructor
  · obtain ⟨c, h, -⟩ := C66_value_partial Demo.sem (Demo.isEnv a) 0 (Fn.amp3 (L := Demo.lib)) 0 1 2 [Demo.lin 1 1 0 1] (Demo.val 2 0)
      (0 : ℚ) 1 Demo.host.clear [.metric true] (by simp [Demo.lin, Pdf.comps]) (exact_rat _) (Demo.sto _ _ _)
      ⟨Demo.lin_wf _ _ _ _ _, Demo.val_wf _ _ _, trivial⟩ (Demo.ampEvt 3) 3 (by simp [Demo.val, Pdf.size, Pdf.sizeList]) 0 rfl
      [(1, 0)] (by decide +kernel) 1 rfl
    have h' : deviceIncoherent Demo.lib
      (callFunction Demo.lib (Demo.host.setIndices (Demo.isEnv a) Demo.isTree true).bufs
        (Demo.host.setIndices (Demo.isEnv a) Demo.isTree true).table 3)
      (Demo.host.setIndices (Demo.isEnv a) Demo.isTree true).bufs Cursor.zero (Demo.ampEvt 3) = _ := h
    rw [h']
    simp only [Option.map_some, Option.some.injEq]
    show mul (incoherent [ofNat 1] [((1 : ℚ), (0 : ℚ))]) (1 : ℚ) = 1
    decide +kernel
  · simp [incoherentDensity]

section
variable {K : Type} [Field K]

/-- **C66, exact value.**  Were the numbers read the squares of the amplitudes, the value would be the documented density. -/
theorem C66_density_partial (inside : K → K → Bool) (terms : List (K × (K → K → Cx K))) (eff : K → K → K) (x y : K) :
    incoherentValue inside (terms.map fun t => (t.1 ^ 2, t.2)) eff x y = incoherentDensity inside terms eff x y := by
  unfold incoherentValue incoherentDensity
  rw [List.map_map]
  cases inside x y with
  | true =>
    simp only [if_true]
    congr 2
    apply List.map_congr_left
    intro t _
    simp only [Function.comp, Cx.norm]
    ring
  | false =>
    simp only [Bool.false_eq_true, if_false, Function.comp_def, Cx.norm, Cx.zero_re, Cx.zero_im, mul_zero, add_zero]
    have : (terms.map fun _ => (0 : K)).sum = 0 := by
      induction terms with
      | nil => rfl
      | cons a l ih => simp [ih]
    rw [this, zero_mul]

/-- **C66 (violated by the code).**  The numbers are used as they are, not squared: with the amplitude 2 as the number read, a
resonance of value 1 gives 2 instead of 4. -/
theorem C66_violation_linear :
    incoherentValue (fun _ _ => true) [((2 : ℚ), fun _ _ => ⟨1, 0⟩)] (fun _ _ => 1) 0 0 = 2 ∧
    incoherentDensity (fun _ _ => true) [((2 : ℚ), fun _ _ => ⟨1, 0⟩)] (fun _ _ => 1) 0 0 = 4 := by
  constructor <;> norm_num [incoherentValue, incoherentDensity, Cx.norm]

theorem sumOpt_some (l : List K) : sumOpt (l.map some) = some l.sum := by
  induction l with
  | nil => rfl
  | cons a l ih => simp [sumOpt, ih]

/-- **C66, normalisation as computed.**  At the top of a tree every integral is that of the last resonance: the result is the
midpoint rule for the sum in which every resonance is replaced by the last one. -/
theorem C66_norm_exact (inside : K → K → Bool) (res : List (K → K → Cx K)) (last : K → K → Cx K) (eff : K → K → K)
    (amps : List K) (hamps : amps.length = res.length + 1) (r : NormRange K) (hpos : 0 < r.nb12)
    (table : Nat → Option (K → K → Cx K)) (htable : ∀ k, table (k + 1) = (res ++ [last])[k]?) :
    incoherentNormalize inside table eff 0 amps r
      = some (gridIntegral2 (incoherentValue inside (amps.map fun a => (a, last)) eff) r.lo12 r.hi12 r.nb12 r.lo13 r.hi13 r.nb13) := by
  have ht : table (integratedFunction 0 amps.length) = some last := by
    unfold integratedFunction
    rw [Nat.zero_max, hamps, htable]; simp
  have hi : incoherentIntegral inside table eff 0 amps.length r
      = some ((List.range (r.nb12 * r.nb13)).map fun g =>
          (if inside (r.centre g).1 (r.centre g).2 then last (r.centre g).1 (r.centre g).2 else 0).norm
            * eff (r.centre g).1 (r.centre g).2).sum := by
    unfold incoherentIntegral
    rw [← sumOpt_some, List.map_map]
    congr 1
    apply List.map_congr_left
    intro g _
    simp only [Function.comp, incoherentIntegrator, ht]
    split
    · rfl
    · simp [Cx.norm]
  unfold incoherentNormalize
  rw [hi]
  simp only [Option.map_some]
  have : (amps.map fun a => some (a * ((List.range (r.nb12 * r.nb13)).map fun g =>
          (if inside (r.centre g).1 (r.centre g).2 then last (r.centre g).1 (r.centre g).2 else 0).norm
            * eff (r.centre g).1 (r.centre g).2).sum)) = (amps.map fun a => a * ((List.range (r.nb12 * r.nb13)).map fun g =>
          (if inside (r.centre g).1 (r.centre g).2 then last (r.centre g).1 (r.centre g).2 else 0).norm
            * eff (r.centre g).1 (r.centre g).2).sum).map some := by rw [List.map_map]; rfl
  rw [this, sumOpt_some, Option.map_some]
  congr 1
  have h := sum_grid (K := K) r.nb12 r.nb13 (fun i j =>
    (if inside ((r.hi12 - r.lo12) / (r.nb12 : K) * ((i : K) + 1 / 2) + r.lo12) ((r.hi13 - r.lo13) / (r.nb13 : K) * ((j : K) + 1 / 2) + r.lo13)
      then last ((r.hi12 - r.lo12) / (r.nb12 : K) * ((i : K) + 1 / 2) + r.lo12) ((r.hi13 - r.lo13) / (r.nb13 : K) * ((j : K) + 1 / 2) + r.lo13)
      else 0).norm * eff ((r.hi12 - r.lo12) / (r.nb12 : K) * ((i : K) + 1 / 2) + r.lo12)
        ((r.hi13 - r.lo13) / (r.nb13 : K) * ((j : K) + 1 / 2) + r.lo13)) hpos
  unfold NormRange.centre
  simp only
  rw [h, List.sum_map_mul_right amps (fun a => a)]
  unfold gridIntegral2
  rw [mul_assoc, Finset.sum_mul, Finset.mul_sum]
  apply Finset.sum_congr rfl
  intro j _
  rw [Finset.sum_mul, Finset.mul_sum]
  apply Finset.sum_congr rfl
  intro i _
  have e1 : (r.hi12 - r.lo12) / (r.nb12 : K) * ((i : K) + 1 / 2) + r.lo12 = midpoint r.lo12 r.hi12 r.nb12 i := by
    unfold midpoint; ring
  have e2 : (r.hi13 - r.lo13) / (r.nb13 : K) * ((j : K) + 1 / 2) + r.lo13 = midpoint r.lo13 r.hi13 r.nb13 j := by
    unfold midpoint; ring
  rw [e1, e2]
  unfold incoherentValue NormRange.binSize12 NormRange.binSize13
  rw [List.map_map]
  simp only [Function.comp_def]
  rw [List.sum_map_mul_right amps (fun a => a)]
  ring

/-- **C66, normalisation, partial.**  With a single resonance, at the top of a tree, the normalisation is the midpoint rule for
the function evaluated.  Missing: more resonances and other places in a tree (the violations below). -/
theorem C66_norm_partial (inside : K → K → Bool) (b : K → K → Cx K) (eff : K → K → K) (a : K) (r : NormRange K)
    (hpos : 0 < r.nb12) (table : Nat → Option (K → K → Cx K)) (htable : ∀ k, table (k + 1) = [b][k]?) :
    incoherentNormalize inside table eff 0 [a] r
      = some (gridIntegral2 (incoherentValue inside [(a, b)] eff) r.lo12 r.hi12 r.nb12 r.lo13 r.hi13 r.nb13) :=
  C66_norm_exact inside [] b eff [a] rfl r hpos table htable

end

/-- The hypotheses of `C66_norm_partial` are met, with a value that is not trivial. -/
example : incoherentNormalize (fun _ _ => true) (fun k => if k = 1 then some (fun x y => ⟨x, y⟩) else none) (fun _ _ => 1) 0
    [(3 : ℚ)] ⟨0, 1, 1, 0, 2, 1⟩ = some (3 * (1 / 4 + 1) * 2) := by decide +kernel

/-- **C66 (violated by the code).**  Two resonances, constant 1 and constant 2, both of strength 1, on a unit square: the function
evaluated is 5 everywhere, the normalisation is 8. -/
theorem C66_violation_norm :
    incoherentNormalize (fun _ _ => true) (fun k => ([fun _ _ => ⟨1, 0⟩, fun _ _ => ⟨2, 0⟩] : List (ℚ → ℚ → Cx ℚ))[k - 1]?)
      (fun _ _ => 1) 0 [(1 : ℚ), 1] ⟨0, 1, 1, 0, 1, 1⟩ = some 8 ∧
    gridIntegral2 (incoherentValue (fun _ _ => true) [((1 : ℚ), fun _ _ => ⟨1, 0⟩), (1, fun _ _ => ⟨2, 0⟩)] (fun _ _ => 1))
      0 1 1 0 1 1 = 5 := by
  constructor
  · decide +kernel
  · norm_num [gridIntegral2, incoherentValue, Cx.norm]

/-- **C66 (violated by the code).**  As second component of another PDF, with the resonance stored after it, the incoherent sum
calls itself as a resonance: undefined. -/
theorem C66_violation_nested (b : ℚ → ℚ → Cx ℚ) :
    incoherentNormalize (fun _ _ => true) (fun k => if k = 3 then some b else none) (fun _ _ => 1) 2 [(1 : ℚ)]
      ⟨0, 1, 1, 0, 1, 1⟩ = none := by
  rfl

end GooFit
