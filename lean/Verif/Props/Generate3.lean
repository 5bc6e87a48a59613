import Verif.Spec.Generate3
import Verif.Props.Dalitz3
import Verif.Props.Amp4Body
import Verif.Props.Component4
import Verif.Lemmas.Amp4Body
/-!
# C87: generated events carry the density as weights
-/
set_option autoImplicit false
namespace GooFit
open Spec

/-! ### The array -/

theorem genArray_read (ncols n : Nat) (hc : 0 < ncols) (cols : Nat → List ℝ) (k i : Nat) (hk : k < n) (hi : i < ncols) :
    genArray ncols n cols (ncols * k + i) = if i = ncols - 1 then (k : ℝ) else (cols k).getD i 0 := by
  unfold genArray
  split_ifs with hl
  · exact (writeStrided_read _ _ _ _ _ hc _).1 k hk (by omega)
  · rw [(writeStrided_read _ _ _ _ _ hc _).2]
    · have key : ∀ (m : Nat) (a : Nat → ℝ), i < m → m ≤ ncols →
          ((List.range m).foldl (fun a i => writeStrided a i ncols n fun k => (cols k).getD i 0) a) (ncols * k + i)
            = (cols k).getD i 0 := by
        intro m
        induction m with
        | zero => intro a h; omega
        | succ m ih =>
          intro a him hm
          rw [List.range_succ, List.foldl_append, List.foldl_cons, List.foldl_nil]
          by_cases e : i = m
          · subst e
            exact (writeStrided_read _ _ _ _ _ hc _).1 k hk (by omega)
          · rw [(writeStrided_read _ _ _ _ _ hc _).2]
            · exact ih a (by omega) (by omega)
            · intro e' _ h
              have h1 : (ncols * k + i) % ncols = i := by rw [Nat.mul_add_mod]; exact Nat.mod_eq_of_lt hi
              have h2 : (m + ncols * e') % ncols = m := by rw [Nat.add_mul_mod_self_left]; exact Nat.mod_eq_of_lt (by omega)
              rw [h, h2] at h1
              omega
      exact key _ _ (by omega) (by omega)
    · intro e' _ h
      have h1 : (ncols * k + i) % ncols = i := by rw [Nat.mul_add_mod]; exact Nat.mod_eq_of_lt hi
      have h2 : (ncols - 1 + ncols * e') % ncols = ncols - 1 := by
        rw [Nat.add_mul_mod_self_left]; exact Nat.mod_eq_of_lt (by omega)
      rw [h, h2] at h1
      omega

theorem mag2_pair (a b : LV ℝ) : (a + b).mag2 = pairMass2 a b := by
  show (a.e + b.e) * (a.e + b.e) - (a.x + b.x) * (a.x + b.x) - (a.y + b.y) * (a.y + b.y) - (a.z + b.z) * (a.z + b.z) = _
  unfold pairMass2
  ring

/-- The event of three numbers that belongs to a generated event. -/
noncomputable def ev3Of (g : Gen3) (k : Nat) : Ev3 := ⟨pairMass2 g.p1 g.p2, pairMass2 g.p1 g.p3, (k : ℝ)⟩

theorem generated_data (evs : List Gen3) (k : Nat) :
    (readEv3 (genArray 3 evs.length fun k =>
      [((evs.map fun g => dim2 g.p1 g.p2 g.p3).getD k []).getD 0 0, ((evs.map fun g => dim2 g.p1 g.p2 g.p3).getD k []).getD 2 0,
        ((evs.map fun g => dim2 g.p1 g.p2 g.p3).getD k []).getD 1 0]) evs.length)[k]?
      = (evs[k]?).map fun g => ev3Of g k := by
  unfold readEv3
  rw [List.getElem?_map]
  by_cases hk : k < evs.length
  · have e0 := genArray_read 3 evs.length (by omega) (fun k =>
      [((evs.map fun g => dim2 g.p1 g.p2 g.p3).getD k []).getD 0 0, ((evs.map fun g => dim2 g.p1 g.p2 g.p3).getD k []).getD 2 0,
        ((evs.map fun g => dim2 g.p1 g.p2 g.p3).getD k []).getD 1 0]) k
    have h0 := e0 0 hk (by omega)
    have h1 := e0 1 hk (by omega)
    have h2 := e0 2 hk (by omega)
    rw [List.getElem?_range hk, List.getElem?_eq_getElem hk]
    simp only [Option.map_some, Option.some.injEq, ev3Of]
    simp only [Nat.add_zero] at h0
    rw [h0, h1, h2]
    simp [List.getD_eq_getElem?_getD, List.getElem?_eq_getElem hk, dim2, mag2_pair]
  · rw [List.getElem?_eq_none (by simpa using hk), List.getElem?_eq_none (by omega)]
    rfl

/-! ### Flags -/

theorem foldl_max (ws : List ℝ) : ∀ w, IsGreatest {x | x ∈ w :: ws} (ws.foldl max w) := by
  induction ws with
  | nil => intro w; exact ⟨by simp, fun x hx => by simp at hx; simp [hx]⟩
  | cons a l ih =>
    intro w
    obtain ⟨h1, h2⟩ := ih (max w a)
    rw [List.foldl_cons]
    refine ⟨?_, ?_⟩
    · simp only [Set.mem_setOf_eq, List.mem_cons] at h1 ⊢
      rcases h1 with h | h
      · rcases max_choice w a with h' | h' <;> rw [h'] at h <;> rw [h', h] <;> simp
      · exact Or.inr (Or.inr h)
    · intro x hx
      simp only [Set.mem_setOf_eq, List.mem_cons] at hx
      have hm := h2 (show max w a ∈ {x | x ∈ max w a :: l} by simp)
      rcases hx with rfl | rfl | hx
      · exact le_trans (le_max_left _ _) hm
      · exact le_trans (le_max_right _ _) hm
      · exact h2 (by simp [hx])

theorem mcFlags_ok (u : Nat → ℝ) (ws : List ℝ) (hne : ws ≠ []) : ∃ fl, mcFlags u ws = some fl ∧ AcceptedBy u ws fl := by
  cases ws with
  | nil => exact absurd rfl hne
  | cons w ws =>
    refine ⟨_, rfl, by simp, _, foldl_max ws w, ?_⟩
    intro k x b hx hb
    rw [List.getElem?_map, List.getElem?_zipIdx, hx] at hb
    simp only [Option.map_some, Option.some.injEq] at hb
    rw [← hb]
    simp

theorem mapM_values {β : Type} (f : Nat → Option β) (g : Nat → β) (n : Nat) (h : ∀ k, k < n → f k = some (g k)) :
    (List.range n).mapM f = some ((List.range n).map g) := by
  have key : ∀ (l : List Nat), (∀ k ∈ l, f k = some (g k)) → l.mapM f = some (l.map g) := by
    intro l
    induction l with
    | nil => intro _; rfl
    | cons a l ih =>
      intro hl
      rw [List.mapM_cons, hl a (by simp), ih fun k hk => hl k (by simp [hk])]
      rfl
  exact key _ fun k hk => h k (List.mem_range.mp hk)

/-! ### Three bodies -/

/-- **C87 (three bodies)** (what is missing: as for C81, splines and more than 16 resonances; different numbers of bins; no
events, see `C87_violation_none`; what the library of phase-space events does).  Whatever has been done with the PDF before:
the variables returned are the masses squared of the pairs (1,2), (2,3), (1,3) of the generated particles; the weight of an
event is its phase-space weight times the density the user has described at that event, normalised on the present grid; and an
event is accepted if its uniform number is below the ratio of its weight to the largest. -/
theorem C87_generated_partial (d : DalitzCtx) (hd : GoodMasses d) (table : Nat → ℝ) (rs : List (ResUse ResNew))
    (built : List (ResUse ResObj)) (hb : resBuildAll rs = some built) (hs : ∀ r ∈ rs, ¬ IsSplineRes r.res)
    (h16 : rs.length ≤ 16) (eff : (Nat → ℝ) → ℝ → ℝ → ℝ) (s : D3State) (hbins : s.grid.nb12 = s.grid.nb13)
    (hpos : 0 < s.grid.nb12) (marks : ResObj → Bool) (h : Nat → ℝ) (evs : List Gen3) (hne : evs ≠ []) (u : Nat → ℝ) :
    ∃ out s', (d3Pdf d table built eff).generate s marks h evs u = some (out, s')
      ∧ out.vars = evs.map (fun g => [pairMass2 g.p1 g.p2, pairMass2 g.p2 g.p3, pairMass2 g.p1 g.p3])
      ∧ out.weights = evs.map (fun g => g.w * (density3 d rs eff h (pairMass2 g.p1 g.p2) (pairMass2 g.p1 g.p3)
          / gridIntegral2 (density3 d rs eff h) s.grid.lo12 s.grid.hi12 s.grid.nb12 s.grid.lo13 s.grid.hi13 s.grid.nb13))
      ∧ AcceptedBy u out.weights out.flags := by
  set D := d3Pdf d table built eff with hD
  set data := readEv3 (genArray 3 evs.length fun k =>
      [((evs.map fun g => dim2 g.p1 g.p2 g.p3).getD k []).getD 0 0, ((evs.map fun g => dim2 g.p1 g.p2 g.p3).getD k []).getD 2 0,
        ((evs.map fun g => dim2 g.p1 g.p2 g.p3).getD k []).getD 1 0]) evs.length with hdata
  have hget := generated_data evs
  rw [← hdata] at hget
  have hlen : data.length = evs.length := by rw [hdata]; simp [readEv3]
  have hnum : Numbered data := by
    intro k ev hev
    rw [hget k] at hev
    obtain ⟨g, _, rfl⟩ := Option.map_eq_some_iff.mp hev
    constructor <;> simp only [ev3Of] <;> linarith
  obtain ⟨s', hr, hval⟩ := C81_value_partial d hd table rs built hb hs h16 eff s data _ .parent hnum [] marks h
    ⟨fun _ h => absurd h (by simp), trivial⟩
  obtain ⟨s1, s2, hr1, hn⟩ := C81_normalization_partial d hd table rs built hb hs h16 eff s hbins hpos data _ .parent [] marks h
    ⟨fun _ h => absurd h (by simp), trivial⟩ (fun e he => absurd he (by simp))
  rw [← hD] at hr hval hr1 hn
  have e1 : s1 = withData s data := by
    rw [List.map_nil, List.append_nil, give_run D s data _ .parent] at hr1
    exact (Option.some.inj hr1).symm
  have e2 : s2 = s' := by
    rw [List.nil_append, run_append3, give_run D s data _ .parent] at hr
    simp only [Option.bind_some, List.map_cons, List.map_nil, D3.run, D3.step, ← e1, hn, Option.map_some] at hr
    exact Option.some.inj hr
  subst e1 e2
  set I := gridIntegral2 (density3 d rs eff h) s.grid.lo12 s.grid.hi12 s.grid.nb12 s.grid.lo13 s.grid.hi13 s.grid.nb13 with hI
  have hstep : D.step { s with data := data } (.setDataSize evs.length) = some (withData s data) := by
    simp only [D3.step, withData, hlen]
  have hent : s2.entries = evs.length := by
    have hn' := hn
    unfold D3.normalize at hn'
    split_ifs at hn'
    simp only [Option.some.injEq, Prod.mk.injEq] at hn'
    rw [← hn'.1, ← hlen]
    rfl
  have hvals : (List.range s2.entries).mapM (fun k => (D.value { s2 with force := true } h k).map (· * (1 / I)))
      = some ((List.range evs.length).map fun k => ((evs[k]?).elim 0 fun g =>
        density3 d rs eff h (pairMass2 g.p1 g.p2) (pairMass2 g.p1 g.p3)) * (1 / I)) := by
    rw [hent]
    apply mapM_values
    intro k hk
    have hg := hget k
    rw [List.getElem?_eq_getElem hk] at hg ⊢
    have hv := hval k _ hg
    have hv' : D.value { s2 with force := true, entries := evs.length } h k = D.value s2 h k := rfl
    rw [hv', hv]
    rfl
  have hw : (((List.range evs.length).map fun k => ((evs[k]?).elim 0 fun g =>
        density3 d rs eff h (pairMass2 g.p1 g.p2) (pairMass2 g.p1 g.p3)) * (1 / I)).zip (evs.map (·.w))).map
          (fun x => x.1 * x.2)
      = evs.map (fun g => g.w * (density3 d rs eff h (pairMass2 g.p1 g.p2) (pairMass2 g.p1 g.p3) / I)) := by
    apply List.ext_getElem
    · simp
    · intro k h1 h2
      have hk : k < evs.length := by simpa using h2
      simp only [List.getElem_map, List.getElem_zip, List.getElem_range, List.getElem?_eq_getElem hk, Option.elim_some]
      ring
  obtain ⟨fl, hfl, hacc⟩ := mcFlags_ok u
    (evs.map (fun g => g.w * (density3 d rs eff h (pairMass2 g.p1 g.p2) (pairMass2 g.p1 g.p3) / I)))
    (by simpa using hne)
  refine ⟨⟨evs.map fun g => dim2 g.p1 g.p2 g.p3, _, fl⟩, { s2 with force := true }, ?_, ?_, rfl, hacc⟩
  · unfold D3.generate
    simp only [← hdata, hstep, Option.bind_eq_bind, Option.bind_some, hn, hvals, hw, hfl]
    rfl
  · simp [dim2, mag2_pair]

/-! ### The kinematics of a decay -/

theorem particle_sq (m : ℝ) (v : LV ℝ) (hv : ParticleOf m v) : v.e ^ 2 = m ^ 2 + (v.x ^ 2 + v.y ^ 2 + v.z ^ 2) := by
  unfold ParticleOf at hv
  rw [hv, energy_sq]
  simp [Mom.sq, Fin.sum_univ_three]

/-- **C87 (inside).**  The particles of a decay give a point of the decay region, and the three masses squared add up as they
should: the density is not cut off, and the resonances see the mass of the pair (2,3). -/
theorem C87_inside (d : DalitzCtx) (g : Gen3) (hg : DecayProducts d g) :
    CanDecay d.mother d.d1 d.d2 d.d3 (pairMass2 g.p1 g.p2) (pairMass2 g.p1 g.p3)
      ∧ pairMass2 g.p1 g.p2 + pairMass2 g.p1 g.p3 + pairMass2 g.p2 g.p3
        = d.mother ^ 2 + d.d1 ^ 2 + d.d2 ^ 2 + d.d3 ^ 2 := by
  have hx : g.p1.x + g.p2.x + g.p3.x = 0 := congrArg LV.x hg.rest
  have hy : g.p1.y + g.p2.y + g.p3.y = 0 := congrArg LV.y hg.rest
  have hz : g.p1.z + g.p2.z + g.p3.z = 0 := congrArg LV.z hg.rest
  have he : g.p1.e + g.p2.e + g.p3.e = d.mother := congrArg LV.e hg.rest
  have s1 := particle_sq _ _ hg.first
  have s2 := particle_sq _ _ hg.second
  have s3 := particle_sq _ _ hg.third
  refine ⟨⟨![g.p1.x, g.p1.y, g.p1.z], ![g.p2.x, g.p2.y, g.p2.z], ![g.p3.x, g.p3.y, g.p3.z], ?_, ?_, ?_, ?_⟩, ?_⟩
  · funext i
    fin_cases i
    · exact hx
    · exact hy
    · exact hz
  · rw [← hg.first, ← hg.second, ← hg.third]
    exact he
  · rw [← hg.first, ← hg.second]
    simp [Mom.sq, Fin.sum_univ_three, pairMass2]
  · rw [← hg.first, ← hg.third]
    simp [Mom.sq, Fin.sum_univ_three, pairMass2]
  · rw [← he]
    unfold pairMass2
    have ex : g.p3.x = -(g.p1.x + g.p2.x) := by linarith
    have ey : g.p3.y = -(g.p1.y + g.p2.y) := by linarith
    have ez : g.p3.z = -(g.p1.z + g.p2.z) := by linarith
    rw [ex, ey, ez] at s3 ⊢
    linear_combination s1 + s2 + s3

/-- **C87 (decays)** (what is missing: as for `C87_generated_partial`).  If the phase-space library delivers decays of the
mother at rest, the weight is the phase-space weight times `|Σ cᵢ Rᵢ|²` at the masses of the three pairs of particles, times the
efficiency, over the normalisation. -/
theorem C87_decays_partial (d : DalitzCtx) (hd : GoodMasses d) (table : Nat → ℝ) (rs : List (ResUse ResNew))
    (built : List (ResUse ResObj)) (hb : resBuildAll rs = some built) (hs : ∀ r ∈ rs, ¬ IsSplineRes r.res)
    (h16 : rs.length ≤ 16) (eff : (Nat → ℝ) → ℝ → ℝ → ℝ) (s : D3State) (hbins : s.grid.nb12 = s.grid.nb13)
    (hpos : 0 < s.grid.nb12) (marks : ResObj → Bool) (h : Nat → ℝ) (evs : List Gen3) (hne : evs ≠ []) (u : Nat → ℝ)
    (hdec : ∀ g ∈ evs, DecayProducts d g) :
    ∃ out s', (d3Pdf d table built eff).generate s marks h evs u = some (out, s')
      ∧ out.weights = evs.map (fun g => g.w * (eventIntensity d rs h g * eff h (pairMass2 g.p1 g.p2) (pairMass2 g.p1 g.p3)
          / gridIntegral2 (density3 d rs eff h) s.grid.lo12 s.grid.hi12 s.grid.nb12 s.grid.lo13 s.grid.hi13 s.grid.nb13)) := by
  obtain ⟨out, s', h1, -, h3, -⟩ := C87_generated_partial d hd table rs built hb hs h16 eff s hbins hpos marks h evs hne u
  refine ⟨out, s', h1, ?_⟩
  rw [h3]
  refine List.map_congr_left fun g hg => ?_
  obtain ⟨k1, k2⟩ := C87_inside d g (hdec g hg)
  unfold density3
  rw [if_pos k1]
  congr 3
  unfold terms3 eventIntensity
  congr 1
  refine List.map_congr_left fun r _ => ?_
  rw [show d.mother ^ 2 + d.d1 ^ 2 + d.d2 ^ 2 + d.d3 ^ 2 - (pairMass2 g.p1 g.p2 + pairMass2 g.p1 g.p3)
    = pairMass2 g.p2 g.p3 by linarith]

/-! ### Four bodies -/

/-- The event of five numbers that belongs to a generated event. -/
noncomputable def ev4Of (g : Gen4) : Ev4 :=
  let v := dim5 g.p1 g.p2 g.p3 g.p4
  ⟨v.1, v.2.1, v.2.2.1, v.2.2.2.1, v.2.2.2.2⟩

theorem generated_data4 (evs : List Gen4) :
    readEv4 (genArray 6 evs.length fun k => (evs.map fun g => ev4List (dim5 g.p1 g.p2 g.p3 g.p4)).getD k []) evs.length
      = evs.map ev4Of := by
  apply List.ext_getElem
  · simp [readEv4]
  · intro k h1 h2
    have hk : k < evs.length := by simpa using h2
    simp only [readEv4, List.getElem_map, List.getElem_range]
    have e0 := genArray_read 6 evs.length (by omega)
      (fun k => (evs.map fun g => ev4List (dim5 g.p1 g.p2 g.p3 g.p4)).getD k []) k
    have a0 := e0 0 hk (by omega)
    have a1 := e0 1 hk (by omega)
    have a2 := e0 2 hk (by omega)
    have a3 := e0 3 hk (by omega)
    have a4 := e0 4 hk (by omega)
    simp only [Nat.add_zero] at a0
    rw [a0, a1, a2, a3, a4]
    simp [List.getD_eq_getElem?_getD, List.getElem?_eq_getElem hk, ev4List, ev4Of]

/-- **C87 (four bodies)** (what is missing: splines; PDFs with more line shapes than amplitudes, see `C49_violation_overflow`;
fewer than six events, see `C87_violation_few`).  After any history with honest marks: the variables returned are those of the
generated momenta, and the weight of an event is its phase-space weight times the intensity the user has described and the
efficiency at these variables, not normalised. -/
theorem C87_four_partial (junk : Nat → Nat → ℝ) (h0 : Nat → ℝ) (d : Decay4) (amps : List AmpNew)
    (built : List (Amp4 LsObj SfObj)) (hb : amps.mapM (ampBuild junk h0) = some built)
    (hs : ∀ a ∈ amps, ∀ c ∈ a.ls, ¬ IsSpline c) (eff : (Nat → ℝ) → Ev4 → ℝ) (mc : List Ev4)
    (hle : (lineShapesOf built).length ≤ built.length)
    (ops : List (A4.Op LsObj (Nat → ℝ) Ev4)) (hm : MarksFrom none ops) (s : A4State ℝ Ev4)
    (hr : (fourBodyPdf [d.M, d.m1, d.m2, d.m3, d.m4] amps built eff mc).run Real.sqrt ops = some s)
    (c : LsObj → Bool) (h : Nat → ℝ) (evs : List Gen4) (h6 : 6 ≤ evs.length) (u : Nat → ℝ) :
    ∃ out s', (fourBodyPdf [d.M, d.m1, d.m2, d.m3, d.m4] amps built eff mc).generateSig c h s evs u = some (out, s')
      ∧ out.vars = evs.map (fun g => [(dim5 g.p1 g.p2 g.p3 g.p4).1, (dim5 g.p1 g.p2 g.p3 g.p4).2.1,
          (dim5 g.p1 g.p2 g.p3 g.p4).2.2.1, (dim5 g.p1 g.p2 g.p3 g.p4).2.2.2.1, (dim5 g.p1 g.p2 g.p3 g.p4).2.2.2.2])
      ∧ out.weights = evs.map (fun g => g.w * (described d amps h (ev4Of g) * eff h (ev4Of g)))
      ∧ AcceptedBy u out.weights out.flags := by
  set m := fourBodyPdf [d.M, d.m1, d.m2, d.m3, d.m4] amps built eff mc with hmdef
  obtain ⟨hi, -⟩ := A4.run_inv Real.sqrt m ops none m.init s (A4.init_inv Real.sqrt m) (marks_honest _ _ _ _ _ _ _ hm) hr
  set sd : A4State ℝ Ev4 := { A4.setData s (evs.map ev4Of) with noNorm := true } with hsd
  have hi' : m.Inv Real.sqrt none sd := ⟨hi.len, hi.tail, fun h => absurd h (by simp [hsd, A4.setData])⟩
  have hnorm : ∃ r, m.normalize Real.sqrt c h sd = some r := by
    cases hmk : m.markRedo c sd.force sd.redo with
    | none =>
      refine absurd ((A4.markRedo_none m c _ _).1 hmk) ?_
      have : sd.redo.length = built.length := hi'.len
      have : m.LS.length ≤ built.length := hle
      omega
    | some redo => exact ⟨_, by simp only [A4.normalize, bind, Option.bind, hmk, pure]; rfl⟩
  obtain ⟨⟨r, s1⟩, hn⟩ := hnorm
  obtain ⟨-, -, hd, -, hamp, hr1, -⟩ := A4.normalize_spec Real.sqrt m none sd s1 c h r hi' (fun _ h => absurd h (by simp)) hn
  have hr1' : r = 1 := hr1 rfl
  have hdata : s1.data = evs.map ev4Of := hd
  have hval : ∀ e, m.value h { s1 with force := true } e
      = ((evs.map ev4Of)[e]?).map fun ev => described d amps h ev * eff h ev := by
    intro e
    have e1 : m.value h { s1 with force := true } e = m.value h s1 e := rfl
    rw [e1, m.value_spec Real.sqrt h s1 e fun i a hia ev he => hamp rfl i a hia e ev (hd ▸ he), hdata]
    congr 1
    funext ev
    rw [← terms_eq junk h0 d amps built hb hs eff mc h ev]
    rfl
  have hvals : (List.range evs.length).mapM (fun k => (m.value h { s1 with force := true } k).map (· * (1 / r)))
      = some ((List.range evs.length).map fun k => (evs[k]?).elim 0 fun g => described d amps h (ev4Of g) * eff h (ev4Of g)) := by
    apply mapM_values
    intro k hk
    rw [hval k, List.getElem?_map, List.getElem?_eq_getElem hk, hr1']
    simp
  have hw : (((List.range evs.length).map fun k => (evs[k]?).elim 0 fun g =>
        described d amps h (ev4Of g) * eff h (ev4Of g)).zip (evs.map (·.w))).map (fun x => x.1 * x.2)
      = evs.map (fun g => g.w * (described d amps h (ev4Of g) * eff h (ev4Of g))) := by
    apply List.ext_getElem
    · simp
    · intro k h1 h2
      have hk : k < evs.length := by simpa using h2
      simp only [List.getElem_map, List.getElem_zip, List.getElem_range, List.getElem?_eq_getElem hk, Option.elim_some]
      ring
  have hne : evs ≠ [] := by rintro rfl; simp at h6
  obtain ⟨fl, hfl, hacc⟩ := mcFlags_ok u (evs.map (fun g => g.w * (described d amps h (ev4Of g) * eff h (ev4Of g))))
    (by simpa using hne)
  refine ⟨⟨evs.map fun g => ev4List (dim5 g.p1 g.p2 g.p3 g.p4), _, fl⟩, { s1 with force := true }, ?_, ?_, rfl, hacc⟩
  · have h6' : ¬ evs.length < 6 := by omega
    unfold A4.generateSig
    simp only [generated_data4, ← hsd, Option.bind_eq_bind, Option.bind_some, hn, hvals, List.length_map, List.length_range, h6',
      if_false, hw, hfl]
    rfl
  · simp [ev4List]

/-- A PDF of one amplitude that has been evaluated, and any events, at least six: the hypotheses of `C87_four_partial` hold. -/
example (junk : Nat → Nat → ℝ) (h0 h : Nat → ℝ) (d : Decay4) (eff : (Nat → ℝ) → Ev4 → ℝ) (mc data : List Ev4) (evs : List Gen4)
    (h6 : 6 ≤ evs.length) (u : Nat → ℝ) :
    ∃ built s out s', [exAmp].mapM (ampBuild junk h0) = some built
      ∧ (fourBodyPdf [d.M, d.m1, d.m2, d.m3, d.m4] [exAmp] built eff mc).run Real.sqrt
          [.setData data, .eval (fun _ => true) h] = some s
      ∧ (fourBodyPdf [d.M, d.m1, d.m2, d.m3, d.m4] [exAmp] built eff mc).generateSig (fun _ => false) h s evs u = some (out, s')
      ∧ out.weights = evs.map (fun g => g.w * (described d [exAmp] h (ev4Of g) * eff h (ev4Of g))) := by
  obtain ⟨o, ho⟩ : ∃ o, lsBuild junk h0 exRbw = some o := ⟨_, rfl⟩
  have hb : [exAmp].mapM (ampBuild junk h0) = some [⟨[o], exAmp.sf.map sfBuild, 1⟩] := by
    simp [exAmp, ampBuild, ho]
  have hle : (lineShapesOf [(⟨[o], exAmp.sf.map sfBuild, 1⟩ : Amp4 LsObj SfObj)]).length ≤ 1 := by
    simp [lineShapesOf, addUnique]
  have hm : MarksFrom none [.setData data, .eval (fun _ => true) h] := ⟨fun _ h => absurd h (by simp), trivial⟩
  obtain ⟨s, hs⟩ := Option.ne_none_iff_exists'.1 (C49_no_overflow Real.sqrt
    (fourBodyPdf [d.M, d.m1, d.m2, d.m3, d.m4] [exAmp] [⟨[o], exAmp.sf.map sfBuild, 1⟩] eff mc) hle
    [.setData data, .eval (fun _ => true) h])
  obtain ⟨out, s', h1, -, h3, -⟩ := C87_four_partial junk h0 d [exAmp] _ hb
    (by intro a ha c hc; rw [List.mem_singleton.1 ha] at hc; rw [List.mem_singleton.1 hc]; exact id) eff mc hle
    [.setData data, .eval (fun _ => true) h] hm s hs (fun _ => false) h evs h6 u
  exact ⟨_, s, out, s', hb, hs, h1, h3⟩

/-! ### What goes wrong -/

theorem generate_state (D : D3) (s s' : D3State) (marks : ResObj → Bool) (h : Nat → ℝ) (evs : List Gen3) (u : Nat → ℝ)
    (out : Generated) (hg : D.generate s marks h evs u = some (out, s')) :
    s'.force = true ∧ s'.entries = evs.length ∧ s'.alloc = some evs.length ∧ s'.grid = s.grid
      ∧ s'.data.length = evs.length ∧ ∀ k : Nat, s'.data[k]? = (evs[k]?).map fun g => ev3Of g k := by
  unfold D3.generate at hg
  simp only [D3.step, Option.bind_eq_bind, Option.bind_some, Option.bind_eq_some_iff] at hg
  obtain ⟨r, hr, res, -, fl, -, hout⟩ := hg
  simp only [pure, Option.some.injEq, Prod.mk.injEq] at hout
  unfold D3.normalize at hr
  split_ifs at hr
  simp only [Option.some.injEq] at hr
  rw [← hout.2, ← hr]
  exact ⟨rfl, rfl, rfl, rfl, by simp [D3.refresh, readEv3], generated_data evs⟩

/-- **C87 (what is left)** (what is missing: as for C81).  Whatever data the user has given to the PDF:
after generating events the PDF is left with these as its data, and the next evaluations give the values at the generated
events, as many as there are of them. -/
theorem C87_left_behind_partial (d : DalitzCtx) (hd : GoodMasses d) (table : Nat → ℝ) (rs : List (ResUse ResNew))
    (built : List (ResUse ResObj)) (hb : resBuildAll rs = some built) (hs : ∀ r ∈ rs, ¬ IsSplineRes r.res)
    (h16 : rs.length ≤ 16) (eff : (Nat → ℝ) → ℝ → ℝ → ℝ) (s s1 : D3State) (marks : ResObj → Bool) (h : Nat → ℝ)
    (evs : List Gen3) (u : Nat → ℝ) (out : Generated)
    (hg : (d3Pdf d table built eff).generate s marks h evs u = some (out, s1)) (marks' : ResObj → Bool) (h' : Nat → ℝ) :
    ∃ s2, (d3Pdf d table built eff).step s1 (.eval marks' h') = some s2 ∧ s2.entries = evs.length
      ∧ ∀ (k : Nat) g, evs[k]? = some g →
        (d3Pdf d table built eff).value s2 h' k = some (density3 d rs eff h' (pairMass2 g.p1 g.p2) (pairMass2 g.p1 g.p3)) := by
  obtain ⟨f1, f2, f3, f4, f5, f6⟩ := generate_state _ _ _ _ _ _ _ _ hg
  have hnum : Numbered s1.data := by
    intro k ev hev
    rw [f6 k] at hev
    obtain ⟨g, _, rfl⟩ := Option.map_eq_some_iff.mp hev
    constructor <;> simp only [ev3Of] <;> linarith
  have hlen : (d3Pdf d table built eff).res.length ≤ 16 := by have := built_length rs built hb; simp only [d3Pdf]; omega
  have hi : Inv3 (d3Pdf d table built eff) s1.data s1.grid none none s1 :=
    ⟨rfl, f2.trans f5.symm, f3.trans (by rw [f5]), rfl, fun _ => f1, fun _ h => absurd h (by simp), fun _ h => absurd h (by simp),
      fun _ _ h => absurd h (by simp)⟩
  obtain ⟨v, hn, hi', -⟩ := eval_inv _ hlen s1.data s1.grid none none s1 hi marks' h' (fun _ h => absurd h (by simp))
    (fun _ h => absurd h (by simp))
  refine ⟨_, by simp only [D3.step, hn, Option.map_some], hi'.entries_eq.trans f5, ?_⟩
  intro k g hk
  have hev := f6 k
  rw [hk] at hev
  exact inv_value d hd table rs built hb hs h16 eff _ s1.data hnum _ _ h' hi' k _ hev

/-- **C87, violation (no events).**  Without events the maximum of nothing is read. -/
theorem C87_violation_none (D : D3) (s : D3State) (marks : ResObj → Bool) (h : Nat → ℝ) (u : Nat → ℝ) :
    D.generate s marks h [] u = none := by
  unfold D3.generate
  simp only [Option.bind_eq_bind, Option.bind_eq_none_iff]
  intro s1 hs1 r hr res hres fl hfl
  exfalso
  simp [mcFlags, maxElement] at hfl

/-- **C87, violation (few events).**  The four-body PDF reads the first six results to print them, however many there are. -/
theorem C87_violation_few {A S P : Type} [DecidableEq A] [DecidableEq S] (m : A4 ℝ A S P Ev4) (c : A → Bool) (p : P)
    (s : A4State ℝ Ev4) (evs : List Gen4) (hlt : evs.length < 6) (u : Nat → ℝ) : m.generateSig c p s evs u = none := by
  unfold A4.generateSig
  simp only [Option.bind_eq_bind, Option.bind_eq_none_iff]
  intro r hr res hres
  have hl : res.length = evs.length := by
    have := (List.Forall₂.length_eq (mapM_forall2 _ _ _ hres))
    simpa using this.symm
  simp [hl, hlt]

/-! ### Cases -/

namespace DemoGen
/-- Three particles at rest, with a weight. -/
def still (w : ℝ) : Gen3 := ⟨⟨0, 0, 0, 1⟩, ⟨0, 0, 0, 1⟩, ⟨0, 0, 0, 1⟩, w⟩

theorem still_masses (w : ℝ) : pairMass2 (still w).p1 (still w).p2 = 4 ∧ pairMass2 (still w).p1 (still w).p3 = 4 := by
  constructor <;> norm_num [pairMass2, still]

theorem still_decay (w : ℝ) : DecayProducts Demo3.decay (still w) := by
  have h : ParticleOf 1 ⟨0, 0, 0, 1⟩ := by simp [ParticleOf, energy, Mom.sq, Fin.sum_univ_three]
  refine ⟨h, h, h, ?_⟩
  show LV.add (LV.add ⟨0, 0, 0, 1⟩ ⟨0, 0, 0, 1⟩) ⟨0, 0, 0, 1⟩ = (⟨0, 0, 0, 3⟩ : LV ℝ)
  simp [LV.add]
  norm_num

/-- Two particles back to back and one at rest, from a mother of mass 4. -/
noncomputable def backToBack : Gen3 := ⟨⟨√5 / 2, 0, 0, 3 / 2⟩, ⟨-(√5 / 2), 0, 0, 3 / 2⟩, ⟨0, 0, 0, 1⟩, 1⟩

theorem backToBack_decay : DecayProducts ⟨4, 1, 1, 1, 1, 1⟩ backToBack := by
  have h5 : (√5 / 2) ^ 2 = (5 / 4 : ℝ) := by rw [div_pow, Real.sq_sqrt (by norm_num)]; norm_num
  have h94 : √(9 / 4 : ℝ) = 3 / 2 := by rw [show (9 / 4 : ℝ) = (3 / 2) ^ 2 by norm_num]; exact Real.sqrt_sq (by norm_num)
  refine ⟨?_, ?_, ?_, ?_⟩
  · show (3 / 2 : ℝ) = √(1 ^ 2 + Mom.sq ![√5 / 2, 0, 0])
    simp only [Mom.sq, Fin.sum_univ_three, Matrix.cons_val]
    rw [h5, ← h94]
    norm_num
  · show (3 / 2 : ℝ) = √(1 ^ 2 + Mom.sq ![-(√5 / 2), 0, 0])
    simp only [Mom.sq, Fin.sum_univ_three, Matrix.cons_val]
    rw [neg_sq, h5, ← h94]
    norm_num
  · simp [ParticleOf, energy, Mom.sq, Fin.sum_univ_three, backToBack]
  · show LV.add (LV.add ⟨√5 / 2, 0, 0, 3 / 2⟩ ⟨-(√5 / 2), 0, 0, 3 / 2⟩) ⟨0, 0, 0, 1⟩ = (⟨0, 0, 0, 4⟩ : LV ℝ)
    simp [LV.add]
    norm_num

end DemoGen
open DemoGen

/-- A decay that is not at rest meets the hypotheses of `C87_inside`. -/
example : CanDecay 4 1 1 1 (pairMass2 backToBack.p1 backToBack.p2) (pairMass2 backToBack.p1 backToBack.p3) :=
  (C87_inside ⟨4, 1, 1, 1, 1, 1⟩ backToBack backToBack_decay).1

/-- Two generated events of weights 2 and 1: the density is 1 and the normalisation 4; with the uniform numbers `3/4` and `1/4` both
are accepted or not as their ratios to the larger say. -/
example (s : D3State) (hg : s.grid = Demo3.demoGrid) (marks : ResObj → Bool) : ∃ out s',
    Demo3.pdf.generate s marks Demo3.h0 [still 2, still 1] (fun k => if k = 0 then 3 / 4 else 1 / 4) = some (out, s')
      ∧ out.weights = [1 / 2, 1 / 4] := by
  obtain ⟨out, s', h1, -, h3, -⟩ := C87_generated_partial Demo3.decay Demo3.good (fun _ => 0) Demo3.rs Demo3.built Demo3.built_eq
    (by simp [Demo3.rs, IsSplineRes]) (by decide) Demo3.eff s (by rw [hg]; rfl) (by rw [hg]; decide) marks Demo3.h0
    [still 2, still 1] (by simp) (fun k => if k = 0 then 3 / 4 else 1 / 4)
  refine ⟨out, s', h1, ?_⟩
  rw [h3, hg, Demo3.described_grid]
  simp only [List.map_cons, List.map_nil, still_masses, Demo3.described_centre, Demo3.inside_centre, if_true]
  norm_num [Demo3.h0, still]

/-- **C87, violation (a fit after generating).**  A user gives the PDF an event outside the decay region, where the density is 0,
evaluates, and generates an event at rest.  The next evaluation gives, for the user's event, the density at the generated one. -/
theorem C87_violation_later (s : D3State) (hg : s.grid = Demo3.demoGrid) (u : Nat → ℝ) :
    ∃ s1 out s2 s3, Demo3.pdf.run s [.setData [⟨0, 0, 0⟩], .setDataSize 1, .eval Demo3.changed2 Demo3.h0] = some s1
      ∧ Demo3.pdf.value s1 Demo3.h0 0 = some 0
      ∧ Demo3.pdf.generate s1 Demo3.changed2 Demo3.h0 [still 1] u = some (out, s2)
      ∧ Demo3.pdf.run s2 [.eval Demo3.changed2 Demo3.h0] = some s3
      ∧ Demo3.pdf.value s3 Demo3.h0 0 = some 1 := by
  obtain ⟨s1, hr, -, -, hg1, -, hdat, -⟩ := Demo3.after_first s hg [⟨0, 0, 0⟩] Demo3.changed2
  have hspl : ∀ r ∈ Demo3.rs, ¬ IsSplineRes r.res := by simp [Demo3.rs, IsSplineRes]
  obtain ⟨out, s2, h2, -⟩ := C87_generated_partial Demo3.decay Demo3.good (fun _ => 0) Demo3.rs Demo3.built Demo3.built_eq
    hspl (by decide) Demo3.eff s1 (by rw [hg1]; rfl) (by rw [hg1]; decide) Demo3.changed2 Demo3.h0
    [still 1] (by simp) u
  obtain ⟨s3, h3, -, h5⟩ := C87_left_behind_partial Demo3.decay Demo3.good (fun _ => 0) Demo3.rs Demo3.built Demo3.built_eq
    hspl (by decide) Demo3.eff s1 s2 Demo3.changed2 Demo3.h0 [still 1] u out h2 Demo3.changed2 Demo3.h0
  refine ⟨s1, out, s2, s3, hr, ?_, h2, ?_, ?_⟩
  · unfold D3.value
    rw [hdat]
    simp [Demo3.outside_low 0 0 (by norm_num)]
  · simp only [D3.run]
    exact (congrArg (Option.bind · fun s => some s) h3)
  · have := h5 0 (still 1) rfl
    rw [(still_masses 1).1, (still_masses 1).2, Demo3.described_centre, Demo3.inside_centre] at this
    refine this.trans ?_
    norm_num [Demo3.h0]

end GooFit
