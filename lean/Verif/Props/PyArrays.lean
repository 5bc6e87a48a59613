import Verif.Lemmas.PyArrays
import Verif.Props.Generate3
import Verif.Props.TimeGenerate
import Verif.Props.Plotter
/-!
# C108: the arrays Python gets
-/
set_option autoImplicit false
namespace GooFit
open Spec PyArr

/-! ### Generated events -/

/-- **C108 (three bodies)** (what is missing: pz, see `C108_violation_momentum`; `2^31` events or more, for which the loops
overflow; as for `C87_generated_partial`).  `GenerateSig(n)` returns to Python four arrays of `n` events in the same order: the
particles as energy, px, py; the masses squared of the pairs (1,2), (2,3), (1,3); the weights, phase space times normalised
density; and whether the event is accepted. -/
theorem C108_three_partial (d : DalitzCtx) (hd : GoodMasses d) (table : Nat → ℝ) (rs : List (ResUse ResNew))
    (built : List (ResUse ResObj)) (hb : resBuildAll rs = some built) (hs : ∀ r ∈ rs, ¬ IsSplineRes r.res)
    (h16 : rs.length ≤ 16) (eff : (Nat → ℝ) → ℝ → ℝ → ℝ) (s : D3State) (hbins : s.grid.nb12 = s.grid.nb13)
    (hpos : 0 < s.grid.nb12) (marks : ResObj → Bool) (h : Nat → ℝ) (lib : Nat → List Gen3) (hlib : ∀ n, (lib n).length = n)
    (u : Nat → ℝ) (n : Nat) (h0 : 0 < n) (h31 : n < 2 ^ 31) :
    ∃ (a : PySample ℝ) (ws : List ℝ) (fl : List Bool), (d3Pdf d table built eff).pyGenerate s marks h lib u n = .ok a
      ∧ a.particles.shape = [3, n, 3] ∧ a.vars.shape = [3, n]
      ∧ IsMomentaXY a.particles 0 ((lib n).map (·.p1)) ∧ IsMomentaXY a.particles 1 ((lib n).map (·.p2))
      ∧ IsMomentaXY a.particles 2 ((lib n).map (·.p3))
      ∧ IsRowOf a.vars 0 ((lib n).map fun g => pairMass2 g.p1 g.p2)
      ∧ IsRowOf a.vars 1 ((lib n).map fun g => pairMass2 g.p2 g.p3)
      ∧ IsRowOf a.vars 2 ((lib n).map fun g => pairMass2 g.p1 g.p3)
      ∧ ws = (lib n).map (fun g => g.w * (density3 d rs eff h (pairMass2 g.p1 g.p2) (pairMass2 g.p1 g.p3)
          / gridIntegral2 (density3 d rs eff h) s.grid.lo12 s.grid.hi12 s.grid.nb12 s.grid.lo13 s.grid.hi13 s.grid.nb13))
      ∧ IsRow a.weights ws ∧ AcceptedBy u ws fl ∧ IsRow a.flags fl := by
  have hne : lib n ≠ [] := by
    intro e
    have := hlib n
    rw [e] at this
    simp at this
    omega
  obtain ⟨out, s', hg, hv, hw, hacc⟩ := C87_generated_partial d hd table rs built hb hs h16 eff s hbins hpos marks h (lib n) hne u
  have hlw : out.weights.length = n := by rw [hw, List.length_map, hlib]
  have hlf : out.flags.length = n := by rw [hacc.1, hlw]
  obtain ⟨a, e, p1, p2, v1, v2, w1, f1⟩ := copySample_ok 3 n (by omega)
    ⟨[(lib n).map (·.p1), (lib n).map (·.p2), (lib n).map (·.p3)],
      [column out.vars 0, column out.vars 1, column out.vars 2], out.weights, out.flags.map flagBack⟩ h31
    (by simp [hlib]) (by simp [column, hv, hlib]) hlw (by simp [hlf]) ⟨0, 0, 0, 0⟩
  have hcol : ∀ i, column out.vars i = (lib n).map fun g =>
      [pairMass2 g.p1 g.p2, pairMass2 g.p2 g.p3, pairMass2 g.p1 g.p3].getD i 0 := by
    intro i
    unfold column
    rw [hv, List.map_map]
    rfl
  refine ⟨a, out.weights, out.flags, ?_, p1, v1, momentaXY_of p2 0 _ rfl, momentaXY_of p2 1 _ rfl, momentaXY_of p2 2 _ rfl,
    ?_, ?_, ?_, hw, w1, hacc, ?_⟩
  · unfold D3.pyGenerate
    simp only [Nat.mod_eq_of_lt (show n < 2 ^ 32 by omega), hg]
    exact e
  · have := v2 0 _ rfl
    rw [hcol] at this
    exact this
  · have := v2 1 _ rfl
    rw [hcol] at this
    exact this
  · have := v2 2 _ rfl
    rw [hcol] at this
    exact this
  · simp only [flags_back] at f1
    exact f1

/-- **C108 (four bodies)** (what is missing: `2^31` events or more; as for `C87_four_partial`).  `GenerateSig(n)` returns four
arrays of `n` events in the same order: the particles as energy, px, py, pz; the two masses, the two cosines and the angle; the
weights, phase space times intensity times efficiency; and whether the event is accepted. -/
theorem C108_four_partial (junk : Nat → Nat → ℝ) (h0 : Nat → ℝ) (d : Decay4) (amps : List AmpNew)
    (built : List (Amp4 LsObj SfObj)) (hb : amps.mapM (ampBuild junk h0) = some built)
    (hs : ∀ a ∈ amps, ∀ c ∈ a.ls, ¬ IsSpline c) (eff : (Nat → ℝ) → Ev4 → ℝ) (mc : List Ev4)
    (hle : (lineShapesOf built).length ≤ built.length)
    (ops : List (A4.Op LsObj (Nat → ℝ) Ev4)) (hm : MarksFrom none ops) (s : A4State ℝ Ev4)
    (hr : (fourBodyPdf [d.M, d.m1, d.m2, d.m3, d.m4] amps built eff mc).run Real.sqrt ops = some s)
    (c : LsObj → Bool) (h : Nat → ℝ) (lib : Nat → List Gen4) (hlib : ∀ n, (lib n).length = n) (u : Nat → ℝ) (n : Nat)
    (h6 : 6 ≤ n) (h31 : n < 2 ^ 31) :
    ∃ (a : PySample ℝ) (ws : List ℝ) (fl : List Bool),
      (fourBodyPdf [d.M, d.m1, d.m2, d.m3, d.m4] amps built eff mc).pyGenerate c h s lib u n = .ok a
      ∧ a.particles.shape = [4, n, 4] ∧ a.vars.shape = [5, n]
      ∧ IsMomenta a.particles 0 ((lib n).map (·.p1)) ∧ IsMomenta a.particles 1 ((lib n).map (·.p2))
      ∧ IsMomenta a.particles 2 ((lib n).map (·.p3)) ∧ IsMomenta a.particles 3 ((lib n).map (·.p4))
      ∧ IsRowOf a.vars 0 ((lib n).map fun g => (dim5 g.p1 g.p2 g.p3 g.p4).1)
      ∧ IsRowOf a.vars 1 ((lib n).map fun g => (dim5 g.p1 g.p2 g.p3 g.p4).2.1)
      ∧ IsRowOf a.vars 2 ((lib n).map fun g => (dim5 g.p1 g.p2 g.p3 g.p4).2.2.1)
      ∧ IsRowOf a.vars 3 ((lib n).map fun g => (dim5 g.p1 g.p2 g.p3 g.p4).2.2.2.1)
      ∧ IsRowOf a.vars 4 ((lib n).map fun g => (dim5 g.p1 g.p2 g.p3 g.p4).2.2.2.2)
      ∧ ws = (lib n).map (fun g => g.w * (described d amps h (ev4Of g) * eff h (ev4Of g)))
      ∧ IsRow a.weights ws ∧ AcceptedBy u ws fl ∧ IsRow a.flags fl := by
  obtain ⟨out, s', hg, hv, hw, hacc⟩ := C87_four_partial junk h0 d amps built hb hs eff mc hle ops hm s hr c h (lib n)
    (by rw [hlib]; exact h6) u
  have hlw : out.weights.length = n := by rw [hw, List.length_map, hlib]
  have hlf : out.flags.length = n := by rw [hacc.1, hlw]
  obtain ⟨a, e, p1, p2, v1, v2, w1, f1⟩ := copySample_ok 4 n (by omega)
    ⟨[(lib n).map (·.p1), (lib n).map (·.p2), (lib n).map (·.p3), (lib n).map (·.p4)],
      [column out.vars 0, column out.vars 1, column out.vars 2, column out.vars 3, column out.vars 4], out.weights,
      out.flags.map flagBack⟩ h31
    (by simp [hlib]) (by simp [column, hv, hlib]) hlw (by simp [hlf]) ⟨0, 0, 0, 0⟩
  have hcol : ∀ i, column out.vars i = (lib n).map fun g => [(dim5 g.p1 g.p2 g.p3 g.p4).1, (dim5 g.p1 g.p2 g.p3 g.p4).2.1,
          (dim5 g.p1 g.p2 g.p3 g.p4).2.2.1, (dim5 g.p1 g.p2 g.p3 g.p4).2.2.2.1,
          (dim5 g.p1 g.p2 g.p3 g.p4).2.2.2.2].getD i 0 := by
    intro i
    unfold column
    rw [hv, List.map_map]
    rfl
  refine ⟨a, out.weights, out.flags, ?_, p1, v1, momenta_of p2 0 _ rfl, momenta_of p2 1 _ rfl, momenta_of p2 2 _ rfl,
    momenta_of p2 3 _ rfl, ?_, ?_, ?_, ?_, ?_, hw, w1, hacc, ?_⟩
  · unfold A4.pyGenerate
    simp only [Nat.mod_eq_of_lt (show n < 2 ^ 32 by omega), hg]
    exact e
  · have := v2 0 _ rfl
    rw [hcol] at this
    exact this
  · have := v2 1 _ rfl
    rw [hcol] at this
    exact this
  · have := v2 2 _ rfl
    rw [hcol] at this
    exact this
  · have := v2 3 _ rfl
    rw [hcol] at this
    exact this
  · have := v2 4 _ rfl
    rw [hcol] at this
    exact this
  · simp only [flags_back] at f1
    exact f1

section
variable {A S V T P Ev : Type} [DecidableEq A] [DecidableEq S] [DecidableEq V] [DecidableEq T]

/-- **C108 (decay time)** (what is missing: `2^31` events or more).  If the C++ call succeeds, `GenerateSig(n)` returns arrays of
the accepted events in the same order: the particles as energy, px, py, pz; the five variables and the decay time; the weight at
time zero; and the flag, as C69 describes them. -/
theorem C108_time_partial (m : T4 A S V T P Ev) (hA : m.ampsA.Nodup) (hB : m.ampsB.Nodup) (c : A → Bool) (p : P)
    (hres : m.res p = truthRes) (M0 : ℝ) (s : T4State Ev) (lib : Nat → List Gen4) (point : Gen4 → Ev) (rngT rngA : Nat → ℝ)
    (offset n : Nat) (hn : n < 2 ^ 32) (h31 : (lib n).length < 2 ^ 31)
    (times weights : List ℝ) (flags : List Bool) (M : ℝ) (s' : T4State Ev)
    (h : m.generateSig c p M0 s ((lib n).map point) rngT rngA offset = .ok times weights flags M s') :
    ∃ a, m.pyGenerate c p M0 s lib point rngT rngA offset n = .ok a
      ∧ a.particles.shape = [4, (lib n).length, 4] ∧ a.vars.shape = [6, (lib n).length]
      ∧ IsMomenta a.particles 0 ((lib n).map (·.p1)) ∧ IsMomenta a.particles 1 ((lib n).map (·.p2))
      ∧ IsMomenta a.particles 2 ((lib n).map (·.p3)) ∧ IsMomenta a.particles 3 ((lib n).map (·.p4))
      ∧ IsRowOf a.vars 0 ((lib n).map fun g => (dim5 g.p1 g.p2 g.p3 g.p4).1)
      ∧ IsRowOf a.vars 1 ((lib n).map fun g => (dim5 g.p1 g.p2 g.p3 g.p4).2.1)
      ∧ IsRowOf a.vars 2 ((lib n).map fun g => (dim5 g.p1 g.p2 g.p3 g.p4).2.2.1)
      ∧ IsRowOf a.vars 3 ((lib n).map fun g => (dim5 g.p1 g.p2 g.p3 g.p4).2.2.2.1)
      ∧ IsRowOf a.vars 4 ((lib n).map fun g => (dim5 g.p1 g.p2 g.p3 g.p4).2.2.2.2)
      ∧ IsRow a.weights ((lib n).map fun g => m.weightAt p (point g))
      ∧ a.flags.shape = [(lib n).length]
      ∧ ∀ (j : Nat) (g : Gen4), (lib n)[j]? = some g →
        ∃ t, a.vars.cells [5, j] = some t
          ∧ t = -Real.log (rngT (j + offset)) / (1 / m.value p m.tau - |m.value p m.y| / m.value p m.tau)
          ∧ a.flags.cells [j] = some (decide (rngA (offset + j)
              * (M * Real.exp (-((1 / m.value p m.tau - |m.value p m.y| / m.value p m.tau) * t)))
            < m.efficiency p (point g, t, 0) * m.rateAt p (point g) t)) := by
  obtain ⟨c1, c2, c3, -, -, -, c7⟩ := C69_generate m hA hB c p hres M0 s _ rngT rngA offset times weights flags M s' h
  have hlw : weights.length = (lib n).length := by rw [c3]; simp
  simp only [List.length_map] at c1 c2
  obtain ⟨a, e, p1, p2, v1, v2, w1, f1⟩ := copySample_ok 4 (lib n).length (by omega)
    ⟨[(lib n).map (·.p1), (lib n).map (·.p2), (lib n).map (·.p3), (lib n).map (·.p4)],
      [column ((lib n).map fun g => ev4List (dim5 g.p1 g.p2 g.p3 g.p4)) 0,
        column ((lib n).map fun g => ev4List (dim5 g.p1 g.p2 g.p3 g.p4)) 1,
        column ((lib n).map fun g => ev4List (dim5 g.p1 g.p2 g.p3 g.p4)) 2,
        column ((lib n).map fun g => ev4List (dim5 g.p1 g.p2 g.p3 g.p4)) 3,
        column ((lib n).map fun g => ev4List (dim5 g.p1 g.p2 g.p3 g.p4)) 4, times], weights, flags⟩ h31
    (by simp) (by simp [column, c1]) hlw c2 ⟨0, 0, 0, 0⟩
  have hcol : ∀ i, column ((lib n).map fun g => ev4List (dim5 g.p1 g.p2 g.p3 g.p4)) i = (lib n).map fun g =>
      (ev4List (dim5 g.p1 g.p2 g.p3 g.p4)).getD i 0 := by
    intro i
    unfold column
    rw [List.map_map]
    rfl
  refine ⟨a, ?_, p1, v1, momenta_of p2 0 _ rfl, momenta_of p2 1 _ rfl, momenta_of p2 2 _ rfl,
    momenta_of p2 3 _ rfl, ?_, ?_, ?_, ?_, ?_, ?_, ?_, ?_⟩
  · unfold T4.pyGenerate
    simp only [Nat.mod_eq_of_lt hn, h, hlw]
    exact e
  · have := v2 0 _ rfl
    rw [hcol] at this
    exact this
  · have := v2 1 _ rfl
    rw [hcol] at this
    exact this
  · have := v2 2 _ rfl
    rw [hcol] at this
    exact this
  · have := v2 3 _ rfl
    rw [hcol] at this
    exact this
  · have := v2 4 _ rfl
    rw [hcol] at this
    exact this
  · rw [c3, List.map_map] at w1
    exact w1
  · rw [f1.1]
    show [flags.length] = _
    rw [c2]
  · intro j g hg
    have hj : j < (lib n).length := (List.getElem?_eq_some_iff.1 hg).1
    obtain ⟨t, t1, t2, t3⟩ := c7 j (point g) (by rw [List.getElem?_map, hg]; rfl)
    refine ⟨t, ?_, t2, ?_⟩
    · rw [v2 5 _ rfl j (by show j < times.length; omega)]
      exact t1
    · rw [f1.2 j (by show j < flags.length; omega)]
      exact t3

/-- **C108 (errors).**  An exception of the C++ function is one in Python. -/
theorem C108_time_raises (m : T4 A S V T P Ev) (hA : m.ampsA.Nodup) (hB : m.ampsB.Nodup) (c : A → Bool) (p : P)
    (hres : m.res p = truthRes) (M0 : ℝ) (s : T4State Ev) (lib : Nat → List Gen4) (point : Gen4 → Ev) (rngT rngA : Nat → ℝ)
    (offset n : Nat) (hn : n < 2 ^ 32) (h0 : M0 ≠ 0) (hex : ∃ g ∈ lib n, M0 < 1.1 * m.weightAt p (point g)) :
    m.pyGenerate c p M0 s lib point rngT rngA offset n = .raised := by
  obtain ⟨g, hg, hlt⟩ := hex
  have := (C69_throws m hA hB c p hres M0 s ((lib n).map point) rngT rngA offset).1.2
    ⟨h0, point g, List.mem_map_of_mem hg, hlt⟩
  unfold T4.pyGenerate
  simp only [Nat.mod_eq_of_lt hn, this]

end

/-! ### The third component of the momenta -/

/-- The mirror image of a decay. -/
noncomputable def mirrorZ (v : LV ℝ) : LV ℝ := ⟨v.x, v.y, -v.z, v.e⟩

noncomputable def mirrorDecay (g : Gen3) : Gen3 := ⟨mirrorZ g.p1, mirrorZ g.p2, mirrorZ g.p3, g.w⟩

theorem mirror_mass (a b : LV ℝ) : pairMass2 (mirrorZ a) (mirrorZ b) = pairMass2 a b := by
  unfold pairMass2 mirrorZ
  ring

theorem mirror_dim2 (g : Gen3) : dim2 (mirrorDecay g).p1 (mirrorDecay g).p2 (mirrorDecay g).p3 = dim2 g.p1 g.p2 g.p3 := by
  simp only [dim2, mag2_pair, mirrorDecay, mirror_mass]

theorem mirror_generate (D : D3) (s : D3State) (marks : ResObj → Bool) (h : Nat → ℝ) (evs : List Gen3) (u : Nat → ℝ) :
    D.generate s marks h (evs.map mirrorDecay) u = D.generate s marks h evs u := by
  have e1 : ((evs.map mirrorDecay).map fun g => dim2 g.p1 g.p2 g.p3) = evs.map fun g => dim2 g.p1 g.p2 g.p3 := by
    rw [List.map_map]
    exact List.map_congr_left fun g _ => mirror_dim2 g
  have e2 : (evs.map mirrorDecay).map (·.w) = evs.map (·.w) := by
    rw [List.map_map]
    rfl
  unfold D3.generate
  simp only [e1, e2, List.length_map]

theorem loop_congr {S : Type} (f g : Nat → S → ArrOut S) : ∀ (n i : Nat), (∀ k, i ≤ k → k < i + n → f k = g k) →
    arrLoop f n i = arrLoop g n i := by
  intro n
  induction n with
  | zero => intro i _; rfl
  | succ n ih =>
    intro i h
    funext s
    unfold arrLoop
    rw [h i le_rfl (by omega), ih (i + 1) fun k h1 h2 => h k (by omega) (by omega)]

theorem copy_mirror (n : Nat) (ps : List (List (LV ℝ))) :
    copyParticles 3 3 n (ps.map fun l => l.map mirrorZ) = copyParticles 3 3 n ps := by
  unfold copyParticles
  refine congrFun (?_ : _ = _) _
  refine loop_congr _ _ 3 0 fun i _ _ => loop_congr _ _ n 0 fun j _ _ => loop_congr _ _ 3 0 fun k _ hk => ?_
  funext a
  unfold vecAt
  rw [List.getElem?_map]
  cases hl : ps[i]? with
  | none => rfl
  | some l =>
    simp only [Option.map_some, ArrOut.next]
    rw [List.getElem?_map]
    cases hx : l[j]? with
    | none => rfl
    | some v =>
      simp only [Option.map_some]
      have : fourGet (mirrorZ v) k = fourGet v k := by
        match k with
        | 0 => rfl
        | 1 => rfl
        | 2 => rfl
        | k + 3 => omega
      rw [this]

theorem lv_sum (a b c : LV ℝ) (m : ℝ) (hx : a.x + b.x + c.x = 0) (hy : a.y + b.y + c.y = 0) (hz : a.z + b.z + c.z = 0)
    (he : a.e + b.e + c.e = m) : a + b + c = ⟨0, 0, 0, m⟩ := by
  ext
  · exact hx
  · exact hy
  · exact hz
  · exact he

/-- **C108, violation.**  Python gets three of the four components of the momenta of a three-body decay: energy, px and py.  For
every PDF and all events, the events with all pz reversed give the same arrays, although these are other decays of the same mother.
The momenta cannot be found from what is returned. -/
theorem C108_violation_momentum :
    (∀ (D : D3) (s : D3State) (marks : ResObj → Bool) (h : Nat → ℝ) (lib : Nat → List Gen3) (u : Nat → ℝ) (n : Nat),
      D.pyGenerate s marks h (fun k => (lib k).map mirrorDecay) u n = D.pyGenerate s marks h lib u n)
    ∧ ∃ (d : DalitzCtx) (g : Gen3), DecayProducts d g ∧ DecayProducts d (mirrorDecay g) ∧ (mirrorDecay g).p1 ≠ g.p1 := by
  constructor
  · intro D s marks h lib u n
    unfold D3.pyGenerate
    simp only [mirror_generate]
    cases D.generate s marks h (lib (n % 2 ^ 32)) u with
    | none => rfl
    | some r =>
      simp only [copySample]
      have e : [((lib (n % 2 ^ 32)).map mirrorDecay).map (·.p1), ((lib (n % 2 ^ 32)).map mirrorDecay).map (·.p2),
          ((lib (n % 2 ^ 32)).map mirrorDecay).map (·.p3)]
        = ([(lib (n % 2 ^ 32)).map (·.p1), (lib (n % 2 ^ 32)).map (·.p2), (lib (n % 2 ^ 32)).map (·.p3)] : List (List (LV ℝ))).map
          fun l => l.map mirrorZ := by
        simp [mirrorDecay]
      rw [e, copy_mirror]
  · have en : ∀ (m z e : ℝ), 0 ≤ e → m ^ 2 + z ^ 2 = e ^ 2 → ParticleOf m ⟨0, 0, z, e⟩ := by
      intro m z e he h
      unfold ParticleOf energy
      have : m ^ 2 + Mom.sq ![(0 : ℝ), 0, z] = e ^ 2 := by simp [Mom.sq, Fin.sum_univ_three]; linarith
      simp only
      rw [this, Real.sqrt_sq he]
    refine ⟨⟨11, 4, 4, 1, 1, 1⟩, ⟨⟨0, 0, 3, 5⟩, ⟨0, 0, -3, 5⟩, ⟨0, 0, 0, 1⟩, 1⟩, ⟨?_, ?_, ?_, ?_⟩, ⟨?_, ?_, ?_, ?_⟩, ?_⟩
    · exact en _ _ _ (by norm_num) (by norm_num)
    · exact en _ _ _ (by norm_num) (by norm_num)
    · exact en _ _ _ (by norm_num) (by norm_num)
    · exact lv_sum _ _ _ _ (by norm_num) (by norm_num) (by norm_num) (by norm_num)
    · exact en _ _ _ (by norm_num) (by norm_num)
    · exact en _ _ _ (by norm_num) (by norm_num)
    · exact en _ _ _ (by norm_num) (by norm_num)
    · exact lv_sum _ _ _ _ (by norm_num [mirrorDecay, mirrorZ]) (by norm_num [mirrorDecay, mirrorZ])
        (by norm_num [mirrorDecay, mirrorZ]) (by norm_num [mirrorDecay, mirrorZ])
    · intro e
      have := congrArg LV.z e
      simp [mirrorDecay, mirrorZ] at this
      norm_num at this

/-! ### Cases -/

open DemoGen in
/-- Two events of a three-body decay in Python: the weights are those of `Generated`. -/
example (s : D3State) (hg : s.grid = Demo3.demoGrid) (marks : ResObj → Bool) (u : Nat → ℝ) : ∃ a,
    Demo3.pdf.pyGenerate s marks Demo3.h0 (fun n => List.replicate n (still 2)) u 2 = .ok a
      ∧ a.particles.shape = [3, 2, 3] ∧ a.weights.cells [1] = some (1 / 2) := by
  obtain ⟨a, ws, fl, h1, h2, -, -, -, -, -, -, -, h3, h4, -⟩ := C108_three_partial Demo3.decay Demo3.good (fun _ => 0) Demo3.rs
    Demo3.built Demo3.built_eq (by simp [Demo3.rs, IsSplineRes]) (by decide) Demo3.eff s (by rw [hg]; rfl) (by rw [hg]; decide) marks
    Demo3.h0 (fun n => List.replicate n (still 2)) (by simp) u 2 (by omega) (by omega)
  refine ⟨a, h1, h2, ?_⟩
  have hw : ws = [1 / 2, 1 / 2] := by
    rw [h3, hg, Demo3.described_grid]
    simp only [List.replicate, List.map_cons, List.map_nil, still_masses, Demo3.described_centre, Demo3.inside_centre, if_true]
    norm_num [Demo3.h0, still]
  rw [h4.2 1 (by rw [hw]; simp), hw]
  rfl

/-- The hypotheses of `C108_four_partial` hold for a PDF of one amplitude that has been evaluated. -/
example (junk : Nat → Nat → ℝ) (h0 h : Nat → ℝ) (d : Decay4) (eff : (Nat → ℝ) → Ev4 → ℝ) (mc data : List Ev4) (g : Gen4)
    (u : Nat → ℝ) : ∃ built s a, [exAmp].mapM (ampBuild junk h0) = some built
      ∧ (fourBodyPdf [d.M, d.m1, d.m2, d.m3, d.m4] [exAmp] built eff mc).pyGenerate (fun _ => false) h s
          (fun n => List.replicate n g) u 7 = .ok a
      ∧ a.particles.cells [3, 6, 3] = some g.p4.z := by
  obtain ⟨o, ho⟩ : ∃ o, lsBuild junk h0 exRbw = some o := ⟨_, rfl⟩
  have hb : [exAmp].mapM (ampBuild junk h0) = some [⟨[o], exAmp.sf.map sfBuild, 1⟩] := by
    simp [exAmp, ampBuild, ho]
  have hle : (lineShapesOf [(⟨[o], exAmp.sf.map sfBuild, 1⟩ : Amp4 LsObj SfObj)]).length ≤ 1 := by
    simp [lineShapesOf, addUnique]
  have hm : MarksFrom none [.setData data, .eval (fun _ => true) h] := ⟨fun _ h => absurd h (by simp), trivial⟩
  obtain ⟨s, hs⟩ := Option.ne_none_iff_exists'.1 (C49_no_overflow Real.sqrt
    (fourBodyPdf [d.M, d.m1, d.m2, d.m3, d.m4] [exAmp] [⟨[o], exAmp.sf.map sfBuild, 1⟩] eff mc) hle
    [.setData data, .eval (fun _ => true) h])
  obtain ⟨a, ws, fl, h1, -, -, -, -, -, h2, -⟩ := C108_four_partial junk h0 d [exAmp] _ hb
    (by intro a ha c hc; rw [List.mem_singleton.1 ha] at hc; rw [List.mem_singleton.1 hc]; exact id) eff mc hle
    [.setData data, .eval (fun _ => true) h] hm s hs (fun _ => false) h (fun n => List.replicate n g) (by simp) u 7 (by omega)
    (by omega)
  exact ⟨_, s, a, hb, h1, (h2 6 g.p4 (by simp [List.replicate])).2.2.2⟩

/-- A call that succeeds with a decay time, and one that raises an exception. -/
example (s : T4State ℝ) (rngT rngA : Nat → ℝ) (g : Gen4) : ∃ a,
    (exT4 (fun _ => 1) []).pyGenerate (fun _ => false) exT4P 0 s (fun n => List.replicate n g) (fun _ => 1) rngT rngA 0 3 = .ok a
      ∧ a.vars.shape = [6, 3] := by
  have h := C69_throws (exT4 (fun _ => 1) []) (by decide) (by decide) (fun _ => false) exT4P rfl 0 s
    ((List.replicate 3 g).map fun _ => 1) rngT rngA 0
  cases he : (exT4 (fun _ => 1) []).generateSig (fun _ => false) exT4P 0 s ((List.replicate 3 g).map fun _ => 1) rngT rngA 0 with
  | ok times weights flags M s' =>
    obtain ⟨a, h1, -, h2, -⟩ := C108_time_partial (exT4 (fun _ => 1) []) (by decide) (by decide) (fun _ => false) exT4P rfl 0 s
      (fun n => List.replicate n g) (fun _ => 1) rngT rngA 0 3 (by omega) (by simp) times weights flags M s' he
    exact ⟨a, h1, by rw [h2]; simp⟩
  | thrown => exact absurd rfl (h.1.1 he).1
  | undefined => exact absurd (h.2.1 he) (by simp [List.replicate])

/-! ### The plot -/

section
variable {K : Type} [Field K] [LinearOrder K]

theorem zeros_ok (n m : Nat) : ∃ a, arrLoop (fun i => arrLoop (fun j (a : NdArray K) => a.setAt [i, j] 0) m 0) n 0
    (NdArray.new K [n, m]) = .ok a ∧ IsTable a n m fun _ _ => 0 := by
  obtain ⟨a, e, h⟩ := loop_inv (fun i => arrLoop (fun j (a : NdArray K) => a.setAt [i, j] 0) m 0)
    (fun i => Filled [n, m] (fun _ => (0 : K)) fun q => ∃ i' < i, ∃ j < m, q = [i', j]) n (by
      intro i a hi hp
      obtain ⟨a', e, h⟩ := loop_inv (fun j (a : NdArray K) => a.setAt [i, j] 0)
        (fun j => Filled [n, m] (fun _ => (0 : K)) fun q => (∃ i' < i, ∃ j < m, q = [i', j]) ∨ ∃ j' < j, q = [i, j']) m (by
          intro j a hj hp
          obtain ⟨a', e, h⟩ := set_filled _ _ _ a hp [i, j] (by simp [inShape, hi, hj]) 0 rfl
          refine ⟨a', e, h.mono ?_⟩
          rintro q (hq | ⟨j', hj', rfl⟩)
          · exact Or.inl (Or.inl hq)
          · by_cases ej : j' = j
            · exact Or.inr (by rw [ej])
            · exact Or.inl (Or.inr ⟨j', by omega, rfl⟩))
        m 0 a (by omega) (hp.mono (by
          rintro q (hq | ⟨j', hj', -⟩)
          · exact hq
          · omega))
      refine ⟨a', e, h.mono ?_⟩
      rintro q ⟨i', hi', j, hj, rfl⟩
      by_cases ei : i' = i
      · exact Or.inr ⟨j, hj, by rw [ei]⟩
      · exact Or.inl ⟨i', by omega, j, hj, rfl⟩)
    n 0 (NdArray.new K [n, m]) (by omega) ⟨rfl, by rintro q ⟨j, hj, -⟩; omega⟩
  exact ⟨a, e, h.1, fun i j hi hj => h.2 _ ⟨i, hi, j, hj, rfl⟩⟩

/-- The statements of the loop over the events. -/
def plotBody (P : Plotter K) : Nat → NdArray K → ArrOut (NdArray K) := fun j a =>
  match P.getX j, P.getY j, P.getVal j 0 with
  | some x, some y, some v => a.setAt [x, y] v
  | _, _, _ => .raised

omit [Field K] [LinearOrder K] in
theorem plotBody_at (P : Plotter K) (cells : List (Nat × Nat)) (v : Nat × Nat → K) (hx : P.xbins = cells.map (·.1))
    (hy : P.ybins = cells.map (·.2)) (hv : ∃ l, P.pdfValues = cells.map v :: l) (j : Nat) (hj : j < cells.length) (a : NdArray K) :
    plotBody P j a = a.setAt [cells[j].1, cells[j].2] (v cells[j]) := by
  obtain ⟨l, hv⟩ := hv
  have e1 : P.getX j = some cells[j].1 := by
    unfold Plotter.getX; rw [hx, List.getElem?_map, List.getElem?_eq_getElem hj]; rfl
  have e2 : P.getY j = some cells[j].2 := by
    unfold Plotter.getY; rw [hy, List.getElem?_map, List.getElem?_eq_getElem hj]; rfl
  have e3 : P.getVal j 0 = some (v cells[j]) := by
    unfold Plotter.getVal; rw [hv, List.getElem?_cons_zero, Option.bind_some, List.getElem?_map, List.getElem?_eq_getElem hj]; rfl
  unfold plotBody
  rw [e1, e2, e3]

theorem plot_array (P : Plotter K) (cells : List (Nat × Nat)) (v : Nat × Nat → K) (hx : P.xbins = cells.map (·.1))
    (hy : P.ybins = cells.map (·.2)) (hv : ∃ l, P.pdfValues = cells.map v :: l) (hn : P.getNumEvents = cells.length)
    (t : Store K) (hin : ∀ c ∈ cells, c.1 < (t P.m12).numBins ∧ c.2 < (t P.m13).numBins) :
    ∃ a, P.pyMake2D t = .ok a
      ∧ IsTable a (t P.m12).numBins (t P.m13).numBins fun i j => if (i, j) ∈ cells then v (i, j) else 0 := by
  obtain ⟨z, hz, z1, z2⟩ := zeros_ok (K := K) (t P.m12).numBins (t P.m13).numBins
  obtain ⟨a, e, h⟩ := loop_inv (plotBody P)
    (fun k a => IsTable a (t P.m12).numBins (t P.m13).numBins fun i j => if (i, j) ∈ cells.take k then v (i, j) else 0)
    cells.length (by
      intro k a hk hp
      rw [plotBody_at P cells v hx hy hv k hk]
      obtain ⟨b1, b2⟩ := hin cells[k] (List.getElem_mem hk)
      unfold NdArray.setAt
      rw [hp.1, if_pos (by simp [inShape, b1, b2])]
      refine ⟨_, rfl, rfl, ?_⟩
      intro i j hi hj
      have ht : (i, j) ∈ cells.take (k + 1) ↔ (i, j) ∈ cells.take k ∨ (i, j) = cells[k] := by
        rw [List.take_add_one, List.getElem?_eq_getElem hk]
        simp only [Option.toList_some, List.mem_append, List.mem_singleton]
      by_cases e : (i, j) = cells[k]
      · have e1 : i = cells[k].1 := by rw [← e]
        have e2 : j = cells[k].2 := by rw [← e]
        simp only [← e1, ← e2, if_true]
        rw [if_pos (ht.2 (Or.inr e)), e]
      · have hne : ¬ ([i, j] = [cells[k].1, cells[k].2]) := by
          intro h
          simp only [List.cons.injEq, and_true] at h
          exact e (Prod.ext h.1 h.2)
        simp only [hne, if_false]
        rw [hp.2 i j hi hj]
        have hiff : (i, j) ∈ cells.take (k + 1) ↔ (i, j) ∈ cells.take k := ht.trans (or_iff_left e)
        simp only [hiff])
    cells.length 0 z (by omega) ⟨z1, fun i j hi hj => by simpa using z2 i j hi hj⟩
  refine ⟨a, ?_, by rw [List.take_length] at h; exact h⟩
  unfold Plotter.pyMake2D
  rw [hz, hn]
  exact e

omit [Field K] [LinearOrder K] in
theorem loop_raised (P : Plotter K) (cells : List (Nat × Nat)) (v : Nat × Nat → K) (hx : P.xbins = cells.map (·.1))
    (hy : P.ybins = cells.map (·.2)) (hv : ∃ l, P.pdfValues = cells.map v :: l) (n12 n13 : Nat) :
    ∀ (n j : Nat) (a : NdArray K), j + n = cells.length → a.shape = [n12, n13] →
      (∃ c ∈ cells.drop j, ¬ (c.1 < n12 ∧ c.2 < n13)) → arrLoop (plotBody P) n j a = .raised := by
  intro n
  induction n with
  | zero =>
    rintro j a hj - ⟨c, hc, -⟩
    rw [List.drop_eq_nil_of_le (by omega)] at hc
    simp at hc
  | succ n ih =>
    rintro j a hj hs ⟨c, hc, hout⟩
    have hlt : j < cells.length := by omega
    unfold arrLoop
    rw [plotBody_at P cells v hx hy hv j hlt]
    unfold NdArray.setAt
    rw [hs]
    by_cases hin : cells[j].1 < n12 ∧ cells[j].2 < n13
    · rw [if_pos (by simp [inShape, hin.1, hin.2])]
      refine ih (j + 1) _ (by omega) rfl ⟨c, ?_, hout⟩
      rw [List.drop_eq_getElem_cons hlt, List.mem_cons] at hc
      rcases hc with rfl | hc
      · exact absurd hin hout
      · exact hc
    · rw [if_neg (by simpa [inShape] using hin)]
      rfl

variable [IsStrictOrderedRing K]

/-- **C108 (plot).**  `make2D` returns to Python an array with one entry for each pair of bins of m12 and m13: the density at the
centre of the bin if that is in the decay region, and zero otherwise; whatever the values of the observables are by then, as long as
their numbers of bins are the same.  `getExtent` gives the limits. -/
theorem C108_plot (s : Store K) (m12 m13 ev : Nat) (inside : K → K → Bool) (hr : PlotReady s m12 m13 ev inside)
    (p : K → K → K) (dens : List (K → K → K)) (pdf : UDS K → Option (List (List K)))
    (hpdf : PlotValues m12 m13 ev (p :: dens) pdf) (mother : K) :
    ∃ s' P, Plotter.construct m12 m13 ev inside mother pdf s = (s', .done, some P)
      ∧ P.pyExtent s' = [(s m12).lower, (s m12).upper, (s m13).lower, (s m13).upper]
      ∧ (s' m12).numBins = (s m12).numBins ∧ (s' m13).numBins = (s m13).numBins
      ∧ ∀ t : Store K, (t m12).numBins = (s m12).numBins → (t m13).numBins = (s m13).numBins →
        ∃ a, P.pyMake2D t = .ok a ∧ IsTable a (s m12).numBins (s m13).numBins fun i j =>
          if inside (binCentre (s m12) i) (binCentre (s m13) j) then p (binCentre (s m12) i) (binCentre (s m13) j) else 0 := by
  obtain ⟨s', P, hc, hP, hsame, -⟩ := construct_ok s m12 m13 ev inside hr (p :: dens) pdf hpdf mother
  have hlen : P.getNumEvents = (allowedCells (s m12) (s m13) inside).length := by
    unfold Plotter.getNumEvents
    rw [hP.holds.1]
    simp
  have f2 := hsame m12
  have f3 := hsame m13
  refine ⟨s', P, hc, ?_, ?_, ?_, ?_⟩
  · unfold Plotter.pyExtent
    rw [hP.o2, hP.o3]
    conv_rhs => rw [← f2, ← f3]
  · conv_rhs => rw [← f2]
  · conv_rhs => rw [← f3]
  · intro t h2 h3
    obtain ⟨a, e, t1, t2⟩ := plot_array P _ (fun c => p (binCentre (s m12) c.1) (binCentre (s m13) c.2)) hP.xs hP.ys ⟨_, hP.vals⟩ hlen t
      (by
        intro c hc
        rw [hP.o2, hP.o3, h2, h3]
        exact allowed_lt _ _ _ c hc)
    rw [hP.o2, hP.o3, h2, h3] at t1 t2
    refine ⟨a, e, t1, ?_⟩
    intro i j hi hj
    rw [t2 i j hi hj]
    have hmem : (i, j) ∈ allowedCells (s m12) (s m13) inside ↔ inside (binCentre (s m12) i) (binCentre (s m13) j) = true := by
      unfold allowedCells
      rw [List.mem_filter, List.mem_flatMap]
      constructor
      · exact fun h => h.2
      · exact fun h => ⟨⟨i, List.mem_range.2 hi, List.mem_map.2 ⟨j, List.mem_range.2 hj, rfl⟩⟩, h⟩
    simp only [hmem]

/-- **C108 (plot, other bins).**  If the user has made the number of bins of an observable so small since the plotter was built
that a bin of the decay region no longer exists, `make2D` raises an exception; nothing is written outside of the array. -/
theorem C108_plot_fewer (s : Store K) (m12 m13 ev : Nat) (inside : K → K → Bool) (hr : PlotReady s m12 m13 ev inside)
    (p : K → K → K) (dens : List (K → K → K)) (pdf : UDS K → Option (List (List K)))
    (hpdf : PlotValues m12 m13 ev (p :: dens) pdf) (mother : K) :
    ∃ s' P, Plotter.construct m12 m13 ev inside mother pdf s = (s', .done, some P)
      ∧ ∀ (t : Store K) (i j : Nat), i < (s m12).numBins → j < (s m13).numBins →
        inside (binCentre (s m12) i) (binCentre (s m13) j) = true → ((t m12).numBins ≤ i ∨ (t m13).numBins ≤ j) →
        P.pyMake2D t = .raised := by
  obtain ⟨s', P, hc, hP, -, -⟩ := construct_ok s m12 m13 ev inside hr (p :: dens) pdf hpdf mother
  have hlen : P.getNumEvents = (allowedCells (s m12) (s m13) inside).length := by
    unfold Plotter.getNumEvents
    rw [hP.holds.1]
    simp
  refine ⟨s', P, hc, ?_⟩
  intro t i j hi hj hin hout
  obtain ⟨z, hz, z1, -⟩ := zeros_ok (K := K) (t P.m12).numBins (t P.m13).numBins
  unfold Plotter.pyMake2D
  rw [hz, hlen]
  refine loop_raised P _ (fun c => p (binCentre (s m12) c.1) (binCentre (s m13) c.2)) hP.xs hP.ys ⟨_, hP.vals⟩ _ _ _ 0 z (by omega) z1
    ⟨(i, j), ?_, ?_⟩
  · unfold allowedCells
    rw [List.drop_zero, List.mem_filter, List.mem_flatMap]
    exact ⟨⟨i, List.mem_range.2 hi, List.mem_map.2 ⟨j, List.mem_range.2 hj, rfl⟩⟩, hin⟩
  · rw [hP.o2, hP.o3]
    simp only
    omega

end

open Demo3 PlotDemo in
/-- The demonstration decay with one bin: the array has the entry 1. -/
example : ∃ s' P a, Plotter.construct 0 1 2 pdf.inside 3 flat store = (s', .done, some P) ∧ P.pyMake2D s' = .ok a
    ∧ a.shape = [1, 1] ∧ a.cells [0, 0] = some 1 := by
  obtain ⟨s', P, h1, -, h2, h3, h4⟩ := C108_plot store 0 1 2 pdf.inside ready (fun _ _ => (1 : ℝ)) [] flat flat_values 3
  obtain ⟨a, e, t1, t2⟩ := h4 s' h2 h3
  refine ⟨s', P, a, h1, e, t1, ?_⟩
  rw [t2 0 0 (by decide) (by decide)]
  beta_reduce
  rw [centre 0 (by decide), centre 1 (by decide), inside_centre, if_pos rfl]

end GooFit
