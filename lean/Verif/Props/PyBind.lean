import Verif.Model.PyBindings
import Verif.Spec.PyHeaders
import Verif.Lemmas.PyBind

/-!
# C107: a call from Python reaches the C++ function it is meant for, with each value in its place

`bindings` is what `python/` binds, `dispatch` is pybind11's choice between the signatures bound under
one name; `Spec/PyBind.lean` says what a call should do, and `Spec/PyHeaders.lean` what the headers
declare.
-/

set_option autoImplicit false

namespace GooFit

open PyBind Spec

/-- Within a signature no keyword is used twice, and no two signatures bound under one name can be
meant at once. -/
theorem bindings_apart : bindings.all (fun b =>
    b.2.all (fun s => decide (kws s).Nodup) &&
    b.2.zipIdx.all (fun e => b.2.zipIdx.all (fun e' => e.2 == e'.2 || apart e.1 e'.1))) = true := by
  decide +kernel

theorem bindings_kws {name : String} {ss : List Sig} (hb : (name, ss) ∈ bindings) {s : Sig}
    (hs : s ∈ ss) : (kws s).Nodup := by
  have h := List.all_eq_true.1 bindings_apart _ hb
  rw [Bool.and_eq_true] at h
  simpa using List.all_eq_true.1 h.1 s hs

theorem bindings_pair {name : String} {ss : List Sig} (hb : (name, ss) ∈ bindings) {i j : Nat}
    {s s' : Sig} (hij : i ≠ j) (hs : ss[i]? = some s) (hs' : ss[j]? = some s') :
    apart s s' = true := by
  have h := List.all_eq_true.1 bindings_apart _ hb
  rw [Bool.and_eq_true] at h
  have h1 := List.all_eq_true.1 h.2 (s, i) (List.mem_zipIdx_iff_getElem?.2 (by simpa using hs))
  have h2 := List.all_eq_true.1 h1 (s', j) (List.mem_zipIdx_iff_getElem?.2 (by simpa using hs'))
  simp only [Bool.or_eq_true, beq_iff_eq] at h2
  rcases h2 with h2 | h2
  · exact absurd h2 hij
  · exact h2

/-- **C107**: for everything bound in `python/`, a call that fits one of the signatures calls the C++
function of that signature, and each of its parameters receives what the value given for it stands for
— the value in its position, the value of its keyword, or its default — whatever other signatures are
bound under the same name and in whatever order the keywords come. -/
theorem C107_call {name : String} {ss : List Sig} (hb : (name, ss) ∈ bindings) {i : Nat} {s : Sig}
    (hs : ss[i]? = some s) {c : PyCall} {vs : List PyVal} {xs : List CVal} (h : Fits s c vs xs) :
    dispatch ss c = some (i, xs) := by
  have hk := bindings_kws hb (List.mem_of_getElem? hs)
  refine dispatch_only hs (tryCall_fits hk h) ?_
  intro e s' he hs'
  exact apart_none true hk (bindings_kws hb (List.mem_of_getElem? hs')) h
    (bindings_pair hb (Ne.symm he) hs hs')

/-- `PolynomialPdf("p", x, x0=v, weights=[u, w])`: keywords out of order, the default of `lowestDegree`,
and three constructors to choose from. -/
def exampleCall107 : PyCall :=
  ⟨[.atom (.str "p"), .atom (.obj 0 [.observable] (some true))],
    [("x0", .atom (.obj 1 [.variable] (some true))),
     ("weights", .seq [.obj 2 [.variable] (some true), .obj 3 [.variable] none])]⟩

/-- The hypotheses are met: the call fits the first of the constructors … -/
theorem exampleCall107_fits : ∃ s, pyPolynomialPdf[0]? = some s ∧ Fits s exampleCall107
    [.atom (.str "p"), .atom (.obj 0 [.observable] (some true)),
      .seq [.obj 2 [.variable] (some true), .obj 3 [.variable] none],
      .atom (.obj 1 [.variable] (some true)), .atom (.int 0)]
    [.atom (.str "p"), .atom (.ref 0), .list [.ref 2, .ref 3], .atom (.ref 1), .atom (.int 0)] := by
  refine ⟨_, rfl, by decide, ⟨by decide, ?_, rfl, ?_⟩, rfl, ?_⟩
  · intro n v h
    simp only [exampleCall107, List.mem_cons, Prod.mk.injEq, List.not_mem_nil, or_false] at h
    rcases h with ⟨rfl, -⟩ | ⟨rfl, -⟩
    · exact ⟨3, _, by decide, rfl, rfl⟩
    · exact ⟨2, _, by decide, rfl, rfl⟩
  · intro j p v hp hv
    match j with
    | 0 => cases hp; cases hv; exact .position rfl
    | 1 => cases hp; cases hv; exact .position rfl
    | 2 => cases hp; cases hv; exact .keyword "weights" (by decide) rfl (by simp [exampleCall107])
    | 3 => cases hp; cases hv; exact .keyword "x0" (by decide) rfl (by simp [exampleCall107])
    | 4 =>
      cases hp; cases hv
      exact .default (by decide) (by rintro n w ⟨⟩; simp [exampleCall107]) (by simp) rfl
    | _ + 5 => cases hp
  · intro j p v x hp hv hx
    match j with
    | 0 => cases hp; cases hv; cases hx; exact .one (.str _)
    | 1 => cases hp; cases hv; cases hx; exact .one (.inst _ _ (by simp))
    | 2 =>
      cases hp; cases hv; cases hx
      exact .insts (.cons (.inst _ _ (by simp)) (.cons (.inst _ _ (by simp)) .nil))
    | 3 => cases hp; cases hv; cases hx; exact .one (.inst _ _ (by simp))
    | 4 => cases hp; cases hv; cases hx; exact .one (.uint (.int 0) (by omega) (by omega))
    | _ + 5 => cases hp

/-- … and so reaches it. -/
example : dispatch pyPolynomialPdf exampleCall107 = some (0, [.atom (.str "p"), .atom (.ref 0),
    .list [.ref 2, .ref 3], .atom (.ref 1), .atom (.int 0)]) := by
  obtain ⟨s, hs, h⟩ := exampleCall107_fits
  exact C107_call (name := "PolynomialPdf") (by simp [bindings]) hs h

/-- **C107**: a call that is not refused fits a signature — each value is a proper value for the
parameter it is given for, nothing is left over and nothing is missing — provided each parameter of type
`bool` is given `True` or `False` (see `C107_violation_truth`). -/
theorem C107_accepted_partial {name : String} {ss : List Sig} (hb : (name, ss) ∈ bindings)
    {c : PyCall} (hc : (c.keyword.map Prod.fst).Nodup) {i : Nat} {xs : List CVal}
    (h : dispatch ss c = some (i, xs))
    (ht : ∀ s vs, ss[i]? = some s → Fills s c vs → ∀ (j : Nat) (p : Param) (v : PyVal),
      s[j]? = some p → vs[j]? = some v → p.ty = .bool → ∃ b, v = .atom (.bool b)) :
    ∃ s vs, ss[i]? = some s ∧ Fits s c vs xs := by
  obtain ⟨s, hs, hx⟩ := dispatch_some h
  have hk := bindings_kws hb (List.mem_of_getElem? hs)
  unfold tryCall at hx
  cases hf : fill s c.positional c.keyword with
  | none => simp [hf] at hx
  | some vs =>
    rw [hf] at hx
    have F : Fills s c vs := (fill_iff s _ _ vs hk hc).1 hf
    obtain ⟨h1, h2, h3⟩ := loadAll_iff.1 hx
    exact ⟨s, vs, hs, hc, F, h2, fun j p v x hp hv hx =>
      load_sound (h3 j p v x hp hv hx) (ht s vs hs F j p v hp hv)⟩

/-- `Variable("v", 1, 2, 3)`, which gives three integers for numbers: not refused, and so it fits the
constructor with limits. -/
example : ∃ s vs, pyVariable[2]? = some s ∧ Fits s ⟨[.atom (.str "v"), .atom (.int 1), .atom (.int 2),
    .atom (.int 3)], []⟩ vs [.atom (.str "v"), .atom (.flt 1), .atom (.flt 2), .atom (.flt 3)] := by
  refine C107_accepted_partial (name := "Variable") (ss := pyVariable) (by simp [bindings])
    (by simp) (by decide +kernel) ?_
  intro s vs hs _ j p v hp _ hb
  exfalso
  cases hs
  match j with
  | 0 => cases hp; cases hb
  | 1 => cases hp; cases hb
  | 2 => cases hp; cases hb
  | 3 => cases hp; cases hb
  | _ + 4 => cases hp

/-- **C107**: leaving a parameter out is fine wherever Python offers a default: the default is a proper
value for the parameter — everywhere but in `Amp4Body_TD` (see `C107_violation_default`). -/
theorem C107_defaults_partial {name : String} {ss : List Sig} (hb : (name, ss) ∈ bindings)
    (hn : name ≠ "Amp4Body_TD") {s : Sig} (hs : s ∈ ss) {p : Param} (hp : p ∈ s) {v : PyVal}
    (hv : p.dflt = some v) : ∃ x, Means p.ty v x := by
  have key : bindings.all (fun b => b.1 == "Amp4Body_TD" || b.2.all (fun s => s.all (fun p =>
      match p.dflt with
      | none => true
      | some v => (load true p.ty v).isSome && (p.ty != .bool ||
          (v == .atom (.bool true) || v == .atom (.bool false)))))) = true := by
    decide +kernel
  have h1 := List.all_eq_true.1 key _ hb
  simp only [Bool.or_eq_true, beq_iff_eq] at h1
  rcases h1 with h1 | h1
  · exact absurd h1 hn
  · have h2 := List.all_eq_true.1 (List.all_eq_true.1 h1 s hs) p hp
    rw [hv] at h2
    simp only [Bool.and_eq_true, Bool.or_eq_true, beq_iff_eq, bne_iff_ne] at h2
    obtain ⟨x, hx⟩ := Option.isSome_iff_exists.1 h2.1
    refine ⟨x, load_sound hx ?_⟩
    intro e
    rcases h2.2 with h | h | h
    · exact absurd e h
    · exact ⟨_, h⟩
    · exact ⟨_, h⟩

/-- `norm` may be left out of `Resonances.RBW`. -/
example : ∃ s p, s ∈ pyResonances_RBW ∧ p ∈ s ∧ p.kw = some "norm" ∧ p.dflt = some (.atom (.bool true)) ∧
    ("Resonances.RBW", pyResonances_RBW) ∈ bindings :=
  ⟨_, ⟨some "norm", .bool, some (.atom (.bool true))⟩, List.mem_singleton.2 rfl, by simp, rfl, rfl,
    by simp [bindings]⟩

/-- A decidable form of `Declares`. -/
def declaresB (h : List Declared) (s : Sig) : Bool :=
  decide (s.length ≤ h.length) &&
  (s.zip h).all (fun e =>
    (match e.1.kw with
     | none => true
     | some k => k == e.2.name || e.2.name == "_" ++ k || renamed.contains (k, e.2.name)) &&
    e.1.ty == e.2.ty &&
    (match e.1.dflt, e.2.dflt with
     | some v, some w => (load true e.1.ty v).isSome && load true e.1.ty v == load true e.1.ty w &&
         (e.1.ty != .bool || (v == .atom (.bool true) || v == .atom (.bool false)) && v == w)
     | _, _ => true)) &&
  (h.drop s.length).all (fun d => d.dflt.isSome)

theorem declaresB_spec {h : List Declared} {s : Sig} (hb : declaresB h s = true) : Declares h s := by
  unfold declaresB at hb
  simp only [Bool.and_eq_true, decide_eq_true_eq] at hb
  obtain ⟨⟨h1, h2⟩, h3⟩ := hb
  have pick : ∀ (j : Nat) (p : Param) (d : Declared), s[j]? = some p → h[j]? = some d →
      (p, d) ∈ s.zip h := by
    intro j p d hp hd
    refine List.mem_of_getElem? (i := j) ?_
    rw [List.getElem?_zip_eq_some]
    exact ⟨hp, hd⟩
  refine ⟨h1, ?_, ?_, ?_, ?_⟩
  · intro j p d k hp hd hk
    have := List.all_eq_true.1 h2 _ (pick j p d hp hd)
    simp only [hk, Bool.and_eq_true, Bool.or_eq_true, beq_iff_eq] at this
    rcases this.1.1 with (h | h) | h
    · exact .inl h
    · exact .inr (.inl h)
    · exact .inr (.inr (by simpa using h))
  · intro j p d hp hd
    have := List.all_eq_true.1 h2 _ (pick j p d hp hd)
    simp only [Bool.and_eq_true, beq_iff_eq] at this
    exact this.1.2
  · intro j p d v w hp hd hv hw
    have := List.all_eq_true.1 h2 _ (pick j p d hp hd)
    simp only [hv, hw, Bool.and_eq_true, Bool.or_eq_true, beq_iff_eq, bne_iff_ne] at this
    obtain ⟨-, ⟨hs, he⟩, hbool⟩ := this
    obtain ⟨x, hx⟩ := Option.isSome_iff_exists.1 hs
    refine ⟨x, load_sound hx ?_, load_sound (he ▸ hx) ?_⟩
    · intro e
      rcases hbool with h | ⟨h | h, -⟩
      · exact absurd e h
      · exact ⟨_, h⟩
      · exact ⟨_, h⟩
    · intro e
      rcases hbool with h | ⟨h | h, h'⟩
      · exact absurd e h
      · exact ⟨_, h' ▸ h⟩
      · exact ⟨_, h' ▸ h⟩
  · intro j d hj hd
    have := List.all_eq_true.1 h3 d (by
      refine List.mem_of_getElem? (i := j - s.length) ?_
      rw [List.getElem?_drop]
      rw [show s.length + (j - s.length) = j by omega]
      exact hd)
    intro e
    rw [e] at this
    simp at this

/-- **C107**: what is bound is what the headers declare: parameter for parameter the same types in the
same order, each keyword the name of its parameter, equal defaults — everywhere but for `BernsteinPdf`,
`from_matrix` and `fillDataSetMC` (see `C107_violation_degree`, `C107_violation_keyword`). -/
theorem C107_declared_partial {name : String} {ss : List Sig} (hb : (name, ss) ∈ bindings)
    (hn : name ≠ "BernsteinPdf" ∧ name ≠ "UnbinnedDataSet.from_matrix" ∧
      name ≠ "DalitzPlotter.fillDataSetMC") :
    ∃ hs, (name, hs) ∈ headers ∧ hs.length = ss.length ∧
      ∀ (i : Nat) (s : Sig) (h : List Declared), ss[i]? = some s → hs[i]? = some h →
        Declares h s := by
  have key : (bindings.zip headers).all (fun e => e.1.1 == e.2.1 && e.1.2.length == e.2.2.length &&
      (["BernsteinPdf", "UnbinnedDataSet.from_matrix", "DalitzPlotter.fillDataSetMC"].contains e.1.1 ||
        (e.1.2.zip e.2.2).all (fun p => declaresB p.2 p.1))) = true := by decide +kernel
  have hl : bindings.length = headers.length := by decide +kernel
  obtain ⟨k, hk⟩ := List.getElem?_of_mem hb
  have hlt : k < headers.length := hl ▸ (List.getElem?_eq_some_iff.1 hk).1
  have hh : headers[k]? = some headers[k] := List.getElem?_eq_getElem hlt
  have h1 := List.all_eq_true.1 key ((name, ss), headers[k]) (by
    refine List.mem_of_getElem? (i := k) ?_
    rw [List.getElem?_zip_eq_some]
    exact ⟨hk, hh⟩)
  simp only [Bool.and_eq_true, Bool.or_eq_true, beq_iff_eq] at h1
  obtain ⟨⟨h2, h3⟩, h4⟩ := h1
  refine ⟨headers[k].2, ?_, h3.symm, ?_⟩
  · rw [h2]
    exact List.mem_of_getElem? hh
  · intro i s h hs hh'
    rcases h4 with h4 | h4
    · simp [hn] at h4
    · refine declaresB_spec (List.all_eq_true.1 h4 (s, h) ?_)
      refine List.mem_of_getElem? (i := i) ?_
      rw [List.getElem?_zip_eq_some]
      exact ⟨hs, hh'⟩

/-- The header of `Resonances::RBW` is met by its binding. -/
example : ∃ hs, ("Resonances.RBW", hs) ∈ headers ∧ hs.length = pyResonances_RBW.length ∧
    ∀ (i : Nat) (s : Sig) (h : List Declared), pyResonances_RBW[i]? = some s → hs[i]? = some h →
      Declares h s :=
  C107_declared_partial (by simp [bindings]) (by decide)

/-- **C107, violated**: an `Amp4Body_TD` cannot be made from Python without saying how many events its
normalisation uses: the default `5e6` is a float and the parameter an `unsigned int`, so every call that
leaves it out is refused. -/
theorem C107_violation_default (c : PyCall) (hc : (c.keyword.map Prod.fst).Nodup)
    (hp : c.positional.length < 8) (hk : ∀ v, ("MCeventsNorm", v) ∉ c.keyword) :
    dispatch pyAmp4Body_TD c = none := by
  have hb : ("Amp4Body_TD", pyAmp4Body_TD) ∈ bindings := by simp [bindings]
  cases hd : dispatch pyAmp4Body_TD c with
  | none => rfl
  | some r =>
    exfalso
    obtain ⟨s, hs, hx⟩ := dispatch_some (i := r.1) (xs := r.2) hd
    have hk' := bindings_kws hb (List.mem_of_getElem? hs)
    have hmem := List.mem_of_getElem? hs
    have hs7 : ∃ p, s[7]? = some p ∧ p = ⟨some "MCeventsNorm", .uint, some (.atom (.float 5000000))⟩ := by
      simp only [pyAmp4Body_TD, List.mem_singleton] at hmem
      subst hmem
      exact ⟨_, rfl, rfl⟩
    obtain ⟨p, hp7, rfl⟩ := hs7
    unfold tryCall at hx
    cases hf : fill s c.positional c.keyword with
    | none => simp [hf] at hx
    | some vs =>
      rw [hf] at hx
      have F : Fills s c vs := (fill_iff s _ _ vs hk' hc).1 hf
      obtain ⟨h1, h2, h3⟩ := loadAll_iff.1 hx
      have hlen : 7 < s.length := (List.getElem?_eq_some_iff.1 hp7).1
      have hv : vs[7]? = some vs[7] := List.getElem?_eq_getElem (by omega)
      have hy : r.2[7]? = some r.2[7] := List.getElem?_eq_getElem (by omega)
      have hload := h3 7 _ _ _ hp7 hv hy
      cases F.each 7 _ _ hp7 hv with
      | position h =>
        have := (List.getElem?_eq_some_iff.1 h).1
        omega
      | keyword n h4 h5 h6 =>
        obtain rfl := Option.some.inj h5
        exact hk _ h6
      | default h4 h5 h6 h7 =>
        rw [← Option.some.inj h7] at hload
        simp [load, loadAtom, loadInt, index] at hload

/-- `Amp4Body_TD("test", observables, DK3P_DI, res, eff, None, 1)`, the call of
`python/examples/TDDP4.py:174`, is refused. -/
example (obs : List PyAtom) : dispatch pyAmp4Body_TD ⟨[.atom (.str "test"), .seq obs,
    .atom (.obj 0 [.decayInfo4t] none), .atom (.obj 1 [.mixingTimeResolution] none),
    .atom (.obj 2 [.gooPdf] none), .atom .none, .atom (.int 1)], []⟩ = none :=
  C107_violation_default _ (by simp) (by simp) (by simp)

/-- With a number of events it is taken. -/
example : (dispatch pyAmp4Body_TD ⟨[.atom (.str "test"), .seq [.obj 3 [.observable] none],
    .atom (.obj 0 [.decayInfo4t] none), .atom (.obj 1 [.mixingTimeResolution] none),
    .atom (.obj 2 [.gooPdf] none), .atom .none, .atom (.int 1), .atom (.int 5000000)], []⟩).isSome = true := by
  decide +kernel

/-- A keyword that no signature has is refused. -/
theorem unknown_keyword {name : String} {ss : List Sig} (hb : (name, ss) ∈ bindings) {n : String}
    (hn : ∀ s ∈ ss, n ∉ kws s) {c : PyCall} (hc : (c.keyword.map Prod.fst).Nodup) {v : PyVal}
    (hv : (n, v) ∈ c.keyword) : dispatch ss c = none := by
  cases hd : dispatch ss c with
  | none => rfl
  | some r =>
    exfalso
    obtain ⟨s, hs, hx⟩ := dispatch_some (i := r.1) (xs := r.2) hd
    have hm := List.mem_of_getElem? hs
    unfold tryCall at hx
    cases hf : fill s c.positional c.keyword with
    | none => simp [hf] at hx
    | some vs =>
      have F : Fills s c vs := (fill_iff s _ _ vs (bindings_kws hb hm) hc).1 hf
      obtain ⟨j, p, -, hj, hp⟩ := F.known n v hv
      exact hn s hm (mem_kws.2 ⟨j, p, hj, hp⟩)

/-- **C107, violated**: `from_matrix(matrix=…)`, `fillDataSetMC(dataset=…)` and
`setIntegrationConstants(lo=…, hi=…, step=…)` are refused whatever else the call says, although the
bindings mean to offer those keywords. -/
theorem C107_violation_keyword (c : PyCall) (hc : (c.keyword.map Prod.fst).Nodup) (v : PyVal) :
    (("matrix", v) ∈ c.keyword → dispatch py_from_matrix c = none) ∧
    (("dataset", v) ∈ c.keyword → dispatch py_fillDataSetMC c = none) ∧
    (∀ k ∈ ["lo", "hi", "step"], (k, v) ∈ c.keyword → dispatch py_setIntegrationConstants c = none) := by
  refine ⟨fun h => ?_, fun h => ?_, fun k hk h => ?_⟩
  · exact unknown_keyword (name := "UnbinnedDataSet.from_matrix") (by simp [bindings])
      (by decide +kernel) hc h
  · exact unknown_keyword (name := "DalitzPlotter.fillDataSetMC") (by simp [bindings])
      (by decide +kernel) hc h
  · refine unknown_keyword (name := "ConvolutionPdf.setIntegrationConstants") (by simp [bindings])
      ?_ hc h
    intro s hs
    simp only [py_setIntegrationConstants, List.mem_singleton] at hs
    subst hs
    simp [kws]

/-- Given by position the matrix is taken. -/
example : dispatch py_from_matrix ⟨[.atom (.obj 0 [.ndarray] none)], [("filter", .atom (.bool true))]⟩ =
    some (0, [.atom (.ref 0), .atom (.bool true)]) := by decide +kernel

/-- The call `ArgusPdf("a", x, m, s, power)`, which forgets `upper`. -/
def forgetful107 : PyCall :=
  ⟨[.atom (.str "a"), .atom (.obj 0 [.observable] (some true)), .atom (.obj 1 [.variable] (some true)),
    .atom (.obj 2 [.variable] (some true)), .atom (.obj 3 [.variable] (some true))], []⟩

/-- **C107, violated**: `ArgusPdf("a", x, m, s, power)` forgets `upper` and fits neither constructor, but
it is not refused: a variable has a truth value (whether it is within its limits), so it is taken for
`upper` and the plain Argus function is made, without the power. -/
theorem C107_violation_truth :
    dispatch pyArgusPdf forgetful107 = some (0, [.atom (.str "a"), .atom (.ref 0), .atom (.ref 1),
      .atom (.ref 2), .atom (.bool true)]) ∧
    ∀ (i : Nat) (s : Sig) (vs : List PyVal) (xs : List CVal),
      pyArgusPdf[i]? = some s → ¬ Fits s forgetful107 vs xs := by
  have hd : dispatch pyArgusPdf forgetful107 = some (0, [.atom (.str "a"), .atom (.ref 0),
      .atom (.ref 1), .atom (.ref 2), .atom (.bool true)]) := by decide +kernel
  refine ⟨hd, ?_⟩
  intro i s vs xs hs h
  have hb : ("ArgusPdf", pyArgusPdf) ∈ bindings := by simp [bindings]
  have := C107_call hb hs h
  rw [hd] at this
  obtain ⟨rfl, rfl⟩ := Prod.mk.inj (Option.some.inj this)
  have hs0 : s[4]? = some ⟨some "upper", .bool, none⟩ := by
    simp only [pyArgusPdf, List.getElem?_cons_zero, Option.some.injEq] at hs
    subst hs
    rfl
  have hlen : 4 < s.length := (List.getElem?_eq_some_iff.1 hs0).1
  have hvl : 4 < vs.length := by
    have := h.fills.size
    omega
  have hv : vs[4]? = some vs[4] := List.getElem?_eq_getElem hvl
  have hm := h.proper 4 _ _ _ hs0 hv rfl
  cases h.fills.each 4 _ _ hs0 hv with
  | position h4 =>
    rw [← Option.some.inj h4] at hm
    cases hm with
    | one hm => cases hm
  | keyword n h4 => simp [forgetful107] at h4
  | default h4 => simp [forgetful107] at h4

/-- **C107, violated**: `BernsteinPdf` is bound with an `int` for a parameter the header declares
`unsigned int`, so a negative lowest degree, which no `unsigned int` is, is not refused. -/
theorem C107_violation_degree (id : Nat) (coeffs : List Nat) :
    dispatch pyBernsteinPdf ⟨[.atom (.str "b"), .atom (.obj id [.observable] (some true)),
      .seq (coeffs.map (fun i => .obj i [.variable] (some true))), .atom (.int (-1))], []⟩ =
        some (0, [.atom (.str "b"), .atom (.ref id), .list (coeffs.map .ref), .atom (.int (-1))]) ∧
    (∃ h d, hdBernsteinPdf[0]? = some h ∧ h[3]? = some d ∧
      ∀ x, ¬ Means d.ty (.atom (.int (-1))) x) := by
  constructor
  · have hb : ("BernsteinPdf", pyBernsteinPdf) ∈ bindings := by simp [bindings]
    have hm : (coeffs.map (fun i => PyAtom.obj i [.variable] (some true))).mapM
        (loadAtom true (.inst .variable)) = some (coeffs.map .ref) := by
      induction coeffs with
      | nil => rfl
      | cons a l ih =>
        rw [List.map_cons, List.mapM_cons, ih]
        simp [loadAtom]
    simp [dispatch, pyBernsteinPdf, firstMatch, tryCall, fill, loadAll, load_atom, load_seq, elem, hm,
      loadAtom, loadInt, index]
  · refine ⟨_, _, rfl, rfl, ?_⟩
    intro x hx
    cases hx with
    | one hx =>
      cases hx with
      | uint hc h1 h2 =>
        cases hc
        omega

end GooFit
