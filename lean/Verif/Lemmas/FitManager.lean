import Verif.Spec.FitManager
import Verif.Lemmas.Minuit
import Mathlib.Data.Matrix.Mul
import Mathlib.LinearAlgebra.Matrix.Symmetric
import Mathlib.Analysis.Real.Sqrt
import Mathlib.Tactic.Linarith
import Mathlib.Tactic.Positivity
import Mathlib.Tactic.FieldSimp
import Mathlib.Tactic.Ring
/-!
# Lemmas on the fit managers
-/
set_option autoImplicit false
namespace GooFit
open Spec FpOps
variable {F : Type} {L : Lib F}

/-- Reading back touches each parameter of the minimiser once. -/
theorem mnReadBack_other (h : Pars F) (is : List Nat) (mn : List (MnPar F)) (k : Nat)
    (hk : k ∉ is.map fun i => (h i).fitterIndex.toNat) : (mnReadBack is h mn)[k]? = mn[k]? := by
  unfold mnReadBack
  induction is generalizing mn with
  | nil => rfl
  | cons i is ih =>
    rw [List.map_cons, List.mem_cons, not_or] at hk
    rw [List.foldl_cons, ih _ hk.2, List.getElem?_modify_ne _ _ (Ne.symm hk.1)]

theorem mnReadBack_same (h : Pars F) (is : List Nat) (mn : List (MnPar F)) (i : Nat) (hi : i ∈ is)
    (hnd : (is.map fun i => (h i).fitterIndex.toNat).Nodup) :
    (mnReadBack is h mn)[(h i).fitterIndex.toNat]?
      = (mn[(h i).fitterIndex.toNat]?).map fun p => { p with value := (h i).value, kind := p.kind.setError (h i).error } := by
  induction is generalizing mn with
  | nil => exact absurd hi (by simp)
  | cons j is ih =>
    rw [List.map_cons, List.nodup_cons] at hnd
    show (mnReadBack is h _)[_]? = _
    rw [List.mem_cons] at hi
    by_cases hj : (h i).fitterIndex.toNat = (h j).fitterIndex.toNat
    · have hij : i = j := by
        rcases hi with rfl | hi
        · rfl
        · exact absurd (List.mem_map_of_mem (f := fun i => (h i).fitterIndex.toNat) hi) (by
            show (h i).fitterIndex.toNat ∉ _
            rw [hj]; exact hnd.1)
      subst hij
      rw [mnReadBack_other _ _ _ _ hnd.1, List.getElem?_modify_eq]
      rfl
    · have hi' : i ∈ is := by
        rcases hi with rfl | hi
        · exact absurd rfl hj
        · exact hi
      rw [ih _ hi' hnd.2]
      dsimp only
      rw [List.getElem?_modify_ne _ _ (Ne.symm hj)]

theorem mnReadBack_spec (h : Pars F) (vars : List Nat) (mn : List (MnPar F)) (hix : Indexed vars h) (k i : Nat)
    (hk : vars[k]? = some i) :
    (mnReadBack vars h mn)[k]? = (mn[k]?).map fun p => { p with value := (h i).value, kind := p.kind.setError (h i).error } := by
  have hnd : (vars.map fun i => (h i).fitterIndex.toNat).Nodup := by
    rw [List.nodup_map_iff_inj_on hix.nodup]
    intro a ha b hb hab
    obtain ⟨ka, hka⟩ := List.getElem?_of_mem ha
    obtain ⟨kb, hkb⟩ := List.getElem?_of_mem hb
    rw [hix.2 ka a hka, hix.2 kb b hkb] at hab
    have : ka = kb := by simpa using hab
    subst this
    rw [hka] at hkb
    exact Option.some.inj hkb
  have := mnReadBack_same h vars mn i (List.mem_of_getElem? hk) hnd
  rw [hix.2 k i hk] at this
  simpa using this

theorem mnReadBack_length (h : Pars F) (vars : List Nat) (mn : List (MnPar F)) : (mnReadBack vars h mn).length = mn.length := by
  unfold mnReadBack
  induction vars generalizing mn with
  | nil => rfl
  | cons i is ih => rw [List.foldl_cons, ih, List.length_modify]

variable [FpOps F] [DecidableEq F]

theorem Mgr2.run_snoc (t : Pdf L) (h : Pars F) (ops : List (MgrOp F)) (op : MgrOp F) :
    Mgr2.run t h (ops ++ [op]) = (Mgr2.run t h ops).bind fun s => Mgr2.step t s op := by
  unfold Mgr2.run
  simp only [bind, Option.bind]
  cases Mgr2.ctor t h with
  | none => rfl
  | some s =>
    dsimp only
    rw [List.foldlM_append]
    simp only [bind, Option.bind, List.foldlM_cons, List.foldlM_nil, pure]
    cases ops.foldlM (Mgr2.step t) s with
    | none => rfl
    | some s' =>
      dsimp only
      cases Mgr2.step t s' op <;> rfl

theorem mnRun_append (t : Pdf L) (h h1 : Pars F) (ops ops' : List (MnOp F)) (hr : mnRun t h ops = some h1) :
    mnRun t h (ops ++ ops') = ops'.foldlM (mnStep t) h1 := by
  unfold mnRun at hr ⊢
  simp only [bind, Option.bind] at hr ⊢
  cases hc : paramsCtor t h with
  | none => rw [hc] at hr; exact absurd hr (by simp)
  | some r =>
    rw [hc] at hr
    simp only at hr ⊢
    rw [List.foldlM_append, hr]
    rfl

/-- The parts of a fit. -/
theorem Mgr2.fit_parts (t : Pdf L) (m m' : Mgr2 F) (h h' : Pars F) (r : MinRun F) (hf : m.fit t h r = some (m', h')) :
    ∃ ops h1, ops.foldlM (mnStep t) h = some h1
      ∧ h' = setGooFitParams t.getParameters (fun k => (r.value k, r.error k)) h1
      ∧ m'.mn = mnReadBack t.getParameters h' m.mn ∧ m'.minos = m.minos
      ∧ m'.retval = (if r.isValid && r.hasCovariance && !r.isAboveMaxEdm && !r.hasReachedCallLimit then FitErrors.Valid
          else FitErrors.InValid)
      ∧ m'.minosErrors = (if m.minos then
          m.minosErrors ++ (t.getParameters.filter fun i => !(h1 i).fixed).map fun i => r.minos (h1 i).fitterIndex
        else m.minosErrors)
      ∧ ops = (r.calls ++ if m.minos then r.minosCalls else []).map MnOp.callAt := by
  unfold Mgr2.fit at hf
  simp only [bind, Option.bind, pure] at hf
  cases h1 : (r.calls.map MnOp.callAt).foldlM (mnStep t) h with
  | none => rw [h1] at hf; exact absurd hf (by simp)
  | some g =>
    rw [h1] at hf
    dsimp only at hf
    cases hm : m.minos with
    | false =>
      rw [hm] at hf
      simp only [Bool.false_eq_true, if_false, Option.some.injEq, Prod.mk.injEq] at hf
      obtain ⟨rfl, rfl⟩ := hf
      exact ⟨r.calls.map MnOp.callAt, g, h1, rfl, rfl, rfl, rfl, rfl, by simp⟩
    | true =>
      rw [hm] at hf
      simp only [if_true] at hf
      cases h2 : (r.minosCalls.map MnOp.callAt).foldlM (mnStep t) g with
      | none => rw [h2] at hf; exact absurd hf (by simp)
      | some g2 =>
        rw [h2] at hf
        simp only [Option.some.injEq, Prod.mk.injEq] at hf
        obtain ⟨rfl, rfl⟩ := hf
        refine ⟨r.calls.map MnOp.callAt ++ r.minosCalls.map MnOp.callAt, g2, ?_, rfl, rfl, rfl, rfl, rfl, by simp⟩
        rw [List.foldlM_append, h1]
        exact h2

/-- The variables seen by a manager have a history of `mnRun`. -/
theorem Mgr2.run_mnRun (t : Pdf L) (h : Pars F) (ops : List (MgrOp F)) (m : Mgr2 F) (h' : Pars F)
    (hr : Mgr2.run t h ops = some (m, h')) : ∃ ops', mnRun t h ops' = some h' := by
  induction ops using List.reverseRecOn generalizing m h' with
  | nil =>
    refine ⟨[], ?_⟩
    unfold Mgr2.run Mgr2.ctor at hr
    unfold mnRun
    simp only [bind, Option.bind, pure, List.foldlM_nil] at hr ⊢
    cases hc : paramsCtor t h with
    | none => rw [hc] at hr; exact absurd hr (by simp)
    | some s =>
      rw [hc] at hr
      simp only [Option.some.injEq, Prod.mk.injEq] at hr ⊢
      exact hr.2
  | append_singleton ops op ih =>
    rw [Mgr2.run_snoc] at hr
    cases h0 : Mgr2.run t h ops with
    | none => rw [h0] at hr; exact absurd hr (by simp)
    | some s =>
      rw [h0] at hr
      obtain ⟨m0, g⟩ := s
      obtain ⟨ops', hops'⟩ := ih m0 g h0
      have one : ∀ o : MnOp F, (mnStep t g o).map (fun h => (m0, h)) = some (m, h') → ∃ ops', mnRun t h ops' = some h' := by
        intro o ho
        cases hs : mnStep t g o with
        | none => rw [hs] at ho; exact absurd ho (by simp)
        | some g' =>
          rw [hs] at ho
          simp only [Option.map_some, Option.some.injEq, Prod.mk.injEq] at ho
          refine ⟨ops' ++ [o], ?_⟩
          rw [mnRun_append t h g ops' [o] hops']
          simp only [List.foldlM_cons, List.foldlM_nil, bind, Option.bind, hs, pure, ho.2]
      cases op with
      | fit r =>
        obtain ⟨o2, h1, e1, e2, _⟩ := Mgr2.fit_parts t m0 m g h' r hr
        refine ⟨ops' ++ (o2 ++ [.setParams fun k => (r.value k, r.error k)]), ?_⟩
        rw [mnRun_append t h g ops' _ hops', List.foldlM_append, e1, e2]
        rfl
      | setMinos b =>
        simp only [Option.bind, Mgr2.step, Option.some.injEq, Prod.mk.injEq] at hr
        exact ⟨ops', by rw [← hr.2]; exact hops'⟩
      | callAt v => exact one _ hr
      | callHere => exact one _ hr
      | setValue i x => exact one (.setValue i x) hr
      | setError i x => exact one (.setError i x) hr
      | setBlind i x => exact one (.setBlind i x) hr
      | setFixed i b => exact one (.setFixed i b) hr

/-- The manager before any event. -/
theorem Mgr2.run_nil (t : Pdf L) (h h' : Pars F) (m : Mgr2 F) (hr : Mgr2.run t h [] = some (m, h')) :
    (∃ g, paramsCtor t h = some (m.mn, g)) ∧ m.retval = .NotRun ∧ m.minosErrors = [] ∧ m.minos = false := by
  unfold Mgr2.run Mgr2.ctor at hr
  simp only [bind, Option.bind, pure, List.foldlM_nil] at hr
  cases hc : paramsCtor t h with
  | none => rw [hc] at hr; exact absurd hr (by simp)
  | some s =>
    rw [hc] at hr
    simp only [Option.some.injEq, Prod.mk.injEq] at hr
    obtain ⟨rfl, _⟩ := hr
    exact ⟨⟨s.2, rfl⟩, rfl, rfl, rfl⟩

/-- Everything but a fit leaves the start of the next fit and the results alone. -/
theorem Mgr2.step_other (t : Pdf L) (s s' : Mgr2 F × Pars F) (op : MgrOp F) (hs : Mgr2.step t s op = some s')
    (hop : ∀ r, op ≠ .fit r) : s'.1.mn = s.1.mn ∧ s'.1.retval = s.1.retval ∧ s'.1.minosErrors = s.1.minosErrors := by
  have one : ∀ o : MnOp F, (mnStep t s.2 o).map (fun h => (s.1, h)) = some s' →
      s'.1.mn = s.1.mn ∧ s'.1.retval = s.1.retval ∧ s'.1.minosErrors = s.1.minosErrors := by
    intro o ho
    cases hs : mnStep t s.2 o with
    | none => rw [hs] at ho; exact absurd ho (by simp)
    | some g' =>
      rw [hs] at ho
      simp only [Option.map_some, Option.some.injEq] at ho
      rw [← ho]
      exact ⟨rfl, rfl, rfl⟩
  cases op with
  | fit r => exact absurd rfl (hop r)
  | setMinos b =>
    simp only [Mgr2.step, Option.some.injEq] at hs
    rw [← hs]
    exact ⟨rfl, rfl, rfl⟩
  | callAt v => exact one _ hs
  | callHere => exact one _ hs
  | setValue i x => exact one (.setValue i x) hs
  | setError i x => exact one (.setError i x) hs
  | setBlind i x => exact one (.setBlind i x) hs
  | setFixed i b => exact one (.setFixed i b) hs

/-! ### Errors -/

/-- Cauchy-Schwarz for the inverse of a covariance. -/
theorem quad_bound {n : Nat} (C A : Matrix (Fin n) (Fin n) ℝ) (hA : A.IsSymm) (hpos : ∀ x : Fin n → ℝ, 0 ≤ x ⬝ᵥ A.mulVec x)
    (hinv : A * C = 1) (i : Fin n) (hi : 0 < C i i) (x : Fin n → ℝ) : x i ^ 2 / C i i ≤ x ⬝ᵥ A.mulVec x := by
  -- `y = C e_i`, `A y = e_i`
  have hy : A.mulVec (fun j => C j i) = Pi.single i 1 := by
    have : (fun j => C j i) = C.mulVec (Pi.single i 1) := by
      funext j
      simp [Matrix.mulVec_single]
    rw [this, Matrix.mulVec_mulVec, hinv, Matrix.one_mulVec]
  set y := fun j => C j i with hyd
  have hxy : x ⬝ᵥ A.mulVec y = x i := by rw [hy]; simp
  have hyx : y ⬝ᵥ A.mulVec x = x i := by
    rw [Matrix.dotProduct_mulVec, ← Matrix.mulVec_transpose, hA.eq, hy, dotProduct_comm]
    simp
  have hyy : y ⬝ᵥ A.mulVec y = C i i := by rw [hy]; simp [hyd]
  have h0 := hpos (x - (x i / C i i) • y)
  rw [Matrix.mulVec_sub, Matrix.mulVec_smul, sub_dotProduct, dotProduct_sub, dotProduct_sub, smul_dotProduct, dotProduct_smul,
    smul_dotProduct, dotProduct_smul, hxy, hyx, hyy] at h0
  simp only [smul_eq_mul] at h0
  have e : x i / C i i * x i - x i / C i i * (x i / C i i * C i i) = 0 := by field_simp; ring
  have e2 : x i / C i i * x i = x i ^ 2 / C i i := by ring
  linarith

/-- The errors of a quadratic function. -/
theorem quad_error {n : Nat} (C A : Matrix (Fin n) (Fin n) ℝ) (hA : A.IsSymm) (hpos : ∀ x : Fin n → ℝ, 0 ≤ x ⬝ᵥ A.mulVec x)
    (hinv : A * C = 1) (i : Fin n) (hi : 0 < C i i) (x₀ : Fin n → ℝ) (f0 a up : ℝ) (ha : 0 < a) (hup : 0 ≤ up) :
    IsError (fun x => f0 + a * ((x - x₀) ⬝ᵥ A.mulVec (x - x₀))) x₀ up i (√(up / a * C i i)) := by
  have hz : (x₀ - x₀) ⬝ᵥ A.mulVec (x₀ - x₀) = 0 := by simp
  constructor
  · have hy : A.mulVec (fun j => C j i) = Pi.single i 1 := by
      have : (fun j => C j i) = C.mulVec (Pi.single i 1) := by
        funext j
        simp [Matrix.mulVec_single]
      rw [this, Matrix.mulVec_mulVec, hinv, Matrix.one_mulVec]
    refine ⟨x₀ + (√(up / a * C i i) / C i i) • (fun j => C j i), ?_, ?_⟩
    · simp only [Pi.add_apply, Pi.smul_apply, smul_eq_mul, add_sub_cancel_left]
      field_simp
    · show f0 + a * _ ≤ f0 + a * _ + up
      rw [hz, mul_zero, add_zero, add_sub_cancel_left, Matrix.mulVec_smul, smul_dotProduct, dotProduct_smul, hy]
      simp only [smul_eq_mul, dotProduct_single, mul_one]
      have hs := Real.mul_self_sqrt (show 0 ≤ up / a * C i i by positivity)
      have : a * (√(up / a * C i i) / C i i * (√(up / a * C i i) / C i i * C i i)) = up := by
        have e : a * (√(up / a * C i i) / C i i * (√(up / a * C i i) / C i i * C i i))
            = a * (√(up / a * C i i) * √(up / a * C i i)) / C i i := by field_simp
        rw [e, hs]
        field_simp
      linarith
  · rintro d ⟨x, rfl, hx⟩
    dsimp only at hx
    rw [hz, mul_zero, add_zero] at hx
    have hb := quad_bound C A hA hpos hinv i hi (x - x₀)
    apply Real.le_sqrt_of_sq_le
    have h1 : a * ((x i - x₀ i) ^ 2 / C i i) ≤ up := by
      have := mul_le_mul_of_nonneg_left hb ha.le
      simp only [Pi.sub_apply] at this
      linarith
    have h2 : (x i - x₀ i) ^ 2 / C i i ≤ up / a := by rw [le_div_iff₀ ha]; linarith
    rwa [div_le_iff₀ hi] at h2

end GooFit
