import Verif.Spec.Measured4
import Verif.Props.NormEvents4
import Verif.Props.Fit4
import Verif.Props.DataSet
import Verif.Lemmas.Numpy
import Verif.Props.TimeDalitz3
/-!
# C102: measured momenta of a four-body decay
-/
set_option autoImplicit false
namespace GooFit
open Spec

/-! ### The conversion -/

private theorem particles16_get {n : Nat} (mat : Matrix (Fin 16) (Fin n) ℝ) (e x y z : Fin 16) (k : Nat) (hk : k < n) :
    (particles16 mat e x y z)[k]? = some ⟨mat x ⟨k, hk⟩, mat y ⟨k, hk⟩, mat z ⟨k, hk⟩, mat e ⟨k, hk⟩⟩ := by
  simp [particles16, hk]

theorem to5param_eq {n : Nat} (mat : Matrix (Fin 16) (Fin n) ℝ) (i : Fin n) :
    let V := columnMomenta mat i
    let x := dim5 (V 0) (V 1) (V 2) (V 3)
    to5param mat 0 i = x.1 ∧ to5param mat 1 i = x.2.1 ∧ to5param mat 2 i = x.2.2.1 ∧ to5param mat 3 i = x.2.2.2.1
      ∧ to5param mat 4 i = x.2.2.2.2 := by
  intro V x
  have key : (evaluateArray5 n ((((particles16 mat 3 0 1 2).zip (particles16 mat 7 4 5 6)).zip (particles16 mat 11 8 9 10)).zip
      (particles16 mat 15 12 13 14) |>.map fun q => (⟨q.1.1.1, q.1.1.2, q.1.2, q.2, 0⟩ : Gen4))).getD i ⟨0, 0, 0, 0, 0⟩
      = ⟨x.1, x.2.1, x.2.2.1, x.2.2.2.1, x.2.2.2.2⟩ := by
    have hl : (particles16 mat 3 0 1 2).length = n := by simp [particles16]
    rw [List.getD_eq_getElem?_getD]
    unfold evaluateArray5
    simp only [List.getElem?_map, List.getElem?_range i.2, Option.map_some, Option.getD_some]
    have h0 := particles16_get mat 3 0 1 2 i i.2
    have h1 := particles16_get mat 7 4 5 6 i i.2
    have h2 := particles16_get mat 11 8 9 10 i i.2
    have h3 := particles16_get mat 15 12 13 14 i i.2
    simp only [List.zip_eq_zipWith, List.getElem?_zipWith, h0, h1, h2, h3]
    rfl
  unfold to5param
  dsimp only
  rw [key]
  exact ⟨rfl, rfl, rfl, rfl, rfl⟩

theorem fiveOf_eq {n : Nat} (mat : Matrix (Fin 16) (Fin n) ℝ) (i : Fin n) :
    let V := columnMomenta mat i
    fiveOf (to5param mat) i = (⟨V 0, V 1, V 2, V 3, 0⟩ : Gen4).vars := by
  obtain ⟨a, b, c, e, f⟩ := to5param_eq mat i
  unfold fiveOf
  rw [a, b, c, e, f]
  rfl

/-- **C102 (the conversion).** Column by column: the first two numbers are the invariant masses of the two pairs; and if the column
is a decay in the rest frame of the decaying particle, the momenta which the PDF computes from the five numbers are the ones of the
column, turned. -/
theorem C102_columns {n : Nat} (mat : Matrix (Fin 16) (Fin n) ℝ) (i : Fin n) :
    to5param mat 0 i = √(massSq (columnMomenta mat i) [0, 1]) ∧ to5param mat 1 i = √(massSq (columnMomenta mat i) [2, 3])
    ∧ ∀ d : Decay4, 0 ≤ d.m1 → 0 ≤ d.m2 → 0 ≤ d.m3 → 0 ≤ d.m4 → GoodColumn d mat i →
      let x := fiveOf (to5param mat) i
      |x.cos12| < 1 ∧ |x.cos34| < 1 ∧ -Real.pi < x.phi ∧ x.phi ≤ Real.pi
      ∧ ∃ R, IsRotation R ∧ vecOf (get4Vecs x.m12 x.m34 x.cos12 x.cos34 x.phi d.M d.m1 d.m2 d.m3 d.m4)
          = fun k => turn R (columnMomenta mat i k) := by
  obtain ⟨a, b, c, e, f⟩ := to5param_eq mat i
  refine ⟨?_, ?_, ?_⟩
  · rw [a]
    show √((columnMomenta mat i 0 + columnMomenta mat i 1).mink (columnMomenta mat i 0 + columnMomenta mat i 1)) = _
    congr 1
    simp only [massSq, LV.mink, LV.add_def, List.map_cons, List.map_nil, List.sum_cons, List.sum_nil]
    ring
  · rw [b]
    show √((columnMomenta mat i 2 + columnMomenta mat i 3).mink (columnMomenta mat i 2 + columnMomenta mat i 3)) = _
    congr 1
    simp only [massSq, LV.mink, LV.add_def, List.map_cons, List.map_nil, List.sum_cons, List.sum_nil]
    ring
  · intro d h1 h2 h3 h4 hg
    obtain ⟨-, k1, k2, k3, k4, R, hR, hv⟩ := C88_momenta hg.1 h1 h2 h3 h4 hg.2
    have hx := fiveOf_eq mat i
    dsimp only at hx ⊢
    rw [hx]
    refine ⟨k1, k2, k3, k4, R, hR, ?_⟩
    funext k
    unfold Gen4.vars
    dsimp only at hv ⊢
    rw [hv, vecOf_turn4]
    fin_cases k <;> rfl

/-! ### The data -/

theorem fromMatrix_getValue {F : Type} [FpCmp F] (ofNat : Nat → F) (obs : List Nat) (e : Nat)
    (hn : (obs ++ [e]).Nodup) (s : Store F) (cols : List (List F)) (hc : ∀ c ∈ cols, c.length = obs.length)
    (st' : USt F) (h : USt.fromMatrix ⟨s, UDS.new F (obs ++ [e])⟩ ofNat obs.length cols false = (st', .done)) :
    st'.ds.num = cols.length ∧ ∀ (i : Nat) (c : List F), cols[i]? = some c → ∀ (j o : Nat) (x : F), (obs ++ [e])[j]? = some o →
      (c ++ [ofNat i])[j]? = some x → st'.ds.getValue o i = .val x := by
  set st : USt F := ⟨s, UDS.new F (obs ++ [e])⟩
  have T := C06_from_matrix ofNat st [] hn (holds_new F _) obs.length cols hc (Or.inr (by simp [st, UDS.new]))
  have hso : st.ds.obs = obs ++ [e] := rfl
  have hss : st.store = s := rfl
  simp only [hso, hss, List.length_nil, List.nil_append, h] at T
  have hgood : ∀ t ∈ candidates ofNat (obs ++ [e]) obs.length 0 cols s, AllInRange (obs ++ [e]) t := by
    by_contra hne
    push Not at hne
    have := (T.2.2 hne).1
    simp at this
  obtain ⟨_, hnum, hdata⟩ := T.2.1 hgood
  have hobs' : st'.ds.obs = obs ++ [e] := by
    have hcond : ¬ (st.ds.obs.length ≠ obs.length ∧ st.ds.obs.length ≠ obs.length + 1) := by
      simp [hso]
    have := fromMatrixLoop_spec ofNat (obs ++ [e]) obs.length hn (Or.inr (by simp)) false s cols hc 0 st [] rfl
      (holds_new F _) (fun _ _ => rfl)
    have h' := h
    simp only [USt.fromMatrix, hcond, if_false] at h'
    have e0 : st.ds.num = 0 := rfl
    rw [e0] at h'
    have := this.1
    rw [h'] at this
    exact this
  have hlen : (candidates ofNat (obs ++ [e]) obs.length 0 cols s).length = cols.length := by
    simp [candidates]
  refine ⟨by rw [hnum]; simp [hlen], ?_⟩
  intro i c hci j o x hj hx
  have hst := uds_step (obs ++ [e]) hn st' ⟨st'.store, (candidates ofNat (obs ++ [e]) obs.length 0 cols s).map
    (fun t o => (t o).value)⟩ hobs' rfl ⟨hnum, hdata⟩ (.getValue o i)
  have h1 := hst.1
  simp only [USt.step, Rows.step] at h1
  have hci2 : (candidates ofNat (obs ++ [e]) obs.length 0 cols s)[i]? =
      some (columnEvent ofNat (obs ++ [e]) obs.length c i s) := by
    simp [candidates, hci]
  rw [List.getElem?_map, hci2] at h1
  have hmem : o ∈ obs ++ [e] := List.mem_of_getElem? hj
  simp only [Option.map_some, hmem, if_true, Obsn.out.injEq] at h1
  rw [h1]
  congr 1
  unfold columnEvent
  simp only [List.length_append, List.length_singleton, if_true]
  rw [assign_get hn _ _ hj hx]

/-- **C102 (the data).** The converted momenta imported into a new dataset (without filter) and given to the PDF: it gets one event
per column, with the five numbers of the column, and the cached amplitudes which are read for it are its own. -/
theorem C102_data {n : Nat} (mat : Matrix (Fin 16) (Fin n) ℝ) (o : Obs4) (hn : o.list.Nodup) (s : Store ℝ) (st' : USt ℝ)
    (h : USt.fromMatrix ⟨s, UDS.new ℝ o.list⟩ (fun k => (k : ℝ)) 5 (matrixColumns (to5param mat)) false = (st', .done)) :
    ∃ evs, readUDS4 o st'.ds = some evs ∧ evs.map (·.1) = List.ofFn (fiveOf (to5param mat))
      ∧ evs.map (fun e => cacheRow e.2) = (List.range n).map fun k : Nat => (k : Int) := by
  set out := to5param mat
  obtain ⟨hnum, hget⟩ := fromMatrix_getValue (fun k => (k : ℝ)) [o.m12, o.m34, o.cos12, o.cos34, o.phi] o.number hn s
    (matrixColumns out) (by
      intro c hc
      obtain ⟨i, rfl⟩ := List.mem_ofFn.1 hc
      simp) st' h
  have hlen : (matrixColumns out).length = n := by simp [matrixColumns]
  refine ⟨List.ofFn fun i : Fin n => (fiveOf out i, ((i : Nat) : ℝ)), ?_, ?_, ?_⟩
  · unfold readUDS4
    rw [hnum, hlen]
    rw [mapM_some _ (fun k => if hk : k < n then (fiveOf out ⟨k, hk⟩, (k : ℝ)) else (⟨0, 0, 0, 0, 0⟩, 0))]
    · congr 1
      apply List.ext_getElem?
      intro k
      by_cases hk : k < n
      · simp [hk]
      · simp [hk]
    · intro k hk
      rw [List.mem_range] at hk
      have hcol : (matrixColumns out)[k]? = some [out 0 ⟨k, hk⟩, out 1 ⟨k, hk⟩, out 2 ⟨k, hk⟩, out 3 ⟨k, hk⟩, out 4 ⟨k, hk⟩] := by
        simp [matrixColumns, hk, List.ofFn_succ]
      have g := hget k _ hcol
      rw [g 0 o.m12 _ rfl rfl, g 1 o.m34 _ rfl rfl, g 2 o.cos12 _ rfl rfl, g 3 o.cos34 _ rfl rfl, g 4 o.phi _ rfl rfl,
        g 5 o.number _ rfl rfl, dif_pos hk]
      rfl
  · rw [List.map_ofFn]
    rfl
  · rw [List.map_ofFn]
    apply List.ext_getElem?
    intro k
    by_cases hk : k < n
    · rw [List.getElem?_ofFn, dif_pos hk]
      simp only [List.getElem?_map, List.getElem?_range hk, Option.map_some, Function.comp_apply, cacheRow]
      congr 1
      rw [Int.floor_eq_iff]
      push_cast
      constructor <;> linarith
    · rw [List.getElem?_ofFn, dif_neg hk]
      simp [hk]

/-! ### The frame -/

/-- **C102 (the frame)** (what is missing: the angle between the planes, see `C102_violation_boost`).  The masses and the two cosines
are the same in every inertial frame; all five numbers are the same however the axes are turned. -/
theorem C102_frame_partial {n : Nat} (mat mat' : Matrix (Fin 16) (Fin n) ℝ) :
    (∀ L, IsLorentz L → inFrame L mat mat' → ∀ (j : Fin 5) (i : Fin n), j ≠ 4 → to5param mat' j i = to5param mat j i)
    ∧ (∀ R, IsRotation R → (∀ i k, columnMomenta mat' i k = turn R (columnMomenta mat i k)) → to5param mat' = to5param mat) := by
  constructor
  · intro L hL hf j i hj
    obtain ⟨a, b, c, e, -⟩ := to5param_eq mat i
    obtain ⟨a', b', c', e', -⟩ := to5param_eq mat' i
    simp only [hf i, dim5, cosHELANG, ← act_add, mink_act hL] at a' b' c' e'
    simp only [dim5, cosHELANG] at a b c e
    fin_cases j
    · exact a'.trans a.symm
    · exact b'.trans b.symm
    · exact c'.trans c.symm
    · exact e'.trans e.symm
    · exact absurd rfl hj
  · intro R hR hf
    funext j i
    obtain ⟨a, b, c, e, f⟩ := to5param_eq mat i
    obtain ⟨a', b', c', e', f'⟩ := to5param_eq mat' i
    simp only [hf i, dim5_turn hR] at a' b' c' e' f'
    fin_cases j
    · exact a'.trans a.symm
    · exact b'.trans b.symm
    · exact c'.trans c.symm
    · exact e'.trans e.symm
    · exact f'.trans f.symm

private theorem cross_divs (a b : LV ℝ) (r s : ℝ) : (a.divs r).cross (b.divs s) = (a.cross b).smul (1 / (r * s)) := by
  by_cases hr : r = 0
  · subst hr; simp [LV.divs, LV.cross, LV.smul]
  by_cases hs : s = 0
  · subst hs; simp [LV.divs, LV.cross, LV.smul]
  simp only [LV.divs, LV.cross, LV.smul, LV.mk.injEq]
  refine ⟨?_, ?_, ?_, by ring⟩ <;> field_simp

/-- The size of the angle is beyond a right angle exactly when the normals of the planes point apart. -/
private theorem abs_dim5phi (a b c d : LV ℝ) (ha : 0 < a.dot3 a) (hb : 0 < b.dot3 b) (hc : 0 < c.dot3 c) (hd : 0 < d.dot3 d)
    (h1 : 0 < (a.cross b).dot3 (a.cross b)) (h2 : 0 < (c.cross d).dot3 (c.cross d)) :
    ∃ k > 0, |dim5phi a b c d| = Real.arccos (k * (a.cross b).dot3 (c.cross d)) := by
  have pos : ∀ v : LV ℝ, 0 < v.dot3 v → 0 < v.mag3 := fun v hv => Real.sqrt_pos.2 hv
  have k1 : 0 < 1 / (a.mag3 * b.mag3) := by have := pos a ha; have := pos b hb; positivity
  have k2 : 0 < 1 / (c.mag3 * d.mag3) := by have := pos c hc; have := pos d hd; positivity
  have m1 : 0 < ((a.cross b).smul (1 / (a.mag3 * b.mag3))).mag3 := by
    rw [mag3_smul k1]; exact mul_pos k1 (pos _ h1)
  have m2 : 0 < ((c.cross d).smul (1 / (c.mag3 * d.mag3))).mag3 := by
    rw [mag3_smul k2]; exact mul_pos k2 (pos _ h2)
  refine ⟨1 / ((a.cross b).smul (1 / (a.mag3 * b.mag3))).mag3 * (1 / (a.mag3 * b.mag3))
    * (1 / ((c.cross d).smul (1 / (c.mag3 * d.mag3))).mag3 * (1 / (c.mag3 * d.mag3))), by positivity, ?_⟩
  unfold dim5phi
  simp only [cross_divs]
  have e : ∀ (x y : LV ℝ) (p q r s : ℝ), ((x.smul p).smul q).dot3 ((y.smul r).smul s) = q * p * (s * r) * x.dot3 y := by
    intro x y p q r s
    simp only [LV.smul, LV.dot3]
    ring
  rw [e]
  split
  · rw [mul_neg_one, abs_neg, abs_of_nonneg (Real.arccos_nonneg _)]
  · rw [abs_of_nonneg (Real.arccos_nonneg _)]

namespace DemoMeasured

/-- A measured decay. -/
noncomputable def one : Matrix (Fin 16) (Fin 1) ℝ := fun r _ => ![2, 2, 1, 5, 2, -2, -1, 5, -2, 1, 2, 5, -2, -1, -2, 5] r
/-- The same decay in the frame of an observer who sees the decaying particle fly along the second axis. -/
noncomputable def flying : Matrix (Fin 16) (Fin 1) ℝ := fun r _ =>
  ![2, 25/4, 1, 31/4, 2, 5/4, -1, 19/4, -2, 5, 2, 7, -2, 5/2, -2, 11/2] r

theorem one_momenta : columnMomenta one 0 = ![⟨2, 2, 1, 5⟩, ⟨2, -2, -1, 5⟩, ⟨-2, 1, 2, 5⟩, ⟨-2, -1, -2, 5⟩] := by
  funext k
  fin_cases k <;> rfl

theorem flying_momenta : columnMomenta flying 0
    = ![⟨2, 25/4, 1, 31/4⟩, ⟨2, 5/4, -1, 19/4⟩, ⟨-2, 5, 2, 7⟩, ⟨-2, 5/2, -2, 11/2⟩] := by
  funext k
  fin_cases k <;> rfl

theorem good : GoodColumn ⟨20, 4, 4, 4, 4⟩ one 0 := by
  unfold GoodColumn
  rw [one_momenta]
  exact ⟨momDemo_decay, momDemo_planes⟩

theorem boost : IsLorentz boostY := by
  unfold IsLorentz boostY
  ext i j
  fin_cases i <;> fin_cases j <;> simp [Matrix.mul_apply, Matrix.diagonal, eta, Fin.sum_univ_four] <;> norm_num

theorem boosted : inFrame boostY one flying := by
  intro i k
  rw [Fin.fin_one_eq_zero i, one_momenta, flying_momenta]
  fin_cases k <;> ext <;> simp [act, boostY, Fin.sum_univ_four, comp] <;> norm_num

theorem phi_one : Real.pi / 2 < |to5param one 4 0| := by
  obtain ⟨-, -, -, -, f⟩ := to5param_eq one 0
  rw [f, one_momenta]
  obtain ⟨k, hk, e⟩ := abs_dim5phi ⟨2, 2, 1, 5⟩ ⟨2, -2, -1, 5⟩ ⟨-2, 1, 2, 5⟩ ⟨-2, -1, -2, 5⟩ (by norm_num [LV.dot3])
    (by norm_num [LV.dot3]) (by norm_num [LV.dot3]) (by norm_num [LV.dot3]) (by norm_num [LV.dot3, LV.cross])
    (by norm_num [LV.dot3, LV.cross])
  refine lt_of_lt_of_eq ?_ e.symm
  refine lt_of_not_ge fun hle => ?_
  rw [Real.arccos_le_pi_div_two] at hle
  norm_num [LV.dot3, LV.cross] at hle
  linarith

theorem phi_flying : |to5param flying 4 0| ≤ Real.pi / 2 := by
  obtain ⟨-, -, -, -, f⟩ := to5param_eq flying 0
  rw [f, flying_momenta]
  obtain ⟨k, hk, e⟩ := abs_dim5phi ⟨2, 25/4, 1, 31/4⟩ ⟨2, 5/4, -1, 19/4⟩ ⟨-2, 5, 2, 7⟩ ⟨-2, 5/2, -2, 11/2⟩ (by norm_num [LV.dot3])
    (by norm_num [LV.dot3]) (by norm_num [LV.dot3]) (by norm_num [LV.dot3]) (by norm_num [LV.dot3, LV.cross])
    (by norm_num [LV.dot3, LV.cross])
  refine le_of_eq_of_le e ?_
  rw [Real.arccos_le_pi_div_two]
  norm_num [LV.dot3, LV.cross]
  linarith

end DemoMeasured

/-- **C102 (violation).** The angle between the planes is not computed in the rest frame of the decaying particle: for the same decay,
measured by an observer who sees the particle fly, `to_5param` gives another angle (and the same masses and cosines), without an
error.  The momenta must be boosted into the rest frame by the caller. -/
theorem C102_violation_boost :
    ∃ (L : Matrix (Fin 4) (Fin 4) ℝ) (mat mat' : Matrix (Fin 16) (Fin 1) ℝ), IsLorentz L ∧ inFrame L mat mat'
      ∧ GoodColumn ⟨20, 4, 4, 4, 4⟩ mat 0 ∧ (∀ j, j ≠ 4 → to5param mat' j 0 = to5param mat j 0)
      ∧ to5param mat' 4 0 ≠ to5param mat 4 0 := by
  refine ⟨boostY, DemoMeasured.one, DemoMeasured.flying, DemoMeasured.boost, DemoMeasured.boosted, DemoMeasured.good,
    fun j hj => (C102_frame_partial _ _).1 _ DemoMeasured.boost DemoMeasured.boosted j 0 hj, fun h => ?_⟩
  have h1 := DemoMeasured.phi_one
  have h2 := DemoMeasured.phi_flying
  rw [h] at h2
  exact absurd h1 (not_lt.2 h2)

/-! ### The fit -/

variable {L : Lib ℝ}

theorem intensity_of_column {n : Nat} (d : Decay4) (h1 : 0 ≤ d.m1) (h2 : 0 ≤ d.m2) (h3 : 0 ≤ d.m3) (h4 : 0 ≤ d.m4)
    (amps : List AmpNew) (h : Nat → ℝ) (mat : Matrix (Fin 16) (Fin n) ℝ) (i : Fin n) (hg : GoodColumn d mat i) :
    described d amps h (fiveOf (to5param mat) i) = intensityOf amps h (columnMomenta mat i) := by
  rw [fiveOf_eq, intensity_of_momenta d h1 h2 h3 h4 amps h _ hg.1 hg.2]
  congr 1
  funext k
  fin_cases k <;> rfl

theorem amplitude_of_column {n : Nat} (d : Decay4) (h1 : 0 ≤ d.m1) (h2 : 0 ≤ d.m2) (h3 : 0 ≤ d.m3) (h4 : 0 ≤ d.m4)
    (amps : List AmpNew) (h : Nat → ℝ) (mat : Matrix (Fin 16) (Fin n) ℝ) (i : Fin n) (hg : GoodColumn d mat i) :
    describedAmplitude d amps h (fiveOf (to5param mat) i) = momentaAmplitude amps h (columnMomenta mat i) := by
  rw [fiveOf_eq, amplitude_of_momenta d h1 h2 h3 h4 amps h _ hg.1 hg.2]
  congr 1
  funext k
  fin_cases k <;> rfl

theorem nllOf_map {E E' : Type} (g : E' → E) (f : E → ℝ) (f' : E' → ℝ) (total : ℝ) (l : List E')
    (h : ∀ x ∈ l, f (g x) = f' x) : nllOf f total (l.map g) = nllOf f' total l := by
  unfold nllOf
  induction l with
  | nil => rfl
  | cons a l ih =>
    have ha := h a (by simp)
    have := ih fun x hx => h x (by simp [hx])
    rw [List.map_cons]
    by_cases hp : 0 < f' a
    · rw [List.filter_cons_of_pos (by simpa [ha] using hp), List.filter_cons_of_pos (by simpa using hp), List.map_cons, List.map_cons,
        List.sum_cons, List.sum_cons, this, ha]
    · rw [List.filter_cons_of_neg (by simpa [ha] using hp), List.filter_cons_of_neg (by simpa using hp), this]

/-- **C102 (the fit)** (what is missing: decays measured in another frame, see `C102_violation_boost`; which normalisation events
there are, see `C101_violation_flags`; what is missing in C94 and C101).  The user fills a matrix with measured momenta, converts it,
imports it into a new dataset and gives it to a four-body PDF: every value the minimiser gets is minus the logarithm of the likelihood
of the measured momenta under the intensity the user has described, normalised to its mean over the momenta of the normalisation
events, with the parameters at the values the minimiser has asked for. -/
theorem C102_likelihood_partial (junk : Nat → Nat → ℝ) (hc : Nat → ℝ) (d : Decay4) (h1 : 0 ≤ d.m1) (h2 : 0 ≤ d.m2) (h3 : 0 ≤ d.m3)
    (h4 : 0 ≤ d.m4) (amps : List AmpNew) (built : List (Amp4 LsObj SfObj)) (hb : amps.mapM (ampBuild junk hc) = some built)
    (hs : ∀ a ∈ amps, ∀ c ∈ a.ls, ¬ IsSpline c) (eff : (Nat → ℝ) → Ev4 → ℝ) (run : PhspRun)
    (hf : run.flags.length = run.events.length) (hd : GoodEvents d run.events)
    (fn : Fn L) (efficiency : Pdf L) (manager : List (MnOp ℝ)) (h₀ h : Pars ℝ)
    {n : Nat} (mat : Matrix (Fin 16) (Fin n) ℝ) (hmat : ∀ i, GoodColumn d mat i) (o : Obs4) (hn : o.list.Nodup) (s : Store ℝ)
    (st' : USt ℝ)
    (him : USt.fromMatrix ⟨s, UDS.new ℝ o.list⟩ (fun k => (k : ℝ)) 5 (matrixColumns (to5param mat)) false = (st', .done)) :
    let m := fourBodyPdf [d.M, d.m1, d.m2, d.m3, d.m4] amps built eff (ampNormEvents run)
    let t := m.tree (coefParams amps) fn efficiency
    m.LS.length ≤ m.amps.length → (∀ (i : Nat) (a : Amp4 LsObj SfObj), built[i]? = some a → m.Aligned i a) →
    mnRun t h₀ manager = some h → (∀ i ∈ t.getParameters, (h i).blind = 0) →
    ∀ (before : List (A4.Op LsObj (Nat → ℝ) Ev4)) (_ : ∀ op ∈ before, ∀ d c p, op ≠ .generate d c p) (_ : MarksFrom none before)
      (_ : ∀ p, A4.lastP none before = some p → ∀ i, (h i).value = p i) (calls : List (List ℝ)),
    let at_ := fun x => valuesAt t.getParameters x fun i => (h i).value
    let total := fun p => ((run.events.take (accepted run).length).map fun g => intensityOf amps p (momentaOf g)).sum
      / ((accepted run).length : ℝ)
    let nll := fun p => nllOf (fun i => intensityOf amps p (columnMomenta mat i) * eff p (fiveOf (to5param mat) i)) (total p)
      (List.finRange n)
    (∀ x ∈ calls, t.getParameters.length ≤ x.length ∧ 0 < total (at_ x) ∧ nll (at_ x) ≠ 0) →
    ∃ evs s1 h2 s2, readUDS4 o st'.ds = some evs ∧ m.run Real.sqrt (before ++ [.setData (evs.map (·.1))]) = some s1
      ∧ m.fitPdf.fcnAll t calls h s1 = .done (calls.map fun x => nll (at_ x), h2, s2) := by
  intro m t hle hal hrun hblind before hgen hmarks hlast calls at_ total nll hcalls
  obtain ⟨evs, hev, hvars, -⟩ := C102_data mat o hn s st' him
  have hl : (accepted run).length = run.nAcc := by
    unfold accepted PhspRun.nAcc
    rw [← keepFlagged_eq, keepFlagged_length _ _ hf]
  have hle' : run.nAcc ≤ run.events.length := by
    rw [← hf]
    exact List.count_le_length
  have htot : ∀ p, meanIntensity d amps (ampNormEvents run) p = total p := by
    intro p
    simp only [total, meanIntensity]
    unfold ampNormEvents
    rw [hl, evaluateArray5_eq _ _ hle', List.map_map]
    congr 1
    · congr 1
      refine List.map_congr_left fun g hg' => ?_
      obtain ⟨k1, k2⟩ := hd g (List.mem_of_mem_take hg')
      exact intensity_of_momenta d h1 h2 h3 h4 amps p g k1 k2
    · rw [List.length_map, List.length_take, min_eq_left hle']
  have hdat : evs.map (·.1) = (List.finRange n).map (fiveOf (to5param mat)) := by
    rw [hvars, List.ofFn_eq_map]
  have hnll : ∀ p, nllOf (fun ev => described d amps p ev * eff p ev) (meanIntensity d amps (ampNormEvents run) p) (evs.map (·.1))
      = nll p := by
    intro p
    rw [htot, hdat]
    exact nllOf_map _ _ _ _ _ fun i _ => by rw [intensity_of_column d h1 h2 h3 h4 amps p mat i (hmat i)]
  obtain ⟨s1, k2, s2, e1, e2⟩ := C94_likelihood_partial junk hc d amps built hb hs eff (ampNormEvents run) fn efficiency manager h₀ h
    hle hal hrun hblind before hgen hmarks hlast (evs.map (·.1)) calls (by
      intro x hx
      obtain ⟨q1, q2, q3⟩ := hcalls x hx
      refine ⟨q1, ?_, ?_⟩
      · exact lt_of_lt_of_eq q2 (htot _).symm
      · exact fun hz => q3 ((hnll _).symm.trans hz))
  refine ⟨evs, s1, k2, s2, hev, e1, e2.trans ?_⟩
  congr 2
  exact List.map_congr_left fun x _ => hnll _

theorem meanRate_batches (d : Decay4) (h1 : 0 ≤ d.m1) (h2 : 0 ≤ d.m2) (h3 : 0 ≤ d.m3) (h4 : 0 ≤ d.m4) (v : MixVars)
    (ampsA ampsB : List AmpNew) (phsp : Int → Nat → PhspRun)
    (hf : ∀ seed n, (phsp seed n).flags.length = (phsp seed n).events.length)
    (hd : ∀ seed n, GoodEvents d (phsp seed n).events) (seeds : List Int) (n : Nat) (h : Nat → ℝ) :
    let evs := (seeds.map fun seed => accepted (phsp seed n)).flatten
    meanRate d v ampsA ampsB (buildBatches phsp seeds n) h
      = (evs.map fun g => ∫ t in Set.Ioi 0, momentaRate v ampsA ampsB h (momentaOf g) t).sum / (evs.length : ℝ) := by
  intro evs
  have hb : buildBatches phsp seeds n = seeds.map fun seed => .plain ((accepted (phsp seed n)).map Gen4.vars) :=
    List.map_congr_left fun seed _ => normBatch_eq _ (hf seed n)
  have hr : ∀ seed, ∀ g ∈ accepted (phsp seed n), ∀ t,
      describedRate d v ampsA ampsB h g.vars t = momentaRate v ampsA ampsB h (momentaOf g) t := by
    intro seed g hg' t
    have hmem : g ∈ (phsp seed n).events := by
      unfold accepted at hg'
      obtain ⟨x, hx, rfl⟩ := List.mem_map.1 hg'
      exact (List.of_mem_zip (List.mem_filter.1 hx).1).1
    obtain ⟨k1, k2⟩ := hd seed n g hmem
    unfold describedRate momentaRate
    rw [amplitude_of_momenta d h1 h2 h3 h4 _ h g k1 k2, amplitude_of_momenta d h1 h2 h3 h4 _ h g k1 k2]
  unfold meanRate
  rw [hb, List.map_map, List.map_map]
  congr 1
  · simp only [evs]
    clear hb
    induction seeds with
    | nil => rfl
    | cons a l ih =>
      dsimp only at ih
      rw [List.map_cons, List.sum_cons, ih, List.map_cons, List.flatten_cons, List.map_append, List.sum_append]
      congr 1
      simp only [Function.comp_apply, describedTotal, List.map_map]
      congr 1
      refine List.map_congr_left fun g hg' => ?_
      simp only [Function.comp_apply, hr a g hg']
  · simp only [evs]
    clear hb
    induction seeds with
    | nil => simp
    | cons a l ih =>
      dsimp only at ih
      rw [List.map_cons, List.sum_cons, ih, List.map_cons, List.flatten_cons, List.length_append]
      simp [Function.comp_apply, batchWeight]

/-- **C102 (the fit of decay times)** (what is missing: as in `C102_likelihood_partial`, and other resolutions; how the decay times
get into the dataset is not modelled here).  The same for the time-dependent PDF, with the measured momenta converted and a decay time
for every column: the likelihood is that of the measured momenta and decay times under the rate the user has described, normalised to
the mean over the accepted phase-space events of its integral over the decay time. -/
theorem C102_time_likelihood_partial (junk : Nat → Nat → ℝ) (hc : Nat → ℝ) (d : Decay4) (h1 : 0 ≤ d.m1) (h2 : 0 ≤ d.m2)
    (h3 : 0 ≤ d.m3) (h4 : 0 ≤ d.m4) (v : MixVars) (ampsA ampsB : List AmpUse)
    (builtA builtB : List (TAmp LsObj SfObj Nat Nat)) (eff : (Nat → ℝ) → Ev4 × ℝ × ℝ → ℝ)
    (hbA : ampsA.mapM (ampUseBuild junk hc) = some builtA) (hbB : ampsB.mapM (ampUseBuild junk hc) = some builtB)
    (hsA : ∀ a ∈ ampsA, ∀ c ∈ a.new.ls, ¬ IsSpline c) (hsB : ∀ a ∈ ampsB, ∀ c ∈ a.new.ls, ¬ IsSpline c)
    (hA : (ampsA.map AmpUse.tag).Nodup) (hB : (ampsB.map AmpUse.tag).Nodup)
    (phsp : Int → Nat → PhspRun) (hf : ∀ seed n, (phsp seed n).flags.length = (phsp seed n).events.length)
    (hd : ∀ seed n, GoodEvents d (phsp seed n).events) (seeds : List Int) (nNorm : Nat)
    (fn : Fn L) (resolution efficiency : Pdf L) (manager : List (MnOp ℝ)) (h₀ h : Pars ℝ)
    {n : Nat} (mat : Matrix (Fin 16) (Fin n) ℝ) (hmat : ∀ i, GoodColumn d mat i) (time sigma : Fin n → ℝ) :
    let m := timeFourBodyPdf [d.M, d.m1, d.m2, d.m3, d.m4] v builtA builtB eff (fun _ => truthRes) (fun _ => truthNormalization)
      (buildBatches phsp seeds nNorm)
    let t := m.tree fn resolution efficiency
    mnRun t h₀ manager = some h → (∀ i ∈ t.getParameters, (h i).blind = 0) →
    ∀ (before : List (T4.Op LsObj (Nat → ℝ) Ev4)) (_ : T4.NoGenerate before) (_ : MarksFromTD none before)
      (_ : ∀ p, T4.lastP none before = some p → ∀ i, (h i).value = p i) (calls : List (List ℝ)),
    let at_ := fun x => valuesAt t.getParameters x fun i => (h i).value
    let data := (List.finRange n).map fun i => (fiveOf (to5param mat) i, time i, sigma i)
    let evs := (seeds.map fun seed => accepted (phsp seed nNorm)).flatten
    let total := fun p => (evs.map fun g =>
      ∫ t in Set.Ioi 0, momentaRate v (ampsA.map AmpUse.new) (ampsB.map AmpUse.new) p (momentaOf g) t).sum / (evs.length : ℝ)
    let nll := fun p => nllOf (fun i => eff p (fiveOf (to5param mat) i, time i, sigma i)
      * momentaRate v (ampsA.map AmpUse.new) (ampsB.map AmpUse.new) p (columnMomenta mat i) (time i)) (total p) (List.finRange n)
    (∀ x ∈ calls, t.getParameters.length ≤ x.length ∧ (0 < at_ x v.tau ∧ |at_ x v.y| < 1) ∧ 0 < total (at_ x) ∧ nll (at_ x) ≠ 0) →
    ∃ h2 s2, m.fitPdf.fcnAll t calls h (m.run (before ++ [.setData data])) = .done (calls.map fun x => nll (at_ x), h2, s2) := by
  intro m t hrun hblind before hgen hmarks hlast calls at_ data evs total nll hcalls
  have htot : ∀ p, meanRate d v (ampsA.map AmpUse.new) (ampsB.map AmpUse.new) (buildBatches phsp seeds nNorm) p = total p :=
    fun p => meanRate_batches d h1 h2 h3 h4 v _ _ phsp hf hd seeds nNorm p
  have hnll : ∀ p, nllOf (fun ev => eff p ev * describedRate d v (ampsA.map AmpUse.new) (ampsB.map AmpUse.new) p ev.1 ev.2.1)
      (meanRate d v (ampsA.map AmpUse.new) (ampsB.map AmpUse.new) (buildBatches phsp seeds nNorm) p) data = nll p := by
    intro p
    rw [htot]
    refine nllOf_map _ _ _ _ _ fun i _ => ?_
    dsimp only
    unfold describedRate momentaRate
    rw [amplitude_of_column d h1 h2 h3 h4 _ p mat i (hmat i), amplitude_of_column d h1 h2 h3 h4 _ p mat i (hmat i)]
  obtain ⟨k2, s2, e2⟩ := C94_time_likelihood_partial junk hc d v ampsA ampsB builtA builtB eff (buildBatches phsp seeds nNorm) hbA hbB
    hsA hsB hA hB (by
      intro b hb
      obtain ⟨seed, -, rfl⟩ := List.mem_map.1 hb
      rw [normBatch_eq _ (hf seed nNorm)]
      trivial) fn resolution efficiency manager h₀ h hrun hblind before hgen hmarks hlast data calls (by
      intro x hx
      obtain ⟨q1, q2, q3, q4⟩ := hcalls x hx
      exact ⟨q1, q2, lt_of_lt_of_eq q3 (htot _).symm, fun hz => q4 ((hnll _).symm.trans hz)⟩)
  refine ⟨k2, s2, e2.trans ?_⟩
  congr 2
  exact List.map_congr_left fun x _ => hnll _

/-! ### Cases that meet the hypotheses -/

namespace DemoMeasured

/-- Observables without limits. -/
noncomputable def store : Store ℝ := fun o => ⟨0, 0, 0, 100, o = 5⟩

/-- The import succeeds if the observables have no limits. -/
theorem import_done {n : Nat} (out : Matrix (Fin 5) (Fin n) ℝ) :
    ∃ st', USt.fromMatrix ⟨store, UDS.new ℝ (Obs4.mk 0 1 2 3 4 5).list⟩ (fun k => (k : ℝ)) 5 (matrixColumns out) false
      = (st', .done) := by
  have T := C06_from_matrix (fun k => (k : ℝ)) ⟨store, UDS.new ℝ (Obs4.mk 0 1 2 3 4 5).list⟩ [] (by decide) (holds_new ℝ _) 5
    (matrixColumns out) (by
      intro c hc
      obtain ⟨i, rfl⟩ := List.mem_ofFn.1 hc
      simp) (Or.inr rfl)
  have := (T.2.1 (by
    intro t ht o ho
    obtain ⟨p, -, rfl⟩ := List.mem_map.1 ht
    left
    have h2 := assign_limits (Obs4.mk 0 1 2 3 4 5).list
      (if (Obs4.mk 0 1 2 3 4 5).list.length = 5 + 1 then p.1 ++ [((([] : List (Event ℝ)).length + p.2 : Nat) : ℝ)] else p.1) store o
    unfold columnEvent
    erw [h2.1, h2.2]
    simp [store, FpCmp.eq])).1
  exact ⟨_, Prod.ext rfl this⟩

/-- Two measured decays: the ones of `DemoNorm`. -/
noncomputable def two : Matrix (Fin 16) (Fin 2) ℝ := fun r i =>
  ![![2, 2, 1, 5, 2, -2, -1, 5, -2, 1, 2, 5, -2, -1, -2, 5], ![2, 2, 1, 5, 2, -2, -1, 5, -2, 2, 1, 5, -2, -2, -1, 5]] i r

theorem two_good : ∀ i, GoodColumn ⟨20, 4, 4, 4, 4⟩ two i := by
  intro i
  fin_cases i
  · exact DemoNorm.good DemoNorm.g1 (by simp)
  · exact DemoNorm.good DemoNorm.g2 (by simp)

/-- One of the phase-space events is accepted. -/
noncomputable def run : PhspRun := ⟨[DemoNorm.g2, DemoNorm.g1], [true, false]⟩

theorem run_good : GoodEvents ⟨20, 4, 4, 4, 4⟩ run.events := by
  intro g hg
  refine DemoNorm.good g ?_
  simp only [run, List.mem_cons, List.not_mem_nil, or_false] at hg ⊢
  exact hg.symm

theorem total_eq (h : Nat → ℝ) :
    ((run.events.take (accepted run).length).map fun g => intensityOf [DemoNorm.amp] h (momentaOf g)).sum
      / ((accepted run).length : ℝ) = (h 0 ^ 2 + h 1 ^ 2) * 400 := by
  have e : run.events.take (accepted run).length = [DemoNorm.g2] := rfl
  rw [e, show (accepted run).length = 1 from rfl]
  simp only [List.map_cons, List.map_nil, DemoNorm.intensity_of_sf]
  have : dtoVV_S (momentaOf DemoNorm.g2 0) (momentaOf DemoNorm.g2 1) (momentaOf DemoNorm.g2 2) (momentaOf DemoNorm.g2 3) = -20 :=
    DemoNorm.sf2
  rw [this]
  norm_num

theorem nll_eq (h : Nat → ℝ) (hp : 0 < h 0 ^ 2 + h 1 ^ 2) :
    nllOf (fun i => intensityOf [DemoNorm.amp] h (columnMomenta two i) * 1) ((h 0 ^ 2 + h 1 ^ 2) * 400) (List.finRange 2)
      = -Real.log (16 / 25) := by
  have e0 : intensityOf [DemoNorm.amp] h (columnMomenta two 0) = (h 0 ^ 2 + h 1 ^ 2) * 256 := by
    rw [DemoNorm.intensity_of_sf]
    have : dtoVV_S (columnMomenta two 0 0) (columnMomenta two 0 1) (columnMomenta two 0 2) (columnMomenta two 0 3) = -16 :=
      DemoNorm.sf1
    rw [this]
    norm_num
  have e1 : intensityOf [DemoNorm.amp] h (columnMomenta two 1) = (h 0 ^ 2 + h 1 ^ 2) * 400 := by
    rw [DemoNorm.intensity_of_sf]
    have : dtoVV_S (columnMomenta two 1 0) (columnMomenta two 1 1) (columnMomenta two 1 2) (columnMomenta two 1 3) = -20 :=
      DemoNorm.sf2
    rw [this]
    norm_num
  unfold nllOf
  rw [show List.finRange 2 = [0, 1] from rfl]
  have p0 : 0 < (h 0 ^ 2 + h 1 ^ 2) * 256 := by positivity
  have p1 : 0 < (h 0 ^ 2 + h 1 ^ 2) * 400 := by positivity
  simp only [List.filter_cons, List.filter_nil, e0, e1, mul_one, p0, p1, decide_true, if_true, List.map_cons, List.map_nil,
    List.sum_cons, List.sum_nil, add_zero]
  rw [div_self p1.ne', Real.log_one, neg_zero, add_zero, mul_div_mul_left _ _ hp.ne']
  norm_num

end DemoMeasured
open DemoMeasured

/-- The hypotheses of `C102_columns` and `C102_data` hold for two decays in a dataset without limits. -/
example : (∀ i, GoodColumn ⟨20, 4, 4, 4, 4⟩ two i) ∧ (Obs4.mk 0 1 2 3 4 5).list.Nodup
    ∧ ∃ st', USt.fromMatrix ⟨store, UDS.new ℝ (Obs4.mk 0 1 2 3 4 5).list⟩ (fun k => (k : ℝ)) 5 (matrixColumns (to5param two)) false
      = (st', .done) :=
  ⟨two_good, by decide, import_done _⟩

/-- Both parts of `C102_frame_partial` apply to the decay `one`: with a boost and with the identity. -/
example : (∃ L, IsLorentz L ∧ inFrame L one flying ∧ one ≠ flying)
    ∧ ∃ R, IsRotation R ∧ ∀ i k, columnMomenta one i k = turn R (columnMomenta one i k) := by
  refine ⟨⟨boostY, boost, boosted, fun h => ?_⟩, 1, ⟨by simp, by simp⟩, fun i k => ?_⟩
  · have := congrFun (congrFun h 1) 0
    norm_num [one, flying] at this
  · simp [turn]

/-- A fit of one amplitude to two measured decays, with three calls. -/
example (L : Lib ℝ) (l : L.Leaf) (junk : Nat → Nat → ℝ) (hc : Nat → ℝ) :
    ∃ built, [DemoNorm.amp].mapM (ampBuild junk hc) = some built ∧
    let m := fourBodyPdf [20, 4, 4, 4, 4] [DemoNorm.amp] built (fun _ _ => 1) (ampNormEvents run)
    let t := m.tree (L := L) (coefParams [DemoNorm.amp]) (.leaf l) (.mk ⟨9, .leaf l, [], [], [], 1⟩ [])
    ∃ h, mnRun t DemoFit4.vars [] = some h ∧ ∃ st' evs s1 h2 s2,
      USt.fromMatrix ⟨store, UDS.new ℝ (Obs4.mk 0 1 2 3 4 5).list⟩ (fun k => (k : ℝ)) 5 (matrixColumns (to5param two)) false
        = (st', .done)
      ∧ readUDS4 (Obs4.mk 0 1 2 3 4 5) st'.ds = some evs
      ∧ m.run Real.sqrt ([] ++ [.setData (evs.map (·.1))]) = some s1
      ∧ m.fitPdf.fcnAll t [[1, 0], [2, 3], [1, 0]] h s1
        = .done ([-Real.log (16 / 25), -Real.log (16 / 25), -Real.log (16 / 25)], h2, s2) := by
  have hb : [DemoNorm.amp].mapM (ampBuild junk hc) = some [⟨[DemoFit4.obj], DemoNorm.amp.sf.map sfBuild, 1⟩] := by
    simp [DemoNorm.amp, ampBuild, lsBuild, DemoFit4.obj]
  refine ⟨_, hb, ?_⟩
  intro m t
  have hp : t.getParameters = [0, 1] := rfl
  obtain ⟨h, hh, hbl⟩ : ∃ h, mnRun t DemoFit4.vars [] = some h ∧ ∀ i, (h i).blind = 0 := by
    refine ⟨_, rfl, ?_⟩
    intro i
    match i with
    | 0 => rfl
    | 1 => rfl
    | _ + 2 => rfl
  refine ⟨h, hh, ?_⟩
  obtain ⟨st', hst⟩ := import_done (to5param two)
  have hv : ∀ v ∈ [[1, 0], [2, 3], [1, (0 : ℝ)]], 0 < valuesAt t.getParameters v (fun i => (h i).value) 0 ^ 2
      + valuesAt t.getParameters v (fun i => (h i).value) 1 ^ 2 := by
    intro v hv
    simp only [List.mem_cons, List.not_mem_nil, or_false] at hv
    rw [hp]
    rcases hv with rfl | rfl | rfl <;> norm_num [valuesAt, List.idxOf_cons]
  have hls : m.LS = [DemoFit4.obj] := by
    show lineShapesOf [(⟨[DemoFit4.obj], DemoNorm.amp.sf.map sfBuild, 1⟩ : Amp4 LsObj SfObj)] = [DemoFit4.obj]
    simp [lineShapesOf, addUnique]
  have hn : ∀ p : Nat → ℝ, 0 < p 0 ^ 2 + p 1 ^ 2 →
      nllOf (fun i => intensityOf [DemoNorm.amp] p (columnMomenta two i) * 1)
        (((run.events.take (accepted run).length).map fun g => intensityOf [DemoNorm.amp] p (momentaOf g)).sum
          / ((accepted run).length : ℝ)) (List.finRange 2) = -Real.log (16 / 25) := by
    intro p hp'
    rw [total_eq]
    exact nll_eq p hp'
  have hlog : -Real.log (16 / 25) ≠ 0 := by
    have := Real.log_neg (by norm_num : (0 : ℝ) < 16 / 25) (by norm_num)
    linarith
  obtain ⟨evs, s1, h2, s2, q0, q1, q2⟩ := C102_likelihood_partial junk hc ⟨20, 4, 4, 4, 4⟩ (by norm_num) (by norm_num) (by norm_num)
    (by norm_num) [DemoNorm.amp] _ hb
    (by intro a ha c hc'; rw [List.mem_singleton.1 ha] at hc'; rw [List.mem_singleton.1 hc']; exact id) (fun _ _ => 1) run rfl run_good
    (.leaf l) (.mk ⟨9, .leaf l, [], [], [], 1⟩ []) [] DemoFit4.vars h two two_good (Obs4.mk 0 1 2 3 4 5) (by decide) store st' hst
    (by rw [hls]; exact le_refl 1)
    (by
      intro i a ha
      right
      intro x hx
      match i, ha with
      | 0, ha =>
        simp only [List.getElem?_cons_zero, Option.some.injEq] at ha
        subst ha
        rw [List.mem_singleton.1 hx]
        show List.idxOf DemoFit4.obj m.LS = 0
        rw [hls]
        simp
      | _ + 1, ha => simp at ha)
    hh (fun i _ => hbl i) [] (by simp) trivial (by intro p hp'; simp [A4.lastP] at hp') [[1, 0], [2, 3], [1, 0]] (by
      intro v hvm
      refine ⟨?_, ?_, ?_⟩
      · show 2 ≤ v.length
        simp only [List.mem_cons, List.not_mem_nil, or_false] at hvm
        rcases hvm with rfl | rfl | rfl <;> simp
      · refine lt_of_lt_of_eq ?_ (total_eq _).symm
        exact mul_pos (hv v hvm) (by norm_num)
      · exact fun e => hlog ((hn _ (hv v hvm)).symm.trans e))
  refine ⟨st', evs, s1, h2, s2, hst, q0, q1, q2.trans ?_⟩
  congr 2
  simp only [List.map_cons, List.map_nil]
  exact congrArg₂ _ (hn _ (hv _ (by simp))) (congrArg₂ _ (hn _ (hv _ (by simp))) (congrArg₂ _ (hn _ (hv _ (by simp))) rfl))

/-- The total and the likelihood in `C102_time_likelihood_partial` are not zero for the two decays with decay times 0, an accepted
phase-space event, and the same amplitude for both flavours; the remaining hypotheses are those of C94 and C101. -/
example (h : Nat → ℝ) (h0 : h 0 = 1) (h1 : h 1 = 0) (ht : h 2 = 1) (hx : h 3 = 0) (hy : h 4 = 0) (hr : h 5 = 1) :
    let evs := ([0].map fun _ : Int => accepted run).flatten
    let total := (evs.map fun g =>
      ∫ t in Set.Ioi 0, momentaRate ⟨2, 3, 4, 5⟩ [DemoNorm.amp] [DemoNorm.amp] h (momentaOf g) t).sum / (evs.length : ℝ)
    total = 800 ∧ nllOf (fun i => 1 * momentaRate ⟨2, 3, 4, 5⟩ [DemoNorm.amp] [DemoNorm.amp] h (columnMomenta two i) 0) total
      (List.finRange 2) = -Real.log (16 / 25) := by
  have hA : ∀ V : Fin 4 → LV ℝ, momentaAmplitude [DemoNorm.amp] h V = (dtoVV_S (V 0) (V 1) (V 2) (V 3) : ℂ) := by
    intro V
    have k2 : (spinFactorOf ⟨"VV", .dtoV1V2_S, 0, 0, 1, 2, 3⟩ V).getD 0 = dtoVV_S (V 0) (V 1) (V 2) (V 3) := by
      simp [spinFactorOf, spinFactorVal]
    have k1 : (lineShapeOf (.one ⟨"one", 0, 0, .One, 1⟩ 2 3) h V).getD 0 = 1 := by
      simp [lineShapeOf, args, pairParts, lineShapeAt]
    unfold momentaAmplitude DemoNorm.amp
    simp only [List.map_cons, List.map_nil, k1, k2, h0, h1]
    simp [amplitudeC, part]
    rw [show (⟨1, 0⟩ : ℂ) = 1 from rfl, one_mul]
  have hrate : ∀ (V : Fin 4 → LV ℝ) (t : ℝ), momentaRate ⟨2, 3, 4, 5⟩ [DemoNorm.amp] [DemoNorm.amp] h V t
      = 2 * dtoVV_S (V 0) (V 1) (V 2) (V 3) ^ 2 * Real.exp (-t) := by
    intro V t
    unfold momentaRate
    rw [hA]
    simp only [hr, ht, hx, hy, Complex.ofReal_one, one_mul]
    rw [DemoT3.rate_plain, Complex.normSq_ofReal, div_one]
    ring
  have s1 : dtoVV_S (columnMomenta two 0 0) (columnMomenta two 0 1) (columnMomenta two 0 2) (columnMomenta two 0 3) = -16 :=
    DemoNorm.sf1
  have s2 : dtoVV_S (columnMomenta two 1 0) (columnMomenta two 1 1) (columnMomenta two 1 2) (columnMomenta two 1 3) = -20 :=
    DemoNorm.sf2
  have s3 : dtoVV_S (momentaOf DemoNorm.g2 0) (momentaOf DemoNorm.g2 1) (momentaOf DemoNorm.g2 2) (momentaOf DemoNorm.g2 3) = -20 :=
    DemoNorm.sf2
  intro evs total
  have ht : total = 800 := by
    have e : evs = [DemoNorm.g2] := rfl
    simp only [total, e, List.map_cons, List.map_nil, hrate, s3, MeasureTheory.integral_const_mul, integral_exp_neg_Ioi_zero]
    norm_num
  refine ⟨ht, ?_⟩
  rw [ht]
  unfold nllOf
  rw [show List.finRange 2 = [0, 1] from rfl]
  norm_num [hrate, s1, s2]

end GooFit
