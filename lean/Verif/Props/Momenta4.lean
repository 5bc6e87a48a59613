import Verif.Lemmas.Momenta4
import Verif.Props.SpinFactor
import Verif.Props.Component4
import Verif.Props.Generate3
/-!
# C88: the five variables of a four-body decay determine the momenta up to a rotation, and the PDF is the intensity of the
momenta
-/
set_option autoImplicit false
namespace GooFit
open Spec LV

theorem oneLine_iff (a b : LV ℝ) : OneLine a b ↔ a.cross b = ⟨0, 0, 0, 0⟩ := by
  unfold OneLine cross
  rw [LV.mk.injEq, sub_eq_zero, sub_eq_zero, sub_eq_zero]
  simp

theorem turn_zero (R : Matrix (Fin 3) (Fin 3) ℝ) : turn R ⟨0, 0, 0, 0⟩ = ⟨0, 0, 0, 0⟩ := by
  ext <;> simp [turn]

theorem turn_back {R : Matrix (Fin 3) (Fin 3) ℝ} (h : R.transpose * R = 1) (v : LV ℝ) : turn R.transpose (turn R v) = v := by
  rw [turn_turn, h, turn_one]

theorem turn4_back {R : Matrix (Fin 3) (Fin 3) ℝ} (h : R.transpose * R = 1) (v : LV ℝ × LV ℝ × LV ℝ × LV ℝ) :
    turn4 R.transpose (turn4 R v) = v := by
  rw [turn4_turn4, h, turn4_one]

theorem oneLine_turn {R : Matrix (Fin 3) (Fin 3) ℝ} (h : IsRotation R) (a b : LV ℝ) :
    OneLine (turn R a) (turn R b) ↔ OneLine a b := by
  rw [oneLine_iff, oneLine_iff, turn_cross h]
  constructor
  · intro h0
    rw [← turn_back h.1 (a.cross b), h0, turn_zero]
  · intro h0
    rw [h0, turn_zero]

theorem twoPlanes_turn {R : Matrix (Fin 3) (Fin 3) ℝ} (h : IsRotation R) (v : LV ℝ × LV ℝ × LV ℝ × LV ℝ) :
    TwoPlanes (turn4 R v) ↔ TwoPlanes v := by
  simp only [TwoPlanes, turn4, oneLine_turn h]

/-- A rotation with two given perpendicular directions as its first and last row. -/
theorem rotation_rows {a b c u v w : ℝ} (h1 : a ^ 2 + b ^ 2 + c ^ 2 = 1) (h2 : u ^ 2 + v ^ 2 + w ^ 2 = 1)
    (h3 : a * u + b * v + c * w = 0) :
    IsRotation !![a, b, c; v * c - w * b, w * a - u * c, u * b - v * a; u, v, w] := by
  have hu : (v * c - w * b) ^ 2 + (w * a - u * c) ^ 2 + (u * b - v * a) ^ 2 = 1 := by
    linear_combination h1 + (a ^ 2 + b ^ 2 + c ^ 2) * h2 - (a * u + b * v + c * w) * h3
  constructor
  · rw [mul_eq_one_comm]
    ext i j
    fin_cases i <;> fin_cases j <;>
      simp only [Matrix.mul_apply, Fin.sum_univ_three, Matrix.transpose_apply, Matrix.of_apply, Matrix.cons_val', Matrix.cons_val_zero,
        Matrix.cons_val_one, Matrix.cons_val, Matrix.one_apply, Fin.zero_eta, Fin.mk_one, Fin.reduceFinMk, Fin.reduceEq, if_true, if_false]
    · linear_combination h1
    · ring
    · linear_combination h3
    · ring
    · linear_combination hu
    · ring
    · linear_combination h3
    · ring
    · linear_combination h2
  · rw [Matrix.det_fin_three]
    simp
    linear_combination hu

theorem transverse {R : Matrix (Fin 3) (Fin 3) ℝ} (hrot : IsRotation R) {v : LV ℝ × LV ℝ × LV ℝ × LV ℝ} (hg : TwoPlanes v)
    (y12 : (turn4 R v).1.y + (turn4 R v).2.1.y = 0) (z12 : (turn4 R v).1.z + (turn4 R v).2.1.z = 0) :
    0 < (turn4 R v).1.y ^ 2 + (turn4 R v).1.z ^ 2 := by
  by_contra hc'
  refine ((twoPlanes_turn hrot v).2 hg).1 ?_
  have e1 : (turn4 R v).1.y = 0 := by nlinarith [sq_nonneg (turn4 R v).1.y, sq_nonneg (turn4 R v).1.z]
  have e2 : (turn4 R v).1.z = 0 := by nlinarith [sq_nonneg (turn4 R v).1.y, sq_nonneg (turn4 R v).1.z]
  rw [e1, zero_add] at y12
  rw [e2, zero_add] at z12
  exact ⟨by rw [e1, e2]; ring, by rw [e2, z12]; ring, by rw [e1, y12]; ring⟩

set_option maxHeartbeats 1000000 in
theorem exists_standard {M m1 m2 m3 m4 : ℝ} {v : LV ℝ × LV ℝ × LV ℝ × LV ℝ} (hd : IsDecay M m1 m2 m3 m4 v)
    (hg : TwoPlanes v) : 0 < (v.1 + v.2.1).dot3 (v.1 + v.2.1) ∧ ∃ R, IsRotation R ∧ Standard (turn4 R v) := by
  obtain ⟨X, hX⟩ : ∃ X, X = v.1.x + v.2.1.x := ⟨_, rfl⟩
  obtain ⟨Y, hY⟩ : ∃ Y, Y = v.1.y + v.2.1.y := ⟨_, rfl⟩
  obtain ⟨Z, hZ⟩ : ∃ Z, Z = v.1.z + v.2.1.z := ⟨_, rfl⟩
  have hP : 0 < X ^ 2 + Y ^ 2 + Z ^ 2 := by
    by_contra hc
    have hx : X = 0 := by nlinarith [sq_nonneg X, sq_nonneg Y, sq_nonneg Z]
    have hy : Y = 0 := by nlinarith [sq_nonneg X, sq_nonneg Y, sq_nonneg Z]
    have hz : Z = 0 := by nlinarith [sq_nonneg X, sq_nonneg Y, sq_nonneg Z]
    refine hg.1 ⟨?_, ?_, ?_⟩
    · linear_combination v.1.z * (hY.symm.trans hy) - v.1.y * (hZ.symm.trans hz) + 2 * (v.1.y * (hZ.symm.trans hz) - v.1.z * (hY.symm.trans hy))
    · linear_combination v.1.z * (hX.symm.trans hx) - v.1.x * (hZ.symm.trans hz)
    · linear_combination v.1.x * (hY.symm.trans hy) - v.1.y * (hX.symm.trans hx)
  have hdot : (v.1 + v.2.1).dot3 (v.1 + v.2.1) = X ^ 2 + Y ^ 2 + Z ^ 2 := by
    rw [hX, hY, hZ]
    show (v.1.x + v.2.1.x) * (v.1.x + v.2.1.x) + (v.1.y + v.2.1.y) * (v.1.y + v.2.1.y) + (v.1.z + v.2.1.z) * (v.1.z + v.2.1.z) = _
    ring
  refine ⟨hdot ▸ hP, ?_⟩
  set p := v.2.2.1 with hp
  -- the normal of the plane of the last pair
  obtain ⟨a, ha⟩ : ∃ a, a = Y * p.z - Z * p.y := ⟨_, rfl⟩
  obtain ⟨b, hb⟩ : ∃ b, b = Z * p.x - X * p.z := ⟨_, rfl⟩
  obtain ⟨c, hc⟩ : ∃ c, c = X * p.y - Y * p.x := ⟨_, rfl⟩
  have hw : 0 < a ^ 2 + b ^ 2 + c ^ 2 := by
    by_contra hc'
    have ha0 : a = 0 := by nlinarith [sq_nonneg a, sq_nonneg b, sq_nonneg c]
    have hb0 : b = 0 := by nlinarith [sq_nonneg a, sq_nonneg b, sq_nonneg c]
    have hc0 : c = 0 := by nlinarith [sq_nonneg a, sq_nonneg b, sq_nonneg c]
    have mx := hd.momX
    have my := hd.momY
    have mz := hd.momZ
    have x4 : v.2.2.2.x = -X - p.x := by rw [hX]; linarith
    have y4 : v.2.2.2.y = -Y - p.y := by rw [hY]; linarith
    have z4 : v.2.2.2.z = -Z - p.z := by rw [hZ]; linarith
    refine hg.2 ⟨?_, ?_, ?_⟩
    · rw [y4, z4]; linear_combination ha.symm.trans ha0
    · rw [x4, z4]; linear_combination hb.symm.trans hb0
    · rw [x4, y4]; linear_combination hc.symm.trans hc0
  set n := √(X ^ 2 + Y ^ 2 + Z ^ 2) with hn
  set q := √(a ^ 2 + b ^ 2 + c ^ 2) with hq
  have n0 : 0 < n := Real.sqrt_pos.2 hP
  have q0 : 0 < q := Real.sqrt_pos.2 hw
  have n2 : n ^ 2 = X ^ 2 + Y ^ 2 + Z ^ 2 := Real.sq_sqrt hP.le
  have q2 : q ^ 2 = a ^ 2 + b ^ 2 + c ^ 2 := Real.sq_sqrt hw.le
  have hrot : IsRotation !![X / n, Y / n, Z / n; -(b / q) * (Z / n) - -(c / q) * (Y / n), -(c / q) * (X / n) - -(a / q) * (Z / n),
      -(a / q) * (Y / n) - -(b / q) * (X / n); -(a / q), -(b / q), -(c / q)] := by
    refine rotation_rows ?_ ?_ ?_
    · rw [div_pow, div_pow, div_pow, ← add_div, ← add_div, ← n2]; field_simp
    · rw [neg_sq, neg_sq, neg_sq, div_pow, div_pow, div_pow, ← add_div, ← add_div, ← q2]; field_simp
    · have : X * a + Y * b + Z * c = 0 := by rw [ha, hb, hc]; ring
      field_simp
      linear_combination -this
  have s3 : (turn4 !![X / n, Y / n, Z / n; -(b / q) * (Z / n) - -(c / q) * (Y / n), -(c / q) * (X / n) - -(a / q) * (Z / n),
      -(a / q) * (Y / n) - -(b / q) * (X / n); -(a / q), -(b / q), -(c / q)] v).2.2.1.z = 0 := by
    show -(a / q) * p.x + -(b / q) * p.y + -(c / q) * p.z = 0
    have : a * p.x + b * p.y + c * p.z = 0 := by rw [ha, hb, hc]; ring
    field_simp
    linear_combination -this
  refine ⟨_, hrot, ?_⟩
  have y12 : (turn4 !![X / n, Y / n, Z / n; -(b / q) * (Z / n) - -(c / q) * (Y / n), -(c / q) * (X / n) - -(a / q) * (Z / n),
      -(a / q) * (Y / n) - -(b / q) * (X / n); -(a / q), -(b / q), -(c / q)] v).1.y
      + (turn4 !![X / n, Y / n, Z / n; -(b / q) * (Z / n) - -(c / q) * (Y / n), -(c / q) * (X / n) - -(a / q) * (Z / n),
      -(a / q) * (Y / n) - -(b / q) * (X / n); -(a / q), -(b / q), -(c / q)] v).2.1.y = 0 := by
    show (-(b / q) * (Z / n) - -(c / q) * (Y / n)) * v.1.x + (-(c / q) * (X / n) - -(a / q) * (Z / n)) * v.1.y
        + (-(a / q) * (Y / n) - -(b / q) * (X / n)) * v.1.z
      + ((-(b / q) * (Z / n) - -(c / q) * (Y / n)) * v.2.1.x + (-(c / q) * (X / n) - -(a / q) * (Z / n)) * v.2.1.y
        + (-(a / q) * (Y / n) - -(b / q) * (X / n)) * v.2.1.z) = 0
    have h1 : v.2.1.x = X - v.1.x := by rw [hX]; ring
    have h2 : v.2.1.y = Y - v.1.y := by rw [hY]; ring
    have h3 : v.2.1.z = Z - v.1.z := by rw [hZ]; ring
    rw [h1, h2, h3]
    ring
  have z12 : (turn4 !![X / n, Y / n, Z / n; -(b / q) * (Z / n) - -(c / q) * (Y / n), -(c / q) * (X / n) - -(a / q) * (Z / n),
      -(a / q) * (Y / n) - -(b / q) * (X / n); -(a / q), -(b / q), -(c / q)] v).1.z
      + (turn4 !![X / n, Y / n, Z / n; -(b / q) * (Z / n) - -(c / q) * (Y / n), -(c / q) * (X / n) - -(a / q) * (Z / n),
      -(a / q) * (Y / n) - -(b / q) * (X / n); -(a / q), -(b / q), -(c / q)] v).2.1.z = 0 := by
    show -(a / q) * v.1.x + -(b / q) * v.1.y + -(c / q) * v.1.z + (-(a / q) * v.2.1.x + -(b / q) * v.2.1.y + -(c / q) * v.2.1.z) = 0
    have : a * X + b * Y + c * Z = 0 := by rw [ha, hb, hc]; ring
    rw [hX, hY, hZ] at this
    field_simp
    linear_combination -this
  refine ⟨y12, z12, ?_, s3, ?_, ?_⟩
  · show 0 < X / n * v.1.x + Y / n * v.1.y + Z / n * v.1.z + (X / n * v.2.1.x + Y / n * v.2.1.y + Z / n * v.2.1.z)
    have : X / n * v.1.x + Y / n * v.1.y + Z / n * v.1.z + (X / n * v.2.1.x + Y / n * v.2.1.y + Z / n * v.2.1.z)
        = (X ^ 2 + Y ^ 2 + Z ^ 2) / n := by
      field_simp
      rw [hX, hY, hZ]
      ring
    rw [this]
    positivity
  · show (-(b / q) * (Z / n) - -(c / q) * (Y / n)) * p.x + (-(c / q) * (X / n) - -(a / q) * (Z / n)) * p.y
        + (-(a / q) * (Y / n) - -(b / q) * (X / n)) * p.z < 0
    have : (-(b / q) * (Z / n) - -(c / q) * (Y / n)) * p.x + (-(c / q) * (X / n) - -(a / q) * (Z / n)) * p.y
        + (-(a / q) * (Y / n) - -(b / q) * (X / n)) * p.z = -((a ^ 2 + b ^ 2 + c ^ 2) / (q * n)) := by
      field_simp
      rw [show a ^ 2 + b ^ 2 + c ^ 2 = a * (Y * p.z - Z * p.y) + b * (Z * p.x - X * p.z) + c * (X * p.y - Y * p.x) by
        rw [← ha, ← hb, ← hc]; ring]
      ring
    rw [this]
    have : 0 < (a ^ 2 + b ^ 2 + c ^ 2) / (q * n) := by positivity
    linarith
  · exact transverse hrot hg y12 z12

/-- What is shown below in one: a decay is, up to a rotation, `get4Vecs` of variables inside the phase space. -/
theorem decay_variables {M m1 m2 m3 m4 : ℝ} {v : LV ℝ × LV ℝ × LV ℝ × LV ℝ} (hd : IsDecay M m1 m2 m3 m4 v) (h1 : 0 ≤ m1)
    (h2 : 0 ≤ m2) (h3 : 0 ≤ m3) (h4 : 0 ≤ m4) (hg : TwoPlanes v) :
    ∃ R m12 m34 c12 c34 phi, IsRotation R ∧ Inside M m1 m2 m3 m4 m12 m34 ∧ c12 ^ 2 < 1 ∧ c34 ^ 2 < 1 ∧ -Real.pi < phi
      ∧ phi ≤ Real.pi ∧ get4Vecs m12 m34 c12 c34 phi M m1 m2 m3 m4 = turn4 R v
      ∧ dim5 v.1 v.2.1 v.2.2.1 v.2.2.2 = (m12, m34, c12, c34, phi) := by
  obtain ⟨hpos, R, hR, hst⟩ := exists_standard hd hg
  have hd' := decay_turn hR.1 hd
  have hi := standard_inside hd h1 h2 h3 h4 hg hpos
  have p12 : 0 < √((v.1 + v.2.1).mink (v.1 + v.2.1)) := by have := hi.pair12; linarith
  have p34 : 0 < √((v.2.2.1 + v.2.2.2).mink (v.2.2.1 + v.2.2.2)) := by have := hi.pair34; linarith
  obtain ⟨c12, c34, phi, g1, g2, g3, g4, g5⟩ := standard_vecs hd' hst hi
    (by rw [Real.sq_sqrt (Real.sqrt_pos.1 p12).le]
        exact ((turn_add R v.1 v.2.1) ▸ turn_mink hR.1 (v.1 + v.2.1) (v.1 + v.2.1)).symm)
    (by rw [Real.sq_sqrt (Real.sqrt_pos.1 p34).le]
        exact ((turn_add R v.2.2.1 v.2.2.2) ▸ turn_mink hR.1 (v.2.2.1 + v.2.2.2) (v.2.2.1 + v.2.2.2)).symm)
  refine ⟨R, _, _, c12, c34, phi, hR, hi, g1, g2, g3, g4, g5, ?_⟩
  have := C51_round_trip hi g1 g2 phi g3 g4
  rw [g5] at this
  rw [← this]
  exact (dim5_turn hR _ _ _ _).symm

/-- **C88 (the momenta).** Take the momenta of any decay of a particle at rest into four, in which neither the first pair nor the
last pair of momenta lie along one line.  The five variables computed from them lie inside the phase space, and the momenta
that the amplitudes are computed from, given these variables, are those of the decay up to a rotation. -/
theorem C88_momenta {M m1 m2 m3 m4 : ℝ} {v : LV ℝ × LV ℝ × LV ℝ × LV ℝ} (hd : IsDecay M m1 m2 m3 m4 v) (h1 : 0 ≤ m1)
    (h2 : 0 ≤ m2) (h3 : 0 ≤ m3) (h4 : 0 ≤ m4) (hg : TwoPlanes v) :
    let x := dim5 v.1 v.2.1 v.2.2.1 v.2.2.2
    Inside M m1 m2 m3 m4 x.1 x.2.1 ∧ |x.2.2.1| < 1 ∧ |x.2.2.2.1| < 1 ∧ -Real.pi < x.2.2.2.2 ∧ x.2.2.2.2 ≤ Real.pi
      ∧ ∃ R, IsRotation R ∧ get4Vecs x.1 x.2.1 x.2.2.1 x.2.2.2.1 x.2.2.2.2 M m1 m2 m3 m4 = turn4 R v := by
  obtain ⟨R, m12, m34, c12, c34, phi, hR, hi, hc1, hc2, hp1, hp2, hv, hx⟩ := decay_variables hd h1 h2 h3 h4 hg
  intro x
  have : x = (m12, m34, c12, c34, phi) := hx
  rw [this]
  exact ⟨hi, (sq_lt_one_iff_abs_lt_one c12).1 hc1, (sq_lt_one_iff_abs_lt_one c34).1 hc2, hp1, hp2, R, hR, hv⟩

/-- **C88 (the variables determine the decay).** Two decays have the same five variables exactly when one is the other, turned. -/
theorem C88_same_variables {M m1 m2 m3 m4 : ℝ} {v w : LV ℝ × LV ℝ × LV ℝ × LV ℝ} (hv : IsDecay M m1 m2 m3 m4 v)
    (hw : IsDecay M m1 m2 m3 m4 w) (h1 : 0 ≤ m1) (h2 : 0 ≤ m2) (h3 : 0 ≤ m3) (h4 : 0 ≤ m4) (gv : TwoPlanes v)
    (gw : TwoPlanes w) :
    dim5 v.1 v.2.1 v.2.2.1 v.2.2.2 = dim5 w.1 w.2.1 w.2.2.1 w.2.2.2 ↔ ∃ R, IsRotation R ∧ w = turn4 R v := by
  constructor
  · intro he
    obtain ⟨-, -, -, -, -, R, hR, e1⟩ := C88_momenta hv h1 h2 h3 h4 gv
    obtain ⟨-, -, -, -, -, S, hS, e2⟩ := C88_momenta hw h1 h2 h3 h4 gw
    rw [he, e2] at e1
    refine ⟨S.transpose * R, rotation_mul (rotation_inv hS) hR, ?_⟩
    rw [← turn4_turn4, ← e1, turn4_back hS.1]
  · rintro ⟨R, hR, rfl⟩
    exact (dim5_turn hR _ _ _ _).symm

/-- The reflection in the plane of the last pair. -/
theorem reflected_vecs (m12 m34 c12 c34 phi M m1 m2 m3 m4 : ℝ) :
    turn4 !![1, 0, 0; 0, 1, 0; 0, 0, -1] (get4Vecs m12 m34 c12 c34 phi M m1 m2 m3 m4)
      = get4Vecs m12 m34 c12 c34 (-phi) M m1 m2 m3 m4 := by
  unfold turn4 get4Vecs
  refine Prod.ext ?_ (Prod.ext ?_ (Prod.ext ?_ ?_)) <;> ext <;> simp [turn, rotX, boostX, Real.sin_neg, Real.cos_neg]

theorem reflection_z : IsReflection !![1, 0, 0; 0, 1, 0; 0, 0, -1] := by
  constructor
  · ext i j
    fin_cases i <;> fin_cases j <;> simp [Matrix.mul_apply, Fin.sum_univ_three]
  · rw [Matrix.det_fin_three]
    simp

/-- **C88 (the mirror image).** The variables of the mirror image of a decay are the same masses and helicity angles and the
opposite angle between the planes (π is its own opposite). -/
theorem C88_mirror {M m1 m2 m3 m4 : ℝ} {v : LV ℝ × LV ℝ × LV ℝ × LV ℝ} (hd : IsDecay M m1 m2 m3 m4 v) (h1 : 0 ≤ m1)
    (h2 : 0 ≤ m2) (h3 : 0 ≤ m3) (h4 : 0 ≤ m4) (hg : TwoPlanes v) {R : Matrix (Fin 3) (Fin 3) ℝ} (hR : IsReflection R) :
    let x := dim5 v.1 v.2.1 v.2.2.1 v.2.2.2
    dim5 (turn R v.1) (turn R v.2.1) (turn R v.2.2.1) (turn R v.2.2.2)
      = (x.1, x.2.1, x.2.2.1, x.2.2.2.1, if x.2.2.2.2 = Real.pi then Real.pi else -x.2.2.2.2) := by
  obtain ⟨S, m12, m34, c12, c34, phi, hS, hi, hc1, hc2, hp1, hp2, hv, hx⟩ := decay_variables hd h1 h2 h3 h4 hg
  intro x
  have hx' : x = (m12, m34, c12, c34, phi) := hx
  rw [hx']
  dsimp only
  set Z : Matrix (Fin 3) (Fin 3) ℝ := !![1, 0, 0; 0, 1, 0; 0, 0, -1] with hZ
  have hZr : IsReflection Z := reflection_z
  -- the reflected momenta are a rotation of the reflected standard momenta
  have hSR : IsReflection (R * S.transpose) := by
    have hSi := rotation_inv hS
    refine ⟨?_, by rw [Matrix.det_mul, hR.2, hSi.2, mul_one]⟩
    rw [Matrix.transpose_mul, Matrix.mul_assoc, ← Matrix.mul_assoc R.transpose, hR.1, Matrix.one_mul]
    exact hSi.1
  have hQ : IsRotation (R * S.transpose * Z) := reflections_mul hSR hZr
  have hZZ : Z * Z = 1 := by
    ext i j
    fin_cases i <;> fin_cases j <;> simp [hZ, Matrix.mul_apply, Fin.sum_univ_three]
  have hmain : turn4 R v = turn4 (R * S.transpose * Z) (get4Vecs m12 m34 c12 c34 (-phi) M m1 m2 m3 m4) := by
    rw [← reflected_vecs, hv, turn4_turn4, turn4_turn4, ← hZ]
    congr 1
    rw [Matrix.mul_assoc (R * S.transpose), hZZ, Matrix.mul_one, Matrix.mul_assoc, hS.1, Matrix.mul_one]
  have h5 : dim5 (turn R v.1) (turn R v.2.1) (turn R v.2.2.1) (turn R v.2.2.2)
      = dim5 (turn4 R v).1 (turn4 R v).2.1 (turn4 R v).2.2.1 (turn4 R v).2.2.2 := rfl
  rw [h5, hmain]
  have h6 : ∀ (Q : Matrix (Fin 3) (Fin 3) ℝ) (u : LV ℝ × LV ℝ × LV ℝ × LV ℝ), IsRotation Q →
      dim5 (turn4 Q u).1 (turn4 Q u).2.1 (turn4 Q u).2.2.1 (turn4 Q u).2.2.2 = dim5 u.1 u.2.1 u.2.2.1 u.2.2.2 :=
    fun Q u hQ => dim5_turn hQ _ _ _ _
  rw [h6 _ _ hQ]
  by_cases hpi : phi = Real.pi
  · rw [if_pos hpi, hpi]
    have : get4Vecs m12 m34 c12 c34 (-Real.pi) M m1 m2 m3 m4 = get4Vecs m12 m34 c12 c34 Real.pi M m1 m2 m3 m4 := by
      unfold get4Vecs
      simp [rotX]
    rw [this]
    exact C51_round_trip hi hc1 hc2 Real.pi (by have := Real.pi_pos; linarith) le_rfl
  · rw [if_neg hpi]
    have : phi < Real.pi := lt_of_le_of_ne hp2 hpi
    exact C51_round_trip hi hc1 hc2 (-phi) (by linarith) (by linarith)

/-! ### The intensity -/

theorem massSq_turn {R : Matrix (Fin 3) (Fin 3) ℝ} (h : R.transpose * R = 1) (V : Fin 4 → LV ℝ) (l : List (Fin 4)) :
    massSq (fun i => turn R (V i)) l = massSq V l := by
  have key : ∀ (r s t : ℝ), (l.map fun i => r * (V i).x + s * (V i).y + t * (V i).z).sum
      = r * (l.map fun i => (V i).x).sum + s * (l.map fun i => (V i).y).sum + t * (l.map fun i => (V i).z).sum := by
    intro r s t
    induction l with
    | nil => simp
    | cons a l ih => simp only [List.map_cons, List.sum_cons, ih]; ring
  have := turn_mink h ⟨(l.map fun i => (V i).x).sum, (l.map fun i => (V i).y).sum, (l.map fun i => (V i).z).sum,
    (l.map fun i => (V i).e).sum⟩ ⟨(l.map fun i => (V i).x).sum, (l.map fun i => (V i).y).sum, (l.map fun i => (V i).z).sum,
    (l.map fun i => (V i).e).sum⟩
  simp only [massSq, turn, key, mink] at this ⊢
  linarith

theorem vecOf_turn4 (R : Matrix (Fin 3) (Fin 3) ℝ) (v : LV ℝ × LV ℝ × LV ℝ × LV ℝ) :
    vecOf (turn4 R v) = fun i => turn R (vecOf v i) := by
  funext i
  fin_cases i <;> rfl

/-- The rotation as a change of frame. -/
def embed (R : Matrix (Fin 3) (Fin 3) ℝ) : Matrix (Fin 4) (Fin 4) ℝ :=
  !![R 0 0, R 0 1, R 0 2, 0; R 1 0, R 1 1, R 1 2, 0; R 2 0, R 2 1, R 2 2, 0; 0, 0, 0, 1]

theorem embed_act (R : Matrix (Fin 3) (Fin 3) ℝ) (v : LV ℝ) : act (embed R) v = turn R v := by
  ext <;> simp [act, turn, embed, comp, Fin.sum_univ_four]

theorem embed_lorentz {R : Matrix (Fin 3) (Fin 3) ℝ} (h : R.transpose * R = 1) : IsLorentz (embed R) := by
  unfold IsLorentz
  have c (i j : Fin 3) := cols_of h i j
  have c00 := c 0 0
  have c01 := c 0 1
  have c02 := c 0 2
  have c10 := c 1 0
  have c11 := c 1 1
  have c12 := c 1 2
  have c20 := c 2 0
  have c21 := c 2 1
  have c22 := c 2 2
  simp only [if_true, Fin.reduceEq, if_false] at c00 c01 c02 c10 c11 c12 c20 c21 c22
  ext i j
  rw [Matrix.mul_apply]
  simp only [Matrix.mul_diagonal, Matrix.transpose_apply, Fin.sum_univ_four, eta]
  fin_cases i <;> fin_cases j <;> simp [embed, Matrix.diagonal] <;> linarith

theorem embed_det (R : Matrix (Fin 3) (Fin 3) ℝ) : (embed R).det = R.det := by
  rw [Matrix.det_succ_row_zero, Matrix.det_fin_three R]
  simp [embed, Fin.sum_univ_four, Matrix.det_fin_three, Fin.succAbove, Matrix.submatrix]
  ring

theorem spin_turn {R : Matrix (Fin 3) (Fin 3) ℝ} (h : IsRotation R) (s : SfNew) (V : Fin 4 → LV ℝ) :
    spinFactorOf s (fun i => turn R (V i)) = spinFactorOf s V := by
  unfold spinFactorOf
  split_ifs with hlt
  · congr 1
    have := C53_frame (embed_lorentz h.1) s.kind s.mD0 ⟨s.p0, hlt.1⟩ ⟨s.p1, hlt.2.1⟩ ⟨s.p2, hlt.2.2.1⟩ ⟨s.p3, hlt.2.2.2⟩ V
    simp only [embed_act, embed_det, h.2, ite_self, one_mul] at this
    exact this
  · rfl

/-- **C88 (the intensity).** At the five variables of a decay, the intensity the PDF computes is the intensity of the momenta:
every line shape at the invariant masses of the particles it names, every spin factor of the momenta it names, in whatever
frame of the mother they are given. -/
theorem C88_intensity {d : Decay4} {v : LV ℝ × LV ℝ × LV ℝ × LV ℝ} (hd : IsDecay d.M d.m1 d.m2 d.m3 d.m4 v) (h1 : 0 ≤ d.m1)
    (h2 : 0 ≤ d.m2) (h3 : 0 ≤ d.m3) (h4 : 0 ≤ d.m4) (hg : TwoPlanes v) (amps : List AmpNew) (h : Nat → ℝ) :
    let x := dim5 v.1 v.2.1 v.2.2.1 v.2.2.2
    described d amps h ⟨x.1, x.2.1, x.2.2.1, x.2.2.2.1, x.2.2.2.2⟩ = intensityOf amps h (vecOf v) := by
  obtain ⟨R, m12, m34, c12, c34, phi, hR, hi, hc1, hc2, hp1, hp2, hv, hx⟩ := decay_variables hd h1 h2 h3 h4 hg
  intro x
  have hx' : x = (m12, m34, c12, c34, phi) := hx
  rw [hx']
  dsimp only
  have hvec : vecOf (get4Vecs m12 m34 c12 c34 phi d.M d.m1 d.m2 d.m3 d.m4) = fun i => turn R (vecOf v i) := by
    rw [hv, vecOf_turn4]
  have hls : ∀ c : LsNew, lineShape4 d c h ⟨m12, m34, c12, c34, phi⟩ = lineShapeOf c h (vecOf v) := by
    intro c
    obtain ⟨k1, k2⟩ := C52_masses_of_named_systems hi hc1.le hc2.le phi (args c).pair
    unfold lineShape4 lineShapeOf
    dsimp only
    cases hp : pairParts (args c).pair with
    | none => rw [k2 hp]; rfl
    | some ab =>
      obtain ⟨r, e0, e1, e2, e3⟩ := k1 ab.1 ab.2 hp
      rw [hvec, massSq_turn hR.1] at e1 e2 e3
      rw [e0]
      simp only [Option.bind_some, e1, e2, e3]
  have hsf : ∀ s : SfNew, spinFactor4 d s ⟨m12, m34, c12, c34, phi⟩ = spinFactorOf s (vecOf v) := by
    intro s
    rw [← spin_turn hR, ← hvec]
    rfl
  unfold described intensityOf
  simp only [hls, hsf]

/-- The momenta of a generated event. -/
def Gen4.momenta (g : Gen4) : LV ℝ × LV ℝ × LV ℝ × LV ℝ := (g.p1, g.p2, g.p3, g.p4)

/-- **C88 (generated events)** (what is missing: as for `C87_four_partial`, and events with two momenta of a pair along one line).
After any history with honest marks, the weight of a generated event is its phase-space weight times the intensity of its
momenta and the efficiency. -/
theorem C88_generated_partial (junk : Nat → Nat → ℝ) (h0 : Nat → ℝ) (d : Decay4) (h1 : 0 ≤ d.m1) (h2 : 0 ≤ d.m2)
    (h3 : 0 ≤ d.m3) (h4 : 0 ≤ d.m4) (amps : List AmpNew) (built : List (Amp4 LsObj SfObj))
    (hb : amps.mapM (ampBuild junk h0) = some built) (hs : ∀ a ∈ amps, ∀ c ∈ a.ls, ¬ IsSpline c)
    (eff : (Nat → ℝ) → Ev4 → ℝ) (mc : List Ev4) (hle : (lineShapesOf built).length ≤ built.length)
    (ops : List (A4.Op LsObj (Nat → ℝ) Ev4)) (hm : MarksFrom none ops) (s : A4State ℝ Ev4)
    (hr : (fourBodyPdf [d.M, d.m1, d.m2, d.m3, d.m4] amps built eff mc).run Real.sqrt ops = some s)
    (c : LsObj → Bool) (h : Nat → ℝ) (evs : List Gen4) (h6 : 6 ≤ evs.length) (u : Nat → ℝ)
    (hev : ∀ g ∈ evs, IsDecay d.M d.m1 d.m2 d.m3 d.m4 g.momenta ∧ TwoPlanes g.momenta) :
    ∃ out s', (fourBodyPdf [d.M, d.m1, d.m2, d.m3, d.m4] amps built eff mc).generateSig c h s evs u = some (out, s')
      ∧ out.weights = evs.map (fun g => g.w * (intensityOf amps h ![g.p1, g.p2, g.p3, g.p4] * eff h (ev4Of g)))
      ∧ AcceptedBy u out.weights out.flags := by
  obtain ⟨out, s', e1, -, e3, e4⟩ := C87_four_partial junk h0 d amps built hb hs eff mc hle ops hm s hr c h evs h6 u
  refine ⟨out, s', e1, ?_, e4⟩
  rw [e3]
  refine List.map_congr_left fun g hg => ?_
  have := C88_intensity (hev g hg).1 h1 h2 h3 h4 (hev g hg).2 amps h
  dsimp only at this
  rw [show (ev4Of g) = ⟨(dim5 g.p1 g.p2 g.p3 g.p4).1, (dim5 g.p1 g.p2 g.p3 g.p4).2.1, (dim5 g.p1 g.p2 g.p3 g.p4).2.2.1,
    (dim5 g.p1 g.p2 g.p3 g.p4).2.2.2.1, (dim5 g.p1 g.p2 g.p3 g.p4).2.2.2.2⟩ from rfl]
  congr 2

/-- The momenta of a decay of a particle of mass 20 into four particles of mass 4. -/
def momDemo : LV ℝ × LV ℝ × LV ℝ × LV ℝ := (⟨2, 2, 1, 5⟩, ⟨2, -2, -1, 5⟩, ⟨-2, 1, 2, 5⟩, ⟨-2, -1, -2, 5⟩)

theorem momDemo_decay : IsDecay 20 4 4 4 4 momDemo := by
  constructor <;> norm_num [momDemo]

theorem momDemo_planes : TwoPlanes momDemo := by
  constructor <;> norm_num [momDemo, OneLine]

/-- The hypotheses of C88 are met: this decay, its image under a rotation and its mirror image. -/
example : (∃ R, IsRotation R ∧ turn4 R momDemo ≠ momDemo
      ∧ dim5 momDemo.1 momDemo.2.1 momDemo.2.2.1 momDemo.2.2.2
        = dim5 (turn R momDemo.1) (turn R momDemo.2.1) (turn R momDemo.2.2.1) (turn R momDemo.2.2.2))
    ∧ (∀ amps h, let x := dim5 momDemo.1 momDemo.2.1 momDemo.2.2.1 momDemo.2.2.2
      described ⟨20, 4, 4, 4, 4⟩ amps h ⟨x.1, x.2.1, x.2.2.1, x.2.2.2.1, x.2.2.2.2⟩ = intensityOf amps h (vecOf momDemo)) := by
  constructor
  · have hR : IsRotation !![0, -1, 0; 1, 0, 0; 0, 0, 1] := by
      constructor
      · ext i j
        fin_cases i <;> fin_cases j <;> simp [Matrix.mul_apply, Fin.sum_univ_three]
      · rw [Matrix.det_fin_three]
        simp
    refine ⟨_, hR, ?_, ?_⟩
    · intro h
      have := congrArg (fun v => v.1.x) h
      simp only [turn4, turn, momDemo, Matrix.of_apply, Matrix.cons_val', Matrix.cons_val_zero, Matrix.cons_val_one,
        Matrix.cons_val] at this
      norm_num at this
    · exact (dim5_turn hR _ _ _ _).symm
  · intro amps h
    exact C88_intensity (d := ⟨20, 4, 4, 4, 4⟩) momDemo_decay (by norm_num) (by norm_num) (by norm_num) (by norm_num)
      momDemo_planes amps h

/-- Six generated events in an evaluated PDF of one amplitude: the hypotheses of `C88_generated_partial` hold. -/
example (junk : Nat → Nat → ℝ) (h0 h : Nat → ℝ) (eff : (Nat → ℝ) → Ev4 → ℝ) (mc data : List Ev4) (u : Nat → ℝ) :
    let evs : List Gen4 := List.replicate 6 ⟨momDemo.1, momDemo.2.1, momDemo.2.2.1, momDemo.2.2.2, 1⟩
    ∃ built s out s', [exAmp].mapM (ampBuild junk h0) = some built
      ∧ (fourBodyPdf [20, 4, 4, 4, 4] [exAmp] built eff mc).run Real.sqrt
          [.setData data, .eval (fun _ => true) h] = some s
      ∧ (fourBodyPdf [20, 4, 4, 4, 4] [exAmp] built eff mc).generateSig (fun _ => false) h s evs u = some (out, s')
      ∧ out.weights = evs.map (fun g => g.w * (intensityOf [exAmp] h ![g.p1, g.p2, g.p3, g.p4] * eff h (ev4Of g))) := by
  intro evs
  obtain ⟨o, ho⟩ : ∃ o, lsBuild junk h0 exRbw = some o := ⟨_, rfl⟩
  have hb : [exAmp].mapM (ampBuild junk h0) = some [⟨[o], exAmp.sf.map sfBuild, 1⟩] := by
    simp [exAmp, ampBuild, ho]
  have hle : (lineShapesOf [(⟨[o], exAmp.sf.map sfBuild, 1⟩ : Amp4 LsObj SfObj)]).length ≤ 1 := by
    simp [lineShapesOf, addUnique]
  have hm : MarksFrom none [.setData data, .eval (fun _ => true) h] := ⟨fun _ h => absurd h (by simp), trivial⟩
  obtain ⟨s, hs⟩ := Option.ne_none_iff_exists'.1 (C49_no_overflow Real.sqrt
    (fourBodyPdf [20, 4, 4, 4, 4] [exAmp] [⟨[o], exAmp.sf.map sfBuild, 1⟩] eff mc) hle
    [.setData data, .eval (fun _ => true) h])
  obtain ⟨out, s', h1, h3, -⟩ := C88_generated_partial junk h0 ⟨20, 4, 4, 4, 4⟩ (by norm_num) (by norm_num) (by norm_num)
    (by norm_num) [exAmp] _ hb
    (by intro a ha c hc; rw [List.mem_singleton.1 ha] at hc; rw [List.mem_singleton.1 hc]; exact id) eff mc hle
    [.setData data, .eval (fun _ => true) h] hm s hs (fun _ => false) h evs (by simp [evs]) u
    (by intro g hg
        rw [List.eq_of_mem_replicate hg]
        exact ⟨momDemo_decay, momDemo_planes⟩)
  exact ⟨_, s, out, s', hb, hs, h1, h3⟩

end GooFit
