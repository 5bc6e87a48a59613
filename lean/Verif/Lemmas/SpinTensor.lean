import Verif.Lemmas.SpinFactor
/-!
# Lemmas for C54: the vectors of the code and the tensors of the specification
-/
set_option autoImplicit false
namespace GooFit
open Spec

theorem comp_add (a b : LV ℝ) : comp (a + b) = comp a + comp b := by
  funext i; fin_cases i <;> rfl
theorem comp_sub (a b : LV ℝ) : comp (a - b) = comp a - comp b := by
  funext i; fin_cases i <;> rfl
theorem comp_smul (k : ℝ) (a : LV ℝ) (i : Fin 4) : comp (a.smul k) i = k * comp a i := by
  fin_cases i <;> rfl

theorem Spec.Massive.add {a b : LV ℝ} (ha : Massive a) (hb : Massive b) : Massive (a + b) := by
  obtain ⟨ea, ha⟩ := ha
  obtain ⟨eb, hb⟩ := hb
  refine ⟨by show 0 < a.e + b.e; linarith, ?_⟩
  show (a.x + b.x) ^ 2 + (a.y + b.y) ^ 2 + (a.z + b.z) ^ 2 < (a.e + b.e) ^ 2
  have key : a.x * b.x + a.y * b.y + a.z * b.z < a.e * b.e := by
    have cs : (a.x * b.x + a.y * b.y + a.z * b.z) ^ 2 ≤ (a.x ^ 2 + a.y ^ 2 + a.z ^ 2) * (b.x ^ 2 + b.y ^ 2 + b.z ^ 2) := by
      nlinarith [sq_nonneg (a.x * b.y - a.y * b.x), sq_nonneg (a.x * b.z - a.z * b.x), sq_nonneg (a.y * b.z - a.z * b.y)]
    have lt : (a.x ^ 2 + a.y ^ 2 + a.z ^ 2) * (b.x ^ 2 + b.y ^ 2 + b.z ^ 2) < (a.e * b.e) ^ 2 := by
      rw [mul_pow]
      exact mul_lt_mul'' ha hb (by positivity) (by positivity)
    exact lt_of_abs_lt (abs_lt_of_sq_lt_sq (lt_of_le_of_lt cs lt) (by positivity))
  nlinarith

theorem Spec.Massive.pos {a : LV ℝ} (ha : Massive a) : 0 < a.mink a := by
  have := ha.2
  unfold LV.mink
  nlinarith

theorem Spec.Massive.m_sq {a : LV ℝ} (ha : Massive a) : a.m * a.m = a.mink a := by
  unfold LV.m LV.mag2
  exact Real.mul_self_sqrt ha.pos.le

theorem orbital1_eq {p : LV ℝ} (hp : Massive p) (q : LV ℝ) : comp (ztSpin1 q p p.m) = orbital1 (comp q) (comp p) := by
  funext i
  unfold ztSpin1 orbital1
  rw [hp.m_sq, comp_sub, Pi.sub_apply, comp_smul, comp_smul, ← mink_eq_dotp, ← mink_eq_dotp]
  ring

theorem contr1_proj1 {p : LV ℝ} (hp : Massive p) (v : LV ℝ) : contr1 (proj1 (comp p)) (comp v) = comp (spinSumV p p.m v) := by
  funext i
  unfold contr1 proj1 spinSumV
  rw [hp.m_sq, comp_add, Pi.add_apply, comp_smul, comp_smul, ← mink_eq_dotp]
  generalize p.mink p = k
  fin_cases i <;>
    simp only [Fin.sum_univ_four, gUp, eta, comp, LV.mink, Fin.isValue, Fin.mk_one, Fin.zero_eta, Fin.reduceFinMk, Fin.reduceEq,
      if_true, if_false, Matrix.cons_val_zero, Matrix.cons_val_one, Matrix.cons_val] <;> ring

theorem contr2_eq (T : Fin 4 → Fin 4 → ℝ) (a b : Vec) : contr2 T a b = dotp a (contr1 T b) := by
  unfold contr2 dotp contr1
  refine Finset.sum_congr rfl fun μ _ => ?_
  rw [Finset.mul_sum]
  exact Finset.sum_congr rfl fun ν _ => by ring

theorem contr2_proj1 {p : LV ℝ} (hp : Massive p) (a b : LV ℝ) :
    contr2 (proj1 (comp p)) (comp a) (comp b) = a.mink (spinSumV p p.m b) := by
  rw [contr2_eq, contr1_proj1 hp, mink_eq_dotp]

theorem contr1_orbital2 {p : LV ℝ} (hp : Massive p) (q v : LV ℝ) :
    contr1 (orbital2 (comp q) (comp p)) (comp v) = comp ((ztSpin2 q p p.m).contract v) := by
  rw [ztSpin2_contract]
  funext i
  unfold contr1 orbital2
  rw [← orbital1_eq hp, hp.m_sq]
  rw [comp_sub, Pi.sub_apply, comp_smul, comp_smul, comp_sub, Pi.sub_apply, comp_smul, ← mink_eq_dotp, ← mink_eq_dotp]
  generalize ztSpin1 q p p.m = t
  unfold LV.mag2
  generalize p.mink p = k
  generalize t.mink t = l
  fin_cases i <;>
    simp only [Fin.sum_univ_four, gUp, eta, comp, LV.mink, Fin.isValue, Fin.mk_one, Fin.zero_eta, Fin.reduceFinMk, Fin.reduceEq,
      if_true, if_false, Matrix.cons_val_zero, Matrix.cons_val_one, Matrix.cons_val] <;> ring

theorem contr2_orbital2 {p : LV ℝ} (hp : Massive p) (q a b : LV ℝ) :
    contr2 (orbital2 (comp q) (comp p)) (comp a) (comp b) = a.mink ((ztSpin2 q p p.m).contract b) := by
  rw [contr2_eq, contr1_orbital2 hp, mink_eq_dotp]

theorem eps3_eq (a b c : LV ℝ) : eps3 (comp a) (comp b) (comp c) = comp ((leviCivita3 a b c).smul (-1)) := by
  have h (i : Fin 4) (d : LV ℝ) (hd : comp d = fun ν => if ν = i then 1 else 0) :
      eps3 (comp a) (comp b) (comp c) i = -(eta i * (leviCivita3 a b c).mink d) := by
    unfold eps3
    rw [← hd, lc3_lc4, lc4_det]
    ring
  funext i
  fin_cases i
  · rw [show (⟨0, by decide⟩ : Fin 4) = 0 from rfl, h 0 ⟨1, 0, 0, 0⟩ (by funext j; fin_cases j <;> rfl)]
    simp [eta, LV.mink, comp, LV.smul]
  · rw [show (⟨1, by decide⟩ : Fin 4) = 1 from rfl, h 1 ⟨0, 1, 0, 0⟩ (by funext j; fin_cases j <;> rfl)]
    simp [eta, LV.mink, comp, LV.smul]
  · rw [show (⟨2, by decide⟩ : Fin 4) = 2 from rfl, h 2 ⟨0, 0, 1, 0⟩ (by funext j; fin_cases j <;> rfl)]
    simp [eta, LV.mink, comp, LV.smul]
  · rw [show (⟨3, by decide⟩ : Fin 4) = 3 from rfl, h 3 ⟨0, 0, 0, 1⟩ (by funext j; fin_cases j <;> rfl)]
    simp [eta, LV.mink, comp, LV.smul]

/-! ### The spin-2 projector -/

theorem sum4_mul (f g : Fin 4 → Fin 4 → ℝ) :
    ∑ μ, ∑ ν, ∑ α, ∑ β, f μ α * g ν β = (∑ μ, ∑ α, f μ α) * ∑ ν, ∑ β, g ν β := by
  rw [Finset.sum_mul_sum]
  refine Finset.sum_congr rfl fun μ _ => Finset.sum_congr rfl fun ν _ => ?_
  rw [Finset.sum_mul_sum]

theorem sum4_mul' (f g : Fin 4 → Fin 4 → ℝ) :
    ∑ μ, ∑ ν, ∑ α, ∑ β, f μ β * g ν α = (∑ μ, ∑ β, f μ β) * ∑ ν, ∑ α, g ν α := by
  rw [← sum4_mul]
  exact Finset.sum_congr rfl fun μ _ => Finset.sum_congr rfl fun ν _ => Finset.sum_comm

theorem sum4_mul'' (f g : Fin 4 → Fin 4 → ℝ) :
    ∑ μ, ∑ ν, ∑ α, ∑ β, f μ ν * g α β = (∑ μ, ∑ ν, f μ ν) * ∑ α, ∑ β, g α β := by
  rw [Finset.sum_mul]
  refine Finset.sum_congr rfl fun μ _ => ?_
  rw [Finset.sum_mul]
  refine Finset.sum_congr rfl fun ν _ => ?_
  rw [Finset.mul_sum]
  refine Finset.sum_congr rfl fun α _ => ?_
  rw [Finset.mul_sum]

/-- The spin-2 projector between two pairs of vectors. -/
theorem contr4_outer (p a b x y : Vec) :
    contr4 (proj2 p) (fun μ ν => a μ * b ν) (fun α β => x α * y β)
      = 1 / 2 * (contr2 (proj1 p) a x * contr2 (proj1 p) b y + contr2 (proj1 p) a y * contr2 (proj1 p) b x)
        - 1 / 3 * (contr2 (proj1 p) a b * contr2 (proj1 p) x y) := by
  unfold contr4 contr2
  rw [← sum4_mul, ← sum4_mul', ← sum4_mul'']
  simp only [Finset.mul_sum, ← Finset.sum_add_distrib, ← Finset.sum_sub_distrib]
  refine Finset.sum_congr rfl fun μ _ => Finset.sum_congr rfl fun ν _ => Finset.sum_congr rfl fun α _ =>
    Finset.sum_congr rfl fun β _ => ?_
  unfold proj2
  ring

theorem contr4_sub (P : Fin 4 → Fin 4 → Fin 4 → Fin 4 → ℝ) (A A' B : Fin 4 → Fin 4 → ℝ) (k : ℝ) :
    contr4 P (fun μ ν => A μ ν - k * A' μ ν) B = contr4 P A B - k * contr4 P A' B := by
  unfold contr4
  simp only [Finset.mul_sum, ← Finset.sum_sub_distrib]
  refine Finset.sum_congr rfl fun μ _ => Finset.sum_congr rfl fun ν _ => Finset.sum_congr rfl fun α _ =>
    Finset.sum_congr rfl fun β _ => ?_
  ring

theorem sum_eta_gUp (α : Fin 4) (f : Fin 4 → ℝ) : ∑ μ, eta μ * gUp μ α * f μ = f α := by
  rw [Finset.sum_eq_single α]
  · unfold gUp
    rw [if_pos rfl]
    have : eta α * eta α = 1 := by fin_cases α <;> norm_num [eta]
    rw [this, one_mul]
  · intro ν _ hne
    unfold gUp
    rw [if_neg hne]
    ring
  · intro h
    exact absurd (Finset.mem_univ _) h

/-- The projector is traceless. -/
theorem proj2_trace {p : Vec} (hp : dotp p p ≠ 0) (α β : Fin 4) :
    ∑ μ, ∑ ν, eta μ * eta ν * gUp μ ν * proj2 p μ ν α β = 0 := by
  have h1 : ∑ μ, ∑ ν, eta μ * eta ν * gUp μ ν * proj2 p μ ν α β = ∑ μ, eta μ * proj2 p μ μ α β := by
    refine Finset.sum_congr rfl fun μ _ => ?_
    rw [Finset.sum_eq_single μ]
    · unfold gUp
      rw [if_pos rfl]
      have : eta μ * eta μ = 1 := by fin_cases μ <;> norm_num [eta]
      linear_combination (eta μ * proj2 p μ μ α β) * this
    · intro ν _ hne
      unfold gUp
      rw [if_neg (Ne.symm hne)]
      ring
    · intro h
      exact absurd (Finset.mem_univ _) h
  have hd : dotp p p = -(p 0 * p 0) - p 1 * p 1 - p 2 * p 2 + p 3 * p 3 := by
    simp only [dotp, Fin.sum_univ_four, eta, Matrix.cons_val_zero, Matrix.cons_val_one, Matrix.cons_val]
    ring
  have tr : ∑ μ, eta μ * proj1 p μ μ = -3 := by
    unfold proj1
    have : ∑ μ, eta μ * (-gUp μ μ + p μ * p μ / dotp p p) = -4 + dotp p p / dotp p p := by
      generalize dotp p p = k at *
      subst hd
      simp only [Fin.sum_univ_four, gUp, if_true, eta, Matrix.cons_val_zero, Matrix.cons_val_one, Matrix.cons_val]
      field_simp
      ring
    rw [this, div_self hp]
    norm_num
  have sq : ∑ μ, eta μ * (proj1 p μ α * proj1 p μ β) = -proj1 p α β := by
    have e : ∀ μ, eta μ * (proj1 p μ α * proj1 p μ β) = eta μ * gUp μ α * gUp μ β
        + eta μ * gUp μ α * (-(p μ * p β / dotp p p)) + eta μ * gUp μ β * (-(p μ * p α / dotp p p))
        + eta μ * p μ * p μ * (p α * p β / (dotp p p * dotp p p)) := by
      intro μ
      unfold proj1
      field_simp
      ring
    rw [Finset.sum_congr rfl fun μ _ => e μ]
    rw [Finset.sum_add_distrib, Finset.sum_add_distrib, Finset.sum_add_distrib, sum_eta_gUp, sum_eta_gUp, sum_eta_gUp,
      ← Finset.sum_mul]
    show _ + _ + _ + dotp p p * _ = _
    unfold proj1
    field_simp
    ring
  rw [h1]
  have : ∑ μ, eta μ * proj2 p μ μ α β
      = (∑ μ, eta μ * (proj1 p μ α * proj1 p μ β)) - 1 / 3 * (∑ μ, eta μ * proj1 p μ μ) * proj1 p α β := by
    simp only [Finset.mul_sum, Finset.sum_mul, ← Finset.sum_sub_distrib]
    refine Finset.sum_congr rfl fun μ _ => ?_
    unfold proj2
    ring
  rw [this, tr, sq]
  ring

theorem contr4_gUp {p : Vec} (hp : dotp p p ≠ 0) (B : Fin 4 → Fin 4 → ℝ) : contr4 (proj2 p) gUp B = 0 := by
  unfold contr4
  have : ∀ μ ν, (∑ α, ∑ β, eta μ * eta ν * eta α * eta β * gUp μ ν * proj2 p μ ν α β * B α β)
      = ∑ α, ∑ β, (eta α * eta β * B α β) * (eta μ * eta ν * gUp μ ν * proj2 p μ ν α β) := fun μ ν =>
    Finset.sum_congr rfl fun α _ => Finset.sum_congr rfl fun β _ => by ring
  simp only [this]
  have step : ∀ μ, (∑ ν, ∑ α, ∑ β, (eta α * eta β * B α β) * (eta μ * eta ν * gUp μ ν * proj2 p μ ν α β))
      = ∑ α, ∑ β, ∑ ν, (eta α * eta β * B α β) * (eta μ * eta ν * gUp μ ν * proj2 p μ ν α β) := fun μ => by
    rw [Finset.sum_comm]
    exact Finset.sum_congr rfl fun α _ => Finset.sum_comm
  simp only [step]
  rw [Finset.sum_comm]
  refine Finset.sum_eq_zero fun α _ => ?_
  rw [Finset.sum_comm]
  refine Finset.sum_eq_zero fun β _ => ?_
  simp only [← Finset.mul_sum]
  have h := proj2_trace hp α β
  have h' : ∑ μ, ∑ ν, eta μ * eta ν * gUp μ ν * proj2 p μ ν α β
      = ∑ i, ∑ j, eta i * eta j * gUp i j * proj2 p i j α β := rfl
  rw [h, mul_zero]

theorem spinSumT_eq {p : LV ℝ} (hp : Massive p) (a b x y : LV ℝ) :
    spinSumT p p.m a b x y = contr4 (proj2 (comp p)) (fun μ ν => comp a μ * comp b ν) (fun α β => comp x α * comp y β) := by
  rw [contr4_outer]
  simp only [contr2_proj1 hp]
  unfold spinSumT spinSumVSandwich
  ring

/-- The spin-2 projector of `p` between the rank-2 tensor of another decay and two vectors. -/
theorem contr4_orbital2 {p P : LV ℝ} (hp : Massive p) (hP : Massive P) (q x y : LV ℝ) :
    contr4 (proj2 (comp p)) (orbital2 (comp q) (comp P)) (fun α β => comp x α * comp y β)
      = spinSumT p p.m (ztSpin1 q P P.m) (ztSpin1 q P P.m) x y
        + 1 / 3 * (ztSpin1 q P P.m).mink (ztSpin1 q P P.m) / P.mink P * spinSumT p p.m P P x y := by
  have hp0 : dotp (comp p) (comp p) ≠ 0 := by rw [← mink_eq_dotp]; exact hp.pos.ne'
  have e : orbital2 (comp q) (comp P) = fun μ ν =>
      (fun μ ν => (fun μ ν => comp (ztSpin1 q P P.m) μ * comp (ztSpin1 q P P.m) ν) μ ν
        - (-(1 / 3 * (ztSpin1 q P P.m).mink (ztSpin1 q P P.m) / P.mink P)) * (fun μ ν => comp P μ * comp P ν) μ ν) μ ν
      - (1 / 3 * (ztSpin1 q P P.m).mink (ztSpin1 q P P.m)) * gUp μ ν := by
    funext μ ν
    unfold orbital2
    rw [← orbital1_eq hP, ← mink_eq_dotp, ← mink_eq_dotp]
    ring
  rw [e, contr4_sub, contr4_gUp hp0, contr4_sub, ← spinSumT_eq hp, ← spinSumT_eq hp]
  ring

end GooFit
