import Verif.Lemmas.Basic
import Verif.Model.FpReal
/-!
# Lemmas about the basic PDFs over the real numbers
-/
set_option autoImplicit false
namespace GooFit
open Spec FpOps

section
variable {F : Type} [FpMath F]

/-- From the value function to `Evaluates`. -/
theorem evaluates_of (T : HistTables F) (a : BasicCall F) (env : Env F) (e : Evt F) (v : F)
    (xs : List F) (hs : SoundCall a) (hi : a.leaf ≠ .interHist) (hv : a.leaf ≠ .varBin)
    (hst : ∀ np nk os, Storable F np nk os)
    (hx : allSome (((registerAll a.obsArgs).map env.idx).map (at_ e)) = some xs)
    (hval : basicValue T a.leaf (a.params.map env.val) a.consts xs = some v) :
    Evaluates T a env e v := by
  intro base oid norm B c n ho
  have hn : n = _ := node_eq base T oid norm a
  rw [hn] at ho
  have hlen : xs.length = (registerAll a.obsArgs).length := by
    simpa using (congrArg List.length (allSome_get _ _ hx)).symm
  have hd := basicDev_eq T a.leaf (view_of B c e _ _ xs _ norm (hst _ _ _) ho hx)
    (shape_of_call a env xs hs hi hv hlen)
  show (basicDev T a.leaf B c e).map Prod.fst = some v
  rw [hd, hval]
  rfl

end

theorem exact_real (n : Int) : toInt (ofInt n : ℝ) = n := by
  show truncK (((n : ℚ) : ℝ)) = n
  unfold truncK
  split <;> simp

theorem exact_real_nat (n : Nat) : toInt (ofNat n : ℝ) = n := exact_ofNat n (exact_real n)

theorem storable_real (np nk : Nat) (os : List Int) : Storable ℝ np nk os :=
  ⟨exact_real _, exact_real _, exact_real _, exact_real _, fun _ _ => exact_real _⟩

theorem toInt_real (n : Int) (x : ℝ) (h : x = n) : toInt x = n := by
  rw [h]
  have := exact_real n
  simpa [ofInt, FpOps.lit] using this

/-! ### The operations are the mathematical ones -/

theorem real_add (a b : ℝ) : FpOps.add a b = a + b := rfl
theorem real_sub (a b : ℝ) : FpOps.sub a b = a - b := rfl
theorem real_mul (a b : ℝ) : FpOps.mul a b = a * b := rfl
theorem real_div (a b : ℝ) : FpOps.div a b = a / b := rfl
theorem real_lit (q : ℚ) : (FpOps.lit q : ℝ) = (q : ℝ) := rfl
theorem real_ofNat (n : Nat) : (FpOps.ofNat n : ℝ) = (n : ℝ) := by simp [FpOps.ofNat, real_lit]
theorem real_ofInt (n : Int) : (FpOps.ofInt n : ℝ) = (n : ℝ) := by simp [FpOps.ofInt, real_lit]
theorem real_neg (a : ℝ) : FpMath.neg a = -a := rfl
theorem real_exp (a : ℝ) : FpMath.exp a = Real.exp a := rfl
theorem real_log (a : ℝ) : FpMath.log a = Real.log a := rfl
theorem real_sqrt (a : ℝ) : FpMath.sqrt a = Real.sqrt a := rfl
theorem real_sin (a : ℝ) : FpMath.sin a = Real.sin a := rfl
theorem real_sinh (a : ℝ) : FpMath.sinh a = Real.sinh a := rfl
theorem real_fabs (a : ℝ) : FpMath.fabs a = |a| := rfl
theorem real_pow (a b : ℝ) : FpMath.pow a b = a ^ b := rfl
theorem real_pow_nat (a : ℝ) (n : Nat) : FpMath.pow a (FpOps.ofNat n : ℝ) = a ^ n := by
  rw [real_ofNat, real_pow, Real.rpow_natCast]
theorem real_lt (a b : ℝ) : FpMath.lt a b = true ↔ a < b := by simp [FpMath.lt]
theorem real_le (a b : ℝ) : FpMath.le a b = true ↔ a ≤ b := by simp [FpMath.le]
theorem real_eq (a b : ℝ) : FpMath.eq a b = true ↔ a = b := by simp [FpMath.eq]
theorem real_pi : FpMath.atan2 (-1 : ℝ) 0 = -(Real.pi / 2) := by
  show Complex.arg ⟨0, -1⟩ = _
  have : (⟨0, -1⟩ : ℂ) = -Complex.I := by
    apply Complex.ext <;> simp
  rw [this, Complex.arg_neg_I]

/-- Rewrites of the model's operations into mathematical ones. -/
macro "real_ops" : tactic => `(tactic| simp only [real_add, real_sub, real_mul, real_div, real_lit,
  real_neg, real_exp, real_log, real_sqrt, real_sin, real_sinh, real_fabs, real_pow_nat, real_pow,
  real_lt, real_le, real_eq, gt, ge])

theorem foldl_add_sum (f : Nat → ℝ) (l : List Nat) (s : ℝ) :
    l.foldl (fun s i => s + f i) s = s + (l.map f).sum := by
  induction l generalizing s with
  | nil => simp
  | cons a l ih => rw [List.foldl_cons, ih, List.map_cons, List.sum_cons]; ring

end GooFit
