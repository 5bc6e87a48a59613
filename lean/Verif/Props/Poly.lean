import Verif.Lemmas.Poly
import Mathlib.Tactic.FieldSimp
import Mathlib.Data.List.GetD
import Mathlib.Data.Nat.Choose.Sum
import Mathlib.Algebra.BigOperators.Group.Finset.Basic
/-!
# C37: polynomial PDFs

`env.val v` is the value of variable `v`; `ObsIs env e o x` says that the event holds the value `x`
for observable `o`.
-/
set_option autoImplicit false
namespace GooFit
open Spec FpOps

variable (T : HistTables ℝ) (env : Env ℝ) (e : Evt ℝ)

private theorem allSome_one {o : Nat} {x : ℝ} (h : ObsIs env e o x) :
    allSome (((registerAll [o]).map env.idx).map (at_ e)) = some [x] := by
  have : at_ e (env.idx o) = some x := h
  simp [registerAll, allSome, this]

private theorem allSome_forall₂ {os : List Nat} {xs : List ℝ}
    (h : List.Forall₂ (ObsIs env e) os xs) :
    allSome ((os.map env.idx).map (at_ e)) = some xs := by
  induction h with
  | nil => rfl
  | cons h _ ih =>
    have : at_ e (env.idx _) = some _ := h
    simp only [List.map_cons, this, allSome, ih]
    rfl

private theorem toInt_ofNat_real (n : Nat) : (toInt (ofNat n : ℝ)).toNat = n := by
  rw [exact_real_nat]; rfl

/-- **C37, PolynomialPdf(x, c, lowestDegree)**: `Σ c_i x^(lowestDegree + i)`. -/
theorem C37_polynomial (x : Nat) (weights : List Nat) (low : Nat) (X : ℝ) (h : ObsIs env e x X) :
    Evaluates T (.polynomial x weights low) env e
      (((weights.map env.val).zipIdx.map fun t => t.1 * X ^ (low + t.2)).sum) := by
  refine evaluates_of T _ env e _ [X] trivial (by simp [BasicCall.leaf]) (by simp [BasicCall.leaf])
    storable_real (allSome_one env e h) ?_
  show some ((List.range' 0 (weights.map env.val).length).foldl (fun s i => add s (mul
    (nth (weights.map env.val) i) (FpMath.pow X (ofNat ((toInt (ofNat low : ℝ)).toNat + i)))))
    (lit 0)) = _
  rw [toInt_ofNat_real]
  simp only [real_add, real_mul, real_pow_nat, real_lit]
  rw [foldl_add_sum, map_range_eq_zipIdx (weights.map env.val) (fun c i => c * X ^ (low + i))]
  simp

/-- **C37, ExpPdf(x, α)** with a list of coefficients: `exp (Σ α_i x^i)`. -/
theorem C37_expPoly (x : Nat) (weights : List Nat) (X : ℝ) (h : ObsIs env e x X) :
    Evaluates T (.expPoly x weights) env e
      (Real.exp (((weights.map env.val).zipIdx.map fun t => t.1 * X ^ t.2).sum)) := by
  refine evaluates_of T _ env e _ [X] trivial (by simp [BasicCall.leaf]) (by simp [BasicCall.leaf])
    storable_real (allSome_one env e h) ?_
  show some (FpMath.exp ((List.range' 0 (weights.map env.val).length).foldl (fun s i => add s (mul
    (FpMath.pow X (ofNat i)) (nth (weights.map env.val) i))) (lit 0))) = _
  simp only [real_add, real_mul, real_pow_nat, real_lit, real_exp]
  rw [foldl_add_sum, map_range_eq_zipIdx (weights.map env.val) (fun c i => X ^ i * c)]
  simp [mul_comm]

/-- **C37, BernsteinPdf(x, c, mindeg)** on the limits `[lo, hi]` of the observable: with
`D = #c + mindeg - 1` and `t = (x - lo)/(hi - lo)`, the value is
`Σ c_i C(D,i) t^i (1-t)^(D-i) / (hi-lo)`. -/
theorem C37_bernstein (x : Nat) (lo hi : ℝ) (coeffs : List Nat) (mindeg : Nat) (X : ℝ)
    (h : ObsIs env e x X) :
    Evaluates T (.bernstein x lo hi coeffs mindeg) env e
      (((coeffs.map env.val).zipIdx.map fun c =>
        c.1 * ((coeffs.length + mindeg - 1).choose c.2 : ℝ) * ((X - lo) / (hi - lo)) ^ c.2 *
          (1 - (X - lo) / (hi - lo)) ^ (coeffs.length + mindeg - 1 - c.2) / (hi - lo)).sum) := by
  have hadd : (add (ofNat coeffs.length) (ofNat mindeg) : ℝ) = ofNat (coeffs.length + mindeg) := by
    simp only [real_add, real_ofNat]; push_cast; ring
  refine evaluates_of T _ env e _ [X] ⟨exact_real _, by rw [hadd, exact_real_nat]; rfl⟩
    (by simp [BasicCall.leaf]) (by simp [BasicCall.leaf])
    storable_real (allSome_one env e h) ?_
  show some ((List.range' 0 ((toInt (add (ofNat coeffs.length) (ofNat ((toInt (ofNat mindeg : ℝ)).toNat))
    : ℝ)).toNat - (toInt (ofNat mindeg : ℝ)).toNat)).foldl (fun ret i => bernsteinTerm lo hi
      (div (sub X lo) (sub hi lo)) (toInt (add (ofNat coeffs.length) (ofNat ((toInt (ofNat mindeg : ℝ)).toNat))
        : ℝ)).toNat i (nth (coeffs.map env.val) i) ret) (lit 0)) = _
  rw [toInt_ofNat_real, hadd, toInt_ofNat_real]
  simp only [bernsteinTerm, binomial_real]
  have hl : coeffs.length + mindeg - mindeg = (coeffs.map env.val).length := by simp
  simp only [real_add, real_mul, real_pow_nat, real_lit, real_sub, real_div]
  rw [foldl_add_sum, hl, map_range_eq_zipIdx (coeffs.map env.val) (fun c i =>
    c * (((coeffs.length + mindeg - 1).choose i : ℝ) * ((X - lo) / (hi - lo)) ^ i *
      (((1 : ℚ) : ℝ) - (X - lo) / (hi - lo)) ^ (coeffs.length + mindeg - 1 - i)) / (hi - lo))]
  congr 1
  rw [Rat.cast_zero, zero_add]
  congr 1
  apply List.map_congr_left
  intro t _
  push_cast
  ring

/-- Bernstein basis: with all coefficients equal the value is that constant over `hi - lo`
(partition of unity), so no coefficient is dropped or counted twice. -/
theorem C37_bernstein_unity (x : Nat) (lo hi : ℝ) (coeffs : List Nat) (a X : ℝ)
    (h : ObsIs env e x X) (hc : ∀ c ∈ coeffs, env.val c = a) (hne : coeffs ≠ []) :
    Evaluates T (.bernstein x lo hi coeffs 0) env e (a / (hi - lo)) := by
  have := C37_bernstein T env e x lo hi coeffs 0 X h
  convert this using 1
  have hrep : coeffs.map env.val = List.replicate coeffs.length a := by
    rw [List.eq_replicate_iff]
    simp only [List.length_map, List.mem_map, true_and]
    rintro b ⟨c, hc', rfl⟩
    exact hc c hc'
  obtain ⟨n, hn⟩ : ∃ n, coeffs.length = n + 1 :=
    ⟨coeffs.length - 1, by have := List.length_pos_of_ne_nil hne; omega⟩
  rw [hrep, ← map_range_eq_zipIdx (List.replicate coeffs.length a) (fun c i =>
    c * ((coeffs.length + 0 - 1).choose i : ℝ) * ((X - lo) / (hi - lo)) ^ i *
          (1 - (X - lo) / (hi - lo)) ^ (coeffs.length + 0 - 1 - i) / (hi - lo)),
    List.length_replicate, hn]
  set t := (X - lo) / (hi - lo) with ht
  have hb := add_pow t (1 - t) n
  rw [show t + (1 - t) = 1 by ring, one_pow] at hb
  have e1 : (List.range' 0 (n + 1)).map (fun i => nth (List.replicate (n + 1) a) i *
      ((n + 1 + 0 - 1).choose i : ℝ) * t ^ i * (1 - t) ^ (n + 1 + 0 - 1 - i) / (hi - lo)) =
      (List.range (n + 1)).map (fun i => (a / (hi - lo)) * (t ^ i * (1 - t) ^ (n - i) *
        (n.choose i : ℝ))) := by
    rw [← List.range_eq_range']
    apply List.map_congr_left
    intro i hi'
    rw [List.mem_range] at hi'
    have : nth (List.replicate (n + 1) a) i = a := by
      rw [nth_eq_getD, List.getD_eq_getElem?_getD, List.getElem?_replicate, if_pos hi']; rfl
    rw [this, show n + 1 + 0 - 1 = n by omega]
    ring
  rw [e1, List.sum_map_mul_left, ← List.sum_toFinset _ List.nodup_range, List.toFinset_range, ← hb, mul_one]

/-- **C37**: the documented exponents of the multivariate polynomial are exactly the exponent vectors
of total degree at most `N`, each occurring once. -/
theorem C37_exponents (n N : Nat) :
    (exponents n N).Nodup ∧ (∀ l, l ∈ exponents n N ↔ l.length = n ∧ l.sum ≤ N) ∧
      (exponents n N).length = (N + n).choose n :=
  ⟨exponents_nodup n N, exponents_mem n N, exponents_length n N⟩

/-- The documented example: two dimensions, maximum power three. -/
example : exponents 2 3 = [[0,0], [1,0], [2,0], [3,0], [0,1], [1,1], [2,1], [0,2], [1,2], [0,3]] := by
  decide

private theorem nth_pad (l : List Nat) (n fresh j : Nat)
    (hf : ∀ v, fresh ≤ v → env.val v = 0) :
    nth ((padWith l n fresh).map env.val) j = nth (l.map env.val) j := by
  rw [nth_eq_getD, nth_eq_getD, padWith, List.map_append, List.map_map]
  by_cases hj : j < (l.map env.val).length
  · rw [List.getD_append _ _ _ _ hj]
  · rw [List.getD_append_right _ _ _ _ (by omega), List.getD_eq_default (l.map env.val) _ (by omega)]
    rw [List.getD_eq_getElem?_getD]
    by_cases hk : j - (l.map env.val).length < n - l.length
    · rw [List.getElem?_eq_getElem (by simpa using hk)]
      simp [hf]
    · rw [List.getElem?_eq_none (by simpa using hk)]
      rfl

private theorem sum_zipIdx_coeffs {β : Type} (ps : List ℝ) (g : β → ℝ) : ∀ (L : List β) (n : Nat)
    (cs : List ℝ), (∀ j, nth ps (n + j) = nth cs j) →
    ((L.zipIdx n).map fun t => g t.1 * nth ps t.2).sum = ((L.zip cs).map fun t => t.2 * g t.1).sum
  | [], _, _, _ => by simp
  | b :: L, n, [], h => by
    rw [List.zipIdx_cons, List.map_cons, List.sum_cons,
      sum_zipIdx_coeffs ps g L (n + 1) [] (by
        intro j
        have := h (j + 1)
        rw [show n + (j + 1) = n + 1 + j by omega] at this
        rw [this]; simp [nth_eq_getD])]
    have := h 0
    rw [Nat.add_zero] at this
    simp [this, nth_eq_getD]
  | b :: L, n, c :: cs, h => by
    rw [List.zipIdx_cons, List.map_cons, List.sum_cons,
      sum_zipIdx_coeffs ps g L (n + 1) cs (by
        intro j
        have := h (j + 1)
        rw [show n + (j + 1) = n + 1 + j by omega] at this
        rw [this]; simp [nth_eq_getD])]
    have := h 0
    rw [Nat.add_zero] at this
    rw [this, List.zip_cons_cons, List.map_cons, List.sum_cons]
    simp [nth_eq_getD, mul_comm]

/-- **C37, PolynomialPdf(x⃗, a⃗, x⃗₀, N)**: the sum over all exponent vectors `p` of total degree at
most `N`, in the documented order, of `a_p ∏ (x_i - x₀_i)^(p_i)`; the j-th coefficient goes with the
j-th exponent vector. Missing coefficients and offsets are zero (`fresh` numbers the variables the
constructor creates for them). -/
theorem C37_multiPolynomial (obses coeffs offsets : List Nat) (N fresh : Nat) (X : List ℝ)
    (hnd : obses.Nodup) (h : List.Forall₂ (ObsIs env e) obses X)
    (hoff : offsets.length ≤ obses.length) (hfresh : ∀ v, fresh ≤ v → env.val v = 0) :
    Evaluates T (.multiPolynomial obses coeffs offsets N fresh) env e
      (((exponents obses.length N).zip (coeffs.map env.val)).map fun t => t.2 *
        ((((List.range obses.length).map fun j =>
          X.getD j 0 - (offsets.map env.val).getD j 0).zip t.1).map fun q => q.1 ^ q.2).prod).sum := by
  have hM : toInt (add (ofNat N) (lit 1) : ℝ) = N + 1 := by
    have : (add (ofNat N) (lit 1) : ℝ) = ofNat (N + 1) := by
      simp only [real_add, real_ofNat, real_lit]; push_cast; ring
    rw [this, exact_real_nat]
    push_cast; ring
  have hlen : X.length = obses.length := h.length_eq.symm
  refine evaluates_of T _ env e _ X ⟨hnd, hM⟩
    (by simp [BasicCall.leaf]) (by simp [BasicCall.leaf]) storable_real
    (by rw [BasicCall.obsArgs, registerAll_nodup _ hnd]; exact allSome_forall₂ env e h) ?_
  set ps := (BasicCall.multiPolynomial (F := ℝ) obses coeffs offsets N fresh).params.map env.val with hps
  show some ((List.range' 1 ((toInt (add (ofNat N) (lit 1) : ℝ)).toNat ^ X.length - 1)).foldl
    (multiStep ps X (toInt (add (ofNat N) (lit 1) : ℝ)).toNat) (X.length + 1, nth ps X.length)).2 = _
  rw [hM, show ((N : Int) + 1).toNat = N + 1 by omega, multiStep_fold]
  set M := N + 1 with hMdef
  congr 1
  set n := X.length with hn
  set K := numCoefficients obses.length (registerAll obses).length N with hK
  have hps' : ps = (padWith offsets obses.length (fresh + K)).map env.val ++
      (padWith coeffs K fresh).map env.val := by
    rw [hps, BasicCall.params, List.map_append]
  have hol : ((padWith offsets obses.length (fresh + K)).map env.val).length = n := by
    rw [List.length_map, padWith_length]; omega
  have hco : ∀ j, nth ps (n + j) = nth (coeffs.map env.val) j := by
    intro j
    rw [← nth_pad env coeffs K fresh j hfresh, hps', nth_eq_getD, nth_eq_getD,
      List.getD_append_right _ _ _ _ (by omega)]
    congr 1
    omega
  have hof : ∀ j, j < n → nth ps j = nth (offsets.map env.val) j := by
    intro j hj
    rw [← nth_pad env offsets obses.length (fresh + K) j (fun v hv => hfresh v (by omega)), hps',
      nth_eq_getD, nth_eq_getD, List.getD_append _ _ _ _ (by omega)]
  -- the term of a box
  have hterm : ∀ i, (multiTermValue ps X M i).1 =
      ((((List.range n).map fun j => nth X j - nth (offsets.map env.val) j).zip (boxDigits M n i)).map
        fun q => q.1 ^ q.2).prod := by
    intro i
    rw [multiTermValue, multiTerm_value, real_lit, Rat.cast_one, one_mul, ← List.range_eq_range']
    congr 3
    apply List.map_congr_left
    intro j hj
    rw [hof j (by simpa using hj)]
  have h0 : (multiTermValue ps X M 0).1 = 1 := by
    rw [hterm, boxDigits_zero]
    apply List.prod_eq_one
    intro q hq
    rw [List.mem_map] at hq
    obtain ⟨⟨a, b⟩, hab, rfl⟩ := hq
    have := (List.of_mem_zip hab).2
    rw [List.mem_replicate] at this
    simp [this.2]
  have hpos : 0 < M ^ n := by positivity
  have hr : List.range (M ^ n) = 0 :: List.range' 1 (M ^ n - 1) := by
    rw [List.range_eq_range', show M ^ n = (M ^ n - 1) + 1 by omega, List.range'_succ]
    simp
  have hd0 : digitSum M n 0 < M := by
    have : ∀ k, digitSum M k 0 = 0 := by
      intro k
      induction k with
      | zero => rfl
      | succ k ih => simp [digitSum, ih]
    rw [this]; omega
  have hall : (((List.range (M ^ n)).filter fun i => decide (digitSum M n i < M)).zipIdx n).map
      (fun t => (multiTermValue ps X M t.1).1 * nth ps t.2) =
      (nth ps n) :: (((List.range' 1 (M ^ n - 1)).filter fun i => decide (digitSum M n i < M)).zipIdx
        (n + 1)).map (fun t => (multiTermValue ps X M t.1).1 * nth ps t.2) := by
    rw [hr, List.filter_cons_of_pos (by simpa using hd0), List.zipIdx_cons, List.map_cons, h0, one_mul]
  show nth ps n + _ = _
  rw [← List.sum_cons, ← hall]
  have hk := kept_boxes M (by omega) n M (by omega) le_rfl
  rw [show M - 1 = N by omega] at hk
  rw [sum_zipIdx_coeffs ps (fun i => (multiTermValue ps X M i).1) _ n _ hco, ← hlen, ← hk,
    List.zip_map_left, List.map_map]
  congr 1
  apply List.map_congr_left
  intro t _
  simp only [Function.comp, Prod.map, hterm, nth_eq_getD, id]

/-- A polynomial of degree at most one in two variables: `a₀₀ + a₁₀ (x - x₀) + a₀₁ y`. -/
example (x y a b c o fresh : Nat) (X Y : ℝ) (hxy : x ≠ y) (hx : ObsIs env e x X) (hy : ObsIs env e y Y)
    (hf : ∀ v, fresh ≤ v → env.val v = 0) :
    Evaluates T (.multiPolynomial [x, y] [a, b, c] [o] 1 fresh) env e
      (env.val a + env.val b * (X - env.val o) + env.val c * Y) := by
  have := C37_multiPolynomial T env e [x, y] [a, b, c] [o] 1 fresh [X, Y] (by simpa using hxy)
    (.cons hx (.cons hy .nil)) (by simp) hf
  convert this using 1
  simp [exponents, List.range_succ]
  ring

/-- **C37, partial, ExpPdf(x, α, x₀)** with a list of coefficients: the exponent is
`Σ α_i (x - x₀)^(i+1)`. Missing: the documentation promises `Σ α_i (x - x₀)^i`, see
`C37_violation_expPolyOffset`. -/
theorem C37_expPolyOffset_partial (x : Nat) (weights : List Nat) (x0 : Nat) (X : ℝ)
    (h : ObsIs env e x X) :
    Evaluates T (.expPolyOffset x weights x0) env e
      (Real.exp (((weights.map env.val).zipIdx.map fun t =>
        t.1 * (X - env.val x0) ^ (t.2 + 1)).sum)) := by
  refine evaluates_of T _ env e _ [X] trivial (by simp [BasicCall.leaf]) (by simp [BasicCall.leaf])
    storable_real (allSome_one env e h) ?_
  show some (FpMath.exp ((List.range' 1 ((env.val x0 :: weights.map env.val).length - 1)).foldl
    (fun s i => add s (mul
    (FpMath.pow (sub X (env.val x0)) (ofNat i)) (nth (env.val x0 :: weights.map env.val) i))) (lit 0))) = _
  simp only [real_add, real_mul, real_pow_nat, real_lit, real_exp, real_sub]
  rw [foldl_add_sum, List.length_cons, Nat.add_sub_cancel, List.range'_eq_map_range, List.map_map,
    List.range_eq_range']
  have := map_range_eq_zipIdx (weights.map env.val) (fun c i => c * (X - env.val x0) ^ (i + 1))
  rw [← this]
  simp only [Rat.cast_zero, zero_add]
  congr 3
  apply List.map_congr_left
  intro i _
  simp [nth_eq_getD, Nat.add_comm 1 i, mul_comm]

/-- **C37, violated**: an exponential of the constant polynomial `α₀` with an offset depends on the
observable. -/
theorem C37_violation_expPolyOffset (x a x0 : Nat) (X : ℝ) (h : ObsIs env e x X)
    (ha : env.val a ≠ 0) (hx : X - env.val x0 ≠ 1) :
    ∃ v, Evaluates T (.expPolyOffset x [a] x0) env e v ∧ v ≠ Real.exp (env.val a) := by
  refine ⟨_, C37_expPolyOffset_partial T env e x [a] x0 X h, ?_⟩
  simp only [List.map_cons, List.map_nil, List.zipIdx_cons, List.zipIdx_nil, List.sum_cons,
    List.sum_nil, Nat.zero_add, pow_one, add_zero]
  intro hh
  rw [Real.exp_eq_exp] at hh
  exact hx (mul_left_cancel₀ ha (by rw [hh, mul_one]))

/-- **C37, partial, PolynomialPdf(x, c, x₀, lowestDegree)**: for at least two coefficients the value
is `Σ_{i ≥ 2} c_i x^(lowestDegree + i - 2)` where `c` also contains `x₀` as its last element. Missing:
the documentation promises `Σ c_i (x - x₀)^(lowestDegree + i)`, see `C37_violation_offsetPolynomial`. -/
theorem C37_offsetPolynomial_partial (x : Nat) (a b : Nat) (weights : List Nat) (x0 low : Nat) (X : ℝ)
    (h : ObsIs env e x X) :
    Evaluates T (.offsetPolynomial x (a :: b :: weights) x0 low) env e
      ((((weights ++ [x0]).map env.val).zipIdx.map fun t => t.1 * X ^ (low + t.2)).sum) := by
  refine evaluates_of T _ env e _ [X] trivial (by simp [BasicCall.leaf]) (by simp [BasicCall.leaf])
    storable_real (allSome_one env e h) ?_
  show some ((List.range' 2 ((env.val a :: env.val b :: (weights ++ [x0]).map env.val).length - 2)).foldl
    (fun s i => add s (mul (nth (env.val a :: env.val b :: (weights ++ [x0]).map env.val) i)
      (FpMath.pow X (ofNat ((toInt (ofNat low : ℝ)).toNat + i - 2))))) (lit 0)) = _
  rw [toInt_ofNat_real]
  simp only [real_add, real_mul, real_pow_nat, real_lit]
  rw [foldl_add_sum, List.length_cons, List.length_cons, Nat.add_sub_cancel (n := _) (m := 2),
    List.range'_eq_map_range, List.map_map, List.range_eq_range']
  rw [← map_range_eq_zipIdx ((weights ++ [x0]).map env.val) (fun c i => c * X ^ (low + i))]
  simp only [Rat.cast_zero, zero_add]
  congr 2
  apply List.map_congr_left
  intro i _
  have : low + (i + 2) - 2 = low + i := by omega
  simp [nth_eq_getD, Nat.add_comm 2 i, this]

/-- **C37, violated**: a first-degree polynomial about a centre ignores both coefficients and returns
the centre. -/
theorem C37_violation_offsetPolynomial (x a b x0 : Nat) (X : ℝ) (h : ObsIs env e x X)
    (hne : env.val x0 ≠ env.val a + env.val b * (X - env.val x0)) :
    ∃ v, Evaluates T (.offsetPolynomial x [a, b] x0 0) env e v ∧
      v ≠ env.val a + env.val b * (X - env.val x0) := by
  refine ⟨_, C37_offsetPolynomial_partial T env e x a b [] x0 0 X h, ?_⟩
  simpa using hne

/-- A concrete case for the theorems above: the event holds 2 for observable 0. -/
example : ObsIs (⟨fun v => (v : ℝ), fun _ => 0⟩ : Env ℝ) (fun _ => some 2) 0 2 := by
  simp [ObsIs, at_]

end GooFit
