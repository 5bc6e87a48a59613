import Verif.Spec.Basic
import Verif.Lemmas.TreeEval
import Mathlib.Data.Nat.Choose.Sum
import Mathlib.Data.Nat.Count
/-!
# Lemmas about the basic PDFs

`View` collects what a device function can read when started at its own data; `basicValue` is
what it then computes.
-/
set_option autoImplicit false
namespace GooFit
open Spec FpOps

/-! ### Loops -/

theorem forUpto_inv {S : Type} (body : Nat → S → Option S) (f : Nat → S → S) (P : Nat → S → Prop) :
    ∀ (n i : Nat) (s : S), P i s →
      (∀ k s, i ≤ k → k < i + n → P k s → body k s = some (f k s) ∧ P (k + 1) (f k s)) →
      forUpto body n i s = some ((List.range' i n).foldl (fun s k => f k s) s) ∧
        P (i + n) ((List.range' i n).foldl (fun s k => f k s) s)
  | 0, i, s, h, _ => ⟨rfl, h⟩
  | n + 1, i, s, h, hb => by
    obtain ⟨h1, h2⟩ := hb i s le_rfl (by omega) h
    obtain ⟨h3, h4⟩ := forUpto_inv body f P n (i + 1) (f i s) h2
      (fun k s hk hk' hp => hb k s (by omega) (by omega) hp)
    constructor
    · show (body i s).bind (forUpto body n (i + 1)) = _
      rw [h1]
      exact h3
    · have : i + (n + 1) = i + 1 + n := by omega
      rw [this]
      exact h4

theorem forUpto_some {S : Type} (body : Nat → S → Option S) (f : Nat → S → S) (n i : Nat) (s : S)
    (h : ∀ k s, i ≤ k → k < i + n → body k s = some (f k s)) :
    forUpto body n i s = some ((List.range' i n).foldl (fun s k => f k s) s) :=
  (forUpto_inv body f (fun _ _ => True) n i s trivial fun k s hk hk' _ => ⟨h k s hk hk', trivial⟩).1

/-! ### Reading one's own data -/

section view
variable {F : Type} [FpOps F]

/-- Element `i`, for use where it is known to exist. -/
def nth (l : List F) (i : Nat) : F := l.getD i (lit 0)

theorem nth_get (l : List F) (i : Nat) (h : i < l.length) : l[i]? = some (nth l i) := by
  simp [nth, List.getD_eq_getElem?_getD, List.getElem?_eq_getElem h]

/-- What a device function can read at the cursor. -/
structure View (B : Bufs F) (c : Cursor) (e : Evt F) (ps ks xs : List F) : Prop where
  par : ∀ i, i < ps.length → c.getParameter B i = some (nth ps i)
  con : ∀ i, i < ks.length → c.getConstant B i = some (nth ks i)
  obs : ∀ i, i < xs.length → ∃ id, c.getObservable B i = some id ∧ e.read id = some (nth xs i)
  np : c.getNumParameters B = some ps.length
  nc : c.getNumConstants B = some ks.length
  no : c.getNumObservables B = some xs.length
  nn : c.getNumNormalizations B = some 1

theorem allSome_get {α : Type} : ∀ (l : List (Option α)) (xs : List α), allSome l = some xs →
    l = xs.map some
  | [], xs, h => by simp [allSome] at h; subst h; rfl
  | none :: l, xs, h => by simp [allSome] at h
  | some x :: l, xs, h => by
    simp only [allSome, Option.map_eq_some_iff] at h
    obtain ⟨ys, h1, h2⟩ := h
    subst h2
    rw [allSome_get l ys h1]
    rfl

theorem count_of_exact (l : List F) (i n : Nat) (h : l[i]? = some (ofNat n)) (he : Exact F n) :
    countAt l i = some n := by
  have : toInt (ofNat n : F) = n := by
    have : (ofNat n : F) = ofInt (n : Int) := by simp [ofNat, ofInt]
    rw [this]; exact he
  simp [countAt, h, this]

theorem view_of (B : Bufs F) (c : Cursor) (e : Evt F) (ps ks xs : List F) (os : List Int) (norm : F)
    (hs : Storable F ps.length ks.length os) (ho : OwnData B c ps ks os norm)
    (hx : allSome (os.map (at_ e)) = some xs) : View B c e ps ks xs := by
  obtain ⟨s1, s2, s3, s4, s5⟩ := hs
  obtain ⟨h1, h2, h3, h4⟩ := ho
  have hx := allSome_get _ _ hx
  have hlen : os.length = xs.length := by simpa using congrArg List.length hx
  refine ⟨?_, ?_, ?_, ?_, ?_, ?_, ?_⟩
  · intro i hi
    have := h1 (i + 1) (by simpa using hi)
    rw [List.getElem?_cons_succ, nth_get _ _ hi] at this
    exact this
  · intro i hi
    have := h2 (i + 1) (by simpa using hi)
    rw [List.getElem?_cons_succ, nth_get _ _ hi] at this
    exact this
  · intro i hi
    have h := h3 (i + 1) (by simpa using by omega)
    have hi' : i < os.length := by omega
    rw [List.getElem?_cons_succ, List.getElem?_map, List.getElem?_eq_getElem hi'] at h
    refine ⟨ofInt os[i], h, ?_⟩
    have hg : (os.map (at_ e))[i]? = (xs.map some)[i]? := by rw [hx]
    rw [List.getElem?_map, List.getElem?_map, List.getElem?_eq_getElem hi', nth_get _ _ hi] at hg
    have he : toInt (ofInt os[i] : F) = os[i] := s5 _ (List.getElem_mem _)
    simp only [Evt.read, he]
    simpa [at_] using hg
  · exact count_of_exact _ _ _ (by simpa using h1 0 (by simp)) s1
  · exact count_of_exact _ _ _ (by simpa using h2 0 (by simp)) s2
  · rw [← hlen]
    exact count_of_exact _ _ _ (by simpa using h3 0 (by simp)) s3
  · refine count_of_exact _ _ _ ?_ s4
    have := h4 0 (by simp)
    simpa [ofNat] using this

theorem View.next {B : Bufs F} {c : Cursor} {e : Evt F} {ps ks xs : List F} (v : View B c e ps ks xs) :
    c.next B = some (c.incrementIndex 1 ps.length ks.length xs.length 1) := by
  simp only [Cursor.next, v.np, v.nc, v.no, v.nn]
  rfl

end view

section values
variable {F : Type} [FpMath F]
open FpMath

theorem View.readObs {B : Bufs F} {c : Cursor} {e : Evt F} {ps ks xs : List F}
    (v : View B c e ps ks xs) (i : Nat) (h : i < xs.length) : readObs B c e i = some (nth xs i) := by
  obtain ⟨id, h1, h2⟩ := v.obs i h
  simp only [GooFit.readObs, h1, bind, Option.bind, h2]

/-- `device_Voigtian`'s value. -/
def voigtianValue (x m w s : F) : F :=
  if FpMath.eq (lit 0) s && FpMath.eq (lit 0) w then lit 1
  else
    let arg := sub x m
    if FpMath.eq (lit 0) s then div (lit 1) (add (mul arg arg) (mul (mul (lit (1/4)) w) w))
    else
      let coef := div (lit (-1/2)) (mul s s)
      if FpMath.eq (lit 0) w then exp (mul (mul coef arg) arg)
      else
        let c := div (lit (707106781187/1000000000000)) s
        let a := mul (mul (lit (1/2)) c) w
        let u := mul c arg
        mul (mul c (lit (5641895835477563/10000000000000000))) (faddeeva u a).1

/-- The term of one box of `device_MultiPolynomial`: `(currTerm, currIndex, sumOfIndices)`. -/
def multiTermValue (ps xs : List F) (maxDegree box : Nat) : F × Nat × Nat :=
  (List.range' 0 xs.length).foldl (fun s j =>
    (mul s.1 (pow (sub (nth xs j) (nth ps j)) (ofNat (s.2.1 % maxDegree))), s.2.1 / maxDegree,
      s.2.2 + s.2.1 % maxDegree)) (lit 1, box, 0)

/-- One step of the loop of `device_MultiPolynomial`. -/
def multiStep (ps xs : List F) (maxDegree : Nat) (s : Nat × F) (i : Nat) : Nat × F :=
  let t := multiTermValue ps xs maxDegree i
  if t.2.2 ≥ maxDegree then s else (s.1 + 1, add s.2 (mul t.1 (nth ps s.1)))

/-- What each device function computes from its own parameters, constants and observables; `none`
where the code reads out of bounds. -/
def basicValue (T : HistTables F) (k : BasicLeaf) (ps ks xs : List F) : Option F :=
  let p := nth ps
  let k' := nth ks
  let x := nth xs
  match k with
  | .argusUpper => some (argusUpperValue (x 0) (p 0) (p 1) (p 2))
  | .argusLower => some (argusLowerValue (x 0) (p 0) (p 1) (p 2))
  | .bw => some (bwValue (x 0) (p 0) (p 1))
  | .bernstein =>
    let lowX := k' 1
    let uppX := k' 2
    let mindeg := (toInt (k' 3)).toNat
    let maxDegree := (toInt (add (k' 0) (ofNat mindeg))).toNat
    let xNorm := div (sub (x 0) lowX) (sub uppX lowX)
    some ((List.range' 0 (maxDegree - mindeg)).foldl
      (fun ret i => bernsteinTerm lowX uppX xNorm maxDegree i (p i) ret) (lit 0))
  | .bifurGauss => some (bifurValue (x 0) (p 0) (p 1) (p 2))
  | .binTransform =>
    some (ofInt ((List.range' 0 xs.length).foldl (fun (s : Int × Int) i =>
      (s.1 + binOf (x i) (k' (i * 3)) (k' (i * 3 + 1)) * s.2, s.2 * toInt (k' (i * 3 + 2))))
      (0, 1)).1)
  | .corrGaussian => some (corrValue (x 0) (x 1) (p 0) (p 1) (p 2) (p 3) (p 4))
  | .crystalBall => some (crystalValue (x 0) (p 0) (p 1) (p 2) (p 3))
  | .expGaus => some (expGausValue (x 0) (p 0) (p 1) (p 2))
  | .exp => some (FpMath.exp (mul (p 0) (x 0)))
  | .expOffset => some (FpMath.exp (mul (p 1) (sub (x 0) (p 0))))
  | .expPoly =>
    some (FpMath.exp ((List.range' 0 ps.length).foldl
      (fun s i => add s (mul (pow (x 0) (ofNat i)) (p i))) (lit 0)))
  | .expPolyOffset =>
    some (FpMath.exp ((List.range' 1 (ps.length - 1)).foldl
      (fun s i => add s (mul (pow (sub (x 0) (p 0)) (ofNat i)) (p i))) (lit 0)))
  | .gaussian => some (gaussianValue (x 0) (p 0) (p 1))
  | .interHist => none
  | .johnsonSU => some (johnsonValue (x 0) (p 0) (p 1) (p 2) (p 3))
  | .kinLimitBW => some (kinLimitValue (x 0) (p 0) (p 1) (k' 0) (k' 1))
  | .landau =>
    some (if FpMath.le (p 1) (lit 0) then lit 0 else landauValue (x 0) (p 0) (p 1))
  | .novosibirsk => some (novosibirskValue (x 0) (p 0) (p 1) (p 2))
  | .polynomial =>
    some ((List.range' 0 ps.length).foldl
      (fun s i => add s (mul (p i) (pow (x 0) (ofNat ((toInt (k' 0)).toNat + i))))) (lit 0))
  | .offsetPolynomial =>
    some ((List.range' 2 (ps.length - 2)).foldl
      (fun s i => add s (mul (p i) (pow (x 0) (ofNat ((toInt (k' 0)).toNat + i - 2))))) (lit 0))
  | .multiPolynomial =>
    let maxDegree := (toInt (add (k' 0) (lit 1))).toNat
    some ((List.range' 1 (maxDegree ^ xs.length - 1)).foldl (multiStep ps xs maxDegree)
      (xs.length + 1, p xs.length)).2
  | .scaledGaussian =>
    some (gaussianValue (x 0) (add (p 0) (p 2)) (mul (p 1) (add (lit 1) (p 3))))
  | .evalHistogram => do
    let bin := ((List.range' 0 (toInt (k' 0)).toNat).foldl (fun (s : Int × Int) i =>
      (s.1 + s.2 * binOf (x i) (k' (i * 3 + 4)) (k' (i * 3 + 5)), s.2 * toInt (k' (3 * (i + 1)))))
      (0, 1)).1
    let hist ← T.smooth (toInt (k' 1)).toNat
    readHist hist bin
  | .step =>
    some (if toInt (k' 0) = 1 then (if gt (x 0) (p 0) then lit 1 else lit 0)
      else (if gt (x 0) (p 0) then lit 0 else lit 1))
  | .trigUpper => some (threshCalc (mul (p 1) (sub (p 0) (x 0))) (p 2))
  | .trigLower => some (threshCalc (mul (p 1) (sub (x 0) (p 0))) (p 2))
  | .trigUpper2 => some (threshCalc (mul (p 1) (sub (p 0) (sub (sub (p 3) (x 0)) (x 1)))) (p 2))
  | .trigLower2 => some (threshCalc (mul (p 1) (sub (sub (sub (p 3) (x 0)) (x 1)) (p 0))) (p 2))
  | .voigtian => some (voigtianValue (x 0) (p 0) (p 1) (p 2))
  | .varBin => none
  | .dalitzVeto =>
    let z := sub (sub (add (add (add (mul (p 0) (p 0)) (mul (p 1) (p 1))) (mul (p 2) (p 2)))
      (mul (p 3) (p 3))) (x 0)) (x 1)
    some ((List.range' 0 (toInt (k' 0)).toNat).foldl (fun ret i =>
      let cur := if toInt (k' (1 + i)) = 0 then x 0 else if toInt (k' (1 + i)) = 1 then x 1 else z
      mul ret (if FpMath.lt cur (p (4 + i * 2 + 1)) && gt cur (p (4 + i * 2)) then lit 0 else lit 1))
      (if inDalitz (x 0) (x 1) (p 0) (p 1) (p 2) (p 3) then lit 1 else lit 0))
  | .squareDalitz =>
    some (squareDalitzValue (x 0) (x 1) (p 0) (p 1) (p 2) (p 3) (p 4) (p 5) (p 6) (p 7))

/-- How many parameters, constants and observables each device function relies on. -/
def Shape (k : BasicLeaf) (ps ks xs : List F) : Prop :=
  match k with
  | .argusUpper | .argusLower | .bifurGauss | .expGaus | .novosibirsk | .trigUpper | .trigLower
  | .voigtian => ps.length = 3 ∧ ks.length = 0 ∧ xs.length = 1
  | .bw | .expOffset | .gaussian | .landau => ps.length = 2 ∧ ks.length = 0 ∧ xs.length = 1
  | .crystalBall | .johnsonSU | .scaledGaussian => ps.length = 4 ∧ ks.length = 0 ∧ xs.length = 1
  | .exp => ps.length = 1 ∧ ks.length = 0 ∧ xs.length = 1
  | .corrGaussian => ps.length = 5 ∧ ks.length = 0 ∧ xs.length = 2
  | .trigUpper2 | .trigLower2 => ps.length = 4 ∧ ks.length = 0 ∧ xs.length = 2
  | .squareDalitz => ps.length = 8 ∧ ks.length = 0 ∧ xs.length = 2
  | .kinLimitBW => ps.length = 2 ∧ ks.length = 2 ∧ xs.length = 1
  | .step => ps.length = 1 ∧ ks.length = 1 ∧ xs.length = 1
  | .expPoly => ks.length = 0 ∧ xs.length = 1
  | .expPolyOffset => 0 < ps.length ∧ ks.length = 0 ∧ xs.length = 1
  | .polynomial | .offsetPolynomial => ks.length = 1 ∧ xs.length = 1
  | .bernstein => ks.length = 4 ∧ xs.length = 1 ∧
      (toInt (add (nth ks 0) (ofNat (toInt (nth ks 3)).toNat))).toNat - (toInt (nth ks 3)).toNat
        ≤ ps.length
  | .binTransform => ps.length = 0 ∧ ks.length = 3 * xs.length
  | .evalHistogram => (toInt (nth ks 0)).toNat ≤ xs.length ∧
      3 * (toInt (nth ks 0)).toNat + 3 ≤ ks.length
  | .multiPolynomial => 1 ≤ ks.length ∧
      xs.length + (toInt (add (nth ks 0) (lit 1)) - 1 + xs.length).toNat.choose xs.length ≤ ps.length ∧
      1 ≤ toInt (add (nth ks 0) (lit 1))
  | .dalitzVeto => 1 + (toInt (nth ks 0)).toNat ≤ ks.length ∧
      4 + 2 * (toInt (nth ks 0)).toNat ≤ ps.length ∧ xs.length = 2
  | .interHist | .varBin => False

/-! ### Counting the terms of a multivariate polynomial -/

/-- Sum of the first `n` digits of `i` in base `M`. -/
def digitSum (M : Nat) : Nat → Nat → Nat
  | 0, _ => 0
  | n + 1, i => i % M + digitSum M n (i / M)

theorem digitSum_zero (M n : Nat) : digitSum M n 0 = 0 := by
  induction n with
  | zero => rfl
  | succ n ih => simp [digitSum, ih]

theorem digitSum_top (M : Nat) (hM : 0 < M) (d : Nat) (hd : d < M) :
    ∀ (n i : Nat), i < M ^ n → digitSum M (n + 1) (i + M ^ n * d) = digitSum M n i + d
  | 0, i, hi => by
    have : i = 0 := by simpa using hi
    subst this
    simp [digitSum, Nat.mod_eq_of_lt hd]
  | n + 1, i, hi => by
    have h1 : i + M ^ (n + 1) * d = i + M * (M ^ n * d) := by rw [pow_succ]; ring
    rw [digitSum, h1, Nat.add_mul_mod_self_left, Nat.add_mul_div_left _ _ hM,
      digitSum_top M hM d hd n (i / M) (by
        rw [Nat.div_lt_iff_lt_mul hM]; rwa [pow_succ] at hi)]
    rw [digitSum]
    omega

/-- Number of ways to write exponents of `n` variables with sum below `m`. -/
def simplexCount (n m : Nat) : Nat := if m = 0 then 0 else (m - 1 + n).choose n

theorem simplexCount_succ (n m : Nat) :
    simplexCount (n + 1) (m + 1) = simplexCount n (m + 1) + simplexCount (n + 1) m := by
  cases m with
  | zero => simp [simplexCount]
  | succ m =>
    simp only [simplexCount, Nat.add_one_ne_zero, if_false, Nat.add_sub_cancel]
    have : m + 1 + (n + 1) = (m + 1 + n) + 1 := by omega
    rw [this, Nat.choose_succ_succ]
    have : m + 1 + n = m + (n + 1) := by omega
    rw [this]

theorem simplexCount_sum (n : Nat) : ∀ (m D : Nat), m ≤ D →
    ∑ d ∈ Finset.range D, simplexCount n (m - d) = simplexCount (n + 1) m
  | 0, D, _ => by simp [simplexCount]
  | m + 1, 0, h => by omega
  | m + 1, D + 1, h => by
    rw [Finset.sum_range_succ', simplexCount_succ, ← simplexCount_sum n m D (by omega)]
    simp only [Nat.add_sub_add_right, Nat.sub_zero]
    omega

theorem count_blocks (n M m : Nat) (hM : 0 < M)
    (ih : ∀ m', m' ≤ M → Nat.count (fun i => digitSum M n i < m') (M ^ n) = simplexCount n m')
    (hm : m ≤ M) : ∀ D, D ≤ M →
      Nat.count (fun i => digitSum M (n + 1) i < m) (M ^ n * D) =
        ∑ d ∈ Finset.range D, simplexCount n (m - d)
  | 0, _ => by simp
  | D + 1, hD => by
    rw [Nat.mul_succ, Nat.count_add, count_blocks n M m hM ih hm D (by omega), Finset.sum_range_succ]
    congr 1
    rw [← ih (m - D) (by omega), Nat.count_eq_card_filter_range, Nat.count_eq_card_filter_range]
    congr 1
    apply Finset.filter_congr
    intro i hi
    rw [Finset.mem_range] at hi
    have := digitSum_top M hM D (by omega) n i hi
    rw [Nat.add_comm (M ^ n * D) i, this]
    omega

theorem count_simplex (M : Nat) (hM : 0 < M) : ∀ (n m : Nat), m ≤ M →
    Nat.count (fun i => digitSum M n i < m) (M ^ n) = simplexCount n m
  | 0, m, _ => by
    rw [pow_zero, ← Nat.zero_add 1, Nat.count_succ, Nat.count_zero]
    simp only [digitSum, simplexCount]
    by_cases h : m = 0
    · subst h; rfl
    · simp [h, Nat.pos_of_ne_zero h]
  | n + 1, m, hm => by
    rw [pow_succ, count_blocks n M m hM (fun m' h => count_simplex M hM n m' h) hm M le_rfl,
      simplexCount_sum n m M hm]

theorem multiTerm_sum (ps xs : List F) (M : Nat) : ∀ (l : List Nat) (t : F) (idx s : Nat),
    (l.foldl (fun (s : F × Nat × Nat) j =>
      (mul s.1 (pow (sub (nth xs j) (nth ps j)) (ofNat (s.2.1 % M))), s.2.1 / M,
        s.2.2 + s.2.1 % M)) (t, idx, s)).2.2 = s + digitSum M l.length idx
  | [], t, idx, s => by simp [digitSum]
  | j :: l, t, idx, s => by
    rw [List.foldl_cons, multiTerm_sum ps xs M l, List.length_cons, digitSum]
    simp only []
    omega

theorem multiTermValue_sum (ps xs : List F) (M box : Nat) :
    (multiTermValue ps xs M box).2.2 = digitSum M xs.length box := by
  rw [multiTermValue, multiTerm_sum]
  simp

/-! ### The device functions -/

theorem basicDev_eq (T : HistTables F) (k : BasicLeaf) {B : Bufs F} {c : Cursor} {e : Evt F}
    {ps ks xs : List F} (v : View B c e ps ks xs) (h : Shape k ps ks xs) :
    basicDev T k B c e =
      (basicValue T k ps ks xs).map (·, c.incrementIndex 1 ps.length ks.length xs.length 1) := by
  have P := v.par
  have K := v.con
  have X := v.readObs
  cases k
  case argusUpper =>
    obtain ⟨h1, h2, h3⟩ := h
    simp only [basicDev, devArgusUpper, P 0 (by omega), P 1 (by omega), P 2 (by omega), X 0 (by omega),
      h1, h2, h3]
    rfl
  case argusLower =>
    obtain ⟨h1, h2, h3⟩ := h
    simp only [basicDev, devArgusLower, P 0 (by omega), P 1 (by omega), P 2 (by omega), X 0 (by omega),
      h1, h2, h3]
    rfl
  case bw =>
    obtain ⟨h1, h2, h3⟩ := h
    simp only [basicDev, devBW, P 0 (by omega), P 1 (by omega), X 0 (by omega),
      h1, h2, h3]
    rfl
  case bifurGauss =>
    obtain ⟨h1, h2, h3⟩ := h
    simp only [basicDev, devBifurGauss, P 0 (by omega), P 1 (by omega), P 2 (by omega), X 0 (by omega),
      h1, h2, h3]
    rfl
  case crystalBall =>
    obtain ⟨h1, h2, h3⟩ := h
    simp only [basicDev, devCrystalBall, P 0 (by omega), P 1 (by omega), P 2 (by omega), P 3 (by omega), X 0 (by omega),
      h1, h2, h3]
    rfl
  case expGaus =>
    obtain ⟨h1, h2, h3⟩ := h
    simp only [basicDev, devExpGaus, P 0 (by omega), P 1 (by omega), P 2 (by omega), X 0 (by omega),
      h1, h2, h3]
    rfl
  case exp =>
    obtain ⟨h1, h2, h3⟩ := h
    simp only [basicDev, devExp, P 0 (by omega), X 0 (by omega),
      h1, h2, h3]
    rfl
  case expOffset =>
    obtain ⟨h1, h2, h3⟩ := h
    simp only [basicDev, devExpOffset, P 0 (by omega), P 1 (by omega), X 0 (by omega),
      h1, h2, h3]
    rfl
  case gaussian =>
    obtain ⟨h1, h2, h3⟩ := h
    simp only [basicDev, devGaussian, P 0 (by omega), P 1 (by omega), X 0 (by omega),
      h1, h2, h3]
    rfl
  case johnsonSU =>
    obtain ⟨h1, h2, h3⟩ := h
    simp only [basicDev, devJohnsonSU, P 0 (by omega), P 1 (by omega), P 2 (by omega), P 3 (by omega), X 0 (by omega),
      h1, h2, h3]
    rfl
  case kinLimitBW =>
    obtain ⟨h1, h2, h3⟩ := h
    simp only [basicDev, devKinLimitBW, P 0 (by omega), P 1 (by omega), K 0 (by omega), K 1 (by omega), X 0 (by omega),
      h1, h2, h3]
    rfl
  case novosibirsk =>
    obtain ⟨h1, h2, h3⟩ := h
    simp only [basicDev, devNovosibirsk, P 0 (by omega), P 1 (by omega), P 2 (by omega), X 0 (by omega),
      h1, h2, h3]
    rfl
  case scaledGaussian =>
    obtain ⟨h1, h2, h3⟩ := h
    simp only [basicDev, devScaledGaussian, P 0 (by omega), P 1 (by omega), P 2 (by omega), P 3 (by omega), X 0 (by omega),
      h1, h2, h3]
    rfl
  case trigUpper =>
    obtain ⟨h1, h2, h3⟩ := h
    simp only [basicDev, devTrigUpper, P 0 (by omega), P 1 (by omega), P 2 (by omega), X 0 (by omega),
      h1, h2, h3]
    rfl
  case trigLower =>
    obtain ⟨h1, h2, h3⟩ := h
    simp only [basicDev, devTrigLower, P 0 (by omega), P 1 (by omega), P 2 (by omega), X 0 (by omega),
      h1, h2, h3]
    rfl
  case trigUpper2 =>
    obtain ⟨h1, h2, h3⟩ := h
    simp only [basicDev, devTrigUpper2, P 0 (by omega), P 1 (by omega), P 2 (by omega), P 3 (by omega), X 0 (by omega), X 1 (by omega),
      h1, h2, h3]
    rfl
  case trigLower2 =>
    obtain ⟨h1, h2, h3⟩ := h
    simp only [basicDev, devTrigLower2, P 0 (by omega), P 1 (by omega), P 2 (by omega), P 3 (by omega), X 0 (by omega), X 1 (by omega),
      h1, h2, h3]
    rfl
  case corrGaussian =>
    obtain ⟨h1, h2, h3⟩ := h
    obtain ⟨i0, a0, b0⟩ := v.obs 0 (by omega)
    obtain ⟨i1, a1, b1⟩ := v.obs 1 (by omega)
    simp only [basicDev, devCorrGaussian, P 0 (by omega), P 1 (by omega), P 2 (by omega), P 3 (by omega), P 4 (by omega), a0, a1, bind,
      Option.bind, b0, b1, h1, h2, h3]
    rfl
  case squareDalitz =>
    obtain ⟨h1, h2, h3⟩ := h
    obtain ⟨i0, a0, b0⟩ := v.obs 0 (by omega)
    obtain ⟨i1, a1, b1⟩ := v.obs 1 (by omega)
    simp only [basicDev, devSquareDalitz, P 0 (by omega), P 1 (by omega), P 2 (by omega), P 3 (by omega), P 4 (by omega), P 5 (by omega), P 6 (by omega), P 7 (by omega), a0, a1, bind,
      Option.bind, b0, b1, h1, h2, h3]
    rfl
  case interHist => exact h.elim
  case varBin => exact h.elim
  case landau =>
    obtain ⟨h1, h2, h3⟩ := h
    simp only [basicDev, devLandau, P 0 (by omega), P 1 (by omega), X 0 (by omega), bind,
      Option.bind, h1, h2, h3, basicValue]
    cases FpMath.le (nth ps 1) (lit 0) <;> rfl
  case step =>
    obtain ⟨h1, h2, h3⟩ := h
    simp only [basicDev, devStep, P 0 (by omega), K 0 (by omega), X 0 (by omega), bind,
      Option.bind, v.next, h1, h2, h3, basicValue]
    split <;> rfl
  case voigtian =>
    obtain ⟨h1, h2, h3⟩ := h
    simp only [basicDev, devVoigtian, P 0 (by omega), P 1 (by omega), P 2 (by omega), X 0 (by omega),
      bind, Option.bind, h1, h2, h3, basicValue, voigtianValue]
    cases FpMath.eq (lit 0) (nth ps 2) <;> cases FpMath.eq (lit 0) (nth ps 1) <;> rfl
  case expPoly =>
    obtain ⟨h2, h3⟩ := h
    simp only [basicDev, devExpPoly, X 0 (by omega), v.np, bind, Option.bind]
    rw [forUpto_some _ (fun i s => add s (mul (pow (nth xs 0) (ofNat i)) (nth ps i))) _ _ _
      (fun k s _ hk => by rw [P k (by omega)]; rfl)]
    simp only [basicValue, h2, h3]
    rfl
  case expPolyOffset =>
    obtain ⟨h1, h2, h3⟩ := h
    simp only [basicDev, devExpPolyOffset, P 0 (by omega), X 0 (by omega), v.np, bind, Option.bind]
    rw [forUpto_some _ (fun i s => add s (mul (pow (sub (nth xs 0) (nth ps 0)) (ofNat i)) (nth ps i)))
      _ _ _ (fun k s _ hk => by rw [P k (by omega)]; rfl)]
    simp only [basicValue, h2, h3]
    rfl
  case polynomial =>
    obtain ⟨h2, h3⟩ := h
    simp only [basicDev, devPolynomial, X 0 (by omega), K 0 (by omega), v.np, bind, Option.bind]
    rw [forUpto_some _ (fun i s => add s (mul (nth ps i)
      (pow (nth xs 0) (ofNat ((toInt (nth ks 0)).toNat + i))))) _ _ _
      (fun k s _ hk => by rw [P k (by omega)]; rfl)]
    simp only [basicValue, h2, h3]
    rfl
  case offsetPolynomial =>
    obtain ⟨h2, h3⟩ := h
    simp only [basicDev, devOffsetPolynomial, X 0 (by omega), K 0 (by omega), v.np, bind, Option.bind]
    rw [forUpto_some _ (fun i s => add s (mul (nth ps i)
      (pow (nth xs 0) (ofNat ((toInt (nth ks 0)).toNat + i - 2))))) _ _ _
      (fun k s _ hk => by rw [P k (by omega)]; rfl)]
    simp only [basicValue, h2, h3]
    rfl
  case bernstein =>
    obtain ⟨h2, h3, h4⟩ := h
    simp only [basicDev, devBernstein, X 0 (by omega), K 0 (by omega), K 1 (by omega),
      K 2 (by omega), K 3 (by omega), v.np, v.nc, bind, Option.bind]
    rw [forUpto_some _ (fun i s => bernsteinTerm (nth ks 1) (nth ks 2)
      (div (sub (nth xs 0) (nth ks 1)) (sub (nth ks 2) (nth ks 1)))
      (toInt (add (nth ks 0) (ofNat (toInt (nth ks 3)).toNat))).toNat i (nth ps i) s) _ _ _
      (fun k s _ hk => by rw [P k (by omega)]; rfl)]
    simp only [basicValue, h2, h3]
    rfl
  case binTransform =>
    obtain ⟨h1, h2⟩ := h
    simp only [basicDev, devBinTransform, v.nc, v.no, bind, Option.bind]
    rw [forUpto_some _ (fun i (s : Int × Int) =>
      (s.1 + binOf (nth xs i) (nth ks (i * 3)) (nth ks (i * 3 + 1)) * s.2,
        s.2 * toInt (nth ks (i * 3 + 2)))) _ _ _
      (fun k s _ hk => by
        simp only [X k (by omega), K (k * 3) (by omega), K (k * 3 + 1) (by omega),
          K (k * 3 + 2) (by omega)]
        rfl)]
    simp only [basicValue, h1]
    rfl
  case evalHistogram =>
    obtain ⟨h1, h2⟩ := h
    simp only [basicDev, devEvalHistogram, v.np, v.nc, v.no, K 0 (by omega), K 1 (by omega), bind,
      Option.bind]
    rw [forUpto_some _ (fun i (s : Int × Int) =>
      (s.1 + s.2 * binOf (nth xs i) (nth ks (i * 3 + 4)) (nth ks (i * 3 + 5)),
        s.2 * toInt (nth ks (3 * (i + 1))))) _ _ _
      (fun k s _ hk => by
        simp only [X k (by omega), K (k * 3 + 4) (by omega), K (k * 3 + 5) (by omega),
          K (3 * (k + 1)) (by omega)]
        rfl)]
    simp only [basicValue]
    cases T.smooth (toInt (nth ks 1)).toNat with
    | none => rfl
    | some hist =>
      simp only [bind, Option.bind]
      generalize readHist hist _ = r
      cases r <;> rfl
  case dalitzVeto =>
    obtain ⟨h1, h2, h3⟩ := h
    obtain ⟨i0, a0, b0⟩ := v.obs 0 (by omega)
    obtain ⟨i1, a1, b1⟩ := v.obs 1 (by omega)
    simp only [basicDev, devDalitzVeto, P 0 (by omega), P 1 (by omega), P 2 (by omega),
      P 3 (by omega), a0, a1, K 0 (by omega), bind, Option.bind, b0, b1, v.next]
    rw [forUpto_some _ (fun i ret => mul ret (if FpMath.lt (if toInt (nth ks (1 + i)) = 0 then nth xs 0
      else if toInt (nth ks (1 + i)) = 1 then nth xs 1 else
        sub (sub (add (add (add (mul (nth ps 0) (nth ps 0)) (mul (nth ps 1) (nth ps 1)))
          (mul (nth ps 2) (nth ps 2))) (mul (nth ps 3) (nth ps 3))) (nth xs 0)) (nth xs 1))
        (nth ps (4 + i * 2 + 1)) && gt (if toInt (nth ks (1 + i)) = 0 then nth xs 0
      else if toInt (nth ks (1 + i)) = 1 then nth xs 1 else
        sub (sub (add (add (add (mul (nth ps 0) (nth ps 0)) (mul (nth ps 1) (nth ps 1)))
          (mul (nth ps 2) (nth ps 2))) (mul (nth ps 3) (nth ps 3))) (nth xs 0)) (nth xs 1))
        (nth ps (4 + i * 2)) then lit 0 else lit 1)) _ _ _
      (fun k s _ hk => by
        simp only [P (4 + k * 2) (by omega), P (4 + k * 2 + 1) (by omega), K (1 + k) (by omega)]
        rfl)]
    simp only [basicValue, h3]
    rfl
  case multiPolynomial =>
    obtain ⟨h1, h2, h3⟩ := h
    generalize hM : toInt (add (nth ks 0) (lit 1)) = M' at h2 h3
    obtain ⟨M, rfl⟩ : ∃ M : Nat, M' = M := ⟨M'.toNat, by omega⟩
    have hc := count_simplex M (by omega) xs.length M le_rfl
    have hcard : simplexCount xs.length M = ((M : Int) - 1 + xs.length).toNat.choose xs.length := by
      rw [simplexCount, if_neg (by omega)]
      congr 1
      omega
    rw [hcard] at hc
    have hpos : 0 < ((M : Int) - 1 + xs.length).toNat.choose xs.length :=
      Nat.choose_pos (by omega)
    simp only [basicDev, devMultiPolynomial, v.np, v.nc, v.no, K 0 (by omega), P xs.length (by omega),
      bind, Option.bind, hM, Int.toNat_natCast]
    have hterm : ∀ box, multiTerm B c e xs.length M box = some (multiTermValue ps xs M box) := by
      intro box
      rw [multiTerm, forUpto_some _ (fun j s =>
        (mul s.1 (pow (sub (nth xs j) (nth ps j)) (ofNat (s.2.1 % M))), s.2.1 / M,
          s.2.2 + s.2.1 % M))]
      · rfl
      · intro k s _ hk
        simp only [X k (by omega), P k (by omega)]
        rfl
    have hmono : ∀ i, i ≤ M ^ xs.length →
        Nat.count (fun i => digitSum M xs.length i < M) i ≤
          ((M : Int) - 1 + xs.length).toNat.choose xs.length := by
      intro i hi
      rw [← hc]
      exact Nat.count_monotone _ hi
    have hM1 : 1 ≤ M ^ xs.length := Nat.one_le_pow _ _ (by omega)
    have hloop := forUpto_inv (fun i (s : Nat × F) =>
        (multiTerm B c e xs.length M i).bind fun t =>
          if t.2.2 ≥ M then some s
          else (c.getParameter B s.1).bind fun coefficient =>
            some (s.1 + 1, add s.2 (mul t.1 coefficient)))
      (fun i s => multiStep ps xs M s i)
      (fun i s => s.1 = xs.length + Nat.count (fun i => digitSum M xs.length i < M) i)
      (M ^ xs.length - 1) 1 (xs.length + 1, nth ps xs.length) (by
        rw [Nat.count_succ, Nat.count_zero, digitSum_zero, if_pos (by omega)])
      (by
        intro k s hk1 hk2 hP
        simp only [hterm, Option.bind_some, multiStep, multiTermValue_sum]
        by_cases hd : digitSum M xs.length k ≥ M
        · rw [if_pos hd, if_pos hd]
          refine ⟨rfl, ?_⟩
          rw [Nat.count_succ, if_neg (by omega), hP]
          rfl
        · rw [if_neg hd, if_neg hd]
          have := hmono (k + 1) (by omega)
          rw [Nat.count_succ, if_pos (by omega)] at this
          rw [P s.1 (by omega)]
          refine ⟨rfl, ?_⟩
          rw [Nat.count_succ, if_pos (by omega), hP]
          rfl)
    have h' := hloop.1
    show Option.bind (forUpto (fun i (s : Nat × F) =>
        (multiTerm B c e xs.length M i).bind fun t =>
          if t.2.2 ≥ M then some s
          else (c.getParameter B s.1).bind fun coefficient =>
            some (s.1 + 1, add s.2 (mul t.1 coefficient))) (M ^ xs.length - 1) 1
        (xs.length + 1, nth ps xs.length)) (fun s =>
          some (s.2, c.incrementIndex 1 ps.length ks.length xs.length 1)) = _
    rw [h']
    simp only [basicValue, hM, Int.toNat_natCast]
    rfl

/-! ### What the constructors build -/

theorem registerObs_eq {L : Lib F} : ∀ (os : List Nat) (n : Node L),
    os.foldl Node.registerObservable n =
      { n with obs := os.foldl (fun l o => if o ∈ l then l else l ++ [o]) n.obs }
  | [], n => rfl
  | o :: os, n => by
    rw [List.foldl_cons, List.foldl_cons, registerObs_eq os]
    unfold Node.registerObservable
    split <;> rfl

theorem node_eq (base : Lib F) (T : HistTables F) (oid : Nat) (norm : F) (a : BasicCall F) :
    a.node base T oid norm =
      { oid := oid, fn := .leaf a.leaf, params := a.params, consts := a.consts,
        obs := registerAll a.obsArgs, norm := norm } := by
  rw [BasicCall.node, registerObs_eq]
  rfl

theorem registerAll_append : ∀ (os l : List Nat), (l ++ os).Nodup →
    os.foldl (fun l o => if o ∈ l then l else l ++ [o]) l = l ++ os
  | [], l, _ => by simp
  | o :: os, l, h => by
    have h' : (l ++ [o] ++ os).Nodup := by simpa using h
    have ho : o ∉ l := by
      rw [List.nodup_append] at h
      intro hm
      exact h.2.2 o hm o (by simp) rfl
    rw [List.foldl_cons, if_neg ho, registerAll_append os _ h']
    simp

theorem registerAll_nodup (os : List Nat) (h : os.Nodup) : registerAll os = os := by
  rw [registerAll, registerAll_append os [] (by simpa using h)]
  rfl

theorem foldl_mul_asc (M : Nat) : ∀ n, (List.range n).foldl (fun p i => p * (M + i)) 1 = M.ascFactorial n
  | 0 => rfl
  | n + 1 => by
    rw [List.range_succ, List.foldl_append, foldl_mul_asc M n]
    simp only [List.foldl_cons, List.foldl_nil, Nat.ascFactorial_succ]
    ring

theorem foldl_div (l : List Nat) : ∀ p, l.foldl (fun p i => p / i) p = p / l.prod := by
  induction l with
  | nil => intro p; simp
  | cons a l ih => intro p; rw [List.foldl_cons, ih, List.prod_cons, Nat.div_div_eq_div_mul]

theorem prod_down : ∀ n, ((List.range (n - 1)).map (fun k => n - k)).prod = n.factorial
  | 0 => rfl
  | 1 => rfl
  | n + 2 => by
    have h := prod_down (n + 1)
    rw [Nat.add_sub_cancel] at h
    rw [show n + 2 - 1 = n + 1 by omega, List.range_succ_eq_map, List.map_cons, List.map_map,
      List.prod_cons, Nat.factorial_succ, ← h]
    congr 2
    apply List.map_congr_left
    intro a _
    simp only [Function.comp]
    omega

theorem numCoefficients_eq (n N : Nat) : numCoefficients n n N = (N + n).choose n := by
  rw [numCoefficients, foldl_mul_asc (N + 1), foldl_div, prod_down, Nat.choose_eq_asc_factorial_div_factorial]

theorem padWith_length (l : List Nat) (n fresh : Nat) : (padWith l n fresh).length = max l.length n := by
  simp only [padWith, List.length_append, List.length_map, List.length_range]
  omega

theorem flatMap_const_length {α β : Type} (f : α → List β) (n : Nat) (h : ∀ a, (f a).length = n)
    (l : List α) : (l.flatMap f).length = n * l.length := by
  induction l with
  | nil => simp
  | cons a l ih => rw [List.flatMap_cons, List.length_append, h, ih, List.length_cons]; ring

omit [FpMath F] in
theorem exact_ofNat [FpOps F] (n : Nat) (h : Exact F n) : toInt (ofNat n : F) = n := by
  have : (ofNat n : F) = ofInt (n : Int) := by simp [ofNat, ofInt]
  rw [this]; exact h

theorem shape_of_call (a : BasicCall F) (env : Env F) (xs : List F) (h : SoundCall a)
    (hi : a.leaf ≠ .interHist) (hv : a.leaf ≠ .varBin)
    (hx : xs.length = (registerAll a.obsArgs).length) :
    Shape a.leaf (a.params.map env.val) a.consts xs := by
  cases a
  case interHist => exact absurd rfl hi
  case varBin => exact absurd rfl hv
  case argus x m0 slope upper power => cases upper <;> exact ⟨rfl, rfl, hx⟩
  case trigThreshold x t c l upper => cases upper <;> exact ⟨rfl, rfl, hx⟩
  case trigThreshold2 x y t c l m upper =>
    rw [BasicCall.obsArgs, registerAll_nodup _ (by simpa [SoundCall] using h)] at hx
    cases upper <;> exact ⟨rfl, rfl, hx⟩
  case corrGaussian =>
    rw [BasicCall.obsArgs, registerAll_nodup _ (by simpa [SoundCall] using h)] at hx
    exact ⟨rfl, rfl, hx⟩
  case squareDalitz =>
    rw [BasicCall.obsArgs, registerAll_nodup _ (by simpa [SoundCall] using h)] at hx
    exact ⟨rfl, rfl, hx⟩
  case expPoly => exact ⟨rfl, hx⟩
  case expPolyOffset => exact ⟨by simp [BasicCall.params], rfl, hx⟩
  case polynomial => exact ⟨rfl, hx⟩
  case offsetPolynomial => exact ⟨rfl, hx⟩
  case bernstein x lo hi' coeffs mindeg =>
    obtain ⟨h1, h2⟩ := h
    refine ⟨rfl, hx, ?_⟩
    have e3 : nth (BasicCall.bernstein x lo hi' coeffs mindeg).consts 3 = ofNat mindeg := rfl
    have e0 : nth (BasicCall.bernstein x lo hi' coeffs mindeg).consts 0 = ofNat coeffs.length := rfl
    rw [e3, e0, exact_ofNat _ h1, Int.toNat_natCast, h2, BasicCall.params, List.length_map]
    omega
  case binTransform axes =>
    rw [BasicCall.obsArgs, registerAll_nodup _ h] at hx
    refine ⟨rfl, ?_⟩
    rw [BasicCall.consts, flatMap_const_length _ 3 (fun _ => rfl), hx, List.length_map]
  case smoothHistogram number axes s =>
    obtain ⟨h1, h2⟩ := h
    rw [BasicCall.obsArgs, registerAll_nodup _ h1, List.length_map] at hx
    have e0 : nth (BasicCall.smoothHistogram number axes s).consts 0 = ofNat axes.length := rfl
    refine ⟨?_, ?_⟩
    · rw [e0, exact_ofNat _ h2]
      omega
    · rw [e0, exact_ofNat _ h2, BasicCall.consts, List.length_append,
        flatMap_const_length _ 3 (fun _ => rfl)]
      simp only [List.length_cons, List.length_nil]
      omega
  case dalitzVeto x y m a b c vetos =>
    obtain ⟨h1, h2⟩ := h
    rw [BasicCall.obsArgs, registerAll_nodup _ (by simpa using h1)] at hx
    have e0 : nth (BasicCall.dalitzVeto (F := F) x y m a b c vetos).consts 0 = ofNat vetos.length := rfl
    refine ⟨?_, ?_, hx⟩
    · rw [e0, exact_ofNat _ h2]
      simp only [BasicCall.consts, List.length_cons, List.length_map]
      omega
    · rw [e0, exact_ofNat _ h2, BasicCall.params, List.length_map, List.length_append,
        flatMap_const_length _ 2 (fun _ => rfl)]
      simp only [List.length_cons, List.length_nil]
      omega
  case multiPolynomial obses coeffs offsets maxDegree fresh =>
    obtain ⟨h1, h2⟩ := h
    rw [BasicCall.obsArgs, registerAll_nodup _ h1] at hx
    have e0 : nth (BasicCall.multiPolynomial (F := F) obses coeffs offsets maxDegree fresh).consts 0 =
      ofNat maxDegree := rfl
    refine ⟨by simp [BasicCall.consts], ?_, ?_⟩
    · rw [e0, h2, hx, BasicCall.params, List.length_map]
      simp only [registerAll_nodup _ h1, List.length_append, padWith_length, numCoefficients_eq]
      have : ((maxDegree : Int) + 1 - 1 + obses.length).toNat = maxDegree + obses.length := by omega
      rw [this]
      omega
    · rw [e0, h2]
      omega
  all_goals exact ⟨rfl, rfl, hx⟩

theorem basicValue_isSome (T : HistTables F) (k : BasicLeaf) (ps ks xs : List F)
    (h : k ≠ .evalHistogram) (hi : k ≠ .interHist) (hv : k ≠ .varBin) :
    (basicValue T k ps ks xs).isSome := by
  cases k <;> first | rfl | exact absurd rfl h | exact absurd rfl hi | exact absurd rfl hv

end values
end GooFit
