import Verif.Lemmas.LandauC
/-!
# The quantile table against the density
-/
set_option autoImplicit false
namespace GooFit.Landau

/-- the rational pieces of the density, over the rationals -/
def hornerQ (a b c d e v : ℚ) : ℚ := a + (b + (c + (d + e * v) * v) * v) * v

def shapeQ (v : ℚ) : ℚ :=
  if v < 1 then
    hornerQ (1788541609 / 10 ^ 10) (1173957403 / 10 ^ 10) (1488850518 / 10 ^ 11) (-1394989411 / 10 ^ 12)
      (1283617211 / 10 ^ 13) v /
    hornerQ 1 (7428795082 / 10 ^ 10) (3153932961 / 10 ^ 10) (6694219548 / 10 ^ 11) (8790609714 / 10 ^ 12) v
  else if v < 5 then
    hornerQ (1788544503 / 10 ^ 10) (9359161662 / 10 ^ 11) (6325387654 / 10 ^ 12) (6611667319 / 10 ^ 14)
      (-2031049101 / 10 ^ 15) v /
    hornerQ 1 (6097809921 / 10 ^ 10) (2560616665 / 10 ^ 10) (4746722384 / 10 ^ 11) (6957301675 / 10 ^ 12) v
  else if v < 12 then
    (1 / v) * (1 / v) * hornerQ (9874054407 / 10 ^ 10) (1186723273 / 10 ^ 7) (8492794360 / 10 ^ 7)
      (-7437792444 / 10 ^ 7) (4270262186 / 10 ^ 7) (1 / v) /
    hornerQ 1 (1068615961 / 10 ^ 7) (3376496214 / 10 ^ 7) (2016712389 / 10 ^ 6) (1597063511 / 10 ^ 6) (1 / v)
  else
    (1 / v) * (1 / v) * hornerQ (1003675074 / 10 ^ 9) (1675702434 / 10 ^ 7) (4789711289 / 10 ^ 6)
      (2121786767 / 10 ^ 5) (-2232494910 / 10 ^ 5) (1 / v) /
    hornerQ 1 (1569424537 / 10 ^ 7) (3745310488 / 10 ^ 6) (9834698876 / 10 ^ 6) (6692428357 / 10 ^ 5) (1 / v)

theorem shape_cast (v : ℚ) (h1 : -1 ≤ v) (h2 : v < 50) : shape (v : ℝ) = (shapeQ v : ℝ) := by
  have c1 : ¬ (v : ℝ) < -(55 / 10) := by
    have : (-1 : ℝ) ≤ v := by exact_mod_cast h1
    norm_num; linarith
  have c2 : ¬ (v : ℝ) < -1 := by
    have : (-1 : ℝ) ≤ v := by exact_mod_cast h1
    linarith
  have c3 : (v : ℝ) < 50 := by exact_mod_cast h2
  unfold shape shapeQ
  rw [if_neg c1, if_neg c2]
  by_cases a1 : v < 1
  · rw [if_pos a1, if_pos (by exact_mod_cast a1)]
    simp only [pC, horner, p2, q2, hornerQ]; push_cast; rfl
  rw [if_neg a1, if_neg (by exact_mod_cast a1)]
  by_cases a2 : v < 5
  · rw [if_pos a2, if_pos (by exact_mod_cast a2)]
    simp only [pD, horner, p3, q3, hornerQ]; push_cast; rfl
  rw [if_neg a2, if_neg (by exact_mod_cast a2)]
  by_cases a3 : v < 12
  · rw [if_pos a3, if_pos (by exact_mod_cast a3)]
    simp only [pE, horner, p4, q4, hornerQ]; push_cast; rfl
  rw [if_neg a3, if_neg (by exact_mod_cast a3), if_pos c3]
  simp only [pF, horner, p5, q5, hornerQ]; push_cast; rfl

/-- the entry in the tree of the table, over the rationals -/
def cellOk (n : ℕ) : Bool :=
  let a : ℚ := (tab (n - 1) : ℚ) / 10 ^ 6
  let b : ℚ := (tab n : ℚ) / 10 ^ 6
  let m := (a + b) / 2
  decide (-1 ≤ m ∧ m < 50 ∧ |shapeQ m * (b - a) - 1 / 1000| ≤ if n ≤ 930 then 2 / 10 ^ 7 else 6 / 10 ^ 7)

theorem cells_ok : ∀ n < 978, 114 ≤ n → cellOk n = true := by decide +kernel

theorem cell_density (n : ℕ) (h : 114 ≤ n) (h' : n ≤ 977) :
    |shape (((tab (n - 1) : ℝ) / 10 ^ 6 + (tab n : ℝ) / 10 ^ 6) / 2) * ((tab n : ℝ) / 10 ^ 6 - (tab (n - 1) : ℝ) / 10 ^ 6) -
      1 / 1000| ≤ if n ≤ 930 then 2 / 10 ^ 7 else 6 / 10 ^ 7 := by
  have := cells_ok n (by omega) h
  unfold cellOk at this
  obtain ⟨h1, h2, h3⟩ := of_decide_eq_true this
  have e := shape_cast _ h1 h2
  push_cast at e
  rw [e]
  have h4 := (Rat.cast_le (K := ℝ)).2 h3
  split_ifs at h4 ⊢ <;> (push_cast at h4; exact h4)

theorem ranlan_node (n : ℕ) (h : 7 ≤ n) (h' : n ≤ 980) :
    ranlan ((n : ℝ) / 1000) = some ((tab (n - 1) : ℝ) / 10 ^ 6) := by
  have e : 1000 * ((n : ℝ) / 1000) = n := by ring
  have h1 : (7 : ℝ) ≤ n := by exact_mod_cast h
  have h2 : (n : ℝ) < 981 := by exact_mod_cast (by omega : n < 981)
  have := (ranlan_mid ((n : ℝ) / 1000) (by linarith) (by linarith)).1
  rw [e, Nat.floor_natCast, sub_self, cell_zero] at this
  exact this

end GooFit.Landau
