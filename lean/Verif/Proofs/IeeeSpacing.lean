import Verif.Proofs.IeeeRound
import Mathlib.Algebra.Order.Round
import Mathlib.Data.Rat.Floor
import Mathlib.Tactic.NormNum
/-
The floats near a number: fractions that are floats, and the distance between neighbours.
-/

namespace OCG.Ieee

open IeeeSpec

/-- Fractions with few binary digits are floats. -/
theorem exists_dyadic {n j : Nat} (h : n ≤ 2 ^ 24) (hj : j ≤ 149) :
    ∃ y : F32, IsFinite y ∧ val y = (n : ℚ) / 2 ^ j := by
  obtain ⟨c, hc⟩ := exists_units (f := single32) (n := n) (by exact h) (149 - j)
  have hlt : c < infCode single32 := by
    rw [← units_lt (f := single32), hc]
    refine lt_of_le_of_lt ?_ ok_single.big
    exact Nat.mul_le_mul h (Nat.pow_le_pow_right (by decide) (Nat.sub_le _ _))
  obtain ⟨x, hn, hx⟩ : ∃ x : F32, x.neg = false ∧ x.code = c :=
    ⟨⟨false, c, hlt.trans (infCode_lt _)⟩, rfl, rfl⟩
  refine ⟨x, (finite_iff _).mpr (by rw [hx]; exact hlt), ?_⟩
  rw [val_mag, hn]
  have hm : x.mag = n * 2 ^ (149 - j) := by unfold mag; rw [hx]; exact hc
  rw [hm]
  have e : (2 : ℚ) ^ 149 = 2 ^ (149 - j) * 2 ^ j := by rw [← pow_add]; congr 1; omega
  show sgn false * _ / (2 : ℚ) ^ 149 = _
  rw [e]
  have : sgn false = 1 := rfl
  rw [this]
  push_cast
  have h1 : (2 : ℚ) ^ (149 - j) ≠ 0 := by positivity
  field_simp

/-- Floats from `2^i` on are multiples of `2^i / 2^23`. -/
theorem multiple_of_ge {x : F32} {i : Nat} (h : (2 : ℚ) ^ i ≤ val x) :
    ∃ m : ℤ, val x = m * (2 ^ i / 2 ^ 23) := by
  obtain ⟨s, n, h3, h1, h2⟩ := exists_shift single32 x.code
  have hu : x.mag = n * 2 ^ s := by
    unfold mag; rw [h3, units_shift s n h1.le h2]
  have ha : (2 : ℚ) ^ i ≤ (x.mag : ℚ) / 2 ^ 149 := by
    rw [← show |val x| = (x.mag : ℚ) / 2 ^ 149 from abs_val x]; exact h.trans (le_abs_self _)
  rw [le_div_iff₀ (by positivity)] at ha
  have ha : 2 ^ i * 2 ^ 149 ≤ n * 2 ^ s := by rw [← hu]; exact_mod_cast ha
  have hs : i + 126 ≤ s := by
    by_contra hlt
    have h4 : 2 ^ s ≤ 2 ^ (i + 125) := Nat.pow_le_pow_right (by decide) (by omega)
    have h5 : n * 2 ^ s < 2 ^ 24 * 2 ^ (i + 125) :=
      lt_of_le_of_lt (Nat.mul_le_mul_left _ h4) (Nat.mul_lt_mul_of_pos_right h1 (two_pow_pos' _))
    rw [pow_add 2 i 125] at h5
    generalize 2 ^ i = a at *
    omega
  obtain ⟨d, rfl⟩ := Nat.exists_eq_add_of_le hs
  refine ⟨(if x.neg then -1 else 1) * (n * 2 ^ d : ℕ), ?_⟩
  rw [val_mag, hu]
  show sgn x.neg * _ / (2 : ℚ) ^ 149 = _
  unfold sgn
  rw [pow_add, pow_add]
  have e : (2 : ℚ) ^ 149 = 2 ^ 126 * 2 ^ 23 := by norm_num
  rw [e]
  push_cast
  generalize (2 : ℚ) ^ i = a
  generalize (2 : ℚ) ^ d = b
  split <;> push_cast <;> field_simp <;> ring

/-- The float below a multiple of `2^i / 2^23` that is larger than `2^i`. -/
theorem below_multiple {y z : ℚ} {x : F32} {i : Nat} {a : ℤ} (hx : val x = z)
    (hy : y = a * (2 ^ i / 2 ^ 23)) (hi : (2 : ℚ) ^ i < y) (h : z < y) :
    z ≤ y - 2 ^ i / 2 ^ 23 := by
  have hd : (0 : ℚ) < 2 ^ i / 2 ^ 23 := by positivity
  have key : ∀ m : ℤ, (m : ℚ) * (2 ^ i / 2 ^ 23) < y → (m : ℚ) * (2 ^ i / 2 ^ 23) ≤ y - 2 ^ i / 2 ^ 23 := by
    intro m hm
    rw [hy] at hm ⊢
    have : m < a := by exact_mod_cast (mul_lt_mul_iff_left₀ hd).mp hm
    have : (m : ℚ) + 1 ≤ a := by exact_mod_cast this
    nlinarith
  rcases le_or_gt ((2 : ℚ) ^ i) z with hz | hz
  · obtain ⟨m, hm⟩ := multiple_of_ge (x := x) (i := i) (by rw [hx]; exact hz)
    rw [hx] at hm
    rw [hm] at h ⊢
    exact key m h
  · have e : (((2 ^ 23 : ℤ) : ℚ)) * (2 ^ i / 2 ^ 23) = 2 ^ i := by push_cast; norm_num; field_simp
    have := key (2 ^ 23) (by rw [e]; exact hi)
    rw [e] at this
    linarith

/-- Numbers between 0 and 1 are rounded by at most half of `2^-24`. -/
theorem rounds_unit {q : ℚ} {x : F32} (h : Rounds q x) (hx : IsFinite x) (h0 : 0 ≤ q) (h1 : q ≤ 1) :
    |val x - q| ≤ 1 / 2 ^ 25 := by
  have hr := abs_sub_round (q * 2 ^ 24)
  generalize _root_.round (q * 2 ^ 24) = r at hr
  obtain ⟨hr1, hr2⟩ := abs_le.mp hr
  have r0 : 0 ≤ r := by
    have h2 : (-1 : ℚ) < r := by linarith
    have : (-1 : ℤ) < r := by exact_mod_cast h2
    omega
  have r1 : r ≤ 2 ^ 24 := by
    have h2 : (r : ℚ) < 2 ^ 24 + 1 := by linarith
    have : r < 2 ^ 24 + 1 := by exact_mod_cast h2
    omega
  obtain ⟨m, hm⟩ := Int.eq_ofNat_of_zero_le r0
  subst hm
  obtain ⟨y, hy, hv⟩ := exists_dyadic (n := m) (j := 24) (by exact_mod_cast r1) (by decide)
  refine ((h.nearest ok_single.mant_pos hx).closest y hy).trans ?_
  rw [hv, abs_sub_comm]
  have e : q - (m : ℚ) / 2 ^ 24 = (q * 2 ^ 24 - ((m : ℕ) : ℤ)) / 2 ^ 24 := by push_cast; field_simp
  rw [e, abs_div, abs_of_pos (by norm_num : (0 : ℚ) < 2 ^ 24), div_le_div_iff₀ (by norm_num) (by norm_num)]
  generalize |q * 2 ^ 24 - (((m : ℕ) : ℤ) : ℚ)| = e at *
  norm_num
  linarith

/-- Rounding a value from half a step below a whole number up to half a step above. -/
theorem roundInt_half {x : F32} {m : ℤ} (h0 : 0 < val x) (h1 : (m : ℚ) ≤ val x + 1 / 2)
    (h2 : val x + 1 / 2 < m + 1) : roundInt x = m := by
  have hc := roundInt_close x
  have hU : (0 : ℚ) < 2 ^ 149 := by norm_num
  have hn : x.neg = false := by
    by_contra hn
    rw [Bool.not_eq_false] at hn
    rw [val_mag, hn] at h0
    have : sgn true = -1 := rfl
    rw [this] at h0
    have : (0 : ℚ) ≤ (x.mag : ℚ) / 2 ^ 149 := by positivity
    have e : (-1 : ℚ) * (x.mag : ℚ) / 2 ^ single32.unit = -((x.mag : ℚ) / 2 ^ 149) := by
      rw [neg_one_mul, neg_div]
    rw [e] at h0
    linarith
  have hv : val x = (x.mag : ℚ) / 2 ^ 149 := by
    rw [val_mag, hn]
    have : sgn false = 1 := rfl
    rw [this, one_mul]
  unfold roundInt
  rw [hn]
  simp only [Bool.false_eq_true, if_false]
  rw [hv] at h1 h2 h0
  obtain ⟨k, rfl⟩ : ∃ k : ℕ, m = k := by
    have : (-1 : ℚ) < m := by linarith
    have : (-1 : ℤ) < m := by exact_mod_cast this
    exact ⟨m.toNat, by omega⟩
  congr 1
  have a : (k : ℚ) * (2 * 2 ^ 149) ≤ 2 * x.mag + 2 ^ 149 := by
    have := mul_le_mul_of_nonneg_right h1 (by norm_num : (0 : ℚ) ≤ 2 * 2 ^ 149)
    have e : ((x.mag : ℚ) / 2 ^ 149 + 1 / 2) * (2 * 2 ^ 149) = 2 * x.mag + 2 ^ 149 := by
      field_simp
    rw [e] at this
    exact_mod_cast this
  have b : 2 * (x.mag : ℚ) + 2 ^ 149 < (k + 1) * (2 * 2 ^ 149) := by
    have := mul_lt_mul_of_pos_right h2 (by norm_num : (0 : ℚ) < 2 * 2 ^ 149)
    have e : ((x.mag : ℚ) / 2 ^ 149 + 1 / 2) * (2 * 2 ^ 149) = 2 * x.mag + 2 ^ 149 := by
      field_simp
    rw [e] at this
    exact_mod_cast this
  have a : k * (2 * 2 ^ 149) ≤ 2 * x.mag + 2 ^ 149 := by exact_mod_cast a
  have b : 2 * x.mag + 2 ^ 149 < (k + 1) * (2 * 2 ^ 149) := by exact_mod_cast b
  show (2 * x.mag + 2 ^ 149) / (2 * 2 ^ 149) = k
  exact Nat.div_eq_of_lt_le a b

end OCG.Ieee
