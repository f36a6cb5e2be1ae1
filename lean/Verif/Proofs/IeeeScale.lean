import Verif.Proofs.IeeeError
/-
Rounding and powers of two: as long as nothing is so small that bits are lost, and nothing
overflows, rounding a number times a power of two is rounding the number, times the power.
-/

namespace OCG.Ieee

open IeeeSpec

variable {f : Format}


/-- Rounding numbers that are not subnormal, times a power of two. -/
theorem nearest_shift {num den : Nat} (hd : 0 < den) (k : Nat) (h : 2 ^ f.mant * den ≤ num) :
    nearestCode f (num * 2 ^ k) den = nearestCode f num den + k * 2 ^ f.mant := by
  have hq : 2 ^ f.mant ≤ num / den := (Nat.le_div_iff_mul_le hd).mpr h
  have hq0 : num / den ≠ 0 := by
    have := two_pow_pos' f.mant
    omega
  obtain ⟨L, hL⟩ : ∃ L, (num / den).log2 = L := ⟨_, rfl⟩
  have h1 : 2 ^ L ≤ num / den := hL ▸ Nat.log2_self_le hq0
  have h2 : num / den < 2 ^ (L + 1) := hL ▸ Nat.lt_log2_self
  have hm : f.mant ≤ L := by
    by_contra hn
    have : 2 ^ (L + 1) ≤ 2 ^ f.mant := Nat.pow_le_pow_right (by decide) (by omega)
    omega
  have hk := two_pow_pos' k
  have e : (num * 2 ^ k / den).log2 = L + k := by
    have a : 2 ^ (L + k) ≤ num * 2 ^ k / den := by
      rw [Nat.le_div_iff_mul_le hd, pow_add]
      have := (Nat.le_div_iff_mul_le hd).mp h1
      calc 2 ^ L * 2 ^ k * den = 2 ^ L * den * 2 ^ k := by ring
        _ ≤ num * 2 ^ k := Nat.mul_le_mul_right _ this
    have b : num * 2 ^ k / den < 2 ^ (L + k + 1) := by
      rw [Nat.div_lt_iff_lt_mul hd]
      have := (Nat.div_lt_iff_lt_mul hd).mp h2
      calc num * 2 ^ k < 2 ^ (L + 1) * den * 2 ^ k := Nat.mul_lt_mul_of_pos_right this hk
        _ = 2 ^ (L + k + 1) * den := by rw [pow_add, pow_add, pow_add]; ring
    refine (Nat.log2_eq_iff ?_).mpr ⟨a, b⟩
    have := two_pow_pos' (L + k)
    omega
  unfold nearestCode
  rw [e, hL]
  dsimp only
  have es : L + k - f.mant = L - f.mant + k := by omega
  rw [es]
  generalize L - f.mant = s
  have ed : den * 2 ^ (s + k) = den * 2 ^ s * 2 ^ k := by rw [pow_add]; ring
  rw [ed, Nat.mul_div_mul_right _ _ hk, Nat.mul_mod_mul_right]
  generalize den * 2 ^ s = d
  generalize num / d = n
  generalize num % d = r
  have c1 : d * 2 ^ k < 2 * (r * 2 ^ k) ↔ d < 2 * r := by
    rw [← mul_assoc]
    exact ⟨fun h => lt_of_mul_lt_mul_right h hk.le, fun h => Nat.mul_lt_mul_of_pos_right h hk⟩
  have c2 : 2 * (r * 2 ^ k) = d * 2 ^ k ↔ 2 * r = d := by
    rw [← mul_assoc]
    exact ⟨fun h => Nat.eq_of_mul_eq_mul_right hk h, fun h => by rw [h]⟩
  simp only [c1, c2, Nat.add_mul]
  omega

theorem units_times {c : Nat} (h : 2 ^ f.mant ≤ c) (k : Nat) :
    units f (c + k * 2 ^ f.mant) = units f c * 2 ^ k := by
  have hm := two_pow_pos' f.mant
  unfold units
  have : 2 ^ f.mant ≤ c + k * 2 ^ f.mant := by omega
  rw [if_neg (by omega), if_neg (by omega), Nat.add_mul_mod_self_right, Nat.add_mul_div_right _ _ hm]
  have h1 : 1 ≤ c / 2 ^ f.mant := (Nat.le_div_iff_mul_le hm).mpr (by omega)
  have e : c / 2 ^ f.mant + k - 1 = c / 2 ^ f.mant - 1 + k := by omega
  rw [e, pow_add]
  ring

/-- Rounding commutes with powers of two. -/
theorem scale_rounds {q : ℚ} {x x' : Ieee f} {k : Nat} (hx : Rounds q x)
    (hx' : Rounds (q * 2 ^ k) x') (hf : IsFinite x') (hq : (2 : ℚ) ^ f.mant / 2 ^ f.unit ≤ |q|) :
    IsFinite x ∧ val x' = val x * 2 ^ k := by
  obtain ⟨neg, num, den, hd, rfl, e⟩ := hx
  have hdq : (0 : ℚ) < den := by exact_mod_cast hd
  rw [rounds_abs e, div_le_div_iff_of_pos_right (by positivity), le_div_iff₀ hdq] at hq
  have hn : 2 ^ f.mant * den ≤ num := by exact_mod_cast hq
  have r : Rounds (q * 2 ^ k) (rounded neg (num * 2 ^ k) den : Ieee f) := by
    refine ⟨neg, num * 2 ^ k, den, hd, rfl, ?_⟩
    rw [e]
    push_cast
    ring
  have s := hx'.unique r hf
  rw [s.2.2]
  obtain ⟨a, b⟩ := rounded_finite s.2.1
  rw [nearest_shift hd k hn] at a b
  have hlt : nearestCode f num den < infCode f := by omega
  have b' := rounded_code (neg := neg) hlt.le
  refine ⟨by rw [finite_iff, b']; exact hlt, ?_⟩
  have hc : 2 ^ f.mant ≤ nearestCode f num den := by
    refine le_nearest hd ?_
    have : units f (2 ^ f.mant) = 2 ^ f.mant := by
      unfold units
      rw [if_neg (by omega), Nat.mod_self, Nat.div_self (two_pow_pos' _)]
      simp
    rw [this]
    exact hn
  rw [val_mag, val_mag]
  unfold mag
  rw [b, b', units_times hc]
  have : (rounded neg (num * 2 ^ k) den : Ieee f).neg = (rounded neg num den : Ieee f).neg := rfl
  rw [this]
  push_cast
  ring

end OCG.Ieee
