import Verif.Proofs.IeeeRound
import Mathlib.Data.Rat.Floor
/-
`floor` and `ceil` of IEEE values.
-/

namespace OCG.Ieee

open IeeeSpec

variable {f : Format}

/-- The two magnitudes that `floor` and `ceil` use can be represented. -/
theorem div_fits (x : Ieee f) (up : Bool) :
    (if up then (x.mag + 2 ^ f.unit - 1) / 2 ^ f.unit else x.mag / 2 ^ f.unit) ≤ 2 * 2 ^ f.mant ∨
      (if up then (x.mag + 2 ^ f.unit - 1) / 2 ^ f.unit else x.mag / 2 ^ f.unit) * 2 ^ f.unit =
        x.mag := by
  have hU := two_pow_pos' f.unit
  by_cases h : 2 * 2 ^ f.mant * 2 ^ f.unit ≤ x.mag
  · right
    obtain ⟨q, hq⟩ := whole_of_large h
    rw [hq]
    generalize 2 ^ f.unit = U at *
    cases up
    · rw [if_neg (by decide), Nat.mul_div_cancel_left _ hU, Nat.mul_comm]
    · have : (U * q + U - 1) / U = q := by
        rw [show U * q + U - 1 = U - 1 + U * q by omega, Nat.add_mul_div_left _ _ hU,
          Nat.div_eq_of_lt (by omega), Nat.zero_add]
      rw [if_pos rfl, this, Nat.mul_comm]
  · left
    rw [not_le] at h
    generalize 2 ^ f.unit = U at *
    generalize 2 * 2 ^ f.mant = M at *
    cases up
    · rw [if_neg (by decide)]
      exact ((Nat.div_lt_iff_lt_mul hU).mpr h).le
    · rw [if_pos rfl]
      have : x.mag + U - 1 < (M + 1) * U := by
        rw [Nat.add_mul, Nat.one_mul]; omega
      have := (Nat.div_lt_iff_lt_mul hU).mpr this
      omega

theorem floor_nat (m U : Nat) (hU : 0 < U) : ⌊(m : ℚ) / U⌋ = ((m / U : Nat) : Int) := by
  rw [Int.floor_eq_iff]
  have hq : (0 : ℚ) < U := by exact_mod_cast hU
  have h1 := Nat.div_add_mod m U
  have h2 := Nat.mod_lt m hU
  generalize m / U = d at *
  generalize m % U = r at *
  have h1q : (U : ℚ) * d + r = m := by exact_mod_cast h1
  have h2q : (r : ℚ) < U := by exact_mod_cast h2
  have h3q : (0 : ℚ) ≤ r := by positivity
  push_cast
  constructor
  · rw [le_div_iff₀ hq]; nlinarith
  · rw [div_lt_iff₀ hq]; nlinarith

theorem ceil_nat (m U : Nat) (hU : 0 < U) : ⌈(m : ℚ) / U⌉ = (((m + U - 1) / U : Nat) : Int) := by
  rw [Int.ceil_eq_iff]
  have hq : (0 : ℚ) < U := by exact_mod_cast hU
  have h1 := Nat.div_add_mod (m + U - 1) U
  have h2 := Nat.mod_lt (m + U - 1) hU
  have h1' : U * ((m + U - 1) / U) + (m + U - 1) % U + 1 = m + U := by omega
  clear h1
  generalize (m + U - 1) / U = d at *
  generalize (m + U - 1) % U = r at *
  have h1q : (U : ℚ) * d + r + 1 = m + U := by exact_mod_cast h1'
  have h2q : (r : ℚ) + 1 ≤ U := by exact_mod_cast h2
  have h3q : (0 : ℚ) ≤ r := by positivity
  push_cast
  constructor
  · rw [lt_div_iff₀ hq]; nlinarith
  · rw [div_le_iff₀ hq]; nlinarith

theorem signed_cast (b : Bool) (n : Nat) :
    (if b then -(n : ℚ) else n) = (((if b then -(n : Int) else n : Int)) : ℚ) := by
  cases b <;> simp

/-- `floor` gives the largest whole number that is not larger. -/
theorem floor_spec (hf : Ok f) {x : Ieee f} (hx : IsFinite x) :
    IsFinite (floor x) ∧ (floor x).trunc = ⌊val x⌋ ∧ val (floor x) = ⌊val x⌋ := by
  have hU := two_pow_pos' f.unit
  obtain ⟨a, b, c⟩ := integral_spec hf hx (div_fits x x.neg)
  obtain ⟨d, e⟩ := trunc_whole b
  have key : (if (floor x).neg then
      -((if x.neg then (x.mag + 2 ^ f.unit - 1) / 2 ^ f.unit else x.mag / 2 ^ f.unit : Nat) : Int)
      else ((if x.neg then (x.mag + 2 ^ f.unit - 1) / 2 ^ f.unit else x.mag / 2 ^ f.unit : Nat) : Int)) =
      ⌊val x⌋ := by
    rw [show (floor x).neg = x.neg from c, val_mag]
    unfold sgn
    cases x.neg
    · rw [if_neg (by decide), if_neg (by decide), if_neg (by decide), one_mul]
      have := floor_nat x.mag (2 ^ f.unit) hU
      push_cast at this ⊢
      exact this.symm
    · rw [if_pos rfl, if_pos rfl, if_pos rfl]
      have := ceil_nat x.mag (2 ^ f.unit) hU
      rw [neg_one_mul, neg_div, Int.floor_neg]
      push_cast at this ⊢
      rw [this]
  refine ⟨a, d.trans key, ?_⟩
  rw [← key]
  refine Eq.trans e ?_
  clear key d e a b c
  exact signed_cast (floor x).neg _

/-- `ceil` gives the smallest whole number that is not smaller. -/
theorem ceil_spec (hf : Ok f) {x : Ieee f} (hx : IsFinite x) :
    IsFinite (ceil x) ∧ (ceil x).trunc = ⌈val x⌉ ∧ val (ceil x) = ⌈val x⌉ := by
  have hU := two_pow_pos' f.unit
  have eq : (if x.neg then x.mag / 2 ^ f.unit else (x.mag + 2 ^ f.unit - 1) / 2 ^ f.unit) =
      if (!x.neg) then (x.mag + 2 ^ f.unit - 1) / 2 ^ f.unit else x.mag / 2 ^ f.unit := by
    cases x.neg <;> rfl
  obtain ⟨a, b, c⟩ := integral_spec hf hx (div_fits x (!x.neg))
  rw [← eq] at a b c
  obtain ⟨d, e⟩ := trunc_whole b
  have key : (if (ceil x).neg then
      -((if x.neg then x.mag / 2 ^ f.unit else (x.mag + 2 ^ f.unit - 1) / 2 ^ f.unit : Nat) : Int)
      else ((if x.neg then x.mag / 2 ^ f.unit else (x.mag + 2 ^ f.unit - 1) / 2 ^ f.unit : Nat) : Int)) =
      ⌈val x⌉ := by
    rw [show (ceil x).neg = x.neg from c, val_mag]
    unfold sgn
    cases x.neg
    · rw [if_neg (by decide), if_neg (by decide), if_neg (by decide), one_mul]
      have := ceil_nat x.mag (2 ^ f.unit) hU
      push_cast at this ⊢
      exact this.symm
    · rw [if_pos rfl, if_pos rfl, if_pos rfl]
      have := floor_nat x.mag (2 ^ f.unit) hU
      rw [neg_one_mul, neg_div, Int.ceil_neg]
      push_cast at this ⊢
      rw [this]
  refine ⟨a, d.trans key, ?_⟩
  rw [← key]
  refine Eq.trans e ?_
  clear key d e a b c
  exact signed_cast (ceil x).neg _

theorem toRange_floor (hf : Ok f) {x : Ieee f} (hx : IsFinite x) (lo hi : Int) :
    toRange lo hi (floor x) = max lo (min hi ⌊val x⌋) := by
  obtain ⟨a, b, _⟩ := floor_spec hf hx
  unfold toRange
  rw [not_nan a, b]
  rfl

theorem toRange_ceil (hf : Ok f) {x : Ieee f} (hx : IsFinite x) (lo hi : Int) :
    toRange lo hi (ceil x) = max lo (min hi ⌈val x⌉) := by
  obtain ⟨a, b, _⟩ := ceil_spec hf hx
  unfold toRange
  rw [not_nan a, b]
  rfl

end OCG.Ieee
