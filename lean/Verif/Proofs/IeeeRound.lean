import Verif.Proofs.IeeeError
import Mathlib.Tactic.Linarith
import Mathlib.Tactic.FieldSimp
import Mathlib.Tactic.Positivity
import Mathlib.Tactic.Ring
/-
Rounding IEEE values to whole numbers: `round`, `floor`, `ceil` and the casts to integers.
-/

namespace OCG.Ieee

open IeeeSpec

variable {f : Format}

/-- Large values are whole numbers. -/
theorem whole_of_large {x : Ieee f} (h : 2 * 2 ^ f.mant * 2 ^ f.unit ≤ x.mag) :
    2 ^ f.unit ∣ x.mag := by
  obtain ⟨s, n, h3, h1, h2⟩ := exists_shift f x.code
  have hu : x.mag = n * 2 ^ s := by
    unfold mag; rw [h3, units_shift s n h1.le h2]
  have hs : f.unit ≤ s := by
    by_contra hlt
    have h4 : 2 ^ s ≤ 2 ^ f.unit := Nat.pow_le_pow_right (by decide) (by omega)
    have h5 : n * 2 ^ s < 2 * 2 ^ f.mant * 2 ^ f.unit :=
      lt_of_le_of_lt (Nat.mul_le_mul_left _ h4) (Nat.mul_lt_mul_of_pos_right h1 (two_pow_pos' _))
    omega
  rw [hu]
  exact Dvd.dvd.mul_left (pow_dvd_pow 2 hs) _

/-- A whole number that is small or the magnitude of `x` is exact. -/
theorem integral_spec (hf : Ok f) {x : Ieee f} (hx : IsFinite x) {n : Nat}
    (h : n ≤ 2 * 2 ^ f.mant ∨ n * 2 ^ f.unit = x.mag) :
    IsFinite (x.integral n) ∧ (x.integral n).mag = n * 2 ^ f.unit ∧ (x.integral n).neg = x.neg := by
  obtain ⟨c, hc, hlt⟩ : ∃ c, units f c = n * 2 ^ f.unit ∧ c < infCode f := by
    rcases h with h | h
    · obtain ⟨c, hc⟩ := exists_units (f := f) h f.unit
      refine ⟨c, hc, ?_⟩
      rw [← units_lt (f := f), hc]
      exact lt_of_le_of_lt (Nat.mul_le_mul_right _ h) hf.big
    · exact ⟨x.code, h.symm, (finite_iff x).mp hx⟩
  unfold integral
  rw [isFinite_true hx]
  simp only [if_true]
  have hn : nearestCode f (n * 2 ^ f.unit) 1 = c := by
    have := nearest_exact (f := f) c (by decide : 0 < 1)
    rwa [Nat.mul_one, hc] at this
  have hcode : (rounded x.neg (n * 2 ^ f.unit) 1 : Ieee f).code = c := by
    rw [rounded_code (by rw [hn]; exact hlt.le), hn]
  refine ⟨?_, ?_, rfl⟩
  · rw [finite_iff, hcode]; exact hlt
  · unfold mag; rw [hcode, hc]

/-- The whole number a value with a whole magnitude is. -/
theorem trunc_whole {x : Ieee f} {n : Nat} (h : x.mag = n * 2 ^ f.unit) :
    x.trunc = (if x.neg then -(n : Int) else n) ∧ val x = (if x.neg then -(n : ℚ) else n) := by
  constructor
  · unfold trunc; rw [h, Nat.mul_div_cancel _ (two_pow_pos' _)]
  · rw [val_mag, h]
    have hU : (2 : ℚ) ^ f.unit ≠ 0 := by positivity
    unfold sgn
    push_cast
    split <;> field_simp

/-- `round` and the cast, in terms of the magnitude. -/
theorem round_spec (hf : Ok f) {x : Ieee f} (hx : IsFinite x) :
    IsFinite (round x) ∧ (round x).neg = x.neg ∧
      (round x).mag = (2 * x.mag + 2 ^ f.unit) / (2 * 2 ^ f.unit) * 2 ^ f.unit := by
  unfold round
  have hU := two_pow_pos' f.unit
  obtain ⟨a, b, c⟩ := integral_spec hf hx
    (n := (2 * x.mag + 2 ^ f.unit) / (2 * 2 ^ f.unit)) (by
    by_cases h : 2 * 2 ^ f.mant * 2 ^ f.unit ≤ x.mag
    · right
      obtain ⟨q, hq⟩ := whole_of_large h
      rw [hq]
      generalize 2 ^ f.unit = U at *
      have : (2 * (U * q) + U) / (2 * U) = q := by
        rw [show 2 * (U * q) + U = U + 2 * U * q by ring, Nat.add_mul_div_left _ _ (by omega),
          Nat.div_eq_of_lt (by omega), Nat.zero_add]
      rw [this, Nat.mul_comm]
    · left
      rw [not_le] at h
      generalize 2 ^ f.unit = U at *
      generalize 2 * 2 ^ f.mant = M at *
      have : 2 * x.mag + U < (M + 1) * (2 * U) := by nlinarith
      have := (Nat.div_lt_iff_lt_mul (by omega)).mpr this
      omega)
  exact ⟨a, c, b⟩

/-- The whole number nearest to a finite value, halves away from zero. -/
def roundInt (x : Ieee f) : Int :=
  if x.neg then -(((2 * x.mag + 2 ^ f.unit) / (2 * 2 ^ f.unit) : Nat) : Int)
  else (((2 * x.mag + 2 ^ f.unit) / (2 * 2 ^ f.unit) : Nat) : Int)

theorem round_trunc (hf : Ok f) {x : Ieee f} (hx : IsFinite x) :
    (round x).trunc = roundInt x ∧ val (round x) = roundInt x := by
  obtain ⟨_, b, c⟩ := round_spec hf hx
  obtain ⟨d, e⟩ := trunc_whole c
  rw [b] at d e
  refine ⟨d, e.trans ?_⟩
  unfold roundInt
  split <;> push_cast <;> rfl

theorem roundInt_close (x : Ieee f) : |val x - roundInt x| ≤ 1 / 2 := by
  have hU : (0 : ℚ) < 2 ^ f.unit := by positivity
  have key : |(x.mag : ℚ) / 2 ^ f.unit -
      (((2 * x.mag + 2 ^ f.unit) / (2 * 2 ^ f.unit) : Nat) : ℚ)| ≤ 1 / 2 := by
    have h1 := Nat.div_add_mod (2 * x.mag + 2 ^ f.unit) (2 * 2 ^ f.unit)
    have h2 := Nat.mod_lt (2 * x.mag + 2 ^ f.unit) (by positivity : 2 * 2 ^ f.unit > 0)
    generalize (2 * x.mag + 2 ^ f.unit) / (2 * 2 ^ f.unit) = n at *
    generalize (2 * x.mag + 2 ^ f.unit) % (2 * 2 ^ f.unit) = r at *
    have h1q : (2 * 2 ^ f.unit : ℚ) * n + r = 2 * x.mag + 2 ^ f.unit := by exact_mod_cast h1
    have h2q : (r : ℚ) < 2 * 2 ^ f.unit := by exact_mod_cast h2
    have h3q : (0 : ℚ) ≤ r := by positivity
    rw [abs_le]
    constructor
    · have : (n : ℚ) - 1 / 2 ≤ (x.mag : ℚ) / 2 ^ f.unit := by rw [le_div_iff₀ hU]; nlinarith
      linarith
    · rw [sub_le_iff_le_add, div_le_iff₀ hU]; nlinarith
  rw [val_mag]
  unfold roundInt sgn
  generalize (2 * x.mag + 2 ^ f.unit) / (2 * 2 ^ f.unit) = n at *
  split
  · rw [← abs_neg]
    convert key using 2
    push_cast; ring
  · rw [one_mul]; exact key

/-- Saturating a nearest whole number gives a nearest whole number of the range. -/
theorem clamp_nearest {v : ℚ} {m lo hi k : Int} (h : |v - m| ≤ 1 / 2) (hk : lo ≤ k ∧ k ≤ hi) :
    |v - (max lo (min hi m) : Int)| ≤ |v - k| := by
  obtain ⟨h1, h2⟩ := abs_le.mp h
  by_cases ha : hi < m
  · have e : max lo (min hi m) = hi := by omega
    have h3 : ((hi : Int) : ℚ) + 1 ≤ m := by exact_mod_cast ha
    have h4 : (k : ℚ) ≤ hi := by exact_mod_cast hk.2
    rw [e, abs_of_nonneg (by linarith), abs_of_nonneg (by linarith)]
    linarith
  by_cases hb : m < lo
  · have e : max lo (min hi m) = lo := by omega
    have h3 : (m : ℚ) + 1 ≤ lo := by exact_mod_cast hb
    have h4 : (lo : ℚ) ≤ k := by exact_mod_cast hk.1
    rw [e, abs_of_nonpos (by linarith), abs_of_nonpos (by linarith)]
    linarith
  · have e : max lo (min hi m) = m := by omega
    rw [e]
    by_cases hkm : k = m
    · rw [hkm]
    · have : (1 : ℚ) ≤ |(k : ℚ) - m| := by
        have : (1 : Int) ≤ |k - m| := Int.one_le_abs (by omega)
        exact_mod_cast this
      have t : |(k : ℚ) - m| ≤ |v - k| + |v - m| := by
        have := abs_sub_le (k : ℚ) v m
        rwa [abs_sub_comm (k : ℚ) v] at this
      linarith

/-- Rounding a value that is nearer than one half to a whole number. -/
theorem roundInt_eq {x : Ieee f} {m : Int} (h : |val x - m| < 1 / 2) : roundInt x = m := by
  have h1 := roundInt_close x
  have : |((roundInt x : Int) : ℚ) - m| < 1 := by
    have := abs_sub_le ((roundInt x : Int) : ℚ) (val x) m
    rw [abs_sub_comm ((roundInt x : Int) : ℚ) (val x)] at this
    linarith
  have : |roundInt x - m| < 1 := by exact_mod_cast this
  have := Int.abs_lt_one_iff.mp this
  omega

/-- The cast of a rounded value. -/
theorem toRange_round (hf : Ok f) {x : Ieee f} (hx : IsFinite x) (lo hi : Int) :
    toRange lo hi (round x) = max lo (min hi (roundInt x)) := by
  obtain ⟨a, _, _⟩ := round_spec hf hx
  unfold toRange
  rw [not_nan a, (round_trunc hf hx).1]
  rfl

end OCG.Ieee
