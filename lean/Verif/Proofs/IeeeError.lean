import Verif.Proofs.IeeeSame
import Mathlib.Tactic.Linarith
/-
Rounding of rational numbers: every operation on finite values gives the exact result rounded;
rounding is monotone, and its error is bounded.
-/

namespace OCG.Ieee

open IeeeSpec

variable {f : Format}

/-- `x` is the number `q` rounded; too large numbers become infinities. -/
def Rounds (q : ℚ) (x : Ieee f) : Prop :=
  ∃ neg num den, 0 < den ∧ x = rounded neg num den ∧ q = sgn neg * ((num : ℚ) / den) / 2 ^ f.unit

theorem abs_sgn (b : Bool) : |sgn b| = 1 := by unfold sgn; split <;> simp

theorem rounds_abs {neg : Bool} {num den : Nat} {q : ℚ}
    (h : q = sgn neg * ((num : ℚ) / den) / 2 ^ f.unit) :
    |q| = (num : ℚ) / den / 2 ^ f.unit := by
  rw [h, abs_div, abs_mul, abs_sgn, one_mul, abs_of_nonneg (by positivity : (0 : ℚ) ≤ (num : ℚ) / den),
    abs_of_pos (by positivity : (0 : ℚ) < 2 ^ f.unit)]

theorem rounds_add {x y : Ieee f} (hx : IsFinite x) (hy : IsFinite y) :
    Rounds (val x + val y) (add x y) := by
  rw [add_finite hx hy]
  have e : val x + val y = ((x.int + y.int : Int) : ℚ) / 2 ^ f.unit := by
    rw [val_eq, val_eq]; push_cast; ring
  rw [e]
  by_cases h0 : x.int + y.int = 0
  · rw [if_pos h0, zero_eq]
    exact ⟨_, 0, 1, by decide, rfl, by rw [h0]; simp⟩
  · rw [if_neg h0]
    refine ⟨_, _, 1, by decide, rfl, ?_⟩
    generalize x.int + y.int = z
    unfold sgn
    by_cases hz : z < 0
    · rw [decide_eq_true hz, if_pos rfl, Nat.cast_natAbs, abs_of_neg hz]; push_cast; ring
    · rw [decide_eq_false hz, if_neg (by decide), Nat.cast_natAbs, abs_of_nonneg (by omega)]
      push_cast; ring

theorem rounds_sub {x y : Ieee f} (hx : IsFinite x) (hy : IsFinite y) :
    Rounds (val x - val y) (sub x y) := by
  have := rounds_add hx (finite_opp hy)
  rwa [val_opp, ← sub_eq_add_neg] at this

theorem rounds_mul {x y : Ieee f} (hx : IsFinite x) (hy : IsFinite y) :
    Rounds (val x * val y) (mul x y) := by
  rw [mul_finite hx hy]
  refine ⟨_, _, _, two_pow_pos' _, rfl, ?_⟩
  rw [val_mag, val_mag, sgn_bne]; push_cast; ring

theorem rounds_div {x y : Ieee f} (hx : IsFinite x) (hy : IsFinite y) (h0 : val y ≠ 0) :
    Rounds (val x / val y) (div x y) := by
  have hc : y.code ≠ 0 := fun h => h0 (val_zero_iff.mpr h)
  have hp : (y.mag : ℚ) ≠ 0 := by exact_mod_cast (mag_pos hc).ne'
  rw [div_finite hx hy hc]
  refine ⟨_, _, _, mag_pos hc, rfl, ?_⟩
  rw [val_mag, val_mag, sgn_bne, ← sgn_div]
  have hs : sgn y.neg ≠ 0 := by unfold sgn; split <;> norm_num
  push_cast
  field_simp

theorem rounds_ofInt (n : Int) : Rounds (n : ℚ) (ofInt n : Ieee f) := by
  refine ⟨_, _, 1, by decide, rfl, ?_⟩
  have hU : (2 : ℚ) ^ f.unit ≠ 0 := by positivity
  unfold sgn
  by_cases hz : n < 0
  · rw [decide_eq_true hz, if_pos rfl]
    push_cast; rw [Nat.cast_natAbs, abs_of_neg hz]; push_cast; field_simp
  · rw [decide_eq_false hz, if_neg (by decide)]
    push_cast; rw [Nat.cast_natAbs, abs_of_nonneg (by omega)]; field_simp

/-- A finite result of rounding is nearest, ties to even. -/
theorem Rounds.nearest {q : ℚ} {x : Ieee f} (hm : 1 ≤ f.mant) (h : Rounds q x) (hx : IsFinite x) :
    Nearest q x := by
  obtain ⟨neg, num, den, hd, rfl, rfl⟩ := h
  exact rounded_nearest hm neg num hd hx

/-- Numbers up to a finite value do not overflow. -/
theorem Rounds.finite {q : ℚ} {x y : Ieee f} (h : Rounds q x) (hy : IsFinite y)
    (hq : |q| ≤ |val y|) : IsFinite x ∧ |val x| ≤ |val y| := by
  obtain ⟨neg, num, den, hd, rfl, e⟩ := h
  rw [rounds_abs e, abs_val, div_le_div_iff_of_pos_right (by positivity),
    div_le_iff₀ (by exact_mod_cast hd)] at hq
  have hn : num ≤ units f y.code * den := by exact_mod_cast hq
  have hc := nearest_le (f := f) hd hn
  have hlt := (finite_iff y).mp hy
  have hcode := rounded_code (neg := neg) (lt_of_le_of_lt hc hlt).le
  refine ⟨?_, ?_⟩
  · rw [finite_iff, hcode]; omega
  · rw [abs_val, abs_val, div_le_div_iff_of_pos_right (by positivity)]
    unfold mag
    rw [hcode]
    exact_mod_cast (units_le (f := f)).mpr hc

theorem Rounds.opp {q : ℚ} {x : Ieee f} (h : Rounds q x) : Rounds (-q) x.opp := by
  obtain ⟨neg, num, den, hd, rfl, rfl⟩ := h
  refine ⟨!neg, num, den, hd, rfl, ?_⟩
  cases neg <;> simp [sgn, neg_div]

/-- A representable number is its own rounding. -/
theorem Rounds.exact {q : ℚ} {x y : Ieee f} (h : Rounds q x) (hy : IsFinite y) (hq : q = val y) :
    Same x y := by
  obtain ⟨neg, num, den, hd, rfl, e⟩ := h
  have ha := rounds_abs e
  rw [hq, abs_val, div_left_inj' (by positivity), eq_div_iff (by exact_mod_cast hd.ne')] at ha
  have hn : units f y.code * den = num := by exact_mod_cast ha
  have hc : nearestCode f num den = y.code := by rw [← hn]; exact nearest_exact _ hd
  have hcode : (rounded neg num den : Ieee f).code = y.code := by
    rw [rounded_code (by rw [hc]; exact code_le hy), hc]
  have hfin : IsFinite (rounded neg num den : Ieee f) := finite_of_code hy hcode
  refine ⟨hfin, hy, ?_⟩
  by_cases h0 : y.code = 0
  · rw [val_zero_iff.mpr h0, val_zero_iff.mpr (hcode.trans h0)]
  · have hp : 0 < (y.mag : ℚ) := by exact_mod_cast mag_pos h0
    have hs : sgn neg = sgn y.neg := by
      rw [hq, val_mag] at e
      have hU : (0 : ℚ) < 2 ^ f.unit := by positivity
      have hnum : (num : ℚ) / den = y.mag := by
        rw [← hn]; push_cast; unfold mag; field_simp
      rw [hnum] at e
      field_simp at e
      exact e.symm
    rw [val_mag, val_mag]
    show sgn neg * _ / _ = _
    rw [hs]
    unfold mag
    rw [hcode]

/-- Rounding does not go past representable numbers. -/
theorem Rounds.le {q : ℚ} {x y : Ieee f} (h : Rounds q x) (hx : IsFinite x)
    (hq : q ≤ val y) : val x ≤ val y := by
  obtain ⟨neg, num, den, hd, rfl, e⟩ := h
  obtain ⟨hlt, hcode⟩ := rounded_finite hx
  have hU : (0 : ℚ) < 2 ^ f.unit := by positivity
  have hdq : (0 : ℚ) < den := by exact_mod_cast hd
  have hval : val (rounded neg num den : Ieee f) =
      sgn neg * (units f (nearestCode f num den) : ℚ) / 2 ^ f.unit := by
    rw [val_mag]; unfold mag; rw [hcode]; rfl
  rw [hval]
  cases neg with
  | false =>
    have hs : sgn false = 1 := rfl
    rw [hs, one_mul] at e ⊢
    have h0 : 0 ≤ q := by rw [e]; positivity
    have ha : val y = |val y| := (abs_of_nonneg (h0.trans hq)).symm
    rw [ha, abs_val] at hq ⊢
    rw [e, div_le_div_iff_of_pos_right hU, div_le_iff₀ hdq] at hq
    rw [div_le_div_iff_of_pos_right hU]
    have hn : num ≤ units f y.code * den := by exact_mod_cast hq
    exact_mod_cast (units_le (f := f)).mpr (nearest_le hd hn)
  | true =>
    have hs : sgn true = -1 := rfl
    rw [hs] at e ⊢
    by_cases hy0 : 0 ≤ val y
    · refine le_trans ?_ hy0
      rw [neg_one_mul, neg_div, neg_nonpos]; positivity
    · have ha : val y = -|val y| := by rw [abs_of_neg (not_le.mp hy0)]; ring
      rw [ha, abs_val] at hq ⊢
      rw [e, neg_one_mul, neg_div, neg_le_neg_iff, div_le_div_iff_of_pos_right hU,
        le_div_iff₀ hdq] at hq
      rw [neg_one_mul, neg_div, neg_le_neg_iff, div_le_div_iff_of_pos_right hU]
      have hn : units f y.code * den ≤ num := by exact_mod_cast hq
      exact_mod_cast (units_le (f := f)).mpr (le_nearest hd hn)

theorem Rounds.ge {q : ℚ} {x y : Ieee f} (h : Rounds q x) (hx : IsFinite x)
    (hq : val y ≤ q) : val y ≤ val x := by
  have := h.opp.le (y := y.opp) (finite_opp hx) (by rw [val_opp]; linarith)
  rw [val_opp, val_opp] at this
  linarith

/-- The code of a rounded number is determined by the number. -/
theorem Rounds.unique {q : ℚ} {x y : Ieee f} (h : Rounds q x) (h' : Rounds q y) (hx : IsFinite x) :
    Same x y := by
  obtain ⟨neg, num, den, hd, rfl, e⟩ := h
  obtain ⟨neg', num', den', hd', rfl, e'⟩ := h'
  have hdq : (den : ℚ) ≠ 0 := by exact_mod_cast hd.ne'
  have hdq' : (den' : ℚ) ≠ 0 := by exact_mod_cast hd'.ne'
  have ha : num * den' = num' * den := by
    have h1 := (rounds_abs e).symm.trans (rounds_abs e')
    rw [div_left_inj' (by positivity), div_eq_div_iff hdq hdq'] at h1
    exact_mod_cast h1
  have hc : nearestCode f num den = nearestCode f num' den' := by
    rw [← nearest_scale num den hd', ← nearest_scale num' den' hd, ha, Nat.mul_comm den]
  obtain ⟨hlt, hcode⟩ := rounded_finite hx
  have hcode' : (rounded neg' num' den' : Ieee f).code = nearestCode f num den := by
    rw [rounded_code (by rw [← hc]; exact hlt.le), hc]
  have hy : IsFinite (rounded neg' num' den' : Ieee f) :=
    finite_of_code hx (by rw [hcode, hcode'])
  refine ⟨hx, hy, ?_⟩
  by_cases hn : neg = neg'
  · rw [val_mag, val_mag]
    unfold mag
    rw [hcode, hcode', rounded_neg, rounded_neg, hn]
  · have h0 : num = 0 := by
      have : sgn neg' = -sgn neg := by
        cases neg <;> cases neg' <;> simp [sgn] at hn ⊢
      rw [e, this] at e'
      have hnum : (num : ℚ) / den = (num' : ℚ) / den' := by
        rw [div_eq_div_iff hdq hdq']; exact_mod_cast ha
      rw [← hnum] at e'
      have hs : sgn neg ≠ 0 := by intro h; have := abs_sgn neg; rw [h] at this; simp at this
      have hU : (2 : ℚ) ^ f.unit ≠ 0 := by positivity
      have : (num : ℚ) = 0 := by
        field_simp at e'
        linarith
      exact_mod_cast this
    subst h0
    have hz := nearest_code_zero (f := f) hd
    rw [val_zero_iff.mpr (hcode.trans hz), val_zero_iff.mpr (hcode'.trans hz)]

/-- Rounding is monotone. -/
theorem Rounds.mono {q q' : ℚ} {x y : Ieee f} (hm : 1 ≤ f.mant) (h : Rounds q x)
    (h' : Rounds q' y) (hx : IsFinite x) (hy : IsFinite y) (hq : q ≤ q') : val x ≤ val y := by
  by_contra hlt
  rw [not_le] at hlt
  have h1 := (h.nearest hm hx).closest y hy
  have h2 := (h'.nearest hm hy).closest x hx
  have e : q = q' := by
    have a : (val x + val y) / 2 ≤ q := by
      rcases abs_cases (val x - q) with ⟨e1, _⟩ | ⟨e1, _⟩ <;>
      rcases abs_cases (val y - q) with ⟨e2, _⟩ | ⟨e2, _⟩ <;> rw [e1, e2] at h1 <;> linarith
    have b : q' ≤ (val x + val y) / 2 := by
      rcases abs_cases (val x - q') with ⟨e1, _⟩ | ⟨e1, _⟩ <;>
      rcases abs_cases (val y - q') with ⟨e2, _⟩ | ⟨e2, _⟩ <;> rw [e1, e2] at h2 <;> linarith
    linarith
  subst e
  exact absurd (h.unique h' hx).2.2 hlt.ne'

/-- The error of rounding: relative to the number for normal results, half of the smallest
positive value for subnormal ones. -/
theorem Rounds.error {q : ℚ} {x : Ieee f} (h : Rounds q x) (hx : IsFinite x) :
    |val x - q| ≤ max (|q| / (2 * 2 ^ f.mant)) (1 / (2 * 2 ^ f.unit)) := by
  obtain ⟨neg, num, den, hd, rfl, e⟩ := h
  have ha := rounds_abs e
  obtain ⟨hlt, hcode⟩ := rounded_finite hx
  have hdq : (0 : ℚ) < den := by exact_mod_cast hd
  have hU : (0 : ℚ) < 2 ^ f.unit := by positivity
  have hM : (0 : ℚ) < 2 ^ f.mant := by positivity
  have h1 := nearest_error (f := f) num hd
  have h2 : (2 * 2 ^ f.mant) * |(units f (nearestCode f num den) : ℚ) * den - num| ≤
      max ((2 : ℚ) ^ f.mant * den) (num : ℚ) := by
    have := (Int.cast_le (R := ℚ)).mpr h1
    push_cast at this
    exact this
  have e3 : val (rounded neg num den : Ieee f) - q =
      sgn neg * ((units f (nearestCode f num den) : ℚ) * den - num) / (den * 2 ^ f.unit) := by
    rw [val_mag, e]; unfold mag; rw [hcode, rounded_neg]; field_simp
  rw [e3, abs_div, abs_mul, abs_sgn, one_mul, abs_of_pos (by positivity : (0 : ℚ) < den * 2 ^ f.unit),
    ha, div_le_iff₀ (by positivity)]
  rw [← le_div_iff₀' (by positivity)] at h2
  refine h2.trans (le_of_eq ?_)
  rw [max_mul_of_nonneg _ _ (by positivity), max_comm, ← max_div_div_right (by positivity)]
  congr 1 <;> field_simp

/-! ### The operations of the interface -/

section
variable [Libm f]

theorem op_add (a b : Ieee f) : a + b = add a b := rfl
theorem op_sub (a b : Ieee f) : a - b = sub a b := rfl
theorem op_mul (a b : Ieee f) : a * b = mul a b := rfl
theorem op_div (a b : Ieee f) : a / b = div a b := rfl
theorem op_neg (a : Ieee f) : -a = opp a := rfl
theorem op_zero : (0 : Ieee f) = zero false := rfl
theorem op_one : (1 : Ieee f) = ofInt 1 := rfl
theorem op_ofInt (i : Int) : (FloatLike.ofInt i : Ieee f) = ofInt i := rfl
theorem op_ceil (a : Ieee f) : FloatLike.ceil a = ceil a := rfl
theorem op_round (a : Ieee f) : FloatLike.round a = round a := rfl
theorem op_floor (a : Ieee f) : FloatLike.floor a = floor a := rfl
theorem op_toI32 (a : Ieee f) : FloatLike.toI32 a = toRange (-2147483648) 2147483647 a := rfl

end

end OCG.Ieee
