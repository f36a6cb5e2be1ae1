import Verif.Props.IeeeColor
import Verif.Props.IeeeConvert
/-
C71 in IEEE arithmetic: converting floats to integer pixel types.
-/

namespace OCG.Props

open IeeeSpec
open Ieee hiding floor ceil round

/-- Truncating a value that is not negative. -/
theorem trunc_spec {x : F32} (hx : IsFinite x) (h0 : 0 ≤ val x) :
    0 ≤ x.trunc ∧ (x.trunc : ℚ) ≤ val x ∧ val x < x.trunc + 1 := by
  have hU : (0 : ℚ) < 2 ^ single32.unit := by positivity
  have hd := Nat.div_add_mod x.mag (2 ^ single32.unit)
  have hlt := Nat.mod_lt x.mag (two_pow_pos' single32.unit)
  by_cases hc : x.code = 0
  · have hm : x.mag = 0 := by unfold mag; rw [hc, units_zero]
    have ht : x.trunc = 0 := by unfold trunc; rw [hm]; simp
    rw [ht, val_zero_iff.mpr hc]; norm_num
  · have hneg : x.neg = false := by
      by_contra hn
      have hn : x.neg = true := by simpa using hn
      have hp : (0 : ℚ) < x.mag := by exact_mod_cast mag_pos hc
      have hs : sgn true = -1 := rfl
      rw [val_mag, hn, hs, neg_one_mul, neg_div] at h0
      have : 0 < (x.mag : ℚ) / 2 ^ single32.unit := by positivity
      linarith
    have ht : x.trunc = ((x.mag / 2 ^ single32.unit : Nat) : Int) := by
      unfold trunc; rw [hneg]; rfl
    have hv : val x = (x.mag : ℚ) / 2 ^ single32.unit := by
      have hs : sgn false = 1 := rfl
      rw [val_mag, hneg, hs, one_mul]
    rw [ht, hv, le_div_iff₀ hU, div_lt_iff₀ hU]
    generalize hk : x.mag / 2 ^ single32.unit = k at *
    refine ⟨by positivity, ?_, ?_⟩
    · have : k * 2 ^ single32.unit ≤ x.mag := by rw [Nat.mul_comm]; omega
      push_cast; exact_mod_cast this
    · have : x.mag < (k + 1) * 2 ^ single32.unit := by
        rw [Nat.add_mul, Nat.one_mul, Nat.mul_comm k]; omega
      push_cast; exact_mod_cast this

theorem toRange_spec {x : F32} {hi : Nat} (hx : IsFinite x) (h0 : 0 ≤ val x) (h1 : val x ≤ hi) :
    ∃ k : Nat, toRange 0 hi x = k ∧ k ≤ hi ∧ (k : ℚ) ≤ val x ∧ val x < k + 1 := by
  obtain ⟨a, b, c⟩ := trunc_spec hx h0
  obtain ⟨k, hk⟩ := Int.eq_ofNat_of_zero_le a
  rw [hk] at b c
  push_cast at b c
  have hle : k ≤ hi := by
    have : (k : ℚ) ≤ hi := b.trans h1
    exact_mod_cast this
  refine ⟨k, ?_, hle, b, c⟩
  unfold toRange
  rw [not_nan hx, hk]
  simp only [Bool.false_eq_true, if_false]
  omega

/-- A float from 0 to 1 times a small integer, before and after rounding. -/
theorem product_spec {x : F32} {N : Nat} (hN : N ≤ 2 ^ 24) (hx : IsFinite x) (h0 : 0 ≤ val x)
    (h1 : val x ≤ 1) :
    Rounds (val x * N) (mul x (ofInt N)) ∧ IsFinite (mul x (ofInt N)) ∧
      0 ≤ val (mul x (ofInt N)) ∧ val (mul x (ofInt N)) ≤ N := by
  have hNn : (N : Int).natAbs ≤ 2 * 2 ^ single32.mant := by show N ≤ 2 * 2 ^ 23; omega
  have n1 := (ofInt_spec ok_single hNn).1
  have n2 : val (ofInt N : F32) = N := by rw [ofInt_val ok_single hNn]; push_cast; rfl
  have hr := rounds_mul hx n1
  rw [n2] at hr
  have hq0 : 0 ≤ val x * N := by positivity
  have hq1 : val x * N ≤ N := mul_le_of_le_one_left (by positivity) h1
  obtain ⟨hf, -⟩ := hr.finite n1 (by
    rw [n2, abs_of_nonneg hq0, abs_of_nonneg (by positivity)]; exact hq1)
  refine ⟨hr, hf, ?_, ?_⟩
  · have hz := hr.ge (y := zero false) hf (by rw [val_zero_iff.mpr (zero_code _)]; exact hq0)
    rwa [val_zero_iff.mpr (zero_code _)] at hz
  · have := hr.le (y := ofInt N) hf (by rw [n2]; exact hq1)
    rwa [n2] at this

section
variable [Libm single32]

theorem conv_u8_range (x : F32) : (convElem (F := F32) (H := F16) .f32 .u8 x : Fin 256) =
    Fin.ofNat 256 (toRange 0 255 (mul x (ofInt 255))).toNat := rfl

theorem conv_u16_range (x : F32) : (convElem (F := F32) (H := F16) .f32 .u16 x : Fin 65536) =
    Fin.ofNat 65536 (toRange 0 65535 (mul x (ofInt 65535))).toNat := rfl

/-- The result of a conversion to an integer type, in terms of the rounded product. -/
theorem step_spec {x : F32} {N : Nat} (hN : N ≤ 2 ^ 24) (hx : IsFinite x) (h0 : 0 ≤ val x)
    (h1 : val x ≤ 1) :
    ∃ k : Nat, toRange 0 N (mul x (ofInt N)) = k ∧ k ≤ N ∧
      (k : ℚ) ≤ val (mul x (ofInt N)) ∧ val x * N < k + 1 ∧
      (k : ℚ) ≤ val x * N + (N / 2 ^ 24 + 1 / 2 ^ 150) := by
  obtain ⟨hr, hf, a, b⟩ := product_spec hN hx h0 h1
  obtain ⟨k, h2, h3, h4, h5⟩ := toRange_spec hf a b
  refine ⟨k, h2, h3, h4, ?_, ?_⟩
  · by_contra hge
    rw [not_lt] at hge
    by_cases hk : k + 1 ≤ N
    · have hNn : ((k + 1 : Nat) : Int).natAbs ≤ 2 * 2 ^ single32.mant := by
        show k + 1 ≤ 2 * 2 ^ 23; omega
      have n2 : val (ofInt ((k + 1 : Nat) : Int) : F32) = k + 1 := by
        rw [ofInt_val ok_single hNn]; push_cast; rfl
      have := hr.ge (y := ofInt ((k + 1 : Nat) : Int)) hf (by rw [n2]; exact hge)
      rw [n2] at this
      linarith
    · have h6 : (N : ℚ) < k + 1 := by exact_mod_cast (by omega : N < k + 1)
      have h7 : val x * N ≤ N := mul_le_of_le_one_left (by positivity) h1
      linarith
  · have hq : |val x * N| ≤ N := by
      rw [abs_of_nonneg (by positivity)]
      exact mul_le_of_le_one_left (by positivity) h1
    have := (abs_le.mp (single_error hr hf hq)).2
    linarith

/-- C71 in IEEE arithmetic: a float from 0 to 1 becomes a 16-bit step that is not brighter, up to
a rounding error of less than 1/250 of a step, and the next step is brighter. -/
theorem C71_single_u16_partial {x : F32} (hx : IsFinite x) (h0 : 0 ≤ val x) (h1 : val x ≤ 1) :
    ((Fin.val (n := 65536) (convElem (F := F32) (H := F16) .f32 .u16 x) : Nat) : ℚ) ≤
        val x * 65535 + 1 / 250 ∧
      val x * 65535 < ((Fin.val (n := 65536) (convElem (F := F32) (H := F16) .f32 .u16 x) : Nat) : ℚ)
        + 1 := by
  obtain ⟨k, h2, h3, h4, h5, h6⟩ := step_spec (N := 65535) (by decide) hx h0 h1
  have e : Fin.val (n := 65536) (convElem (F := F32) (H := F16) .f32 .u16 x) = k := by
    rw [conv_u16_range, show ((65535 : Int)) = ((65535 : Nat) : Int) from rfl, h2, Int.toNat_natCast]
    exact Nat.mod_eq_of_lt (by omega)
  rw [e]
  push_cast at h5 h6
  refine ⟨h6.trans ?_, h5⟩
  have : (65535 : ℚ) / 2 ^ 24 + 1 / 2 ^ 150 ≤ 1 / 250 := by norm_num
  linarith

/-- The floats around the 8-bit steps: the quotient is not below the step, and the float before
it is cut off below the step. -/
theorem around_steps : ∀ k : Fin 256, k ≠ 0 →
    k.val * 2 ^ 149 ≤ units single32 (div (ofInt k.val) (ofInt 255) : F32).code * 255 ∧
    ∃ h : (div (ofInt k.val) (ofInt 255) : F32).code - 1 < (single32.expMax + 1) * 2 ^ single32.mant,
      ltb (mul ⟨false, (div (ofInt k.val) (ofInt 255) : F32).code - 1, h⟩ (ofInt 255)) (ofInt k.val) = true ∧
      isFinite (⟨false, (div (ofInt k.val) (ofInt 255) : F32).code - 1, h⟩ : F32) = true ∧
      isFinite (mul ⟨false, (div (ofInt k.val) (ofInt 255) : F32).code - 1, h⟩ (ofInt 255) : F32) = true := by
  decide +kernel

/-- C71 in IEEE arithmetic: a float from 0 to 1 becomes the highest 8-bit step that is not
brighter, exactly. -/
theorem C71_single_u8 {x : F32} (hx : IsFinite x) (h0 : 0 ≤ val x) (h1 : val x ≤ 1) :
    ((Fin.val (n := 256) (convElem (F := F32) (H := F16) .f32 .u8 x) : Nat) : ℚ) / 255 ≤ val x ∧
      val x < ((Fin.val (n := 256) (convElem (F := F32) (H := F16) .f32 .u8 x) : Nat) + 1 : ℚ) / 255 := by
  obtain ⟨k, h2, h3, h4, h5, h6⟩ := step_spec (N := 255) (by decide) hx h0 h1
  have e : Fin.val (n := 256) (convElem (F := F32) (H := F16) .f32 .u8 x) = k := by
    rw [conv_u8_range, show ((255 : Int)) = ((255 : Nat) : Int) from rfl, h2, Int.toNat_natCast]
    exact Nat.mod_eq_of_lt (by omega)
  rw [e]
  refine ⟨?_, by rw [lt_div_iff₀ (by norm_num)]; push_cast at h5; exact h5⟩
  by_contra hlt
  rw [not_le, lt_div_iff₀ (by norm_num)] at hlt
  have hk0 : k ≠ 0 := by
    rintro rfl
    push_cast at hlt
    linarith
  obtain ⟨a1, h, a2, a3, a4⟩ := around_steps ⟨k, by omega⟩ (fun e => hk0 (Fin.ext_iff.mp e))
  dsimp only at a1 a2 a3 a4
  generalize (div (ofInt (k : Int)) (ofInt 255) : F32).code = c at *
  -- the magnitude of x
  have hv : val x = (x.mag : ℚ) / 2 ^ single32.unit := by rw [← abs_val, abs_of_nonneg h0]
  have hmag : x.mag * 255 < k * 2 ^ 149 := by
    rw [hv, div_mul_eq_mul_div, div_lt_iff₀ (by positivity)] at hlt
    have : ((x.mag * 255 : Nat) : ℚ) < ((k * 2 ^ 149 : Nat) : ℚ) := by push_cast; exact hlt
    exact_mod_cast this
  have hxc : x.code < c := by
    have : units single32 x.code < units single32 c := by
      have : x.mag * 255 < units single32 c * 255 := lt_of_lt_of_le hmag a1
      exact Nat.lt_of_mul_lt_mul_right this
    exact units_lt.mp this
  have pf : IsFinite (⟨false, c - 1, h⟩ : F32) := by
    rw [finite_iff]; unfold isFinite at a3; simpa using a3
  have mf : IsFinite (mul ⟨false, c - 1, h⟩ (ofInt 255) : F32) := by
    rw [finite_iff]; unfold isFinite at a4; simpa using a4
  have hle : val x ≤ val (⟨false, c - 1, h⟩ : F32) := by
    have hs : sgn false = 1 := rfl
    rw [hv, val_mag, hs, one_mul, div_le_div_iff_of_pos_right (by positivity)]
    exact_mod_cast (units_le (f := single32)).mpr (by show x.code ≤ c - 1; omega)
  have n1 : IsFinite (ofInt 255 : F32) := (ofInt_spec ok_single (by decide)).1
  have n2 : val (ofInt 255 : F32) = 255 := by rw [ofInt_val ok_single (by decide)]; norm_num
  obtain ⟨kf, kv⟩ : IsFinite (ofInt (k : Int) : F32) ∧ val (ofInt (k : Int) : F32) = k := by
    have hk : (k : Int).natAbs ≤ 2 * 2 ^ single32.mant := by show k ≤ 2 * 2 ^ 23; omega
    exact ⟨(ofInt_spec ok_single hk).1, by rw [ofInt_val ok_single hk]; push_cast; rfl⟩
  have hm := (rounds_mul hx n1).mono (by decide) (rounds_mul pf n1)
    (product_spec (N := 255) (by decide) hx h0 h1).2.1 mf
    (mul_le_mul_of_nonneg_right hle (by rw [n2]; norm_num))
  rw [ltb_iff mf kf, kv] at a2
  have h4' : (k : ℚ) ≤ val (mul x (ofInt 255)) := h4
  linarith

end

section Examples
attribute [local instance] exactPowf

/-- C71 is false in IEEE arithmetic for 16 bits: the float 0x37800080 is darker than step 1 and
becomes step 1. -/
theorem C71_counterexample_rounding :
    val (⟨false, 0x37800080, by decide⟩ : F32) < 1 / 65535 ∧
      (convElem (F := F32) (H := F16) .f32 .u16 (⟨false, 0x37800080, by decide⟩ : F32) : Fin 65536) = (1 : Fin 65536) := by
  constructor
  · unfold val; norm_num
  · rw [conv_u16_range]
    show (Fin.ofNat 65536 _ : Fin 65536) = (1 : Fin 65536)
    decide +kernel

-- 0.1 becomes step 25 of 255 and step 6553 of 65535.
example : (convElem (F := F32) (H := F16) .f32 .u8 tenth : Fin 256) = (25 : Fin 256) := by
  rw [conv_u8_range]
  show (Fin.ofNat 256 _ : Fin 256) = (25 : Fin 256)
  decide +kernel
example : ((Fin.val (n := 256) (convElem (F := F32) (H := F16) .f32 .u8 tenth) : Nat) : ℚ) / 255 ≤
    val tenth :=
  (C71_single_u8 (by rw [finite_iff]; decide +kernel) (by unfold val tenth; norm_num)
    (by unfold val tenth; norm_num)).1
example : val tenth * 65535 <
    ((Fin.val (n := 65536) (convElem (F := F32) (H := F16) .f32 .u16 tenth) : Nat) : ℚ) + 1 :=
  (C71_single_u16_partial (by rw [finite_iff]; decide +kernel) (by unfold val tenth; norm_num)
    (by unfold val tenth; norm_num)).2

end Examples

end OCG.Props
