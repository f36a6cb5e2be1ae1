import Verif.Proofs.IeeeError
import Verif.Props.Lut
import Mathlib.Tactic.Positivity
/-
C58 in IEEE arithmetic: the identity lookup table with rounding.
-/

namespace OCG.Props

open OCG.LutSpec OCG.BlockSpec OCG.PixelSpec IeeeSpec
open Ieee hiding floor ceil round

/-- `x` is step `k` of an axis of `n` entries up to a relative error of 2^-22, and between 0 and
1. -/
structure NearStep (n k : Nat) (x : F32) : Prop where
  finite : IsFinite x
  near : |val x - step n k| ≤ step n k / 2 ^ 22
  nonneg : 0 ≤ val x
  le_one : val x ≤ 1

/-! ### One axis -/

theorem small_val {k : Int} (hk : k.natAbs ≤ 2 ^ 24) : IsFinite (ofInt k : F32) ∧
    val (ofInt k : F32) = k :=
  ⟨(ofInt_spec ok_single (by show k.natAbs ≤ 2 * 2 ^ 23; omega)).1,
    ofInt_val ok_single (by show k.natAbs ≤ 2 * 2 ^ 23; omega)⟩

/-- `n as f32 - 1.0` is exact. -/
theorem size_minus_one {n : Nat} (hn : n ≤ 2 ^ 24) (h1 : 1 ≤ n) :
    IsFinite (sub (ofInt n) (ofInt 1) : F32) ∧ val (sub (ofInt n) (ofInt 1) : F32) = (n : ℚ) - 1 := by
  obtain ⟨a1, a2⟩ := small_val (k := (n : Int)) (by omega)
  obtain ⟨b1, b2⟩ := small_val (k := 1) (by decide)
  obtain ⟨c1, c2⟩ := small_val (k := (n : Int) - 1) (by omega)
  have h := (rounds_sub a1 b1).exact c1 (by rw [a2, b2, c2]; push_cast; ring)
  exact ⟨h.1, by rw [h.2.2, c2]; push_cast; ring⟩

/-- The error of a number that is not tiny. -/
theorem rounds_rel {q : ℚ} {x : F32} (h : Rounds q x) (hx : IsFinite x) (hq : 1 / 2 ^ 100 ≤ |q|) :
    |val x - q| ≤ |q| / 2 ^ 24 := by
  refine (h.error hx).trans (max_le (le_of_eq ?_) ?_)
  · norm_num
  · refine le_trans ?_ (div_le_div_of_nonneg_right hq (by positivity))
    norm_num

/-- The step of an axis, rounded. -/
theorem axis_step {n : Nat} (h2 : 2 ≤ n) (hn : n ≤ 2 ^ 24) :
    IsFinite (div (ofInt 1) (sub (ofInt n) (ofInt 1)) : F32) ∧
    |val (div (ofInt 1) (sub (ofInt n) (ofInt 1)) : F32) - 1 / ((n : ℚ) - 1)| ≤
      1 / ((n : ℚ) - 1) / 2 ^ 24 ∧
    0 ≤ val (div (ofInt 1) (sub (ofInt n) (ofInt 1)) : F32) := by
  obtain ⟨a1, a2⟩ := size_minus_one hn (by omega)
  obtain ⟨b1, b2⟩ := small_val (k := 1) (by decide)
  have hn' : (1 : ℚ) ≤ (n : ℚ) - 1 := by
    have : (2 : ℚ) ≤ n := by exact_mod_cast h2
    linarith
  have hr := rounds_div b1 a1 (by rw [a2]; linarith)
  rw [a2, b2, Int.cast_one] at hr
  have hpos : (0 : ℚ) < 1 / ((n : ℚ) - 1) := by positivity
  obtain ⟨hf, -⟩ := hr.finite b1 (by
    rw [b2, Int.cast_one, abs_one, abs_of_pos hpos]
    exact (div_le_one (by linarith)).mpr hn')
  refine ⟨hf, ?_, ?_⟩
  · have := rounds_rel hr hf (by
      rw [abs_of_pos hpos]
      refine one_div_le_one_div_of_le (by linarith) ?_
      have : (n : ℚ) ≤ 2 ^ 24 := by exact_mod_cast hn
      refine le_trans (by linarith) (this.trans ?_)
      norm_num)
    rwa [abs_of_pos hpos] at this
  · have hz := hr.ge (y := zero false) hf (by
      rw [val_zero_iff.mpr (zero_code _)]; exact hpos.le)
    rwa [val_zero_iff.mpr (zero_code _)] at hz

theorem axisValue_def {F : Type} [FloatLike F] (n k : Nat) : axisValue F n k =
    FloatLike.ofInt k * (1 / (FloatLike.ofInt n - 1)) := rfl

section
variable [Libm single32]

theorem axis_eq (n k : Nat) : axisValue F32 n k =
    mul (ofInt k) (div (ofInt 1) (sub (ofInt n) (ofInt 1))) := by
  rw [axisValue_def, op_mul, op_div, op_sub, op_one, op_ofInt, op_ofInt]

/-- The last entry of an axis: 1, or the number before 1. -/
theorem last_entry {n : Nat} (h2 : 2 ≤ n) (hn : n ≤ 2 ^ 24) :
    IsFinite (axisValue F32 n (n - 1)) ∧ (axisValue F32 n (n - 1) = ofInt 1 ∨
      axisValue F32 n (n - 1) = ⟨false, 0x3f7fffff, by decide⟩) := by
  obtain ⟨s1, s2, s3⟩ := axis_step h2 hn
  obtain ⟨k1, k2⟩ := small_val (k := ((n - 1 : Nat) : Int)) (by omega)
  rw [axis_eq]
  generalize hc : (div (ofInt 1) (sub (ofInt n) (ofInt 1)) : F32) = c at *
  have hr := rounds_mul k1 s1
  generalize hx : mul (ofInt ((n - 1 : Nat) : Int)) c = x at *
  have hn' : (1 : ℚ) ≤ (n : ℚ) - 1 := by
    have : (2 : ℚ) ≤ n := by exact_mod_cast h2
    linarith
  have hk : (((n - 1 : Nat) : Int) : ℚ) = (n : ℚ) - 1 := by
    have : (n - 1 : Nat) + 1 = n := by omega
    have : ((n - 1 : Nat) : ℚ) + 1 = n := by exact_mod_cast this
    push_cast; linarith
  rw [k2, hk] at hr
  -- the product before rounding
  have hq : |((n : ℚ) - 1) * val c - 1| ≤ 1 / 2 ^ 24 := by
    have e : ((n : ℚ) - 1) * val c - 1 = ((n : ℚ) - 1) * (val c - 1 / ((n : ℚ) - 1)) := by
      field_simp
    rw [e, abs_mul, abs_of_pos (by linarith : (0 : ℚ) < (n : ℚ) - 1)]
    calc ((n : ℚ) - 1) * |val c - 1 / ((n : ℚ) - 1)|
        ≤ ((n : ℚ) - 1) * (1 / ((n : ℚ) - 1) / 2 ^ 24) := by gcongr
      _ = 1 / 2 ^ 24 := by field_simp
  generalize hqq : ((n : ℚ) - 1) * val c = q at *
  rw [abs_le] at hq
  obtain ⟨b1, b2⟩ := small_val (k := 1) (by decide)
  obtain ⟨t1, t2⟩ := small_val (k := 2) (by decide)
  rw [Int.cast_one] at b2
  have hq0 : 0 ≤ q := by have : (1 : ℚ) / 2 ^ 24 ≤ 1 := by norm_num
                         linarith
  obtain ⟨hfin, -⟩ := hr.finite t1 (by
    rw [t2, abs_of_nonneg hq0]
    have : (1 : ℚ) / 2 ^ 24 ≤ 1 := by norm_num
    norm_num; linarith)
  refine ⟨hfin, ?_⟩
  -- the neighbours of 1
  have p1 : IsFinite (⟨false, 0x3f7fffff, by decide⟩ : F32) := by rw [finite_iff]; decide +kernel
  have p2 : val (⟨false, 0x3f7fffff, by decide⟩ : F32) = 1 - 1 / 2 ^ 24 := by
    unfold val; norm_num
  have n1 : IsFinite (⟨false, 0x3f800001, by decide⟩ : F32) := by rw [finite_iff]; decide +kernel
  have n2 : val (⟨false, 0x3f800001, by decide⟩ : F32) = 1 + 1 / 2 ^ 23 := by
    unfold val; norm_num
  have lo := hr.ge (y := ⟨false, 0x3f7fffff, by decide⟩) hfin (by rw [p2]; linarith)
  have hi := hr.le (y := ⟨false, 0x3f800001, by decide⟩) hfin (by
    rw [n2]
    have : (1 : ℚ) / 2 ^ 24 ≤ 1 / 2 ^ 23 := by norm_num
    linarith)
  -- the code is one of three
  have hneg : x.neg = false := by
    by_contra hneg
    have hneg : x.neg = true := by simpa using hneg
    rw [p2, val_mag, hneg] at lo
    have : sgn true * (x.mag : ℚ) / 2 ^ single32.unit ≤ 0 := by
      have : sgn true = -1 := rfl
      rw [this, neg_one_mul, neg_div, neg_nonpos]; positivity
    have h3 : (0 : ℚ) < 1 - 1 / 2 ^ 24 := by norm_num
    linarith
  have code_le_of : ∀ y z : F32, y.neg = false → z.neg = false → val y ≤ val z →
      y.code ≤ z.code := by
    intro y z hy hz h
    rw [val_mag, val_mag, hy, hz, div_le_div_iff_of_pos_right (by positivity)] at h
    have hs : sgn false = 1 := rfl
    rw [hs, one_mul, one_mul] at h
    have : units single32 y.code ≤ units single32 z.code := by exact_mod_cast h
    exact units_le.mp this
  have c1 : 0x3f7fffff ≤ x.code := code_le_of ⟨false, 0x3f7fffff, by decide⟩ x rfl hneg lo
  have c2 : x.code ≤ 0x3f800001 := code_le_of x ⟨false, 0x3f800001, by decide⟩ hneg rfl hi
  have one_code' : (ofInt 1 : F32) = ⟨false, 0x3f800000, by decide⟩ := by decide +kernel
  have : x.code = 0x3f7fffff ∨ x.code = 0x3f800000 ∨ x.code = 0x3f800001 := by omega
  rcases this with e | e | e
  · exact .inr (ext' hneg e)
  · exact .inl (by rw [one_code']; exact ext' hneg e)
  · exfalso
    have hxe : x = ⟨false, 0x3f800001, by decide⟩ := ext' hneg e
    have hN := hr.nearest (by decide) hfin
    have hcl := hN.closest _ b1
    rw [b2, hxe, n2] at hcl
    have hq1 : q = 1 + 1 / 2 ^ 24 := by
      rcases abs_cases (1 + 1 / 2 ^ 23 - q) with ⟨e1, _⟩ | ⟨e1, _⟩ <;>
      rcases abs_cases (1 - q) with ⟨e2, _⟩ | ⟨e2, _⟩ <;> rw [e1, e2] at hcl <;>
      norm_num at * <;> linarith
    have := hN.even _ b1 (by rw [b2, hxe, n2]; norm_num) (by
      rw [b2, hxe, n2, hq1]
      rw [show (1 : ℚ) - (1 + 1 / 2 ^ 24) = -(1 / 2 ^ 24) by ring,
        show (1 : ℚ) + 1 / 2 ^ 23 - (1 + 1 / 2 ^ 24) = 1 / 2 ^ 24 by norm_num, abs_neg])
    rw [e] at this
    omega

/-- C58 in IEEE arithmetic: the last entry of an axis is 1 or the largest number below 1. -/
theorem C58_single_white {n : Nat} (h2 : 2 ≤ n) (hn : n ≤ 2 ^ 24) :
    val (axisValue F32 n (n - 1)) = 1 ∨ val (axisValue F32 n (n - 1)) = 1 - 1 / 2 ^ 24 := by
  rcases (last_entry h2 hn).2 with e | e
  · exact .inl (by rw [e, (small_val (k := 1) (by decide)).2]; norm_num)
  · exact .inr (by rw [e]; unfold val; norm_num)

/-- C58 in IEEE arithmetic: the entries of an axis are the steps up to rounding, and never larger
than 1. -/
theorem C58_single_axis {n k : Nat} (h2 : 2 ≤ n) (hn : n ≤ 2 ^ 24) (hk : k < n) :
    NearStep n k (axisValue F32 n k) := by
  obtain ⟨s1, s2, s3⟩ := axis_step h2 hn
  obtain ⟨k1, k2⟩ := small_val (k := (k : Int)) (by omega)
  obtain ⟨l1, l2⟩ := small_val (k := ((n - 1 : Nat) : Int)) (by omega)
  obtain ⟨b1, b2⟩ := small_val (k := 1) (by decide)
  obtain ⟨w1, w2⟩ := last_entry h2 hn
  rw [axis_eq] at w1 w2 ⊢
  generalize hc : (div (ofInt 1) (sub (ofInt n) (ofInt 1)) : F32) = c at *
  have hr := rounds_mul k1 s1
  have hl := rounds_mul l1 s1
  rw [k2] at hr
  rw [l2] at hl
  have hkq : ((k : Int) : ℚ) ≤ ((n - 1 : Nat) : Int) := by
    have : (k : Int) ≤ ((n - 1 : Nat) : Int) := by omega
    exact_mod_cast this
  have hle : ((k : Int) : ℚ) * val c ≤ (((n - 1 : Nat) : Int) : ℚ) * val c :=
    mul_le_mul_of_nonneg_right hkq s3
  have hk0 : (0 : ℚ) ≤ ((k : Int) : ℚ) := by exact_mod_cast Int.natCast_nonneg k
  have hq0 : 0 ≤ ((k : Int) : ℚ) * val c := mul_nonneg hk0 s3
  have hn' : (1 : ℚ) ≤ (n : ℚ) - 1 := by
    have : (2 : ℚ) ≤ n := by exact_mod_cast h2
    linarith
  have hn24 : (n : ℚ) - 1 ≤ 2 ^ 24 := by
    have : (n : ℚ) ≤ 2 ^ 24 := by exact_mod_cast hn
    linarith
  have hlast : val (mul (ofInt ((n - 1 : Nat) : Int)) c) ≤ 1 := by
    rcases w2 with e | e
    · rw [e, b2]; norm_num
    · rw [e]; unfold val; norm_num
  -- finite: at most k
  have hcb : val c ≤ 2 := by
    have h1 : 1 / ((n : ℚ) - 1) ≤ 1 := (div_le_one (by linarith)).mpr hn'
    have h3 : 1 / ((n : ℚ) - 1) / 2 ^ 24 ≤ 1 := (div_le_one (by positivity)).mpr (h1.trans (by norm_num))
    have := (abs_le.mp s2).2
    linarith
  obtain ⟨m1, m2⟩ := small_val (k := 16777216) (by decide)
  have hfin : IsFinite (mul (ofInt (k : Int)) c) := by
    have big : IsFinite (⟨false, 0x4c000000, by decide⟩ : F32) := by rw [finite_iff]; decide +kernel
    have bigv : val (⟨false, 0x4c000000, by decide⟩ : F32) = 2 * 2 ^ 24 := by unfold val; norm_num
    refine (hr.finite big ?_).1
    rw [bigv, abs_of_nonneg hq0, abs_of_nonneg (by norm_num)]
    have : ((k : Int) : ℚ) ≤ 2 ^ 24 := by
      have : ((k : Nat) : ℚ) ≤ 2 ^ 24 := by exact_mod_cast (by omega : k ≤ 2 ^ 24)
      push_cast; exact this
    calc ((k : Int) : ℚ) * val c ≤ 2 ^ 24 * 2 := by gcongr
      _ = 2 * 2 ^ 24 := by ring
  have hone := (hr.mono (by decide) hl hfin w1 hle).trans hlast
  have hnn : 0 ≤ val (mul (ofInt (k : Int)) c) := by
    have hz := hr.ge (y := zero false) hfin (by rw [val_zero_iff.mpr (zero_code _)]; exact hq0)
    rwa [val_zero_iff.mpr (zero_code _)] at hz
  refine ⟨hfin, ?_, hnn, hone⟩
  have hstep : (step n k : ℚ) = (k : ℚ) * (1 / ((n : ℚ) - 1)) := by unfold step; ring
  by_cases hkz : k = 0
  · subst hkz
    have : val (mul (ofInt ((0 : Nat) : Int)) c) = 0 := by
      have := hr.exact (finite_zero ok_single false) (by
        rw [val_zero_iff.mpr (zero_code _)]; push_cast; ring)
      rw [this.2.2, val_zero_iff.mpr (zero_code _)]
    rw [this, hstep]; simp
  · have hk1 : (1 : ℚ) ≤ (k : ℚ) := by exact_mod_cast (by omega : 1 ≤ k)
    have hkk : ((k : Int) : ℚ) = (k : ℚ) := by push_cast; rfl
    rw [hkk] at *
    have hpos : (0 : ℚ) < 1 / ((n : ℚ) - 1) := by positivity
    have ht : (1 : ℚ) / 2 ^ 24 ≤ 1 / ((n : ℚ) - 1) := one_div_le_one_div_of_le (by linarith) hn24
    generalize 1 / ((n : ℚ) - 1) = t at *
    have hclo : t / 2 ≤ val c := by
      have := (abs_le.mp s2).1
      have : t / 2 ^ 24 ≤ t / 2 := by
        apply div_le_div_of_nonneg_left hpos.le (by norm_num) (by norm_num)
      linarith
    have hrel := rounds_rel hr hfin (by
      rw [abs_of_nonneg hq0]
      have : t / 2 ≤ (k : ℚ) * val c := by nlinarith
      refine le_trans ?_ this
      refine le_trans ?_ (div_le_div_of_nonneg_right ht (by norm_num))
      norm_num)
    rw [abs_of_nonneg hq0] at hrel
    rw [hstep]
    have e1 : |(k : ℚ) * val c - k * t| ≤ k * t / 2 ^ 24 := by
      rw [← mul_sub, abs_mul, abs_of_pos (by linarith)]
      calc (k : ℚ) * |val c - t| ≤ k * (t / 2 ^ 24) := by gcongr
        _ = k * t / 2 ^ 24 := by ring
    have e2 : (k : ℚ) * val c ≤ k * t * 2 := by
      have := (abs_le.mp e1).2
      have h3 : (k : ℚ) * t / 2 ^ 24 ≤ k * t := div_le_self (by positivity) (by norm_num)
      linarith
    calc |val (mul (ofInt (k : Int)) c) - k * t|
        ≤ |val (mul (ofInt (k : Int)) c) - k * val c| + |(k : ℚ) * val c - k * t| :=
          abs_sub_le _ _ _
      _ ≤ k * val c / 2 ^ 24 + k * t / 2 ^ 24 := add_le_add hrel e1
      _ ≤ k * t * 2 / 2 ^ 24 + k * t / 2 ^ 24 :=
          add_le_add (div_le_div_of_nonneg_right e2 (by positivity)) le_rfl
      _ ≤ k * t / 2 ^ 22 := by
        have : (0 : ℚ) ≤ k * t := by positivity
        rw [← sub_nonneg]
        have e : (k : ℚ) * t / 2 ^ 22 - (k * t * 2 / 2 ^ 24 + k * t / 2 ^ 24) = k * t / 2 ^ 24 := by
          ring
        rw [e]; positivity

/-- C58 in IEEE arithmetic: the entries of an axis are strictly increasing. -/
theorem C58_single_increasing {n j k : Nat} (h2 : 2 ≤ n) (hn : n ≤ 2 ^ 20) (hj : j < k)
    (hk : k < n) : val (axisValue F32 n j) < val (axisValue F32 n k) := by
  have a := (abs_le.mp (C58_single_axis (k := j) h2 (by omega) (by omega)).near).2
  have b := (abs_le.mp (C58_single_axis (k := k) h2 (by omega) hk).near).1
  have hn' : (1 : ℚ) ≤ (n : ℚ) - 1 := by
    have : (2 : ℚ) ≤ n := by exact_mod_cast h2
    linarith
  have hjk : (j : ℚ) + 1 ≤ k := by exact_mod_cast hj
  have hkn : (k : ℚ) ≤ 2 ^ 20 := by exact_mod_cast (by omega : k ≤ 2 ^ 20)
  unfold step at a b
  have hpos : (0 : ℚ) < (n : ℚ) - 1 := by linarith
  have h1 : (j : ℚ) / ((n : ℚ) - 1) + (j : ℚ) / ((n : ℚ) - 1) / 2 ^ 22 <
      (k : ℚ) / ((n : ℚ) - 1) - (k : ℚ) / ((n : ℚ) - 1) / 2 ^ 22 := by
    have e1 : (j : ℚ) / ((n : ℚ) - 1) + (j : ℚ) / ((n : ℚ) - 1) / 2 ^ 22 =
        (j + j / 2 ^ 22) / ((n : ℚ) - 1) := by ring
    have e2 : (k : ℚ) / ((n : ℚ) - 1) - (k : ℚ) / ((n : ℚ) - 1) / 2 ^ 22 =
        (k - k / 2 ^ 22) / ((n : ℚ) - 1) := by ring
    rw [e1, e2, div_lt_div_iff_of_pos_right hpos]
    have e3 : (k : ℚ) - k / 2 ^ 22 - (j + j / 2 ^ 22) = (k - j) - (k + j) / 2 ^ 22 := by ring
    have e4 : ((k : ℚ) + j) / 2 ^ 22 < 1 := by
      rw [div_lt_one (by positivity)]
      have : (2 : ℚ) ^ 20 + 2 ^ 20 < 2 ^ 22 := by norm_num
      linarith
    linarith
  linarith

theorem axis_inj {n j k : Nat} (h2 : 2 ≤ n) (hn : n ≤ 2 ^ 20) (hj : j < n) (hk : k < n)
    (h : axisValue F32 n j = axisValue F32 n k) : j = k := by
  rcases Nat.lt_trichotomy j k with hlt | e | hlt
  · exact absurd (congrArg val h) (C58_single_increasing h2 hn hlt hk).ne
  · exact e
  · exact absurd (congrArg val h) (C58_single_increasing h2 hn hlt hj).ne'

/-! ### The table -/

theorem lut_side {n : Nat} (hn : n * n * n * 3 ≤ 2147483647) : n ≤ 2 ^ 20 := by
  by_contra h
  have h1 : 2 ^ 20 ≤ n := by omega
  have h2 := Nat.mul_le_mul h1 h1
  have h3 := Nat.mul_le_mul h2 (show 1 ≤ n by omega)
  omega

/-- C58 in IEEE arithmetic: the table lists the whole lattice up to rounding, red fastest; all
values are between 0 and 1, the first colour is exactly black, and no colour occurs twice. -/
theorem C58_single_lattice (p : Profile) (n : Nat) (h2 : 2 ≤ n) (hn : n * n * n * 3 ≤ 2147483647)
    (buf : List F32) (hb : buf.length = n * n * n * 3) :
    ∃ out, identityLut p buf n 3 = .ok out ∧ out.length = n * n * n * 3 ∧
      (∀ r g b, r < n → g < n → b < n → ∃ x y z,
        pixel 3 out ((b * n + g) * n + r) = [x, y, z] ∧
          NearStep n r x ∧ NearStep n g y ∧ NearStep n b z) ∧
      (∀ r g b r' g' b', r < n → g < n → b < n → r' < n → g' < n → b' < n →
        pixel 3 out ((b * n + g) * n + r) = pixel 3 out ((b' * n + g') * n + r') →
          r = r' ∧ g = g' ∧ b = b') := by
  have hs := lut_side hn
  obtain ⟨out, h1, h3, h4⟩ := C58_entries (F := F32) p n hn buf hb
  refine ⟨out, h1, h3, ?_, ?_⟩
  · intro r g b hr hg hb'
    exact ⟨_, _, _, h4 r g b hr hg hb', C58_single_axis h2 (by omega) hr,
      C58_single_axis h2 (by omega) hg, C58_single_axis h2 (by omega) hb'⟩
  · intro r g b r' g' b' hr hg hb' hr' hg' hb'' e
    rw [h4 r g b hr hg hb', h4 r' g' b' hr' hg' hb''] at e
    simp only [List.cons.injEq, and_true] at e
    exact ⟨axis_inj h2 hs hr hr' e.1, axis_inj h2 hs hg hg' e.2.1, axis_inj h2 hs hb' hb'' e.2.2⟩

/-- `n as f32` rounded up and cast to an integer is `n`. -/
theorem ceil_small {n : Nat} (hn : n ≤ 2 ^ 24) :
    toRange (-2147483648) 2147483647 (Ieee.ceil (ofInt n : F32)) = n := by
  obtain ⟨h1, h2, h3⟩ := ofInt_spec ok_single (n := (n : Int)) (by show n ≤ 2 * 2 ^ 23; omega)
  have hneg : (ofInt (n : Int) : F32).neg = false := by rw [h3]; exact decide_eq_false (by omega)
  have hmag : (ofInt (n : Int) : F32).mag = n * 2 ^ 149 := h2
  have hceil : Ieee.ceil (ofInt n : F32) = ofInt n := by
    unfold Ieee.ceil Ieee.integral
    rw [isFinite_true h1, hneg, hmag]
    have e : (n * 2 ^ 149 + 2 ^ single32.unit - 1) / 2 ^ single32.unit = n := by
      show (n * 2 ^ 149 + 2 ^ 149 - 1) / 2 ^ 149 = n
      omega
    simp only [if_true, Bool.false_eq_true, if_false]
    rw [e]
    have : (ofInt (n : Int) : F32) = rounded (decide ((n : Int) < 0)) ((n : Int).natAbs * 2 ^ 149) 1 := by
      unfold ofInt; rfl
    rw [this, decide_eq_false (by omega)]
    rfl
  rw [hceil]
  unfold toRange
  rw [not_nan h1]
  have ht : (ofInt (n : Int) : F32).trunc = n := by
    unfold trunc
    rw [hneg, hmag]
    simp only [Bool.false_eq_true, if_false]
    show ((n * 2 ^ 149 / 2 ^ 149 : Nat) : Int) = n
    rw [Nat.mul_div_cancel _ (two_pow_pos' _)]
  rw [ht]
  simp only [Bool.false_eq_true, if_false]
  omega

/-- C58 in IEEE arithmetic: the table has the advertised size, for up to 256 entries on an
axis. -/
theorem C58_single_size (p : Profile) (n : Nat) (h1 : 1 ≤ n) (hn : n ≤ 256) :
    lutImageSize F32 p n 3 = .ok ((n * n : Nat), (n : Int)) := by
  have hsq : n * n ≤ 65536 := Nat.mul_le_mul hn hn
  have hcu : n * n * n ≤ 16777216 := Nat.mul_le_mul hsq hn
  have hpos : 1 ≤ n * n := Nat.mul_le_mul h1 h1
  have e1 : ((n : Int) * n) = ((n * n : Nat) : Int) := by push_cast; rfl
  have e2 : (((n * n : Nat) : Int) * n) = ((n * n * n : Nat) : Int) := by push_cast; rfl
  unfold lutImageSize
  rw [if_neg (by decide), if_neg (by decide), if_pos rfl, e1]
  have hi : InI32 ((n * n : Nat) : Int) := by unfold InI32; omega
  refine Res.bind_ok.mpr ⟨_, i32_of hi, Res.bind_ok.mpr ⟨_, i32_of hi, ?_⟩⟩
  rw [e2]
  refine Res.bind_ok.mpr ⟨_, i32_of (by unfold InI32; omega), ?_⟩
  dsimp only
  rw [op_div, op_ofInt, op_ofInt, op_ceil, op_toI32]
  have hq : div (ofInt ((n * n * n : Nat) : Int)) (ofInt ((n * n : Nat) : Int)) = (ofInt n : F32) := by
    obtain ⟨a1, a2, a3⟩ := ofInt_spec ok_single (n := ((n * n * n : Nat) : Int))
      (by show n * n * n ≤ 2 * 2 ^ 23; omega)
    obtain ⟨b1, b2, b3⟩ := ofInt_spec ok_single (n := ((n * n : Nat) : Int))
      (by show n * n ≤ 2 * 2 ^ 23; omega)
    obtain ⟨c1, c2, c3⟩ := ofInt_spec ok_single (n := (n : Int)) (by show n ≤ 2 * 2 ^ 23; omega)
    refine div_exact a1 b1 (code_ne_zero ?_) c1 ?_ ?_
    · rw [b2]; exact Nat.mul_pos (by rw [Int.natAbs_natCast]; exact hpos) (two_pow_pos' _)
    · rw [a2, b2, c2, Int.natAbs_natCast, Int.natAbs_natCast, Int.natAbs_natCast]; ring
    · rw [a3, b3, c3, decide_eq_false (by omega), decide_eq_false (by omega),
        decide_eq_false (by omega)]; rfl
  rw [hq, ceil_small (by omega)]

end

/-! ### Examples and counterexamples -/

section Examples

/-- Some functions that do not matter here. -/
@[instance_reducible] def anyLibm : Libm single32 := ⟨fun x _ => x, id, id⟩

attribute [local instance] anyLibm

/-- C58 is false in IEEE arithmetic for the white corner: with 42 entries the last one is not 1. -/
theorem C58_counterexample_white : val (axisValue F32 42 41) < 1 := by
  have : axisValue F32 42 41 = ⟨false, 0x3f7fffff, by decide⟩ := by decide +kernel
  rw [this]; unfold val; norm_num

/-- C58 is false in IEEE arithmetic for the size of large tables: with 413 entries on an axis the
image gets 414 rows. -/
theorem C58_counterexample_size : lutImageSize F32 .debug 413 3 = .ok (413 * 413, 414) := by
  decide +kernel

-- Tables with 2 and 33 entries.
example : axisValue F32 2 1 = ofInt 1 := by decide +kernel
example : NearStep 33 7 (axisValue F32 33 7) := C58_single_axis (by decide) (by decide) (by decide)
example : val (axisValue F32 42 40) < val (axisValue F32 42 41) :=
  C58_single_increasing (by decide) (by decide) (by decide) (by decide)
example : val (axisValue F32 42 41) = 1 ∨ val (axisValue F32 42 41) = 1 - 1 / 2 ^ 24 :=
  C58_single_white (by decide) (by decide)
example : lutImageSize F32 .release 64 3 = .ok (4096, 64) :=
  C58_single_size .release 64 (by decide) (by decide)
example : ∃ out, identityLut .debug (List.replicate 24 (zero false : F32)) 2 3 = .ok out ∧
    out.length = 24 := by
  obtain ⟨out, h1, h2, -⟩ := C58_single_lattice .debug 2 (by decide) (by decide)
    (List.replicate 24 (zero false : F32)) (by simp)
  exact ⟨out, h1, h2⟩

end Examples

end OCG.Props
