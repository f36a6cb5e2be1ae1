import Verif.Proofs.IeeeOrder
import Verif.Props.IeeeConvert
import Verif.Props.IeeeTypes
/-
C109: changing the type of pixels keeps the order of brightness, black and white.
-/

namespace OCG.Props

open Ieee IeeeSpec LevelSpec

/-- All conversions go through 32 bit floats. -/
theorem conv_via {F H : Type} [FloatLike F] [HalfLike F H] {t u : DType} (h : t ≠ u)
    (x : Elem F H t) : convElem t u x = convElem .f32 u (convElem t .f32 x : Elem F H .f32) := by
  cases t <;> cases u <;> first | rfl | exact absurd rfl h

section
variable [Libm single32]

theorem whole_spec {N : Nat} (h1 : 1 ≤ N) (h : N ≤ 2 * 2 ^ 23) :
    IsFinite (ofInt N : F32) ∧ (ofInt N : F32).neg = false ∧ 2 ^ 149 ≤ (ofInt N : F32).mag := by
  obtain ⟨a, b, c⟩ := ofInt_spec ok_single (n := (N : Int)) (by show N ≤ 2 * 2 ^ 23; omega)
  refine ⟨a, ?_, ?_⟩
  · rw [c]; simp
  · rw [b]
    exact Nat.le_mul_of_pos_left _ (by omega)

theorem ofNat_range_mono {N : Nat} {x y : F32} (h : NotAbove x y) :
    (Fin.ofNat (N + 1) (toRange 0 N x).toNat).val ≤ (Fin.ofNat (N + 1) (toRange 0 N y).toNat).val := by
  have hr : ∀ z : F32, 0 ≤ toRange 0 N z ∧ toRange 0 N z ≤ N := by
    intro z; unfold toRange; split <;> omega
  have h1 := hr x
  have h2 := hr y
  have h3 := toRange_mono inf_pos_single h 0 N
  show (toRange 0 N x).toNat % (N + 1) ≤ (toRange 0 N y).toNat % (N + 1)
  rw [Nat.mod_eq_of_lt (by omega), Nat.mod_eq_of_lt (by omega)]
  omega

/-- From 32 bit floats to any type. -/
theorem from_single {u : DType} {x y : F32} (h : NotAbove x y) :
    NotBrighter u (convElem (F := F32) (H := F16) .f32 u x) (convElem .f32 u y) := by
  cases u with
  | f32 => exact h
  | f16 => exact convert_mono inf_pos_single inf_pos_half h
  | u8 =>
    obtain ⟨a, b, c⟩ := whole_spec (N := 255) (by decide) (by decide)
    have := ofNat_range_mono (N := 255) (mul_large_mono inf_pos_single h a b c)
    rw [conv_u8_range, conv_u8_range]
    exact this
  | u16 =>
    obtain ⟨a, b, c⟩ := whole_spec (N := 65535) (by decide) (by decide)
    have := ofNat_range_mono (N := 65535) (mul_large_mono inf_pos_single h a b c)
    rw [conv_u16_range, conv_u16_range]
    exact this

theorem level_mono {N a b : Nat} (h1 : 1 ≤ N) (hN : N ≤ 65535) (ha : a ≤ N) (hb : b ≤ N)
    (h : a ≤ b) : NotAbove (div (ofInt a) (ofInt N) : F32) (div (ofInt b) (ofInt N)) := by
  obtain ⟨n1, n2, n3⟩ := whole_spec h1 (by omega)
  have vN := ofInt_val ok_single (n := (N : Int)) (by show N ≤ 2 * 2 ^ 23; omega)
  have hNq : (1 : ℚ) ≤ N := by exact_mod_cast h1
  have key : ∀ k : Nat, k ≤ N → Rounds ((k : ℚ) / N) (div (ofInt k) (ofInt N) : F32) ∧
      IsFinite (div (ofInt k) (ofInt N) : F32) := by
    intro k hk
    obtain ⟨a1, -, -⟩ := ofInt_spec ok_single (n := (k : Int)) (by show k ≤ 2 * 2 ^ 23; omega)
    have va := ofInt_val ok_single (n := (k : Int)) (by show k ≤ 2 * 2 ^ 23; omega)
    have hr := rounds_div a1 n1 (by rw [vN]; push_cast; linarith)
    rw [va, vN] at hr
    push_cast at hr
    refine ⟨hr, (hr.finite (y := ofInt 1) (one_spec ok_single).1 ?_).1⟩
    rw [ofInt_val ok_single (n := 1) (by decide)]
    have hkq : (k : ℚ) ≤ N := by exact_mod_cast hk
    rw [abs_of_nonneg (by positivity), div_le_iff₀ (by linarith)]
    rw [Int.cast_one, abs_one, one_mul]
    exact hkq
  obtain ⟨ra, fa⟩ := key a ha
  obtain ⟨rb, fb⟩ := key b hb
  refine .inl ⟨fa, fb, ra.mono (by decide) rb fa fb ?_⟩
  have : (a : ℚ) ≤ b := by exact_mod_cast h
  gcongr

/-- From any type to 32 bit floats. -/
theorem to_single {t : DType} {x y : Elem F32 F16 t} (h : NotBrighter t x y) :
    NotAbove (f := single32) (convElem (F := F32) (H := F16) t .f32 x) (convElem t .f32 y) := by
  cases t with
  | f32 => exact h
  | f16 => exact convert_mono inf_pos_half inf_pos_single h
  | u8 =>
    exact level_mono (N := 255) (by decide) (by decide)
      (Nat.le_of_lt_succ (Fin.isLt (n := 256) x)) (Nat.le_of_lt_succ (Fin.isLt (n := 256) y)) h
  | u16 =>
    exact level_mono (N := 65535) (by decide) (by decide)
      (Nat.le_of_lt_succ (Fin.isLt (n := 65536) x)) (Nat.le_of_lt_succ (Fin.isLt (n := 65536) y)) h

/-- C109: changing the type of two pixel values never exchanges their order: what is at most as
bright stays at most as bright, for all types and all values, infinities included. -/
theorem C109_order (t u : DType) (x y : Elem F32 F16 t) (h : NotBrighter t x y) :
    NotBrighter u (convElem t u x) (convElem t u y) := by
  by_cases e : t = u
  · subst e
    cases t <;> exact h
  · rw [conv_via e, conv_via e]
    exact from_single (to_single h)

/-- The two zeros, and one, of the float types. -/
theorem black_single {x : F32} (h : IsFinite x ∧ val x = 0) : x = zero false ∨ x = zero true := by
  have := eq_zero_of_code (val_zero_iff.mp h.2)
  rw [this]
  cases x.neg <;> simp

theorem black_half {x : F16} (h : IsFinite x ∧ val x = 0) : x = zero false ∨ x = zero true := by
  have := eq_zero_of_code (val_zero_iff.mp h.2)
  rw [this]
  cases x.neg <;> simp

theorem white_single {x : F32} (h : IsFinite x ∧ val x = 1) : x = ofInt 1 := by
  refine same_eq ⟨h.1, (one_spec ok_single).1, ?_⟩ ?_
  · rw [h.2, ofInt_val ok_single (n := 1) (by decide)]; norm_num
  · rw [ofInt_val ok_single (n := 1) (by decide)]; norm_num

theorem white_half {x : F16} (h : IsFinite x ∧ val x = 1) : x = ofInt 1 := by
  refine same_eq ⟨h.1, (one_spec ok_half).1, ?_⟩ ?_
  · rw [h.2, ofInt_val ok_half (n := 1) (by decide)]; norm_num
  · rw [ofInt_val ok_half (n := 1) (by decide)]; norm_num

theorem single_zero_black (b : Bool) : IsFinite (zero b : F32) ∧ val (zero b : F32) = 0 :=
  ⟨finite_zero ok_single b, val_zero_iff.mpr (zero_code b)⟩

theorem half_zero_black (b : Bool) : IsFinite (zero b : F16) ∧ val (zero b : F16) = 0 :=
  ⟨finite_zero ok_half b, val_zero_iff.mpr (zero_code b)⟩

theorem single_one_white : IsFinite (ofInt 1 : F32) ∧ val (ofInt 1 : F32) = 1 :=
  ⟨(one_spec ok_single).1, by rw [ofInt_val ok_single (n := 1) (by decide)]; norm_num⟩

theorem half_one_white : IsFinite (ofInt 1 : F16) ∧ val (ofInt 1 : F16) = 1 :=
  ⟨(one_spec ok_half).1, by rw [ofInt_val ok_half (n := 1) (by decide)]; norm_num⟩

theorem black_to_single {t : DType} {x : Elem F32 F16 t} (h : IsBlack t x) :
    IsFinite (f := single32) (convElem (F := F32) (H := F16) t .f32 x) ∧
      val (f := single32) (convElem (F := F32) (H := F16) t .f32 x) = 0 := by
  cases t with
  | f32 => exact h
  | f16 =>
    rcases black_half h with rfl | rfl
    · have e : (Ieee.convert (zero false : F16) : F32) = zero false := by decide +kernel
      show IsFinite (Ieee.convert (zero false : F16) : F32) ∧ val (Ieee.convert (zero false : F16) : F32) = 0
      rw [e]; exact single_zero_black _
    · have e : (Ieee.convert (zero true : F16) : F32) = zero true := by decide +kernel
      show IsFinite (Ieee.convert (zero true : F16) : F32) ∧ val (Ieee.convert (zero true : F16) : F32) = 0
      rw [e]; exact single_zero_black _
  | u8 =>
    have hx : x = (0 : Fin 256) := Fin.ext h
    subst hx
    have e : (div (ofInt 0) (ofInt 255) : F32) = zero false := by decide +kernel
    show IsFinite (div (ofInt 0) (ofInt 255) : F32) ∧ val (div (ofInt 0) (ofInt 255) : F32) = 0
    rw [e]; exact single_zero_black _
  | u16 =>
    have hx : x = (0 : Fin 65536) := Fin.ext h
    subst hx
    have e : (div (ofInt 0) (ofInt 65535) : F32) = zero false := by decide +kernel
    show IsFinite (div (ofInt 0) (ofInt 65535) : F32) ∧ val (div (ofInt 0) (ofInt 65535) : F32) = 0
    rw [e]; exact single_zero_black _

theorem black_from_single {u : DType} {x : F32} (h : IsFinite x ∧ val x = 0) :
    IsBlack u (convElem (F := F32) (H := F16) .f32 u x) := by
  cases u with
  | f32 => exact h
  | f16 =>
    rcases black_single h with rfl | rfl
    · have e : (Ieee.convert (zero false : F32) : F16) = zero false := by decide +kernel
      show IsFinite (Ieee.convert (zero false : F32) : F16) ∧ val (Ieee.convert (zero false : F32) : F16) = 0
      rw [e]; exact half_zero_black _
    · have e : (Ieee.convert (zero true : F32) : F16) = zero true := by decide +kernel
      show IsFinite (Ieee.convert (zero true : F32) : F16) ∧ val (Ieee.convert (zero true : F32) : F16) = 0
      rw [e]; exact half_zero_black _
  | u8 =>
    show Fin.val (n := 256) (convElem (F := F32) (H := F16) .f32 .u8 x) = 0
    rw [conv_u8_range]
    rcases black_single h with rfl | rfl <;> decide +kernel
  | u16 =>
    show Fin.val (n := 65536) (convElem (F := F32) (H := F16) .f32 .u16 x) = 0
    rw [conv_u16_range]
    rcases black_single h with rfl | rfl <;> decide +kernel

theorem white_to_single {t : DType} {x : Elem F32 F16 t} (h : IsWhite t x) :
    IsFinite (f := single32) (convElem (F := F32) (H := F16) t .f32 x) ∧
      val (f := single32) (convElem (F := F32) (H := F16) t .f32 x) = 1 := by
  cases t with
  | f32 => exact h
  | f16 =>
    rw [white_half h]
    have e : (Ieee.convert (ofInt 1 : F16) : F32) = ofInt 1 := by decide +kernel
    show IsFinite (Ieee.convert (ofInt 1 : F16) : F32) ∧ val (Ieee.convert (ofInt 1 : F16) : F32) = 1
    rw [e]; exact single_one_white
  | u8 =>
    have hx : x = (255 : Fin 256) := Fin.ext h
    subst hx
    have e : (div (ofInt 255) (ofInt 255) : F32) = ofInt 1 := by decide +kernel
    show IsFinite (div (ofInt 255) (ofInt 255) : F32) ∧ val (div (ofInt 255) (ofInt 255) : F32) = 1
    rw [e]; exact single_one_white
  | u16 =>
    have hx : x = (65535 : Fin 65536) := Fin.ext h
    subst hx
    have e : (div (ofInt 65535) (ofInt 65535) : F32) = ofInt 1 := by decide +kernel
    show IsFinite (div (ofInt 65535) (ofInt 65535) : F32) ∧
      val (div (ofInt 65535) (ofInt 65535) : F32) = 1
    rw [e]; exact single_one_white

theorem white_from_single {u : DType} {x : F32} (h : IsFinite x ∧ val x = 1) :
    IsWhite u (convElem (F := F32) (H := F16) .f32 u x) := by
  rw [white_single h]
  cases u with
  | f32 => exact single_one_white
  | f16 =>
    have e : (Ieee.convert (ofInt 1 : F32) : F16) = ofInt 1 := by decide +kernel
    show IsFinite (Ieee.convert (ofInt 1 : F32) : F16) ∧ val (Ieee.convert (ofInt 1 : F32) : F16) = 1
    rw [e]; exact half_one_white
  | u8 =>
    show Fin.val (n := 256) (convElem (F := F32) (H := F16) .f32 .u8 (ofInt 1 : F32)) = 255
    rw [conv_u8_range]
    decide +kernel
  | u16 =>
    show Fin.val (n := 65536) (convElem (F := F32) (H := F16) .f32 .u16 (ofInt 1 : F32)) = 65535
    rw [conv_u16_range]
    decide +kernel

/-- C109: black stays black, for all types. -/
theorem C109_black (t u : DType) (x : Elem F32 F16 t) (h : IsBlack t x) :
    IsBlack u (convElem t u x) := by
  by_cases e : t = u
  · subst e
    cases t <;> exact h
  · rw [conv_via e]
    exact black_from_single (black_to_single h)

/-- C109: white stays white, for all types. -/
theorem C109_white (t u : DType) (x : Elem F32 F16 t) (h : IsWhite t x) :
    IsWhite u (convElem t u x) := by
  by_cases e : t = u
  · subst e
    cases t <;> exact h
  · rw [conv_via e]
    exact white_from_single (white_to_single h)

/-- There is a black and a white of each type. -/
theorem exists_black (t : DType) : ∃ b : Elem F32 F16 t, IsBlack t b ∧
    ∀ x, InUnit t x → NotBrighter t b x := by
  cases t with
  | f32 => exact ⟨_, single_zero_black false, fun x h => .inl ⟨(single_zero_black false).1, h.1, by
      rw [(single_zero_black false).2]; exact h.2.1⟩⟩
  | f16 => exact ⟨_, half_zero_black false, fun x h => .inl ⟨(half_zero_black false).1, h.1, by
      rw [(half_zero_black false).2]; exact h.2.1⟩⟩
  | u8 => exact ⟨(0 : Fin 256), rfl, fun x _ => Nat.zero_le _⟩
  | u16 => exact ⟨(0 : Fin 65536), rfl, fun x _ => Nat.zero_le _⟩

theorem exists_white (t : DType) : ∃ b : Elem F32 F16 t, IsWhite t b ∧
    ∀ x, InUnit t x → NotBrighter t x b := by
  cases t with
  | f32 => exact ⟨_, single_one_white, fun x h => .inl ⟨h.1, single_one_white.1, by
      rw [single_one_white.2]; exact h.2.2⟩⟩
  | f16 => exact ⟨_, half_one_white, fun x h => .inl ⟨h.1, half_one_white.1, by
      rw [half_one_white.2]; exact h.2.2⟩⟩
  | u8 => exact ⟨(255 : Fin 256), rfl, fun x _ => Nat.le_of_lt_succ (Fin.isLt (n := 256) x)⟩
  | u16 =>
    exact ⟨(65535 : Fin 65536), rfl, fun x _ => Nat.le_of_lt_succ (Fin.isLt (n := 65536) x)⟩

theorem notAbove_between {f : Format} (hI : 0 < infCode f) {b x w : Ieee f} (h1 : NotAbove b x)
    (h2 : NotAbove x w) (hb : IsFinite b ∧ val b = 0) (hw : IsFinite w ∧ val w = 1) :
    IsFinite x ∧ 0 ≤ val x ∧ val x ≤ 1 := by
  obtain ⟨-, n1, k1⟩ := (notAbove_iff hI).mp h1
  obtain ⟨-, -, k2⟩ := (notAbove_iff hI).mp h2
  have v1 := val_le_iff.mpr k1
  have v2 := val_le_iff.mpr k2
  rw [hb.2] at v1
  rw [hw.2] at v2
  refine ⟨?_, v1, v2⟩
  have hc := (finite_iff w).mp hw.1
  rw [finite_iff]
  rw [key_signed, key_signed] at k2
  rw [key_signed, key_signed] at k1
  have hb0 := val_zero_iff.mp hb.2
  rw [hb0] at k1
  revert k1 k2
  cases x.neg <;> cases w.neg <;> cases b.neg <;>
    simp only [signed, if_true, if_false, Bool.false_eq_true] <;> omega

/-- C109: values between black and white stay between black and white. -/
theorem C109_range (t u : DType) (x : Elem F32 F16 t) (h : InUnit t x) :
    InUnit u (convElem t u x) := by
  obtain ⟨b, hb, hbx⟩ := exists_black t
  obtain ⟨w, hw, hwx⟩ := exists_white t
  have h1 := C109_order t u _ _ (hbx x h)
  have h2 := C109_order t u _ _ (hwx x h)
  have h3 := C109_black t u _ hb
  have h4 := C109_white t u _ hw
  cases u with
  | f32 => exact notAbove_between inf_pos_single h1 h2 h3 h4
  | f16 => exact notAbove_between inf_pos_half h1 h2 h3 h4
  | u8 => trivial
  | u16 => trivial

theorem key_eq_of {f : Format} (hI : 0 < infCode f) {x y : Ieee f} (h1 : NotAbove x y)
    (h2 : NotAbove y x) : x.key = y.key :=
  le_antisymm ((notAbove_iff hI).mp h1).2.2 ((notAbove_iff hI).mp h2).2.2

omit [Libm single32] in
theorem u8_steps_single : ∀ k : Fin 256, k.val ≠ 0 →
    (div (ofInt (k.val - 1 : Nat)) (ofInt 255) : F32).key < (div (ofInt k.val) (ofInt 255) : F32).key := by
  decide +kernel

omit [Libm single32] in
theorem u8_steps_half : ∀ k : Fin 256, k.val ≠ 0 →
    (Ieee.convert (div (ofInt (k.val - 1 : Nat)) (ofInt 255) : F32) : F16).key <
      (Ieee.convert (div (ofInt k.val) (ofInt 255) : F32) : F16).key := by
  decide +kernel

/-- C109: all levels of bytes stay different in the three other types, and all levels of 16 bits
in 32 bit floats: darker stays darker. -/
theorem C109_strict (t u : DType) (htu : t = .u8 ∨ (t = .u16 ∧ u = .f32)) (x y : Elem F32 F16 t)
    (h : ¬ NotBrighter t y x) : ¬ NotBrighter u (convElem t u y) (convElem t u x) := by
  rcases htu with rfl | ⟨rfl, rfl⟩
  · change Fin 256 at x y
    have hlt : x.val < y.val := not_le.mp h
    have hy := y.isLt
    cases u with
    | u8 => exact h
    | u16 =>
      intro h'
      change (convElem (F := F32) (H := F16) .u8 .u16 y : Fin 65536).val ≤
        (convElem (F := F32) (H := F16) .u8 .u16 x : Fin 65536).val at h'
      rw [C100_u8_to_u16, C100_u8_to_u16] at h'
      omega
    | f32 =>
      intro h'
      have h1 := C109_order .u8 .f32 x (⟨y.val - 1, by omega⟩ : Fin 256)
        (show x.val ≤ y.val - 1 by omega)
      have a := ((notAbove_iff inf_pos_single).mp h1).2.2
      have b := ((notAbove_iff inf_pos_single).mp h').2.2
      have c := u8_steps_single y (by omega)
      exact absurd (lt_of_lt_of_le c (b.trans a)) (lt_irrefl _)
    | f16 =>
      intro h'
      have h1 := C109_order .u8 .f16 x (⟨y.val - 1, by omega⟩ : Fin 256)
        (show x.val ≤ y.val - 1 by omega)
      have a := ((notAbove_iff inf_pos_half).mp h1).2.2
      have b := ((notAbove_iff inf_pos_half).mp h').2.2
      have c := u8_steps_half y (by omega)
      exact absurd (lt_of_lt_of_le c (b.trans a)) (lt_irrefl _)
  · change Fin 65536 at x y
    have hlt : x.val < y.val := not_le.mp h
    intro h'
    have h1 := C109_order .u16 .f32 x y hlt.le
    have e := key_eq_of inf_pos_single h1 h'
    have hs : ∀ z : Fin 65536, (div (ofInt z.val) (ofInt 65535) : F32).neg = false := by
      intro z
      obtain ⟨w1, -, -⟩ := ofInt_spec ok_single (n := 65535) (by decide)
      obtain ⟨z1, -, z3⟩ := ofInt_spec ok_single (n := (z.val : Int)) (by show z.val ≤ 2 * 2 ^ 23; omega)
      have w0 : (ofInt 65535 : F32).code ≠ 0 := by decide +kernel
      rw [div_finite z1 w1 w0, rounded_neg, z3]
      have : (ofInt 65535 : F32).neg = false := by decide +kernel
      rw [this]; simp
    have e2 : (div (ofInt x.val) (ofInt 65535) : F32) = div (ofInt y.val) (ofInt 65535) := by
      refine ext' (by rw [hs, hs]) ?_
      change (div (ofInt x.val) (ofInt 65535) : F32).key = (div (ofInt y.val) (ofInt 65535) : F32).key at e
      rw [key_signed, key_signed, hs, hs] at e
      simp only [signed, if_false, Bool.false_eq_true] at e
      exact_mod_cast e
    have e3 := C100_u16_float x
    have e4 := C100_u16_float y
    have e5 : (convElem (F := F32) (H := F16) .u16 .f32 x) = convElem .u16 .f32 y := e2
    rw [e5, e4] at e3
    rw [e3] at hlt
    exact lt_irrefl _ hlt

omit [Libm single32] in
theorem nan_mul {x y : F32} (h : x.isNan = true) : mul x y = nan := by
  unfold mul; rw [h]; rfl

omit [Libm single32] in
theorem convert_nan {f g : Format} {x : Ieee f} (h : x.isNan = true) : (x.convert : Ieee g) = nan := by
  unfold Ieee.convert; rw [h]; rfl

theorem nan_from_single {u : DType} {x : F32} (h : IsNotNumber x) :
    IsNoLevel u (convElem (F := F32) (H := F16) .f32 u x) ∨
      ((u = .u8 ∨ u = .u16) ∧ IsBlack u (convElem (F := F32) (H := F16) .f32 u x)) := by
  have hx := notNumber_iff.mp h
  cases u with
  | f32 => exact .inl h
  | f16 =>
    left
    show IsNotNumber (Ieee.convert x : F16)
    rw [convert_nan hx, notNumber_iff]; decide
  | u8 =>
    refine .inr ⟨.inl rfl, ?_⟩
    show Fin.val (n := 256) (convElem (F := F32) (H := F16) .f32 .u8 x) = 0
    rw [conv_u8_range, nan_mul hx]; decide +kernel
  | u16 =>
    refine .inr ⟨.inr rfl, ?_⟩
    show Fin.val (n := 65536) (convElem (F := F32) (H := F16) .f32 .u16 x) = 0
    rw [conv_u16_range, nan_mul hx]; decide +kernel

/-- C109: what is not a number becomes black in integer types and stays not a number in floats. -/
theorem C109_nan (t u : DType) (x : Elem F32 F16 t) (h : IsNoLevel t x) :
    IsNoLevel u (convElem t u x) ∨ ((u = .u8 ∨ u = .u16) ∧ IsBlack u (convElem t u x)) := by
  by_cases e : t = u
  · subst e
    left
    cases t <;> exact h
  · rw [conv_via e]
    refine nan_from_single ?_
    cases t with
    | f32 => exact h
    | f16 =>
      show IsNotNumber (Ieee.convert x : F32)
      rw [convert_nan (notNumber_iff.mp h), notNumber_iff]; decide
    | u8 => exact h.elim
    | u16 => exact h.elim

/-- C109, images: converting an image keeps the order of brightness of any two of its values, and
their number. -/
theorem C109_image {t u : DType} (size : BlockSize) (data : List (Elem F32 F16 t)) :
    ∃ data' : List (Elem F32 F16 u),
      PixelBlock.convert ⟨size, ⟨t, data⟩⟩ (.known u) = .ok ⟨size, ⟨u, data'⟩⟩ ∧
      data'.length = data.length ∧
      ∀ (i j : Nat) x y x' y', data[i]? = some x → data[j]? = some y → data'[i]? = some x' →
        data'[j]? = some y' → NotBrighter t x y → NotBrighter u x' y' := by
  by_cases e : t = u
  · subst e
    refine ⟨data, by simp [PixelBlock.convert, DataBlock.convert, bind, Except.bind], rfl, ?_⟩
    intro i j x y x' y' h1 h2 h3 h4 h
    rw [h1] at h3
    rw [h2] at h4
    cases h3; cases h4
    exact h
  · refine ⟨data.map (convElem t u), ?_, List.length_map _, ?_⟩
    · simp only [PixelBlock.convert, DataBlock.convert, bind, Except.bind, if_neg e]
    intro i j x y x' y' h1 h2 h3 h4 h
    rw [List.getElem?_map, h1] at h3
    rw [List.getElem?_map, h2] at h4
    cases h3; cases h4
    exact C109_order t u x y h

/-- C109_strict does not hold from 16 bits to half floats: levels 65534 and 65535 become equal. -/
theorem C109_counterexample_half :
    ∃ x y : Elem F32 F16 .u16, ¬ NotBrighter .u16 y x ∧
      convElem (F := F32) (H := F16) .u16 .f16 x = convElem .u16 .f16 y := by
  refine ⟨(65534 : Fin 65536), (65535 : Fin 65536), ?_, ?_⟩
  · show ¬ ((65535 : Nat) ≤ 65534)
    decide
  · have h : ∀ x : Fin 65536, convElem (F := F32) (H := F16) .u16 .f16 x =
        (Ieee.convert (div (ofInt x.val) (ofInt 65535) : F32) : F16) := fun _ => rfl
    have e : (Ieee.convert (div (ofInt (65534 : Fin 65536).val) (ofInt 65535) : F32) : F16) =
        Ieee.convert (div (ofInt (65535 : Fin 65536).val) (ofInt 65535) : F32) := by decide +kernel
    exact ((h _).trans e).trans (h _).symm

end

/-! ### Examples -/

section
attribute [local instance] IeeeConvertExamples.someLibm

/-- Minus infinity is below 1/3, also as bytes and half floats. -/
example : NotBrighter .u8 (convElem (F := F32) (H := F16) .f32 .u8 (inf true : F32))
    (convElem .f32 .u8 (⟨false, 0x3eaaaaab, by decide⟩ : F32)) ∧
    NotBrighter .f16 (convElem (F := F32) (H := F16) .f32 .f16 (inf true : F32))
    (convElem .f32 .f16 (⟨false, 0x3eaaaaab, by decide⟩ : F32)) := by
  have h : NotBrighter .f32 (inf true : F32) (⟨false, 0x3eaaaaab, by decide⟩ : F32) :=
    .inr (.inl ⟨⟨rfl, by decide⟩, by unfold IsNotNumber; decide⟩)
  exact ⟨C109_order _ _ _ _ h, C109_order _ _ _ _ h⟩

/-- Levels 100 and 101 of bytes. -/
example : ¬ NotBrighter .f16 (convElem (F := F32) (H := F16) .u8 .f16 (101 : Fin 256))
    (convElem .u8 .f16 (100 : Fin 256)) :=
  C109_strict .u8 .f16 (.inl rfl) (100 : Fin 256) (101 : Fin 256)
    (show ¬ ((101 : Nat) ≤ 100) by decide)

/-- Minus zero is black; 65535 is white; 40000 is in between. -/
example : IsBlack .u8 (convElem (F := F32) (H := F16) .f32 .u8 (zero true : F32)) ∧
    IsWhite .f16 (convElem (F := F32) (H := F16) .u16 .f16 (65535 : Fin 65536)) ∧
    InUnit .f16 (convElem (F := F32) (H := F16) .u16 .f16 (40000 : Fin 65536)) :=
  ⟨C109_black .f32 .u8 _ (single_zero_black true), C109_white .u16 .f16 (65535 : Fin 65536) rfl,
    C109_range .u16 .f16 (40000 : Fin 65536) trivial⟩

example : IsBlack .u8 (convElem (F := F32) (H := F16) .f32 .u8 (nan : F32)) := by
  rcases C109_nan .f32 .u8 (nan : F32) (notNumber_iff.mpr (by decide)) with h | h
  · exact h.elim
  · exact h.2

/-- A picture of two values. -/
example : ∃ data' : List (Elem F32 F16 .f32),
    PixelBlock.convert (F := F32) (H := F16) ⟨⟨2, 1, 1⟩, ⟨.u8, ([7, 9] : List (Fin 256))⟩⟩
      (.known .f32) = .ok ⟨⟨2, 1, 1⟩, ⟨.f32, data'⟩⟩ ∧ data'.length = 2 := by
  obtain ⟨d, h1, h2, -⟩ := C109_image (t := .u8) (u := .f32) ⟨2, 1, 1⟩ ([7, 9] : List (Fin 256))
  exact ⟨d, h1, h2⟩

end
end OCG.Props
