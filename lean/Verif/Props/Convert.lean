import Verif.Model.PixelBlock
import Verif.Spec.Field
import Mathlib.Tactic.FieldSimp
import Mathlib.Tactic.Ring
import Mathlib.Tactic.Linarith
import Mathlib.Tactic.NormNum
import Mathlib.Data.Rat.Floor
import Mathlib.Algebra.Order.Ring.Rat
/-
C71: conversions between pixel types keep the brightness (exact arithmetic).
-/

namespace OCG.Props

/-- The brightness a stored value stands for: floats themselves, integers as a fraction of the
largest one. -/
def level {F H : Type} [Field F] [HalfLike F H] : (t : DType) → Elem F H t → F
  | .f32, x => x
  | .f16, x => HalfLike.toF32 (F := F) (H := H) x
  | .u8, x => ((Fin.val (n := 256) x : Nat) : F) / 255
  | .u16, x => ((Fin.val (n := 65536) x : Nat) : F) / 65535

/-- The number of brightness steps of an integer type. -/
def levels : DType → Nat
  | .u8 => 255
  | .u16 => 65535
  | _ => 0

/-- The law of Rust's saturating casts used here: truncation within the range of the type. -/
class TruncLaws (F : Type) [Field F] [LinearOrder F] [FloatOps F] : Prop where
  toU8 : ∀ x : F, 0 ≤ x → x < 256 → ((FloatOps.toU8 x : Nat) : F) ≤ x ∧
    x < ((FloatOps.toU8 x : Nat) : F) + 1
  toU16 : ∀ x : F, 0 ≤ x → x < 65536 → ((FloatOps.toU16 x : Nat) : F) ≤ x ∧
    x < ((FloatOps.toU16 x : Nat) : F) + 1

section
variable {F H : Type} [Field F] [LinearOrder F] [IsStrictOrderedRing F] [FloatOps F]
  [HalfLike F H]

/-- C71: converting any type to 32-bit float keeps the brightness exactly. -/
theorem C71_to_float_exact (t : DType) (x : Elem F H t) :
    level (H := H) .f32 (convElem t .f32 x) = level t x := by
  cases t
  · rfl
  · rfl
  · simp [convElem, level, ofInt_eq]
  · simp [convElem, level, ofInt_eq]

omit [IsStrictOrderedRing F] in
theorem conv_u8 (t : DType) (x : Elem F H t) (ht : t ≠ .u8) :
    convElem (F := F) (H := H) t .u8 x = (FloatOps.toU8 (level t x * 255) : Fin 256) := by
  have e : (FloatLike.ofInt 255 : F) = 255 := by rw [ofInt_eq]; norm_num
  have e' : (FloatLike.ofInt 65535 : F) = 65535 := by rw [ofInt_eq]; norm_num
  cases t
  · show FloatOps.toU8 (HMul.hMul (α := F) (β := F) (γ := F) x (FloatLike.ofInt 255)) = _
    rw [e]; rfl
  · show FloatOps.toU8 (HalfLike.toF32 (F := F) (H := H) x * (FloatLike.ofInt 255 : F)) = _
    rw [e]; rfl
  · exact absurd rfl ht
  · show FloatOps.toU8 (((((Fin.val (n := 65536) x : Nat) : Int)) : F) / (FloatLike.ofInt 65535 : F) *
      (FloatLike.ofInt 255 : F)) = _
    rw [e, e', Int.cast_natCast]; rfl

omit [IsStrictOrderedRing F] in
theorem conv_u16 (t : DType) (x : Elem F H t) (ht : t ≠ .u16) :
    convElem (F := F) (H := H) t .u16 x = (FloatOps.toU16 (level t x * 65535) : Fin 65536) := by
  have e : (FloatLike.ofInt 255 : F) = 255 := by rw [ofInt_eq]; norm_num
  have e' : (FloatLike.ofInt 65535 : F) = 65535 := by rw [ofInt_eq]; norm_num
  cases t
  · show FloatOps.toU16 (HMul.hMul (α := F) (β := F) (γ := F) x (FloatLike.ofInt 65535)) = _
    rw [e']; rfl
  · show FloatOps.toU16 (HalfLike.toF32 (F := F) (H := H) x * (FloatLike.ofInt 65535 : F)) = _
    rw [e']; rfl
  · show FloatOps.toU16 (((((Fin.val (n := 256) x : Nat) : Int)) : F) / (FloatLike.ofInt 255 : F) *
      (FloatLike.ofInt 65535 : F)) = _
    rw [e, e', Int.cast_natCast]; rfl
  · exact absurd rfl ht

omit [IsStrictOrderedRing F] in
/-- C71: converting to half float rounds the exact brightness once, with the rounding of the
half type. -/
theorem C71_to_half (t : DType) (x : Elem F H t) (ht : t ≠ .f16) :
    level (F := F) (H := H) .f16 (convElem t .f16 x) =
      HalfLike.toF32 (HalfLike.ofF32 (level t x) : H) := by
  cases t <;> simp_all [convElem, level, ofInt_eq]

/-- C71: converting a brightness from 0 to 1 to an integer type gives the highest step that is
not brighter. -/
theorem C71_to_integer [TruncLaws F] (t u : DType) (x : Elem F H t) (hu : u = .u8 ∨ u = .u16)
    (htu : t ≠ u) (h0 : 0 ≤ level t x) (h1 : level t x ≤ 1) :
    level (H := H) u (convElem t u x) ≤ level t x ∧
      level t x < level (H := H) u (convElem t u x) + 1 / (levels u : F) := by
  have k8 : ∀ v : F, 0 ≤ v → v ≤ 1 →
      ((FloatOps.toU8 (v * 255) : Nat) : F) / 255 ≤ v ∧
      v < ((FloatOps.toU8 (v * 255) : Nat) : F) / 255 + 1 / 255 := by
    intro v a b
    obtain ⟨p, q⟩ := TruncLaws.toU8 (v * 255) (by positivity) (by linarith)
    constructor
    · rw [div_le_iff₀ (by norm_num)]; exact p
    · rw [← add_div, lt_div_iff₀ (by norm_num)]; exact q
  have k16 : ∀ v : F, 0 ≤ v → v ≤ 1 →
      ((FloatOps.toU16 (v * 65535) : Nat) : F) / 65535 ≤ v ∧
      v < ((FloatOps.toU16 (v * 65535) : Nat) : F) / 65535 + 1 / 65535 := by
    intro v a b
    obtain ⟨p, q⟩ := TruncLaws.toU16 (v * 65535) (by positivity) (by linarith)
    constructor
    · rw [div_le_iff₀ (by norm_num)]; exact p
    · rw [← add_div, lt_div_iff₀ (by norm_num)]; exact q
  rcases hu with rfl | rfl
  · rw [conv_u8 t x htu]
    have := k8 _ h0 h1
    simpa [level, levels] using this
  · rw [conv_u16 t x htu]
    have := k16 _ h0 h1
    simpa [level, levels] using this

/-- C71: 8-bit values survive the way to float and back unchanged (exact arithmetic). -/
theorem C71_round_trip_u8 [TruncLaws F] (x : Fin 256) :
    convElem (F := F) (H := H) .f32 .u8 (convElem .u8 .f32 x) = x := by
  have hx : ((x : Nat) : F) / 255 * 255 = ((x : Nat) : F) := by field_simp
  have hlt : ((x : Nat) : F) < 256 := by exact_mod_cast x.isLt
  obtain ⟨p, q⟩ := TruncLaws.toU8 (((x : Nat) : F)) (by positivity) hlt
  have : (FloatOps.toU8 ((x : Nat) : F) : Fin 256) = x := by
    have a : (FloatOps.toU8 ((x : Nat) : F) : Nat) ≤ x := by exact_mod_cast p
    have b : (x : Nat) < (FloatOps.toU8 ((x : Nat) : F) : Nat) + 1 := by exact_mod_cast q
    exact Fin.ext (by omega)
  show FloatOps.toU8 (((((x : Nat) : Int) : F) / ((255 : Int) : F)) * ((255 : Int) : F)) = x
  have e : (((((x : Nat) : Int) : F) / ((255 : Int) : F)) * ((255 : Int) : F)) = ((x : Nat) : F) := by
    push_cast; exact hx
  rw [e, this]

/-- C71: 16-bit values survive the way to float and back unchanged (exact arithmetic). -/
theorem C71_round_trip_u16 [TruncLaws F] (x : Fin 65536) :
    convElem (F := F) (H := H) .f32 .u16 (convElem .u16 .f32 x) = x := by
  have hx : ((x : Nat) : F) / 65535 * 65535 = ((x : Nat) : F) := by field_simp
  have hlt : ((x : Nat) : F) < 65536 := by exact_mod_cast x.isLt
  obtain ⟨p, q⟩ := TruncLaws.toU16 (((x : Nat) : F)) (by positivity) hlt
  have : (FloatOps.toU16 ((x : Nat) : F) : Fin 65536) = x := by
    have a : (FloatOps.toU16 ((x : Nat) : F) : Nat) ≤ x := by exact_mod_cast p
    have b : (x : Nat) < (FloatOps.toU16 ((x : Nat) : F) : Nat) + 1 := by exact_mod_cast q
    exact Fin.ext (by omega)
  show FloatOps.toU16 (((((x : Nat) : Int) : F) / ((65535 : Int) : F)) * ((65535 : Int) : F)) = x
  have e : (((((x : Nat) : Int) : F) / ((65535 : Int) : F)) * ((65535 : Int) : F)) =
      ((x : Nat) : F) := by
    push_cast; exact hx
  rw [e, this]

end

/-- Exact rationals with truncating casts. -/
@[instance_reducible] def ratTrunc : FloatOps Rat where
  toI32 x := ⌊x⌋
  toU8 x := Fin.ofNat 256 ⌊x⌋₊
  toU16 x := Fin.ofNat 65536 ⌊x⌋₊
  powf x _ := x
  round x := x
  floor x := x
  ceil x := x
  sin x := x
  cos x := x

theorem ratTrunc_laws : @TruncLaws Rat _ _ ratTrunc := by
  refine @TruncLaws.mk Rat _ _ ratTrunc ?_ ?_
  · intro x h0 h1
    have hf : ⌊x⌋₊ < 256 := (Nat.floor_lt h0).mpr (by exact_mod_cast h1)
    have e : (((Fin.ofNat 256 ⌊x⌋₊ : Fin 256) : Nat) : Rat) = (⌊x⌋₊ : Rat) := by
      simp [Fin.ofNat, Nat.mod_eq_of_lt hf]
    show (((Fin.ofNat 256 ⌊x⌋₊ : Fin 256) : Nat) : Rat) ≤ x ∧
      x < (((Fin.ofNat 256 ⌊x⌋₊ : Fin 256) : Nat) : Rat) + 1
    rw [e]
    exact ⟨Nat.floor_le h0, Nat.lt_floor_add_one x⟩
  · intro x h0 h1
    have hf : ⌊x⌋₊ < 65536 := (Nat.floor_lt h0).mpr (by exact_mod_cast h1)
    have e : (((Fin.ofNat 65536 ⌊x⌋₊ : Fin 65536) : Nat) : Rat) = (⌊x⌋₊ : Rat) := by
      simp [Fin.ofNat, Nat.mod_eq_of_lt hf]
    show (((Fin.ofNat 65536 ⌊x⌋₊ : Fin 65536) : Nat) : Rat) ≤ x ∧
      x < (((Fin.ofNat 65536 ⌊x⌋₊ : Fin 65536) : Nat) : Rat) + 1
    rw [e]
    exact ⟨Nat.floor_le h0, Nat.lt_floor_add_one x⟩

/-- Half of full brightness becomes step 127 of 255, and 8-bit 128 is kept by a round trip. -/
example :
    let _ := ratTrunc
    let _ : HalfLike Rat Rat := ⟨id, id⟩
    level (F := Rat) (H := Rat) .u8 (convElem (F := Rat) (H := Rat) .f32 .u8 (1 / 2 : Rat)) ≤ 1 / 2 ∧
    convElem (F := Rat) (H := Rat) .f32 .u8 (convElem .u8 .f32 (128 : Fin 256)) = (128 : Fin 256) := by
  let _ := ratTrunc
  let _ : HalfLike Rat Rat := ⟨id, id⟩
  have _ := ratTrunc_laws
  refine ⟨(C71_to_integer (F := Rat) (H := Rat) .f32 .u8 (1 / 2 : Rat) (.inl rfl) (by simp)
    ?_ ?_).1, C71_round_trip_u8 (F := Rat) (H := Rat) 128⟩
  · show (0 : Rat) ≤ 1 / 2; norm_num
  · show (1 / 2 : Rat) ≤ 1; norm_num

end OCG.Props
