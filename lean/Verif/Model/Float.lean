import Verif.Model.Int32
/-
The floating point operations used by the code, as an interface without laws.

A theorem about an arbitrary `FloatLike F` holds in particular for IEEE-754 single
precision with all its rounding, infinities and NaNs.  Theorems that need algebraic laws
are stated for ordered fields through the instance in `Verif.Spec.Field`.
-/

namespace OCG

/-- Operations on `f32` used by the modelled code (Rust core/std operations; external to
/repo).  No law is assumed. -/
class FloatLike (F : Type) extends Add F, Sub F, Mul F, Div F, Neg F, Zero F, One F where
  /-- `a < b` (false if either is NaN) -/
  lt : F → F → Bool
  /-- `a == b` (false if either is NaN) -/
  eq : F → F → Bool
  /-- `i32 as f32`, `u8 as f32`, `u16 as f32`, `usize as f32` -/
  ofInt : Int → F
  /-- `f32 as i32` (truncating, saturating) -/
  toI32 : F → Int
  /-- `f32 as u8` (truncating, saturating) -/
  toU8 : F → Fin 256
  /-- `f32 as u16` (truncating, saturating) -/
  toU16 : F → Fin 65536
  /-- `f32::powf` -/
  powf : F → F → F
  /-- `f32::round` -/
  round : F → F
  /-- `f32::floor` -/
  floor : F → F
  /-- `f32::ceil` -/
  ceil : F → F
  /-- `f32::sin` -/
  sin : F → F
  /-- `f32::cos` -/
  cos : F → F

/-- Conversions between `f32` and the `half` crate's `f16` (external). -/
class HalfLike (F H : Type) where
  ofF32 : F → H
  toF32 : H → F

end OCG
