import Verif.Model.Hash
/-
A small finite number type with bit patterns, for examples.
-/

namespace OCG

/-- The integers modulo 256 with the operations of `FloatLike`. -/
@[instance_reducible] def finFloat : FloatLike (Fin 256) where
  add a b := a + b
  sub a b := a - b
  mul a b := a * b
  div a b := a / b
  neg a := -a
  zero := 0
  one := 1
  lt a b := decide (a < b)
  eq a b := decide (a = b)
  ofInt n := Fin.ofNat 256 n.toNat
  toI32 a := a.val
  toU8 a := a
  toU16 a := ⟨a.val, by omega⟩
  powf a _ := a
  round a := a
  floor a := a
  ceil a := a
  sin _ := 0
  cos _ := 1

/-- Their bit patterns. -/
@[instance_reducible] def finBits : FloatBits (Fin 256) where
  toBits a := a.val
  toBits_lt a := by omega
  toBits_inj _ _ h := Fin.ext h

/-- Half-precision numbers, the same. -/
@[instance_reducible] def finHalf : HalfLike (Fin 256) (Fin 256) where
  ofF32 a := a
  toF32 a := a

end OCG
