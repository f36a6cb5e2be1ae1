import Verif.Model.Float
import Mathlib.Algebra.Field.Basic
import Mathlib.Algebra.Order.Field.Basic
/-
Exact arithmetic: every linearly ordered field is a `FloatLike` type.  Theorems that need
algebraic laws are stated for it; IEEE rounding is then not modelled.
-/

namespace OCG

/-- The operations of `FloatLike` that are not field operations, left arbitrary. -/
class FloatOps (F : Type) where
  toI32 : F → Int
  toU8 : F → Fin 256
  toU16 : F → Fin 65536
  powf : F → F → F
  round : F → F
  floor : F → F
  ceil : F → F
  sin : F → F
  cos : F → F

/-- Exact arithmetic in a linearly ordered field. -/
instance fieldFloat {F : Type} [Field F] [LinearOrder F] [FloatOps F] : FloatLike F where
  lt a b := decide (a < b)
  eq a b := decide (a = b)
  ofInt n := (n : F)
  toI32 := FloatOps.toI32
  toU8 := FloatOps.toU8
  toU16 := FloatOps.toU16
  powf := FloatOps.powf
  round := FloatOps.round
  floor := FloatOps.floor
  ceil := FloatOps.ceil
  sin := FloatOps.sin
  cos := FloatOps.cos

theorem ofInt_eq {F : Type} [Field F] [LinearOrder F] [FloatOps F] (n : Int) :
    (FloatLike.ofInt n : F) = (n : F) := rfl

theorem lt_eq {F : Type} [Field F] [LinearOrder F] [FloatOps F] (a b : F) :
    FloatLike.lt a b = decide (a < b) := rfl

theorem eq_eq {F : Type} [Field F] [LinearOrder F] [FloatOps F] (a b : F) :
    FloatLike.eq a b = decide (a = b) := rfl

end OCG
