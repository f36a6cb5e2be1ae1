import Verif.Model.Ieee
import Mathlib.Algebra.Order.Field.Rat
import Mathlib.Algebra.Order.Field.Power
/-
What IEEE 754 says about a binary format, in terms of rational numbers: the number a value stands
for, and rounding to nearest with ties to even.
-/

namespace OCG.IeeeSpec

variable {f : Format}

/-- The number a finite value stands for (IEEE 754, 3.4): the exponent field is `code / 2^mant`,
the fraction is `code % 2^mant`. -/
def val (x : Ieee f) : ℚ :=
  (if x.neg then -1 else 1) *
    (if x.code / 2 ^ f.mant = 0 then ((x.code % 2 ^ f.mant : Nat) : ℚ) * 2 ^ (-(f.unit : ℤ))
     else (1 + ((x.code % 2 ^ f.mant : Nat) : ℚ) / 2 ^ f.mant) *
      2 ^ ((f.mant : ℤ) + (x.code / 2 ^ f.mant : Nat) - 1 - f.unit))

/-- Neither infinite nor NaN. -/
def IsFinite (x : Ieee f) : Prop := x.code / 2 ^ f.mant < f.expMax

/-- `x` is the number `q` rounded to nearest, ties to even. -/
structure Nearest (q : ℚ) (x : Ieee f) : Prop where
  closest : ∀ y : Ieee f, IsFinite y → |val x - q| ≤ |val y - q|
  even : ∀ y : Ieee f, IsFinite y → val y ≠ val x → |val y - q| = |val x - q| → x.code % 2 = 0

/-- Both are finite and stand for the same number: they are equal bit by bit, except perhaps for
the sign of a zero. -/
def Same (x y : Ieee f) : Prop := IsFinite x ∧ IsFinite y ∧ val x = val y

/-- The three formats are in the range where small integers are exact. -/
structure Ok (f : Format) : Prop where
  mant_pos : 1 ≤ f.mant
  big : 2 * 2 ^ f.mant * 2 ^ f.unit < Ieee.units f (Ieee.infCode f)

end OCG.IeeeSpec
