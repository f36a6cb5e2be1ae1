import Verif.Spec.ColorOps
import Verif.Spec.Levels
/-
Independent specification for C119: grades that cannot swap bright and dark.
-/

namespace OCG.OrderSpec

open IeeeSpec LevelSpec ColorSpec

/-- `x < y` (IEEE 754, 5.11). -/
def Under {f : Format} (x y : Ieee f) : Prop := NotAbove x y ∧ ¬ NotAbove y x

/-- The gamma curve of the library rises: its power function with exponent `1 / gamma` keeps the
order of numbers wherever it gives numbers, and gives none where there was none.  For gamma 1 the
C standard (annex F.10.4.4) makes it the identity; for an exponent that is an even integer it is
false below 0. -/
def CurveRises [Libm single32] (gamma : F32) : Prop :=
  (∀ x : F32, IsNotNumber x → IsNotNumber (Libm.powf x (1 / gamma))) ∧
    ∀ x y : F32, NotAbove x y → ¬ IsNotNumber (Libm.powf x (1 / gamma)) →
      ¬ IsNotNumber (Libm.powf y (1 / gamma)) →
      NotAbove (Libm.powf x (1 / gamma)) (Libm.powf y (1 / gamma))

/-- The settings of a grade for one channel take more to more: the black point is below the white
point, the lift not above the gain, the multiplication not negative, a rising gamma curve (none at
all if reversed), the channel processed or not, and a mix between 0 and 1. -/
structure Uphill [Libm single32] (d : GradeOp F32) (c : Nat) : Prop where
  points : Under (values d c).1 (values d c).2.1
  range : NotAbove (values d c).2.2.1 (values d c).2.2.2.1
  multiply : NotAbove 0 (values d c).2.2.2.2.1
  curve : d.getI32 "reverse" = 0 → CurveRises (values d c).2.2.2.2.2.2
  noCurve : d.getI32 "reverse" ≠ 0 → (values d c).2.2.2.2.2.2 = 1
  channel : processes d c = 0 ∨ processes d c = 1
  mixLow : NotAbove 0 (d.getF32 "mix")
  mixHigh : NotAbove (d.getF32 "mix") 1

end OCG.OrderSpec
