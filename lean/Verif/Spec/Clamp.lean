import Verif.Spec.Attrs
import Verif.Spec.GradeOrder
/-
Independent specification for C129: the clamp and premultiply settings of a grade.
-/

namespace OCG.ClampSpec

open IeeeSpec LevelSpec

/-- The settings of a grade that are about the range and the alpha of pixels, not about a curve. -/
def limits : List String := ["clamp_black", "clamp_white", "premult"]

/-- Two sets of grade settings that agree except on `limits`. -/
def SameCurve {F : Type} (ints ints' : String → Int) (reals reals' : String → F) : Prop :=
  (∀ name ∈ AttrSpec.names .grade .i32, name ∉ limits → ints name = ints' name) ∧
    ∀ name ∈ AttrSpec.names .grade .f32, reals name = reals' name

/-- A value obeys the clamp settings: no less than 0 if black is clamped, no more than 1 if white
is. -/
def Clamped [Libm single32] (ints : String → Int) (x : F32) : Prop :=
  (ints "clamp_black" ≠ 0 → NotAbove 0 x) ∧ (ints "clamp_white" ≠ 0 → NotAbove x 1)

end OCG.ClampSpec
