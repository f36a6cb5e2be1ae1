import Verif.Spec.Picture
import Verif.Spec.Ieee
/-
Pictures of ordinary numbers.
-/

namespace OCG.PlainSpec

open PictureSpec BBoxSpec IeeeSpec

/-- An ordinary number: neither infinite nor NaN nor the zero with a minus sign. -/
def IsPlain (x : F32) : Prop := IsFinite x ∧ x ≠ Ieee.zero true

/-- Every pixel of the picture has all its channels, and they are ordinary numbers. -/
def AllPlain (P : Picture F32) : Prop :=
  ∀ x y, Has P.data x y → (P.at_ x y).length = P.channels ∧ ∀ v ∈ P.at_ x y, IsPlain v

end OCG.PlainSpec
