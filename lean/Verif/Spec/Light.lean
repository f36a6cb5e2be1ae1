import Verif.Spec.PictureGraph
import Verif.Spec.Field
/-
C144: pictures whose light adds up.
-/

namespace OCG.LightSpec

open PictureSpec BBoxSpec BlockSpec ComputeSpec ColorSpec ImageSpecs

section
variable {F : Type} [FloatLike F]

/-- The same windows, channels and colour space. -/
structure SameSheet (P Q : Picture F) : Prop where
  data : Q.data = P.data
  display : Q.display = P.display
  channels : Q.channels = P.channels
  space : Q.space = P.space

/-- A picture of three or four channels with all its values. -/
structure Whole (P : Picture F) : Prop where
  channels : P.channels = 3 ∨ P.channels = 4
  size : ValidSize (sizeFor P.data P.channels)
  values : ∀ x y, Has P.data x y → (P.at_ x y).length = P.channels

/-- `Q` shows `k` times the light of `P` and `l` times the light of `P'`; all three have the same
alpha. -/
structure IsSum (k l : F) (P P' Q : Picture F) : Prop where
  first : SameSheet P P'
  second : SameSheet P Q
  colours : ∀ x y (c : Nat), c ≠ 3 → Q.value x y c = k * P.value x y c + l * P'.value x y c
  alpha : ∀ x y, P'.value x y 3 = P.value x y 3 ∧ Q.value x y 3 = P.value x y 3

/-- A grade that only multiplies colours; alpha may be graded in any way. -/
structure Gains (op : GradeOp F) : Prop where
  forward : op.getI32 "reverse" = 0
  colours : ∀ c, c < 3 → processes op c = 0 ∨ ∃ white gain multiply,
    values op c = (0, white, 0, gain, multiply, 0, 1)

/-- The grade of the node only multiplies colours, pictures are added or laid over each other, and
a viewer stores floats. -/
structure AddsLight (n : Node F) : Prop where
  grade : n.attrs.nodeType = .grade → ∀ op, IsGradeOf n op → Gains op
  merge : n.attrs.nodeType = .mergeImage → MergeImageMode.ofI32 (n.getI32 "mode") ≠ .multiply
  viewer : n.attrs.nodeType = .viewer → n.getI32 "bake_pixel_data_type" = 0

end

end OCG.LightSpec
