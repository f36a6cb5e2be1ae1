import Verif.Spec.Light
import Verif.Spec.Channels
import Verif.Spec.Stops
/-
C146: one picture is another one exposed by some more stops.
-/

namespace OCG.ExposureSpec

open PictureSpec BBoxSpec BlockSpec ComputeSpec ColorSpec IeeeSpec LightSpec ImageSpecs

variable [Libm single32]

/-- Both numbers are finite, and the second one is the first one times two to the `k`, exactly. -/
def Scaled (k : Nat) (p q : F32) : Prop := IsFinite p ∧ IsFinite q ∧ val q = val p * 2 ^ k

/-- The number is zero, or at least two to the minus `d` away from it. -/
def Above (d : Nat) (p : F32) : Prop := val p = 0 ∨ 1 / 2 ^ d ≤ |val p|

/-- The pictures have the same windows, channels, colour space and alpha, and every colour of the
second one is that of the first one times two to the `k`, exactly. -/
structure Exposed (k : Nat) (P Q : Picture F32) : Prop where
  sheet : SameSheet P Q
  colours : ∀ x y (c : Nat), c < 3 → Scaled k (P.value x y c) (Q.value x y c)
  alpha : ∀ x y, Q.value x y 3 = P.value x y 3

/-- No colour is so dark that products with it lose bits. -/
def NotTooDark (P : Picture F32) : Prop := ∀ x y (c : Nat), c < 3 → Above 60 (P.value x y c)

/-- A grade that multiplies colours with something that is not too small, and does nothing else to
them; alpha may be graded in any way. -/
structure Multiplies (op : GradeOp F32) : Prop where
  forward : op.getI32 "reverse" = 0
  mix : op.getF32 "mix" = 1
  colours : ∀ c, c < 3 → processes op c = 0 ∨ processes op c = 1 ∧ ∃ multiply,
    IsFinite multiply ∧ Above 60 multiply ∧ values op c = (0, 1, 0, 1, multiply, 0, 1)

/-- The grade of the node multiplies, pictures are added or laid over each other with a mix that is
not too small, and a viewer stores floats. -/
structure KeepsStops (n : Node F32) : Prop where
  grade : n.attrs.nodeType = .grade → ∀ op, IsGradeOf n op → Multiplies op
  merge : n.attrs.nodeType = .mergeImage → MergeImageMode.ofI32 (n.getI32 "mode") ≠ .multiply ∧
    Above 36 (n.getF32 "mix")
  viewer : n.attrs.nodeType = .viewer → n.getI32 "bake_pixel_data_type" = 0

end OCG.ExposureSpec
