import Verif.Spec.Light
import Verif.Spec.Channels
import Verif.Spec.GradeOrder
/-
C145: one picture is nowhere brighter than another.
-/

namespace OCG.BrighterSpec

open PictureSpec BBoxSpec BlockSpec ComputeSpec ColorSpec IeeeSpec LevelSpec OrderSpec LightSpec ImageSpecs

variable [Libm single32]

/-- The pictures have the same windows, channels, colour space and alpha, and no colour of the first
one is above that of the second one. -/
structure Dimmer (P Q : Picture F32) : Prop where
  sheet : SameSheet P Q
  colours : ∀ x y (c : Nat), c < 3 → NotAbove (P.value x y c) (Q.value x y c)
  alpha : ∀ x y, Q.value x y 3 = P.value x y 3

/-- No colour is below black. -/
def NotNegative (P : Picture F32) : Prop := ∀ x y (c : Nat), c < 3 → NotAbove 0 (P.value x y c)

/-- Nothing is more than opaque. -/
def AtMostOpaque (P : Picture F32) : Prop := ∀ x y, NotAbove (P.value x y 3) 1

/-- The grade of the node takes more to more in all colours, and its mix is not negative. -/
structure Rises (n : Node F32) : Prop where
  grade : n.attrs.nodeType = .grade → ∀ op, IsGradeOf n op → ∀ c, c < 3 → Uphill op c
  merge : n.attrs.nodeType = .mergeImage → NotAbove 0 (n.getF32 "mix")

/-- Two disks have images with the same header and alpha at a path, in linear light, and no stored
colour of the first one is brighter than that of the second one. -/
structure DimmerFile (lib lib' : NodeLib F32 F16) (path : Bytes) : Prop where
  same : ChannelSpec.SameFileIn (fun c => c = 3) lib lib' path
  colours : ∀ spec t, lib.oiio.header path = some spec → spec.format = .known t →
    ∀ (channels : Int) (init : List (Elem F32 F16 t)) (x y : Int) (c : Nat),
    0 ≤ x → x < spec.width → 0 ≤ y → y < spec.height → (c : Int) < channels → c < 3 →
    ∀ p q, channelAt ⟨spec.width, spec.height, channels⟩ (lib.oiio.pixels path spec.numChannels t
        ⟨spec.width, spec.height, channels⟩ init) x y c = some p →
      channelAt ⟨spec.width, spec.height, channels⟩ (lib'.oiio.pixels path spec.numChannels t
        ⟨spec.width, spec.height, channels⟩ init) x y c = some q → NotBrighter t p q

/-- The node merges in the mode. -/
def MergesBy (mode : MergeImageMode) (n : Node F32) : Prop :=
  n.attrs.nodeType = .mergeImage ∧ MergeImageMode.ofI32 (n.getI32 "mode") = mode

end OCG.BrighterSpec
