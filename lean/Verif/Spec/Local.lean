import Verif.Spec.PictureGraph
/-
C131: pictures that are the same in a part of the plane.
-/

namespace OCG.LocalSpec

open PictureSpec BBoxSpec BlockSpec ComputeSpec

variable {F H : Type} [FloatLike F]

/-- The pictures have the same windows, channels and colour space, and the same pixels at the
positions in `K`. -/
structure SameInside (K : Int → Int → Prop) (P Q : Picture F) : Prop where
  data : P.data = Q.data
  display : P.display = Q.display
  channels : P.channels = Q.channels
  space : P.space = Q.space
  pixels : ∀ x y, K x y → Has P.data x y → P.at_ x y = Q.at_ x y

/-- The node does not move pixels: it is not a transform, a lens or a resampling that is switched
on. -/
def PixelByPixel (n : Node F) : Prop :=
  (n.attrs.nodeType = .transform ∨ n.attrs.nodeType = .lensDistort → n.getI32 "enable" ≠ 1) ∧
  (n.attrs.nodeType = .resampleImage → n.getI32 "enable" ≠ 1 ∨ n.getI32 "factor" = 0)

/-- Two disks have the same image at a path, apart from the values of pixels outside of `K`: the
same header, in linear light, and inside `K` the same values. -/
structure SameFileOn [HalfLike F H] (K : Int → Int → Prop) (lib lib' : NodeLib F H) (path : Bytes) :
    Prop where
  header : lib.oiio.header path = lib'.oiio.header path
  linear : ∀ spec, lib.oiio.header path = some spec → spec.colorSpace = colorSpaceLinear
  pixels : ∀ spec t, lib.oiio.header path = some spec → spec.format = .known t →
    ∀ (channels : Int) (init : List (Elem F H t)) (x y c : Int),
    0 ≤ x → x < spec.width → 0 ≤ y → y < spec.height → 0 ≤ c → c < channels →
    K (spec.x + spec.fullX + x) (spec.y + spec.fullY + y) →
    channelAt ⟨spec.width, spec.height, channels⟩ (lib.oiio.pixels path spec.numChannels t
        ⟨spec.width, spec.height, channels⟩ init) x y c =
      channelAt ⟨spec.width, spec.height, channels⟩ (lib'.oiio.pixels path spec.numChannels t
        ⟨spec.width, spec.height, channels⟩ init) x y c

end OCG.LocalSpec
