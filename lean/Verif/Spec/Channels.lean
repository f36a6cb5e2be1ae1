import Verif.Spec.PictureGraph
import Verif.Spec.Plain
/-
C136: pictures that are the same in some of their channels.
-/

namespace OCG.ChannelSpec

open PictureSpec BBoxSpec BlockSpec ComputeSpec PlainSpec ImageSpecs

variable {F H : Type} [FloatLike F]

/-- The pictures have the same windows, channels and colour space, and the same values in the
channels in `S`. -/
structure SameIn (S : Nat → Prop) (P Q : Picture F) : Prop where
  data : P.data = Q.data
  display : P.display = Q.display
  channels : P.channels = Q.channels
  space : P.space = Q.space
  values : ∀ x y, Has P.data x y → ∀ c, S c → (P.at_ x y)[c]? = (Q.at_ x y)[c]?

/-- A picture of three or four channels, with pixels that are ordinary numbers. -/
structure Proper (P : Picture F32) : Prop where
  channels : P.channels = 3 ∨ P.channels = 4
  size : ValidSize (sizeFor P.data P.channels)
  plain : AllPlain P

/-- Laying over looks at the alpha channel. -/
def AlphaIn (S : Nat → Prop) (n : Node F) : Prop :=
  n.attrs.nodeType = .mergeImage → MergeImageMode.ofI32 (n.getI32 "mode") = .over → S 3

/-- Two disks have the same image at a path, apart from the values of channels that are not in `S`:
the same header, in linear light, and the same values in the channels in `S`. -/
structure SameFileIn [HalfLike F H] (S : Nat → Prop) (lib lib' : NodeLib F H) (path : Bytes) :
    Prop where
  header : lib.oiio.header path = lib'.oiio.header path
  linear : ∀ spec, lib.oiio.header path = some spec → spec.colorSpace = colorSpaceLinear
  values : ∀ spec t, lib.oiio.header path = some spec → spec.format = .known t →
    ∀ (channels : Int) (init : List (Elem F H t)) (x y : Int) (c : Nat),
    0 ≤ x → x < spec.width → 0 ≤ y → y < spec.height → (c : Int) < channels → S c →
    channelAt ⟨spec.width, spec.height, channels⟩ (lib.oiio.pixels path spec.numChannels t
        ⟨spec.width, spec.height, channels⟩ init) x y c =
      channelAt ⟨spec.width, spec.height, channels⟩ (lib'.oiio.pixels path spec.numChannels t
        ⟨spec.width, spec.height, channels⟩ init) x y c

/-- The same plug-ins for deforming, and the same resampling. -/
structure SameTools (lib lib' : NodeLib F H) : Prop where
  deform : lib.bake.deform = lib'.bake.deform
  resample : ∀ size block interpolate w h t old,
    lib.oiio.resample size block interpolate w h t old =
      lib'.oiio.resample size block interpolate w h t old

end OCG.ChannelSpec
