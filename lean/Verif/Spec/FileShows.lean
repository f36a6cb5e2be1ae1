import Verif.Spec.PictureGraph
import Verif.Spec.Ieee
/-
C138: what a file holds.
-/

namespace OCG.FileSpec

open PictureSpec BBoxSpec BlockSpec ImageSpecs

variable {F H : Type} [FloatLike F] [HalfLike F H]

/-- A value stored with a type: floats as they are, halves rounded, bytes and shorts as steps of 255
and 65535. -/
def stored : (t : DType) → F → Elem F H t
  | .f32, x => x
  | .f16, x => (HalfLike.ofF32 x : H)
  | .u8, x => FloatLike.toU8 (x * FloatLike.ofInt 255)
  | .u16, x => FloatLike.toU16 (x * FloatLike.ofInt 65535)

/-- Black of a type. -/
def black : (t : DType) → Elem F H t
  | .f32 => (0 : F)
  | .f16 => (HalfLike.ofF32 (0 : F) : H)
  | .u8 => (0 : Fin 256)
  | .u16 => (0 : Fin 65536)

/-- What is handed to OpenImageIO covers the window `W`, and has values of the type `t`: those of the
picture where there is a picture, otherwise black. -/
structure FileShows (t : DType) (W : BBox) (P : Picture F) (job : WriteJob F H) : Prop where
  x : job.spec.x = W.minX
  y : job.spec.y = W.minY
  width : job.spec.width = W.maxX - W.minX
  height : job.spec.height = W.maxY - W.minY
  channels : job.spec.numChannels = P.channels
  format : job.spec.format = .known t
  size : job.size = sizeFor W P.channels
  values : ∃ d : List (Elem F H t), job.block = ⟨t, d⟩ ∧
    (d.length : Int) = elements (sizeFor W P.channels) ∧
    ∀ (x y : Int) (c : Nat), Has W x y → c < P.channels →
      channelAt (sizeFor W P.channels) d (x - W.minX) (y - W.minY) c =
        if Has P.data x y then (P.at_ x y)[c]?.map (stored t) else some (black t)

/-- The part of the picture that goes into the file. -/
def window (n : Node F) (path : Bytes) (P : Picture F) : BBox :=
  if CropsFile (n.getI32 "crop_on_write") path then P.display else P.data

/-- The file is in linear light: neither a PNG nor a JPEG file. -/
def Linear (path : Bytes) : Prop := fileSpace path = colorSpaceLinear

/-- Two files have the same path, windows, channels and type, and the same values at the positions
in `K`, in the channels in `S`. -/
structure SameFile (K : Int → Int → Prop) (S : Nat → Prop) (job job' : WriteJob F H) : Prop where
  path : job.path = job'.path
  x : job.spec.x = job'.spec.x
  y : job.spec.y = job'.spec.y
  size : job.size = job'.size
  values : ∃ (t : DType) (d d' : List (Elem F H t)), job.block = ⟨t, d⟩ ∧ job'.block = ⟨t, d'⟩ ∧
    ∀ (x y : Int) (c : Nat), 0 ≤ x → x < job.size.width → 0 ≤ y → y < job.size.height →
      c < job.size.numChannels → K (job.spec.x + x) (job.spec.y + y) → S c →
      channelAt job.size d x y c = channelAt job.size d' x y c

/-- The node says which type the file gets. -/
def KnowsType (n : Node F) : Prop :=
  n.getI32 "pixel_data_type" = 0 ∨ n.getI32 "pixel_data_type" = 1 ∨
    n.getI32 "pixel_data_type" = 2 ∨ n.getI32 "pixel_data_type" = 3

end OCG.FileSpec

namespace OCG.FileSpec

open IeeeSpec

/-- A stored value is the given number as well as the type can have it: the same for floats, the
nearest half, the highest step that is not brighter for bytes, and for shorts almost so. -/
def Faithful : (t : DType) → F32 → Elem F32 F16 t → Prop
  | .f32, v, x => x = v
  | .f16, v, x => |val v| ≤ 65504 → IsFinite (f := half16) x ∧ Nearest (f := half16) (val v) x
  | .u8, v, k => 0 ≤ val v → val v ≤ 1 →
      ((Fin.val (n := 256) k : Nat) : ℚ) / 255 ≤ val v ∧ val v < ((Fin.val (n := 256) k : Nat) + 1 : ℚ) / 255
  | .u16, v, k => 0 ≤ val v → val v ≤ 1 →
      ((Fin.val (n := 65536) k : Nat) : ℚ) ≤ val v * 65535 + 1 / 250 ∧
        val v * 65535 < ((Fin.val (n := 65536) k : Nat) : ℚ) + 1

end OCG.FileSpec
