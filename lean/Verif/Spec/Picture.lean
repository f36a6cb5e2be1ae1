import Verif.Model.Compute
import Verif.Spec.ColorOps
import Verif.Spec.Image
import Verif.Spec.Pixels
import Verif.Spec.Compute
import Verif.Spec.Oiio
import Verif.Spec.Deform
/-
What picture a stream shows once everything waiting in it is carried out, and which picture each
kind of node should make of the pictures of its inputs.
-/

namespace OCG.PictureSpec

open BlockSpec BBoxSpec ImageSpecs PixelSpec ColorSpec

/-- A picture: the window that has pixels, the window that is looked at, the number of channels,
the colour space the pixels are stored in, and the pixels as they appear in linear light. -/
structure Picture (F : Type) where
  data : BBox
  display : BBox
  channels : Nat
  space : Bytes
  at_ : Int → Int → List F

variable {F H : Type} [FloatLike F]

/-- The values of the pixel at `(x, y)` of a buffer with `n` channels that fills a window row by
row. -/
def pixelAt (window : BBox) (n : Nat) (values : List F) (x y : Int) : List F :=
  pixel n values ((y - window.minY) * (window.maxX - window.minX) + (x - window.minX)).toNat

/-- A colour matrix and then some operations, carried out on one pixel of `n` values. -/
def Graded (n : Nat) (m : Mat4 F) (ops : List (GradeOp F)) (v out : List F) : Prop :=
  ∃ mid, applyColorMatrix v n m = .ok mid ∧ Carried n ops mid out

/-- `v` are the pixels of a block as linear floats: converted to floats, and then, if they are in
another colour space, converted by OpenImageIO. -/
def LinearFloats [HalfLike F H] (lib : ColorLib F) (block : PixelBlock F H) (space : Bytes)
    (alpha : Bool) (window : BBox) (n : Nat) (v : List F) : Prop :=
  ∃ raw, block.convert (.known .f32) = .ok (floatImage (sizeFor window n) raw) ∧
    (space = colorSpaceLinear → v = raw) ∧
    (space ≠ colorSpaceLinear →
      v = (lib.convert raw (window.maxX - window.minX) (window.maxY - window.minY) n
        (if (n : Int) > 3 then 3 else -1) alpha space colorSpaceLinear).2)

/-- The stream shows the picture: its pixels, in linear light, with the colour matrix and the
operations that are waiting carried out, are the pixels of the picture, and no deformer is
waiting. -/
structure Shows [HalfLike F H] (lib : ColorLib F) (s : Stream F H) (P : Picture F) : Prop where
  data : s.dataWindow = P.data
  display : s.displayWindow = P.display
  space : s.imageSpec.colorSpace = P.space
  channels : P.channels = 1 ∨ P.channels = 3 ∨ P.channels = 4
  size : ValidSize (sizeFor P.data P.channels)
  flat : ∀ d ∈ s.deformers, d.enable ≠ 1
  pixels : ∃ v, LinearFloats lib s.pixelBlock s.imageSpec.colorSpace s.imageSpec.unassociatedAlpha
      s.dataWindow P.channels v ∧
    (v.length : Int) = elements (sizeFor P.data P.channels) ∧
    ∀ x y, Has P.data x y →
      Graded P.channels s.colorMatrix s.colorOps (pixelAt P.data P.channels v x y) (P.at_ x y)

/-- The stream shows the picture, apart from the deformers that are waiting: its pixels, in linear
light, with the colour matrix and the operations that are waiting carried out, are the pixels of the
picture. -/
structure Still [HalfLike F H] (lib : ColorLib F) (s : Stream F H) (P : Picture F) : Prop where
  data : s.dataWindow = P.data
  display : s.displayWindow = P.display
  space : s.imageSpec.colorSpace = P.space
  channels : P.channels = 1 ∨ P.channels = 3 ∨ P.channels = 4
  size : ValidSize (sizeFor P.data P.channels)
  pixels : ∃ v, LinearFloats lib s.pixelBlock s.imageSpec.colorSpace s.imageSpec.unassociatedAlpha
      s.dataWindow P.channels v ∧
    (v.length : Int) = elements (sizeFor P.data P.channels) ∧
    ∀ x y, Has P.data x y →
      Graded P.channels s.colorMatrix s.colorOps (pixelAt P.data P.channels v x y) (P.at_ x y)

section
variable [FloatConst F]

/-- The box around what the deformers that are switched on make of a box, one after the other. -/
inductive Boxed (lib : DeformLib F) (window : BBoxF F) :
    List (Deformer F) → BBoxF F → BBoxF F → Prop
  | nil {b} : Boxed lib window [] b b
  | off {d ds b c} : d.enable ≠ 1 → Boxed lib window ds b c → Boxed lib window (d :: ds) b c
  | on {d ds b b' c} : d.enable = 1 → d.box lib b window = .ok b' → Boxed lib window ds b' c →
      Boxed lib window (d :: ds) b c

/-- The smallest window of whole pixels around a box. -/
def around (b : BBoxF F) : BBox :=
  ⟨FloatLike.toI32 (FloatLike.floor b.minX), FloatLike.toI32 (FloatLike.floor b.minY),
    FloatLike.toI32 (FloatLike.ceil b.maxX), FloatLike.toI32 (FloatLike.ceil b.maxY)⟩

/-- The column (or row), counted from the left (or the bottom) of the image, that is seen at a
position of the display window: the ends of the display window correspond to the numbers of the first
and the last column, and positions outside are brought to the nearest column that there is. -/
def seen (size dispMin dispMax dataMin dataMax : Int) (x : F) : Int :=
  min (max (FloatLike.toI32 (FloatLike.round (Interp.remap (FloatLike.ofInt dispMin)
    (FloatLike.ofInt dispMax) (FloatLike.ofInt dataMin) (FloatLike.ofInt (dataMax - 1)) x))) 0)
    (size - 1)

/-- `R` is `P` with the deformers carried out.  If one is switched on, the window is the one around
the deformed window, and every pixel of `R` is the pixel of `P` seen where the deformers, all turned
around, take the centre of the pixel. -/
structure CarriedOut (lib : DeformLib F) (ds : List (Deformer F)) (P R : Picture F) : Prop where
  display : R.display = P.display
  channels : R.channels = P.channels
  space : R.space = P.space
  still : (∀ d ∈ ds, d.enable ≠ 1) →
    R.data = P.data ∧ ∀ x y, Has P.data x y → R.at_ x y = P.at_ x y
  moved : (∃ d ∈ ds, d.enable = 1) →
    (P.channels = 3 ∨ P.channels = 4) ∧ (∀ d ∈ ds, d.enable = 1 → DeformSpec.Usable d) ∧
    InI32 (P.data.maxX - 1) ∧ InI32 (P.data.maxY - 1) ∧
    ValidSize (sizeFor R.data R.channels) ∧
    (∃ box, Boxed lib (BBoxF.ofBBox P.display) ds (BBoxF.ofBBox P.data) box ∧
      R.data = around box) ∧
    ∀ x y, Has R.data x y → ∃ q : F × F,
      DeformSpec.Carried lib (BBoxF.ofBBox P.display) true ds
        (FloatLike.ofInt x + 1 / FloatLike.ofInt 2, FloatLike.ofInt y + 1 / FloatLike.ofInt 2) q ∧
      R.at_ x y = P.at_
        (P.data.minX + seen (P.data.maxX - P.data.minX) P.display.minX P.display.maxX P.data.minX
          P.data.maxX q.1)
        (P.data.minY + seen (P.data.maxY - P.data.minY) P.display.minY P.display.maxY P.data.minY
          P.data.maxY q.2)

/-- The stream looks like the picture once everything that waits, colours and deformers, is carried
out. -/
def Appears [HalfLike F H] (lib : BakeLib F) (s : Stream F H) (R : Picture F) : Prop :=
  ∃ P, Still lib.color s P ∧ CarriedOut lib.deform s.deformers P R

end

/-- The pixel of the picture at any position of the plane: black where there is none. -/
def Picture.pixel (P : Picture F) (x y : Int) : List F :=
  if Has P.data x y then P.at_ x y else List.replicate P.channels 0

/-- One channel of the pixel at any position; 0 for channels that are not there. -/
def Picture.value (P : Picture F) (x y c : Int) : F :=
  if 0 ≤ c then (P.pixel x y).getD c.toNat 0 else 0

/-- A pixel that was stored with no colour change waiting: the (identity) colour matrix is still
multiplied with it. -/
def Settled (n : Nat) (v out : List F) : Prop := Graded n Mat4.identity [] v out

/-- `Q` is `P` with one more colour operation. -/
structure IsGraded (op : GradeOp F) (P Q : Picture F) : Prop where
  data : Q.data = P.data
  display : Q.display = P.display
  channels : Q.channels = P.channels
  space : Q.space = P.space
  pixels : ∀ x y, Has P.data x y → Carried P.channels [op] (P.at_ x y) (Q.at_ x y)

/-- `Q` is `P` cut out by a window, everything staying where it is. -/
structure IsCropped (window : BBox) (reformat : Bool) (P Q : Picture F) : Prop where
  data : Q.data = window
  display : Q.display = if reformat then window else P.display
  channels : Q.channels = P.channels
  space : Q.space = P.space
  pixels : ∀ x y, Has window x y → Settled P.channels (P.pixel x y) (Q.at_ x y)

/-- `Q` is `A` merged with `B`, covering both. -/
structure IsMerged (mode : MergeImageMode) (mix : F) (A B Q : Picture F) : Prop where
  data : Q.data = ⟨min A.data.minX B.data.minX, min A.data.minY B.data.minY,
    max A.data.maxX B.data.maxX, max A.data.maxY B.data.maxY⟩
  display : Q.display = B.display
  channels : Q.channels = B.channels
  space : Q.space = colorSpaceLinear
  pixels : ∀ x y, Has Q.data x y → ∃ v, Settled B.channels v (Q.at_ x y) ∧ v.length = B.channels ∧
    ∀ c : Nat, c < B.channels → v[c]? = some (blend mode mix (A.value x y) (B.value x y) c)

/-- What is left of a value that is stored with a type: whole steps for bytes and shorts, the
nearest half float. -/
def inType (H : Type) [HalfLike F H] (t : DType) (x : F) : F :=
  match t with
  | .f32 => x
  | .f16 => HalfLike.toF32 (HalfLike.ofF32 x : H)
  | .u8 => FloatLike.ofInt (FloatLike.toU8 (x * FloatLike.ofInt 255)).val / FloatLike.ofInt 255
  | .u16 =>
    FloatLike.ofInt (FloatLike.toU16 (x * FloatLike.ofInt 65535)).val / FloatLike.ofInt 65535

/-- `Q` is `P`, with no colours waiting, stored with the type `t`. -/
structure IsBaked (H : Type) [HalfLike F H] (t : DType) (P Q : Picture F) : Prop where
  data : Q.data = P.data
  display : Q.display = P.display
  channels : Q.channels = P.channels
  space : Q.space = colorSpaceLinear
  pixels : ∀ x y, Has P.data x y →
    Settled P.channels ((P.at_ x y).map (inType H t)) (Q.at_ x y)

/-- The buffer `v` holds the pixels of the picture. -/
structure Holds (P : Picture F) (v : List F) : Prop where
  length : (v.length : Int) = elements (sizeFor P.data P.channels)
  pixels : ∀ x y, Has P.data x y → pixelAt P.data P.channels v x y = P.at_ x y

/-- Linear values brought to a colour space by OpenImageIO. -/
def inSpace (lib : ColorLib F) (alpha : Bool) (dst : Bytes) (size : BlockSize) (v : List F) :
    List F :=
  if dst = colorSpaceLinear then v
  else (lib.convert v size.width size.height size.numChannels
    (if size.numChannels > 3 then 3 else -1) alpha colorSpaceLinear dst).2

/-- The block holds the pixels of the picture, in the colour space `dst` and of the type `t`. -/
def Delivers [HalfLike F H] (lib : ColorLib F) (alpha : Bool) (dst : Bytes) (t : DType)
    (P : Picture F) (block : PixelBlock F H) : Prop :=
  ∃ v, Holds P v ∧
    (floatImage (sizeFor P.data P.channels)
      (inSpace lib alpha dst (sizeFor P.data P.channels) v)).convert (.known t) = .ok block

/-- OpenImageIO converts colours in place: the number of values stays. -/
def KeepsLength (lib : ColorLib F) : Prop :=
  ∀ v w h n c alpha src dst, (lib.convert v w h n c alpha src dst).2.length = v.length

/-- The block `out` holds the pixels of a block converted from one colour space to another, of the
type `t`. -/
def Converted [HalfLike F H] (lib : ColorLib F) (alpha : Bool) (src dst : Bytes) (t : DType)
    (size : BlockSize) (block out : PixelBlock F H) : Prop :=
  ∃ raw, block.convert (.known .f32) = .ok (floatImage size raw) ∧
    (floatImage size (if src = dst then raw
      else (lib.convert raw size.width size.height size.numChannels
        (if size.numChannels > 3 then 3 else -1) alpha src dst).2)).convert (.known t) = .ok out

/-- The colour space of a file: sRGB for PNG and JPEG files, linear for others. -/
def fileSpace (path : Bytes) : Bytes :=
  if ∃ e ∈ OiioSpec.ending ".png" :: OiioSpec.jpegEndings, e <:+ path then [115, 82, 71, 66] else colorSpaceLinear

/-- The block `out` shows what the block `b` shows in the window `data`, cut out by `window`. -/
def CutOut [HalfLike F H] (b : PixelBlock F H) (data : BBox) (out : PixelBlock F H)
    (window : BBox) : Prop :=
  ∃ d : List (Elem F H b.block.dtype),
    out = ⟨sizeFor window b.size.numChannels, ⟨b.block.dtype, d⟩⟩ ∧
    (d.length : Int) = elements (sizeFor window b.size.numChannels) ∧
    ∀ x y c, Has window x y → 0 ≤ c → c < b.size.numChannels →
      channelAt (sizeFor window b.size.numChannels) d (x - window.minX) (y - window.minY) c =
        if Has data x y then
          channelAt b.size b.block.data (x - data.minX) (y - data.minY) c
        else some (zeroElem b.block.dtype)

/-- The type asked for by the code of an attribute: 0 float, 1 half, 2 byte, 3 short; otherwise the
type that is there. -/
def wantedType (code : Int) (own : DType) : DType :=
  if code = 0 then .f32 else if code = 1 then .f16 else if code = 2 then .u8
  else if code = 3 then .u16 else own

/-- Whether a file is cropped to the display window: 0 never, 1 always, 2 unless it is an EXR file
(then it has a data window). -/
def CropsFile (code : Int) (path : Bytes) : Prop :=
  code = 1 ∨ code = 2 ∧ ¬ OiioSpec.ending ".exr" <:+ path

instance (code : Int) (path : Bytes) : Decidable (CropsFile code path) := by
  unfold CropsFile; infer_instance

/-- The compression asked for by the attributes of a write node. -/
def settings (n : Node F) : ImageCompression where
  exrCompression := ExrCompression.ofI32 (n.getI32 "exr_compression")
  exrDwaLevel := n.getI32 "exr_dwa_compression_level"
  pngLevel := n.getI32 "png_compression_level"
  jpegLevel := n.getI32 "jpeg_compression_level"
  jpegSubsampling := JpegChromaSubSampling.ofI32 (n.getI32 "jpeg_subsampling")
  jpegProgressive := decide (n.getI32 "jpeg_progressive" ≠ 0)

/-- The operation described by the attributes of a grade node. -/
def IsGradeOf (n : Node F) (op : GradeOp F) : Prop :=
  op.getI32 "enable" = 1 ∧ ComputeSpec.Describes n op.getI32 op.getF32

/-- The crop window of a crop node. -/
def cropWindow (n : Node F) : BBox :=
  ⟨n.getI32 "window_min_x", n.getI32 "window_min_y", n.getI32 "window_max_x",
    n.getI32 "window_max_y"⟩

/-- The path of a file node at a frame. -/
def filePath [FloatLike F] (lib : NodeLib F H) (n : Node F) (frame : F) : Bytes :=
  Path.expandString lib.shell (n.getStr "file_path") (frameNum frame)

/-- The picture in a file.  Channels that the file does not have are white.  The windows are where
the code puts them (see C63). -/
def IsFile [HalfLike F H] (lib : NodeLib F H) (path : Bytes) (P : Picture F) : Prop :=
  ∃ spec t k v, lib.pathKind path = .file ∧ lib.oiio.header path = some spec ∧
    OiioSpec.Sane spec ∧ spec.format = .known t ∧ (P.channels = 3 ∨ P.channels = 4) ∧
    (P.channels : Int) = (if t = .f32 then spec.numChannels else 4) ∧
    P.data = ⟨spec.x + spec.fullX, spec.y + spec.fullY, spec.x + spec.width + spec.fullX,
      spec.y + spec.height + spec.fullY⟩ ∧
    P.display = ⟨0, 0, spec.fullWidth, spec.fullHeight⟩ ∧ P.space = spec.colorSpace ∧
    ((k : Nat) : Int) = elements (sizeFor P.data P.channels) ∧
    LinearFloats lib.bake.color
      ⟨sizeFor P.data P.channels, ⟨t, lib.oiio.pixels path spec.numChannels t
        (sizeFor P.data P.channels) (List.replicate k (whiteElem t))⟩⟩
      spec.colorSpace (decide (spec.unassociatedAlpha ≠ 0)) P.data P.channels v ∧
    (v.length : Int) = elements (sizeFor P.data P.channels) ∧
    ∀ x y, Has P.data x y → Settled P.channels (pixelAt P.data P.channels v x y) (P.at_ x y)

end OCG.PictureSpec
