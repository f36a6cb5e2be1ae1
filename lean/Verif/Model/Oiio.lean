import Verif.Model.Image
/-
Model of src/oiio_utils.cpp, src/imageio.cpp, src/ops/imageresample.cpp and src/imageio.rs.
OpenImageIO itself is external.  `int` arithmetic of C++ that overflows is undefined; the model
then gives an error.
-/

namespace OCG

/-- The result of an `int` operation of C++ whose exact result is `x`. -/
def cint (x : Int) : Res Int := i32 .debug x

/-- `OIIO::ImageSpec` (external), the fields in use, with the metadata of imageio.cpp:112-118.
`format` is the format after oiio_utils.cpp:29-41 `oiio_format_to_ocg_format`. -/
structure FileSpec (F : Type) where
  x : Int
  y : Int
  width : Int
  height : Int
  fullX : Int
  fullY : Int
  fullWidth : Int
  fullHeight : Int
  numChannels : Int
  format : DataType
  colorSpace : Bytes
  gamma : F
  pixelAspect : F
  orientation : Int
  unassociatedAlpha : Int
  dither : Int

/-- cxxbridge.rs:128-135 `ImageCompression`. -/
structure ImageCompression where
  exrCompression : ExrCompression
  exrDwaLevel : Int
  pngLevel : Int
  jpegLevel : Int
  jpegSubsampling : JpegChromaSubSampling
  jpegProgressive : Bool
  deriving DecidableEq

/-- A value handed to `OIIO::ImageSpec::attribute` (external); `level` is an integer that is cast
to `float` first. -/
inductive SpecValue where
  | text (s : String)
  | int (n : Int)
  | level (n : Int)
  deriving DecidableEq

/-- What one call of `oiio_write_image` hands to OpenImageIO. -/
structure WriteJob (F H : Type) where
  path : Bytes
  spec : FileSpec F
  extra : List (String × SpecValue)
  size : BlockSize
  block : DataBlock F H

/-- OpenImageIO (external), with a fixed file system for reading.  `header` is
`ImageInput::open`, `seek_subimage` and `spec`; `pixels` is `ImageInput::read_image` (it fills the
buffer and keeps its length); `hasWriter` is `ImageOutput::create`; `stores` tells whether `open`
and `write_image` stored the file; `resample` is `ImageBufAlgo::resample` (flag and contents of
the destination buffer), given source size, source pixels, `interpolate` and destination size. -/
structure Oiio (F H : Type) where
  header : Bytes → Option (FileSpec F)
  pixels : Bytes → Int → (t : DType) → BlockSize → List (Elem F H t) → List (Elem F H t)
  hasWriter : Bytes → Bool
  stores : WriteJob F H → Bool
  resample : BlockSize → DataBlock F H → Bool → Int → Int → (t : DType) → List (Elem F H t) →
    Bool × List (Elem F H t)
  /-- Conversion of the double with this exact value to `int32_t` (undefined in C++ when the
  value does not fit). -/
  toInt : Rat → Int
  pixels_length : ∀ path n t size old, (pixels path n t size old).length = old.length
  resample_length : ∀ size block interp w h t old,
    (resample size block interp w h t old).2.length = old.length
  toInt_fits : ∀ q : Rat, -2147483649 < q → q < 2147483648 →
    toInt q = if 0 ≤ q then q.floor else q.ceil

section
variable {F H : Type} [FloatLike F] [HalfLike F H]

/-- pixelblock/pixelblock.rs:63-70 `empty(DataType::Float32)`. -/
def PixelBlock.emptyF32 : PixelBlock F H := ⟨⟨0, 0, 0⟩, ⟨.f32, ([] : List F)⟩⟩

/-- imageio.rs:52-57, resample_image.rs:104-109: the image handed to the C++ functions. -/
def Image.empty : Image F H :=
  { pixelBlock := .emptyF32, spec := .new, displayWindow := ⟨0, 0, 0, 0⟩,
    dataWindow := ⟨0, 0, 0, 0⟩ }

/-- oiio_utils.cpp:103-148 `oiio_allocate_image`. -/
def oiioAllocate (p : Profile) (spec : FileSpec F) (image : Image F H) : Res (Image F H) := do
  let dataMaxX ← cint (spec.x + spec.width)
  let dataMaxY ← cint (spec.y + spec.height)
  let displayMaxX ← cint (spec.fullX + spec.fullWidth)
  let displayMaxY ← cint (spec.fullY + spec.fullHeight)
  let dataMinX ← cint (spec.x + spec.fullX)
  let dataMinY ← cint (spec.y + spec.fullY)
  let dataMaxX ← cint (dataMaxX + spec.fullX)
  let dataMaxY ← cint (dataMaxY + spec.fullY)
  let displayMaxX ← cint (displayMaxX - spec.fullX)
  let displayMaxY ← cint (displayMaxY - spec.fullY)
  let channels ← strideNumChannels spec.numChannels spec.format
  let block ← image.pixelBlock.dataResize p ⟨spec.width, spec.height, wrapI32 channels⟩ spec.format
  .ok { image with
    pixelBlock := block
    dataWindow := ⟨dataMinX, dataMinY, dataMaxX, dataMaxY⟩
    displayWindow := ⟨0, 0, displayMaxX, displayMaxY⟩ }

/-- imageio.cpp:128-134, the metadata.  Simplification: orientation codes without a name are
`uninitialized`. -/
def FileSpec.imageSpec (spec : FileSpec F) : ImageSpec F :=
  { colorSpace := spec.colorSpace, gamma := spec.gamma, pixelAspect := spec.pixelAspect,
    orientation := ImageOrientation.ofI32 spec.orientation,
    unassociatedAlpha := spec.unassociatedAlpha ≠ 0, dither := spec.dither }

/-- imageio.cpp:82-86 `pixel_size_bytes`: the distance in bytes between the pixels that
`read_image` stores (imageio.cpp:148; the distance between rows is that times the width). -/
def readStride (spec : FileSpec F) : Res Nat := do
  let channels ← strideNumChannels spec.numChannels spec.format
  match spec.format with
  | .known t => .ok (channels * t.sizeBytes)
  | .unknown => .ok 0

/-- imageio.cpp:47-159 `oiio_read_image`: the flag and the image.  (`std::max(num_channels, 4)`
in line 80 has no effect.) -/
def oiioRead (p : Profile) (oiio : Oiio F H) (path : Bytes) (image : Image F H) :
    Res (Bool × Image F H) :=
  match oiio.header path with
  | none => .ok (false, image)
  | some spec =>
    if spec.numChannels < 3 then .ok (false, image)
    else do
      let image ← oiioAllocate p spec image
      let b := image.pixelBlock
      .ok (true, { image with
        spec := spec.imageSpec
        pixelBlock := ⟨b.size, ⟨b.block.dtype,
          oiio.pixels path spec.numChannels b.block.dtype b.size b.block.data⟩⟩ })

/-- imageio.rs:42-88 `read_image`: a failure is only logged. -/
def readImage (p : Profile) (oiio : Oiio F H) (path : Bytes) : Res (Image F H) := do
  let (_, image) ← oiioRead p oiio path Image.empty
  .ok image

/-- `std::tolower` on one byte in the C locale (std, external). -/
def toLower (c : Nat) : Nat := if 65 ≤ c ∧ c ≤ 90 then c + 32 else c

/-- imageio.cpp:161-166 `name_has_suffix`, and Rust's `ends_with`. -/
def hasSuffix (name suffix : Bytes) : Bool := suffix.isSuffixOf name

/-- The bytes of `.exr`. -/
def dotExr : Bytes := [46, 101, 120, 114]
/-- The bytes of `.png`. -/
def dotPng : Bytes := [46, 112, 110, 103]
/-- The bytes of `.jpg`, `.jpeg`, `.jpe`, `.jif`, `.jfif` and `.jfi`. -/
def dotJpegs : List Bytes :=
  [[46, 106, 112, 103], [46, 106, 112, 101, 103], [46, 106, 112, 101], [46, 106, 105, 102],
   [46, 106, 102, 105, 102], [46, 106, 102, 105]]

/-- imageio.cpp:255-277: the name of an EXR compression, and whether the level is set. -/
def ExrCompression.attrs (level : Int) : ExrCompression → List (String × SpecValue)
  | .none => [("Compression", .text "none")]
  | .rle => [("Compression", .text "rle")]
  | .zip => [("Compression", .text "zip")]
  | .zipScanline => [("Compression", .text "zips")]
  | .piz => [("Compression", .text "piz")]
  | .pxr24 => [("Compression", .text "pxr24")]
  | .b44 => [("Compression", .text "b44")]
  | .b44a => [("Compression", .text "b44a")]
  | .dwaa => [("Compression", .text "dwaa"), ("openexr:dwaCompressionLevel", .level level)]
  | .dwab => [("Compression", .text "dwab"), ("openexr:dwaCompressionLevel", .level level)]
  | .default => []
  | .uninitialized => []

/-- imageio.cpp:294-302. -/
def JpegChromaSubSampling.attrs : JpegChromaSubSampling → List (String × SpecValue)
  | .none444 => [("jpeg:subsampling", .text "4:4:4")]
  | .sample422 => [("jpeg:subsampling", .text "4:2:2")]
  | .sample420 => [("jpeg:subsampling", .text "4:2:0")]
  | .sample421 => [("jpeg:subsampling", .text "4:2:1")]
  | .default => []
  | .uninitialized => []

/-- imageio.cpp:242-308, the attributes for the compression. -/
def compressionAttrs (path : Bytes) (c : ImageCompression) : List (String × SpecValue) :=
  let lower := path.map toLower
  if hasSuffix lower dotExr then c.exrCompression.attrs c.exrDwaLevel
  else if hasSuffix lower dotPng then [("png:compressionLevel", .int c.pngLevel)]
  else if dotJpegs.any (hasSuffix lower) then
    [("Compression", .text "jpeg"), ("CompressionQuality", .int c.jpegLevel)] ++
      c.jpegSubsampling.attrs ++ [("jpeg:progressive", .int (if c.jpegProgressive then 1 else 0))]
  else []

/-- imageio.cpp:197-239 with oiio_utils.cpp:58-84 `oiio_construct_spec`. -/
def writeSpec (image : Image F H) : Res (FileSpec F) := do
  let fullWidth ← cint (image.displayWindow.maxX - image.displayWindow.minX)
  let fullHeight ← cint (image.displayWindow.maxY - image.displayWindow.minY)
  .ok
    { x := image.dataWindow.minX, y := image.dataWindow.minY
      width := image.pixelBlock.size.width, height := image.pixelBlock.size.height
      fullX := image.displayWindow.minX, fullY := image.displayWindow.minY
      fullWidth := fullWidth, fullHeight := fullHeight
      numChannels := image.pixelBlock.size.numChannels
      format := .known image.pixelBlock.block.dtype
      colorSpace := image.spec.colorSpace, gamma := image.spec.gamma
      pixelAspect := image.spec.pixelAspect, orientation := image.spec.orientation.code
      unassociatedAlpha := if image.spec.unassociatedAlpha then 1 else 0
      dither := image.spec.dither }

/-- imageio.cpp:169-323 `oiio_write_image`: the flag, and the job handed to OpenImageIO if there
is an output plug-in.  Whether the job succeeded does not influence the flag. -/
def oiioWrite (oiio : Oiio F H) (path : Bytes) (image : Image F H) (c : ImageCompression) :
    Res (Bool × Option (WriteJob F H)) :=
  if oiio.hasWriter path then do
    let spec ← writeSpec image
    .ok (true, some
      { path := path, spec := spec, extra := compressionAttrs path c
        size := image.pixelBlock.size, block := image.pixelBlock.block })
  else .ok (false, none)

/-- imageio.rs:90-174 `write_image`. -/
def writeImage (p : Profile) (oiio : Oiio F H) (image : Image F H) (path : Bytes)
    (cropToDisplay : Bool) (c : ImageCompression) : Res (Bool × Option (WriteJob F H)) := do
  let out : Image F H := { image with spec := .new }
  let out ← if cropToDisplay then cropImage p out image.displayWindow true false false else .ok out
  oiioWrite oiio path out c

/-- ops/imageresample.cpp:67-74, one new dimension.  Simplification: the product of an `int` and
a power of two is exact in `double`, or rounds to zero, or is infinite. -/
def resampleLength (oiio : Oiio F H) (length factor : Int) : Int :=
  min 16384 (max 1 (oiio.toInt ((length : Rat) * (2 : Rat) ^ factor)))

/-- ops/imageresample.cpp:37-107 `oiio_image_resample`: the flag and the destination. -/
def oiioResample (p : Profile) (oiio : Oiio F H) (src dst : Image F H) (factor : Int)
    (interpolate : Bool) : Res (Bool × Image F H) := do
  let width := resampleLength oiio src.pixelBlock.size.width factor
  let height := resampleLength oiio src.pixelBlock.size.height factor
  let spec : FileSpec F :=
    { x := 0, y := 0, width := width, height := height, fullX := 0, fullY := 0
      fullWidth := width, fullHeight := height, numChannels := src.pixelBlock.size.numChannels
      format := .known src.pixelBlock.block.dtype
      colorSpace := [], gamma := 1, pixelAspect := 1, orientation := 0, unassociatedAlpha := 0
      dither := 0 }
  let dst ← oiioAllocate p spec dst
  let b := dst.pixelBlock
  let r := oiio.resample src.pixelBlock.size src.pixelBlock.block interpolate width height
    b.block.dtype b.block.data
  .ok (r.1, { dst with pixelBlock := ⟨b.size, ⟨b.block.dtype, r.2⟩⟩ })

end
end OCG
