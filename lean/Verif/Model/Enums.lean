import Verif.Model.Prelude
/-
Model of the enumerations of src/cxxbridge.rs that are converted from integer attributes.
Every enumeration is a `repr(u8)` type; `code` is the declared code, `ofI32` the `From<i32>`
implementation.
-/

namespace OCG

/-- cxxbridge.rs:269-283 `DataType`. -/
inductive DataTypeCode where
  | float32
  | half16
  | uint8
  | uint16
  | unknown
  deriving DecidableEq, Repr, Inhabited

/-- cxxbridge.rs:269-283, the declared codes of `DataType`. -/
def DataTypeCode.code : DataTypeCode → Nat
  | .float32 => 0
  | .half16 => 1
  | .uint8 => 2
  | .uint16 => 3
  | .unknown => 255

/-- cxxbridge.rs:900-910 `From<i32> for DataType`. -/
def DataTypeCode.ofI32 (value : Int) : DataTypeCode :=
  if value = 0 then .float32 else
  if value = 1 then .half16 else
  if value = 2 then .uint8 else
  if value = 3 then .uint16 else
  .unknown

/-- cxxbridge.rs:206-220 `BakeOption`. -/
inductive BakeOption where
  | nothing
  | colorSpace
  | colorSpaceAndGrade
  | all
  | uninitialized
  deriving DecidableEq, Repr, Inhabited

/-- cxxbridge.rs:206-220, the declared codes of `BakeOption`. -/
def BakeOption.code : BakeOption → Nat
  | .nothing => 0
  | .colorSpace => 1
  | .colorSpaceAndGrade => 2
  | .all => 3
  | .uninitialized => 255

/-- cxxbridge.rs:912-922 `From<i32> for BakeOption`. -/
def BakeOption.ofI32 (value : Int) : BakeOption :=
  if value = 0 then .nothing else
  if value = 1 then .colorSpace else
  if value = 2 then .colorSpaceAndGrade else
  if value = 3 then .all else
  .uninitialized

/-- cxxbridge.rs:354-368 `MergeImageMode`. -/
inductive MergeImageMode where
  | add
  | over
  | multiply
  | uninitialized
  deriving DecidableEq, Repr, Inhabited

/-- cxxbridge.rs:354-368, the declared codes of `MergeImageMode`. -/
def MergeImageMode.code : MergeImageMode → Nat
  | .add => 0
  | .over => 1
  | .multiply => 2
  | .uninitialized => 255

/-- cxxbridge.rs:924-933 `From<i32> for MergeImageMode`. -/
def MergeImageMode.ofI32 (value : Int) : MergeImageMode :=
  if value = 0 then .add else
  if value = 1 then .over else
  if value = 2 then .multiply else
  .uninitialized

/-- cxxbridge.rs:321-331 `LensDistortDirection`. -/
inductive LensDistortDirection where
  | undistort
  | distort
  | uninitialized
  deriving DecidableEq, Repr, Inhabited

/-- cxxbridge.rs:321-331, the declared codes of `LensDistortDirection`. -/
def LensDistortDirection.code : LensDistortDirection → Nat
  | .undistort => 0
  | .distort => 1
  | .uninitialized => 255

/-- cxxbridge.rs:935-943 `From<i32> for LensDistortDirection`. -/
def LensDistortDirection.ofI32 (value : Int) : LensDistortDirection :=
  if value = 0 then .undistort else
  if value = 1 then .distort else
  .uninitialized

/-- cxxbridge.rs:374-415 `ImageOrientation`. -/
inductive ImageOrientation where
  | normal
  | flippedHorizontally
  | rotated180
  | flippedVertically
  | transposed
  | rotated90Clockwise
  | transverse
  | rotated90CounterClockwise
  | uninitialized
  deriving DecidableEq, Repr, Inhabited

/-- cxxbridge.rs:374-415, the declared codes of `ImageOrientation`. -/
def ImageOrientation.code : ImageOrientation → Nat
  | .normal => 0
  | .flippedHorizontally => 1
  | .rotated180 => 2
  | .flippedVertically => 3
  | .transposed => 4
  | .rotated90Clockwise => 5
  | .transverse => 6
  | .rotated90CounterClockwise => 7
  | .uninitialized => 255

/-- cxxbridge.rs:945-959 `From<i32> for ImageOrientation`. -/
def ImageOrientation.ofI32 (value : Int) : ImageOrientation :=
  if value = 0 then .normal else
  if value = 1 then .flippedHorizontally else
  if value = 2 then .rotated180 else
  if value = 3 then .flippedVertically else
  if value = 4 then .transposed else
  if value = 5 then .rotated90Clockwise else
  if value = 6 then .transverse else
  if value = 7 then .rotated90CounterClockwise else
  .uninitialized

/-- cxxbridge.rs:418-439 `DiskCacheImageType`. -/
inductive DiskCacheImageType where
  | jpegUInt8
  | jpeg2000LossyUInt8
  | jpeg2000LosslessUInt8
  | exrLossyHalf16
  | exrLosslessHalf16
  | uninitialized
  deriving DecidableEq, Repr, Inhabited

/-- cxxbridge.rs:418-439, the declared codes of `DiskCacheImageType`. -/
def DiskCacheImageType.code : DiskCacheImageType → Nat
  | .jpegUInt8 => 0
  | .jpeg2000LossyUInt8 => 1
  | .jpeg2000LosslessUInt8 => 2
  | .exrLossyHalf16 => 3
  | .exrLosslessHalf16 => 4
  | .uninitialized => 255

/-- cxxbridge.rs:961-972 `From<i32> for DiskCacheImageType`. -/
def DiskCacheImageType.ofI32 (value : Int) : DiskCacheImageType :=
  if value = 0 then .jpegUInt8 else
  if value = 1 then .jpeg2000LossyUInt8 else
  if value = 2 then .jpeg2000LosslessUInt8 else
  if value = 3 then .exrLossyHalf16 else
  if value = 4 then .exrLosslessHalf16 else
  .uninitialized

/-- cxxbridge.rs:446-458 `CropOnWrite`. -/
inductive CropOnWrite where
  | disable
  | enable
  | auto
  | uninitialized
  deriving DecidableEq, Repr, Inhabited

/-- cxxbridge.rs:446-458, the declared codes of `CropOnWrite`. -/
def CropOnWrite.code : CropOnWrite → Nat
  | .disable => 0
  | .enable => 1
  | .auto => 2
  | .uninitialized => 255

/-- cxxbridge.rs:974-983 `From<i32> for CropOnWrite`. -/
def CropOnWrite.ofI32 (value : Int) : CropOnWrite :=
  if value = 0 then .disable else
  if value = 1 then .enable else
  if value = 2 then .auto else
  .uninitialized

/-- cxxbridge.rs:463-479 `JpegChromaSubSampling`. -/
inductive JpegChromaSubSampling where
  | default
  | none444
  | sample422
  | sample420
  | sample421
  | uninitialized
  deriving DecidableEq, Repr, Inhabited

/-- cxxbridge.rs:463-479, the declared codes of `JpegChromaSubSampling`. -/
def JpegChromaSubSampling.code : JpegChromaSubSampling → Nat
  | .default => 0
  | .none444 => 1
  | .sample422 => 2
  | .sample420 => 3
  | .sample421 => 4
  | .uninitialized => 255

/-- cxxbridge.rs:985-996 `From<i32> for JpegChromaSubSampling`. -/
def JpegChromaSubSampling.ofI32 (value : Int) : JpegChromaSubSampling :=
  if value = 0 then .default else
  if value = 1 then .none444 else
  if value = 2 then .sample422 else
  if value = 3 then .sample420 else
  if value = 4 then .sample421 else
  .uninitialized

/-- cxxbridge.rs:482-510 `ExrCompression`. -/
inductive ExrCompression where
  | default
  | none
  | rle
  | zip
  | zipScanline
  | piz
  | pxr24
  | b44
  | b44a
  | dwaa
  | dwab
  | uninitialized
  deriving DecidableEq, Repr, Inhabited

/-- cxxbridge.rs:482-510, the declared codes of `ExrCompression`. -/
def ExrCompression.code : ExrCompression → Nat
  | .default => 0
  | .none => 1
  | .rle => 2
  | .zip => 3
  | .zipScanline => 4
  | .piz => 5
  | .pxr24 => 6
  | .b44 => 7
  | .b44a => 8
  | .dwaa => 9
  | .dwab => 10
  | .uninitialized => 255

/-- cxxbridge.rs:998-1015 `From<i32> for ExrCompression`. -/
def ExrCompression.ofI32 (value : Int) : ExrCompression :=
  if value = 0 then .default else
  if value = 1 then .none else
  if value = 2 then .rle else
  if value = 3 then .zip else
  if value = 4 then .zipScanline else
  if value = 5 then .piz else
  if value = 6 then .pxr24 else
  if value = 7 then .b44 else
  if value = 8 then .b44a else
  if value = 9 then .dwaa else
  if value = 10 then .dwab else
  .uninitialized

end OCG
