import Verif.Model.Hash
/-
Model of the attribute blocks of the nodes (src/node/*.rs): one structure for each node type
with its defaults, and the name tables of `attr_exists`, `get_attr_*` and `set_attr_*`.
Attribute names are Lean strings; string values are UTF-8 bytes; `i32` values are integers.
-/

namespace OCG

/-- cxxbridge.rs:301-309 `AttrState`: whether an attribute name is known. -/
inductive AttrState where
  | missing
  | exists
  deriving DecidableEq, Repr

/-- data.rs:45 `COLOR_SPACE_NAME_LINEAR`, the UTF-8 bytes of "Linear". -/
def colorSpaceLinear : Bytes := [76, 105, 110, 101, 97, 114]

/-- node/null.rs:56-56 `NullAttrs`. -/
structure NullAttrs where

namespace NullAttrs

/-- node/null.rs:65-67 `new`. -/
def new : NullAttrs :=
  {}

/-- node/null.rs:107-109 `attr_exists`. -/
def attrExists (_ : NullAttrs) (_name : String) : AttrState :=
  .missing

/-- node/null.rs:111-113 `get_attr_str`. -/
def getStr (_ : NullAttrs) (_name : String) : Bytes :=
  []

/-- node/null.rs:115-117 `set_attr_str`. -/
def setStr (a : NullAttrs) (_name : String) (_value : Bytes) : NullAttrs :=
  a

/-- node/null.rs:119-121 `get_attr_i32`. -/
def getI32 (_ : NullAttrs) (_name : String) : Int :=
  0

/-- node/null.rs:123-125 `set_attr_i32`. -/
def setI32 (a : NullAttrs) (_name : String) (_value : Int) : NullAttrs :=
  a

/-- node/null.rs:127-129 `get_attr_f32`. -/
def getF32 {F : Type} [FloatLike F] (_ : NullAttrs) (_name : String) : F :=
  0

/-- node/null.rs:131-133 `set_attr_f32`. -/
def setF32 {F : Type} (a : NullAttrs) (_name : String) (_value : F) : NullAttrs :=
  a

end NullAttrs

/-- node/read_image.rs:61-75 `ReadImageAttrs`. -/
structure ReadImageAttrs where
  enable : Int
  useCache : Int
  filePath : Bytes

namespace ReadImageAttrs

/-- node/read_image.rs:84-90 `new`. -/
def new : ReadImageAttrs :=
  { enable := 1, useCache := 1, filePath := [] }

/-- node/read_image.rs:246-253 `attr_exists`. -/
def attrExists (_ : ReadImageAttrs) (name : String) : AttrState :=
  match name with
  | "enable" => .exists
  | "use_cache" => .exists
  | "file_path" => .exists
  | _ => .missing

/-- node/read_image.rs:255-260 `get_attr_str`. -/
def getStr (a : ReadImageAttrs) (name : String) : Bytes :=
  match name with
  | "file_path" => a.filePath
  | _ => []

/-- node/read_image.rs:262-267 `set_attr_str`. -/
def setStr (a : ReadImageAttrs) (name : String) (value : Bytes) : ReadImageAttrs :=
  match name with
  | "file_path" => { a with filePath := value }
  | _ => a

/-- node/read_image.rs:269-275 `get_attr_i32`. -/
def getI32 (a : ReadImageAttrs) (name : String) : Int :=
  match name with
  | "enable" => a.enable
  | "use_cache" => a.useCache
  | _ => 0

/-- node/read_image.rs:277-283 `set_attr_i32`. -/
def setI32 (a : ReadImageAttrs) (name : String) (value : Int) : ReadImageAttrs :=
  match name with
  | "enable" => { a with enable := value }
  | "use_cache" => { a with useCache := value }
  | _ => a

/-- node/read_image.rs:285-287 `get_attr_f32`. -/
def getF32 {F : Type} [FloatLike F] (_ : ReadImageAttrs) (_name : String) : F :=
  0

/-- node/read_image.rs:289-291 `set_attr_f32`. -/
def setF32 {F : Type} (a : ReadImageAttrs) (_name : String) (_value : F) : ReadImageAttrs :=
  a

end ReadImageAttrs

/-- node/write_image.rs:76-103 `WriteImageAttrs`. -/
structure WriteImageAttrs where
  enable : Int
  execute : Int
  filePath : Bytes
  cropOnWrite : Int
  pixelDataType : Int
  exrCompression : Int
  exrDwaCompressionLevel : Int
  pngCompressionLevel : Int
  jpegCompressionLevel : Int
  jpegSubsampling : Int
  jpegProgressive : Int

namespace WriteImageAttrs

/-- node/write_image.rs:112-126 `new`. -/
def new : WriteImageAttrs :=
  { enable := 1, execute := 1, filePath := [], cropOnWrite := 2, pixelDataType := 255,
    exrCompression := 0, exrDwaCompressionLevel := 45, pngCompressionLevel := 6,
    jpegCompressionLevel := 90, jpegSubsampling := 0, jpegProgressive := 0 }

/-- node/write_image.rs:307-322 `attr_exists`. -/
def attrExists (_ : WriteImageAttrs) (name : String) : AttrState :=
  match name with
  | "enable" => .exists
  | "execute" => .exists
  | "file_path" => .exists
  | "crop_on_write" => .exists
  | "pixel_data_type" => .exists
  | "exr_compression" => .exists
  | "exr_dwa_compression_level" => .exists
  | "png_compression_level" => .exists
  | "jpeg_compression_level" => .exists
  | "jpeg_subsampling" => .exists
  | "jpeg_progressive" => .exists
  | _ => .missing

/-- node/write_image.rs:324-329 `get_attr_str`. -/
def getStr (a : WriteImageAttrs) (name : String) : Bytes :=
  match name with
  | "file_path" => a.filePath
  | _ => []

/-- node/write_image.rs:331-336 `set_attr_str`. -/
def setStr (a : WriteImageAttrs) (name : String) (value : Bytes) : WriteImageAttrs :=
  match name with
  | "file_path" => { a with filePath := value }
  | _ => a

/-- node/write_image.rs:338-352 `get_attr_i32`. -/
def getI32 (a : WriteImageAttrs) (name : String) : Int :=
  match name with
  | "enable" => a.enable
  | "execute" => a.execute
  | "crop_on_write" => a.cropOnWrite
  | "pixel_data_type" => a.pixelDataType
  | "exr_compression" => a.exrCompression
  | "exr_dwa_compression_level" => a.exrDwaCompressionLevel
  | "png_compression_level" => a.pngCompressionLevel
  | "jpeg_compression_level" => a.jpegCompressionLevel
  | "jpeg_subsampling" => a.jpegSubsampling
  | "jpeg_progressive" => a.jpegProgressive
  | _ => 0

/-- node/write_image.rs:354-368 `set_attr_i32`. -/
def setI32 (a : WriteImageAttrs) (name : String) (value : Int) : WriteImageAttrs :=
  match name with
  | "enable" => { a with enable := value }
  | "execute" => { a with execute := value }
  | "crop_on_write" => { a with cropOnWrite := value }
  | "pixel_data_type" => { a with pixelDataType := value }
  | "exr_compression" => { a with exrCompression := value }
  | "exr_dwa_compression_level" => { a with exrDwaCompressionLevel := value }
  | "png_compression_level" => { a with pngCompressionLevel := value }
  | "jpeg_compression_level" => { a with jpegCompressionLevel := value }
  | "jpeg_subsampling" => { a with jpegSubsampling := value }
  | "jpeg_progressive" => { a with jpegProgressive := value }
  | _ => a

/-- node/write_image.rs:370-372 `get_attr_f32`. -/
def getF32 {F : Type} [FloatLike F] (_ : WriteImageAttrs) (_name : String) : F :=
  0

/-- node/write_image.rs:374-376 `set_attr_f32`. -/
def setF32 {F : Type} (a : WriteImageAttrs) (_name : String) (_value : F) : WriteImageAttrs :=
  a

end WriteImageAttrs

/-- node/grade.rs:59-107 `GradeAttrs`. -/
structure GradeAttrs (F : Type) where
  enable : Int
  processR : Int
  processG : Int
  processB : Int
  processA : Int
  blackPointR : F
  blackPointG : F
  blackPointB : F
  blackPointA : F
  whitePointR : F
  whitePointG : F
  whitePointB : F
  whitePointA : F
  liftR : F
  liftG : F
  liftB : F
  liftA : F
  gainR : F
  gainG : F
  gainB : F
  gainA : F
  multiplyR : F
  multiplyG : F
  multiplyB : F
  multiplyA : F
  offsetR : F
  offsetG : F
  offsetB : F
  offsetA : F
  gammaR : F
  gammaG : F
  gammaB : F
  gammaA : F
  reverse : Int
  clampBlack : Int
  clampWhite : Int
  premult : Int
  mix : F

namespace GradeAttrs

variable {F : Type} [FloatLike F]

/-- node/grade.rs:179-231 `new`. -/
def new : GradeAttrs F :=
  { enable := 1, processR := 1, processG := 1, processB := 1, processA := 0, blackPointR := 0,
    blackPointG := 0, blackPointB := 0, blackPointA := 0, whitePointR := 1, whitePointG := 1,
    whitePointB := 1, whitePointA := 1, liftR := 0, liftG := 0, liftB := 0, liftA := 0,
    gainR := 1, gainG := 1, gainB := 1, gainA := 1, multiplyR := 1, multiplyG := 1,
    multiplyB := 1, multiplyA := 1, offsetR := 0, offsetG := 0, offsetB := 0, offsetA := 0,
    gammaR := 1, gammaG := 1, gammaB := 1, gammaA := 1, reverse := 0, clampBlack := 1,
    clampWhite := 0, premult := 0, mix := 1 }

/-- node/grade.rs:377-429 `attr_exists`. -/
def attrExists (_ : GradeAttrs F) (name : String) : AttrState :=
  match name with
  | "enable" => .exists
  | "process_r" => .exists
  | "process_g" => .exists
  | "process_b" => .exists
  | "process_a" => .exists
  | "black_point_r" => .exists
  | "black_point_g" => .exists
  | "black_point_b" => .exists
  | "black_point_a" => .exists
  | "white_point_r" => .exists
  | "white_point_g" => .exists
  | "white_point_b" => .exists
  | "white_point_a" => .exists
  | "lift_r" => .exists
  | "lift_g" => .exists
  | "lift_b" => .exists
  | "lift_a" => .exists
  | "gain_r" => .exists
  | "gain_g" => .exists
  | "gain_b" => .exists
  | "gain_a" => .exists
  | "multiply_r" => .exists
  | "multiply_g" => .exists
  | "multiply_b" => .exists
  | "multiply_a" => .exists
  | "offset_r" => .exists
  | "offset_g" => .exists
  | "offset_b" => .exists
  | "offset_a" => .exists
  | "gamma_r" => .exists
  | "gamma_g" => .exists
  | "gamma_b" => .exists
  | "gamma_a" => .exists
  | "reverse" => .exists
  | "clamp_black" => .exists
  | "clamp_white" => .exists
  | "premult" => .exists
  | "mix" => .exists
  | _ => .missing

/-- node/grade.rs:431-433 `get_attr_str`. -/
def getStr (_ : GradeAttrs F) (_name : String) : Bytes :=
  []

/-- node/grade.rs:435-437 `set_attr_str`. -/
def setStr (a : GradeAttrs F) (_name : String) (_value : Bytes) : GradeAttrs F :=
  a

/-- node/grade.rs:439-455 `get_attr_i32`. -/
def getI32 (a : GradeAttrs F) (name : String) : Int :=
  match name with
  | "enable" => a.enable
  | "process_r" => a.processR
  | "process_g" => a.processG
  | "process_b" => a.processB
  | "process_a" => a.processA
  | "reverse" => a.reverse
  | "clamp_black" => a.clampBlack
  | "clamp_white" => a.clampWhite
  | "premult" => a.premult
  | _ => 0

/-- node/grade.rs:457-473 `set_attr_i32`. -/
def setI32 (a : GradeAttrs F) (name : String) (value : Int) : GradeAttrs F :=
  match name with
  | "enable" => { a with enable := value }
  | "process_r" => { a with processR := value }
  | "process_g" => { a with processG := value }
  | "process_b" => { a with processB := value }
  | "process_a" => { a with processA := value }
  | "reverse" => { a with reverse := value }
  | "clamp_black" => { a with clampBlack := value }
  | "clamp_white" => { a with clampWhite := value }
  | "premult" => { a with premult := value }
  | _ => a

/-- node/grade.rs:475-516 `get_attr_f32`. -/
def getF32 (a : GradeAttrs F) (name : String) : F :=
  match name with
  | "black_point_r" => a.blackPointR
  | "black_point_g" => a.blackPointG
  | "black_point_b" => a.blackPointB
  | "black_point_a" => a.blackPointA
  | "white_point_r" => a.whitePointR
  | "white_point_g" => a.whitePointG
  | "white_point_b" => a.whitePointB
  | "white_point_a" => a.whitePointA
  | "lift_r" => a.liftR
  | "lift_g" => a.liftG
  | "lift_b" => a.liftB
  | "lift_a" => a.liftA
  | "gain_r" => a.gainR
  | "gain_g" => a.gainG
  | "gain_b" => a.gainB
  | "gain_a" => a.gainA
  | "multiply_r" => a.multiplyR
  | "multiply_g" => a.multiplyG
  | "multiply_b" => a.multiplyB
  | "multiply_a" => a.multiplyA
  | "offset_r" => a.offsetR
  | "offset_g" => a.offsetG
  | "offset_b" => a.offsetB
  | "offset_a" => a.offsetA
  | "gamma_r" => a.gammaR
  | "gamma_g" => a.gammaG
  | "gamma_b" => a.gammaB
  | "gamma_a" => a.gammaA
  | "mix" => a.mix
  | _ => 0

/-- node/grade.rs:518-559 `set_attr_f32`. -/
def setF32 (a : GradeAttrs F) (name : String) (value : F) : GradeAttrs F :=
  match name with
  | "black_point_r" => { a with blackPointR := value }
  | "black_point_g" => { a with blackPointG := value }
  | "black_point_b" => { a with blackPointB := value }
  | "black_point_a" => { a with blackPointA := value }
  | "white_point_r" => { a with whitePointR := value }
  | "white_point_g" => { a with whitePointG := value }
  | "white_point_b" => { a with whitePointB := value }
  | "white_point_a" => { a with whitePointA := value }
  | "lift_r" => { a with liftR := value }
  | "lift_g" => { a with liftG := value }
  | "lift_b" => { a with liftB := value }
  | "lift_a" => { a with liftA := value }
  | "gain_r" => { a with gainR := value }
  | "gain_g" => { a with gainG := value }
  | "gain_b" => { a with gainB := value }
  | "gain_a" => { a with gainA := value }
  | "multiply_r" => { a with multiplyR := value }
  | "multiply_g" => { a with multiplyG := value }
  | "multiply_b" => { a with multiplyB := value }
  | "multiply_a" => { a with multiplyA := value }
  | "offset_r" => { a with offsetR := value }
  | "offset_g" => { a with offsetG := value }
  | "offset_b" => { a with offsetB := value }
  | "offset_a" => { a with offsetA := value }
  | "gamma_r" => { a with gammaR := value }
  | "gamma_g" => { a with gammaG := value }
  | "gamma_b" => { a with gammaB := value }
  | "gamma_a" => { a with gammaA := value }
  | "mix" => { a with mix := value }
  | _ => a

end GradeAttrs

/-- node/lens_distort.rs:60-70 `LensDistortAttrs`. -/
structure LensDistortAttrs (F : Type) where
  enable : Int
  direction : Int
  lensCenterOffsetX : F
  lensCenterOffsetY : F
  distortion : F
  anamorphicSqueeze : F
  curvatureX : F
  curvatureY : F
  quarticDistortion : F

namespace LensDistortAttrs

variable {F : Type} [FloatLike F]

/-- node/lens_distort.rs:95-107 `new`. -/
def new : LensDistortAttrs F :=
  { enable := 1, direction := 0, lensCenterOffsetX := 0, lensCenterOffsetY := 0,
    distortion := 0, anamorphicSqueeze := 1, curvatureX := 0, curvatureY := 0,
    quarticDistortion := 0 }

/-- node/lens_distort.rs:180-193 `attr_exists`. -/
def attrExists (_ : LensDistortAttrs F) (name : String) : AttrState :=
  match name with
  | "enable" => .exists
  | "direction" => .exists
  | "lens_center_offset_x" => .exists
  | "lens_center_offset_y" => .exists
  | "distortion" => .exists
  | "anamorphic_squeeze" => .exists
  | "curvature_x" => .exists
  | "curvature_y" => .exists
  | "quartic_distortion" => .exists
  | _ => .missing

/-- node/lens_distort.rs:195-197 `get_attr_str`. -/
def getStr (_ : LensDistortAttrs F) (_name : String) : Bytes :=
  []

/-- node/lens_distort.rs:199-201 `set_attr_str`. -/
def setStr (a : LensDistortAttrs F) (_name : String) (_value : Bytes) : LensDistortAttrs F :=
  a

/-- node/lens_distort.rs:203-209 `get_attr_i32`. -/
def getI32 (a : LensDistortAttrs F) (name : String) : Int :=
  match name with
  | "enable" => a.enable
  | "direction" => a.direction
  | _ => 0

/-- node/lens_distort.rs:211-217 `set_attr_i32`. -/
def setI32 (a : LensDistortAttrs F) (name : String) (value : Int) : LensDistortAttrs F :=
  match name with
  | "enable" => { a with enable := value }
  | "direction" => { a with direction := value }
  | _ => a

/-- node/lens_distort.rs:219-230 `get_attr_f32`. -/
def getF32 (a : LensDistortAttrs F) (name : String) : F :=
  match name with
  | "lens_center_offset_x" => a.lensCenterOffsetX
  | "lens_center_offset_y" => a.lensCenterOffsetY
  | "distortion" => a.distortion
  | "anamorphic_squeeze" => a.anamorphicSqueeze
  | "curvature_x" => a.curvatureX
  | "curvature_y" => a.curvatureY
  | "quartic_distortion" => a.quarticDistortion
  | _ => 0

/-- node/lens_distort.rs:232-243 `set_attr_f32`. -/
def setF32 (a : LensDistortAttrs F) (name : String) (value : F) : LensDistortAttrs F :=
  match name with
  | "lens_center_offset_x" => { a with lensCenterOffsetX := value }
  | "lens_center_offset_y" => { a with lensCenterOffsetY := value }
  | "distortion" => { a with distortion := value }
  | "anamorphic_squeeze" => { a with anamorphicSqueeze := value }
  | "curvature_x" => { a with curvatureX := value }
  | "curvature_y" => { a with curvatureY := value }
  | "quartic_distortion" => { a with quarticDistortion := value }
  | _ => a

end LensDistortAttrs

/-- node/transform.rs:60-72 `TransformAttrs`. -/
structure TransformAttrs (F : Type) where
  enable : Int
  invert : Int
  translateX : F
  translateY : F
  rotate : F
  rotateCenterX : F
  rotateCenterY : F
  scaleX : F
  scaleY : F
  pivotX : F
  pivotY : F

namespace TransformAttrs

variable {F : Type} [FloatLike F]

/-- node/transform.rs:101-115 `new`. -/
def new : TransformAttrs F :=
  { enable := 1, invert := 0, translateX := 0, translateY := 0, rotate := 0, rotateCenterX := 0,
    rotateCenterY := 0, scaleX := 1, scaleY := 1, pivotX := 1 / FloatLike.ofInt 2,
    pivotY := 1 / FloatLike.ofInt 2 }

/-- node/transform.rs:189-204 `attr_exists`. -/
def attrExists (_ : TransformAttrs F) (name : String) : AttrState :=
  match name with
  | "enable" => .exists
  | "invert" => .exists
  | "translate_x" => .exists
  | "translate_y" => .exists
  | "rotate" => .exists
  | "rotate_center_x" => .exists
  | "rotate_center_y" => .exists
  | "scale_x" => .exists
  | "scale_y" => .exists
  | "pivot_x" => .exists
  | "pivot_y" => .exists
  | _ => .missing

/-- node/transform.rs:206-208 `get_attr_str`. -/
def getStr (_ : TransformAttrs F) (_name : String) : Bytes :=
  []

/-- node/transform.rs:210-212 `set_attr_str`. -/
def setStr (a : TransformAttrs F) (_name : String) (_value : Bytes) : TransformAttrs F :=
  a

/-- node/transform.rs:214-220 `get_attr_i32`. -/
def getI32 (a : TransformAttrs F) (name : String) : Int :=
  match name with
  | "enable" => a.enable
  | "invert" => a.invert
  | _ => 0

/-- node/transform.rs:222-228 `set_attr_i32`. -/
def setI32 (a : TransformAttrs F) (name : String) (value : Int) : TransformAttrs F :=
  match name with
  | "enable" => { a with enable := value }
  | "invert" => { a with invert := value }
  | _ => a

/-- node/transform.rs:230-243 `get_attr_f32`. -/
def getF32 (a : TransformAttrs F) (name : String) : F :=
  match name with
  | "translate_x" => a.translateX
  | "translate_y" => a.translateY
  | "rotate" => a.rotate
  | "rotate_center_x" => a.rotateCenterX
  | "rotate_center_y" => a.rotateCenterY
  | "scale_x" => a.scaleX
  | "scale_y" => a.scaleY
  | "pivot_x" => a.pivotX
  | "pivot_y" => a.pivotY
  | _ => 0

/-- node/transform.rs:245-258 `set_attr_f32`. -/
def setF32 (a : TransformAttrs F) (name : String) (value : F) : TransformAttrs F :=
  match name with
  | "translate_x" => { a with translateX := value }
  | "translate_y" => { a with translateY := value }
  | "rotate" => { a with rotate := value }
  | "rotate_center_x" => { a with rotateCenterX := value }
  | "rotate_center_y" => { a with rotateCenterY := value }
  | "scale_x" => { a with scaleX := value }
  | "scale_y" => { a with scaleY := value }
  | "pivot_x" => { a with pivotX := value }
  | "pivot_y" => { a with pivotY := value }
  | _ => a

end TransformAttrs

/-- node/merge_image.rs:68-73 `MergeImageAttrs`. -/
structure MergeImageAttrs (F : Type) where
  enable : Int
  useCache : Int
  mode : Int
  mix : F

namespace MergeImageAttrs

variable {F : Type} [FloatLike F]

/-- node/merge_image.rs:82-89 `new`. -/
def new : MergeImageAttrs F :=
  { enable := 1, useCache := 1, mode := 1, mix := 1 }

/-- node/merge_image.rs:319-327 `attr_exists`. -/
def attrExists (_ : MergeImageAttrs F) (name : String) : AttrState :=
  match name with
  | "enable" => .exists
  | "use_cache" => .exists
  | "mode" => .exists
  | "mix" => .exists
  | _ => .missing

/-- node/merge_image.rs:329-331 `get_attr_str`. -/
def getStr (_ : MergeImageAttrs F) (_name : String) : Bytes :=
  []

/-- node/merge_image.rs:333-335 `set_attr_str`. -/
def setStr (a : MergeImageAttrs F) (_name : String) (_value : Bytes) : MergeImageAttrs F :=
  a

/-- node/merge_image.rs:337-344 `get_attr_i32`. -/
def getI32 (a : MergeImageAttrs F) (name : String) : Int :=
  match name with
  | "enable" => a.enable
  | "use_cache" => a.useCache
  | "mode" => a.mode
  | _ => 0

/-- node/merge_image.rs:346-353 `set_attr_i32`. -/
def setI32 (a : MergeImageAttrs F) (name : String) (value : Int) : MergeImageAttrs F :=
  match name with
  | "enable" => { a with enable := value }
  | "use_cache" => { a with useCache := value }
  | "mode" => { a with mode := value }
  | _ => a

/-- node/merge_image.rs:355-360 `get_attr_f32`. -/
def getF32 (a : MergeImageAttrs F) (name : String) : F :=
  match name with
  | "mix" => a.mix
  | _ => 0

/-- node/merge_image.rs:362-367 `set_attr_f32`. -/
def setF32 (a : MergeImageAttrs F) (name : String) (value : F) : MergeImageAttrs F :=
  match name with
  | "mix" => { a with mix := value }
  | _ => a

end MergeImageAttrs

/-- node/crop_image.rs:64-74 `CropImageAttrs`. -/
structure CropImageAttrs where
  enable : Int
  useCache : Int
  windowMinX : Int
  windowMinY : Int
  windowMaxX : Int
  windowMaxY : Int
  reformat : Int
  blackOutside : Int
  intersect : Int

namespace CropImageAttrs

/-- node/crop_image.rs:83-95 `new`. -/
def new : CropImageAttrs :=
  { enable := 1, useCache := 1, windowMinX := 0, windowMinY := 0, windowMaxX := 0,
    windowMaxY := 0, reformat := 0, blackOutside := 0, intersect := 0 }

/-- node/crop_image.rs:275-288 `attr_exists`. -/
def attrExists (_ : CropImageAttrs) (name : String) : AttrState :=
  match name with
  | "enable" => .exists
  | "use_cache" => .exists
  | "window_min_x" => .exists
  | "window_min_y" => .exists
  | "window_max_x" => .exists
  | "window_max_y" => .exists
  | "reformat" => .exists
  | "black_outside" => .exists
  | "intersect" => .exists
  | _ => .missing

/-- node/crop_image.rs:290-292 `get_attr_str`. -/
def getStr (_ : CropImageAttrs) (_name : String) : Bytes :=
  []

/-- node/crop_image.rs:294-296 `set_attr_str`. -/
def setStr (a : CropImageAttrs) (_name : String) (_value : Bytes) : CropImageAttrs :=
  a

/-- node/crop_image.rs:298-311 `get_attr_i32`. -/
def getI32 (a : CropImageAttrs) (name : String) : Int :=
  match name with
  | "enable" => a.enable
  | "use_cache" => a.useCache
  | "window_min_x" => a.windowMinX
  | "window_min_y" => a.windowMinY
  | "window_max_x" => a.windowMaxX
  | "window_max_y" => a.windowMaxY
  | "reformat" => a.reformat
  | "intersect" => a.intersect
  | "black_outside" => a.blackOutside
  | _ => 0

/-- node/crop_image.rs:313-326 `set_attr_i32`. -/
def setI32 (a : CropImageAttrs) (name : String) (value : Int) : CropImageAttrs :=
  match name with
  | "enable" => { a with enable := value }
  | "use_cache" => { a with useCache := value }
  | "window_min_x" => { a with windowMinX := value }
  | "window_min_y" => { a with windowMinY := value }
  | "window_max_x" => { a with windowMaxX := value }
  | "window_max_y" => { a with windowMaxY := value }
  | "reformat" => { a with reformat := value }
  | "black_outside" => { a with blackOutside := value }
  | "intersect" => { a with intersect := value }
  | _ => a

/-- node/crop_image.rs:328-332 `get_attr_f32`. -/
def getF32 {F : Type} [FloatLike F] (_ : CropImageAttrs) (_name : String) : F :=
  0

/-- node/crop_image.rs:334-338 `set_attr_f32`. -/
def setF32 {F : Type} (a : CropImageAttrs) (_name : String) (_value : F) : CropImageAttrs :=
  a

end CropImageAttrs

/-- node/viewer.rs:68-75 `ViewerAttrs`. -/
structure ViewerAttrs where
  enable : Int
  useCache : Int
  bakeOption : Int
  bakePixelDataType : Int
  bakeColorSpace : Bytes
  cropToFormat : Int

namespace ViewerAttrs

/-- node/viewer.rs:84-93 `new`. -/
def new : ViewerAttrs :=
  { enable := 1, useCache := 1, bakeOption := 0, bakePixelDataType := 1,
    bakeColorSpace := colorSpaceLinear, cropToFormat := 0 }

/-- node/viewer.rs:299-312 `attr_exists`. -/
def attrExists (_ : ViewerAttrs) (name : String) : AttrState :=
  match name with
  | "enable" => .exists
  | "use_cache" => .exists
  | "crop_to_format" => .exists
  | "bake_option" => .exists
  | "bake_pixel_data_type" => .exists
  | "bake_color_space" => .exists
  | _ => .missing

/-- node/viewer.rs:314-319 `get_attr_str`. -/
def getStr (a : ViewerAttrs) (name : String) : Bytes :=
  match name with
  | "bake_color_space" => a.bakeColorSpace
  | _ => []

/-- node/viewer.rs:321-326 `set_attr_str`. -/
def setStr (a : ViewerAttrs) (name : String) (value : Bytes) : ViewerAttrs :=
  match name with
  | "bake_color_space" => { a with bakeColorSpace := value }
  | _ => a

/-- node/viewer.rs:328-337 `get_attr_i32`. -/
def getI32 (a : ViewerAttrs) (name : String) : Int :=
  match name with
  | "enable" => a.enable
  | "use_cache" => a.useCache
  | "crop_to_format" => a.cropToFormat
  | "bake_option" => a.bakeOption
  | "bake_pixel_data_type" => a.bakePixelDataType
  | _ => 0

/-- node/viewer.rs:339-348 `set_attr_i32`. -/
def setI32 (a : ViewerAttrs) (name : String) (value : Int) : ViewerAttrs :=
  match name with
  | "enable" => { a with enable := value }
  | "use_cache" => { a with useCache := value }
  | "crop_to_format" => { a with cropToFormat := value }
  | "bake_option" => { a with bakeOption := value }
  | "bake_pixel_data_type" => { a with bakePixelDataType := value }
  | _ => a

/-- node/viewer.rs:350-352 `get_attr_f32`. -/
def getF32 {F : Type} [FloatLike F] (_ : ViewerAttrs) (_name : String) : F :=
  0

/-- node/viewer.rs:354-356 `set_attr_f32`. -/
def setF32 {F : Type} (a : ViewerAttrs) (_name : String) (_value : F) : ViewerAttrs :=
  a

end ViewerAttrs

/-- node/resample_image.rs:63-68 `ResampleImageAttrs`. -/
structure ResampleImageAttrs where
  enable : Int
  useCache : Int
  factor : Int
  interpolate : Int

namespace ResampleImageAttrs

/-- node/resample_image.rs:77-84 `new`. -/
def new : ResampleImageAttrs :=
  { enable := 1, useCache := 1, factor := 0, interpolate := 0 }

/-- node/resample_image.rs:228-236 `attr_exists`. -/
def attrExists (_ : ResampleImageAttrs) (name : String) : AttrState :=
  match name with
  | "enable" => .exists
  | "use_cache" => .exists
  | "factor" => .exists
  | "interpolate" => .exists
  | _ => .missing

/-- node/resample_image.rs:238-240 `get_attr_str`. -/
def getStr (_ : ResampleImageAttrs) (_name : String) : Bytes :=
  []

/-- node/resample_image.rs:242-244 `set_attr_str`. -/
def setStr (a : ResampleImageAttrs) (_name : String) (_value : Bytes) : ResampleImageAttrs :=
  a

/-- node/resample_image.rs:246-254 `get_attr_i32`. -/
def getI32 (a : ResampleImageAttrs) (name : String) : Int :=
  match name with
  | "enable" => a.enable
  | "use_cache" => a.useCache
  | "factor" => a.factor
  | "interpolate" => a.interpolate
  | _ => 0

/-- node/resample_image.rs:256-264 `set_attr_i32`. -/
def setI32 (a : ResampleImageAttrs) (name : String) (value : Int) : ResampleImageAttrs :=
  match name with
  | "enable" => { a with enable := value }
  | "use_cache" => { a with useCache := value }
  | "factor" => { a with factor := value }
  | "interpolate" => { a with interpolate := value }
  | _ => a

/-- node/resample_image.rs:266-270 `get_attr_f32`. -/
def getF32 {F : Type} [FloatLike F] (_ : ResampleImageAttrs) (_name : String) : F :=
  0

/-- node/resample_image.rs:272-276 `set_attr_f32`. -/
def setF32 {F : Type} (a : ResampleImageAttrs) (_name : String) (_value : F) : ResampleImageAttrs :=
  a

end ResampleImageAttrs

end OCG
