import Verif.Model.Attrs
import Verif.Model.DeformTransform
/-
Model of the attribute blocks of the stream operations: the two deformers used by nodes
(src/deformer/transform.rs, src/deformer/tde4_classic.rs) and the grade colour operation
(src/colorop/colorgrade.rs).
-/

namespace OCG

namespace TransformDeformer

variable {F : Type} [FloatLike F]

/-- deformer/transform.rs:180-195 `attr_exists`. -/
def attrExists (_ : TransformDeformer F) (name : String) : AttrState :=
  match name with
  | "enable" => .exists
  | "invert" => .exists
  | "translate_x" => .exists
  | "translate_y" => .exists
  | "rotate" => .exists
  | "rotate_center_x" => .exists
  | "rotate_center_y" => .exists
  | "scale_x" => .exists
  | "scale_y" => .exists
  | "pivot_x" => .exists
  | "pivot_y" => .exists
  | _ => .missing

/-- deformer/transform.rs:197-199 `get_attr_str`. -/
def getStr (_ : TransformDeformer F) (_name : String) : Bytes :=
  []

/-- deformer/transform.rs:201-203 `set_attr_str`. -/
def setStr (a : TransformDeformer F) (_name : String) (_value : Bytes) : TransformDeformer F :=
  a

/-- deformer/transform.rs:205-211 `get_attr_i32`. -/
def getI32 (a : TransformDeformer F) (name : String) : Int :=
  match name with
  | "enable" => a.enable
  | "invert" => a.invert
  | _ => 0

/-- deformer/transform.rs:213-219 `set_attr_i32`. -/
def setI32 (a : TransformDeformer F) (name : String) (value : Int) : TransformDeformer F :=
  match name with
  | "enable" => { a with enable := value }
  | "invert" => { a with invert := value }
  | _ => a

/-- deformer/transform.rs:221-234 `get_attr_f32`. -/
def getF32 (a : TransformDeformer F) (name : String) : F :=
  match name with
  | "translate_x" => a.translateX
  | "translate_y" => a.translateY
  | "rotate" => a.rotate
  | "rotate_center_x" => a.rotateCenterX
  | "rotate_center_y" => a.rotateCenterY
  | "scale_x" => a.scaleX
  | "scale_y" => a.scaleY
  | "pivot_x" => a.pivotX
  | "pivot_y" => a.pivotY
  | _ => 0

/-- deformer/transform.rs:236-249 `set_attr_f32`. -/
def setF32 (a : TransformDeformer F) (name : String) (value : F) : TransformDeformer F :=
  match name with
  | "translate_x" => { a with translateX := value }
  | "translate_y" => { a with translateY := value }
  | "rotate" => { a with rotate := value }
  | "rotate_center_x" => { a with rotateCenterX := value }
  | "rotate_center_y" => { a with rotateCenterY := value }
  | "scale_x" => { a with scaleX := value }
  | "scale_y" => { a with scaleY := value }
  | "pivot_x" => { a with pivotX := value }
  | "pivot_y" => { a with pivotY := value }
  | _ => a

end TransformDeformer

/-- deformer/tde4_classic.rs:55-77 `DeformerTde4Classic`.  The plug-in handle is not
modelled: after `commit_data` (lines 165-204) the plug-in is a function of these values. -/
structure Tde4Deformer (F : Type) where
  enable : Int
  direction : Int
  focalLength : F
  filmBackWidth : F
  filmBackHeight : F
  pixelAspect : F
  lensCenterOffsetX : F
  lensCenterOffsetY : F
  distortion : F
  anamorphicSqueeze : F
  curvatureX : F
  curvatureY : F
  quarticDistortion : F

namespace Tde4Deformer

variable {F : Type} [FloatLike F]

/-- deformer/tde4_classic.rs:101-136 `default`. -/
def new : Tde4Deformer F :=
  { enable := 1, direction := 0, focalLength := FloatLike.ofInt 3,
    filmBackWidth := FloatLike.ofInt 36 / FloatLike.ofInt 10,
    filmBackHeight := FloatLike.ofInt 24 / FloatLike.ofInt 10, pixelAspect := 1,
    lensCenterOffsetX := 0, lensCenterOffsetY := 0, distortion := 0, anamorphicSqueeze := 1,
    curvatureX := 0, curvatureY := 0, quarticDistortion := 0 }

/-- deformer/tde4_classic.rs:337-356 `attr_exists`. -/
def attrExists (_ : Tde4Deformer F) (name : String) : AttrState :=
  match name with
  | "enable" => .exists
  | "direction" => .exists
  | "focal_length" => .exists
  | "film_back_width" => .exists
  | "film_back_height" => .exists
  | "pixel_aspect" => .exists
  | "lens_center_offset_x" => .exists
  | "lens_center_offset_y" => .exists
  | "distortion" => .exists
  | "anamorphic_squeeze" => .exists
  | "curvature_x" => .exists
  | "curvature_y" => .exists
  | "quartic_distortion" => .exists
  | _ => .missing

/-- deformer/tde4_classic.rs:358-360 `get_attr_str`. -/
def getStr (_ : Tde4Deformer F) (_name : String) : Bytes :=
  []

/-- deformer/tde4_classic.rs:362-364 `set_attr_str`. -/
def setStr (a : Tde4Deformer F) (_name : String) (_value : Bytes) : Tde4Deformer F :=
  a

/-- deformer/tde4_classic.rs:366-372 `get_attr_i32`. -/
def getI32 (a : Tde4Deformer F) (name : String) : Int :=
  match name with
  | "enable" => a.enable
  | "direction" => a.direction
  | _ => 0

/-- deformer/tde4_classic.rs:374-380 `set_attr_i32`. -/
def setI32 (a : Tde4Deformer F) (name : String) (value : Int) : Tde4Deformer F :=
  match name with
  | "enable" => { a with enable := value }
  | "direction" => { a with direction := value }
  | _ => a

/-- deformer/tde4_classic.rs:382-400 `get_attr_f32`. -/
def getF32 (a : Tde4Deformer F) (name : String) : F :=
  match name with
  | "focal_length" => a.focalLength
  | "film_back_width" => a.filmBackWidth
  | "film_back_height" => a.filmBackHeight
  | "pixel_aspect" => a.pixelAspect
  | "lens_center_offset_x" => a.lensCenterOffsetX
  | "lens_center_offset_y" => a.lensCenterOffsetY
  | "distortion" => a.distortion
  | "anamorphic_squeeze" => a.anamorphicSqueeze
  | "curvature_x" => a.curvatureX
  | "curvature_y" => a.curvatureY
  | "quartic_distortion" => a.quarticDistortion
  | _ => 0

/-- deformer/tde4_classic.rs:402-420 `set_attr_f32`. -/
def setF32 (a : Tde4Deformer F) (name : String) (value : F) : Tde4Deformer F :=
  match name with
  | "focal_length" => { a with focalLength := value }
  | "film_back_width" => { a with filmBackWidth := value }
  | "film_back_height" => { a with filmBackHeight := value }
  | "pixel_aspect" => { a with pixelAspect := value }
  | "lens_center_offset_x" => { a with lensCenterOffsetX := value }
  | "lens_center_offset_y" => { a with lensCenterOffsetY := value }
  | "distortion" => { a with distortion := value }
  | "anamorphic_squeeze" => { a with anamorphicSqueeze := value }
  | "curvature_x" => { a with curvatureX := value }
  | "curvature_y" => { a with curvatureY := value }
  | "quartic_distortion" => { a with quarticDistortion := value }
  | _ => a

end Tde4Deformer

/-- colorop/colorgrade.rs:38-86 `ColorOpGrade`. -/
structure GradeOp (F : Type) where
  enable : Int
  processR : Int
  processG : Int
  processB : Int
  processA : Int
  blackPointR : F
  blackPointG : F
  blackPointB : F
  blackPointA : F
  whitePointR : F
  whitePointG : F
  whitePointB : F
  whitePointA : F
  liftR : F
  liftG : F
  liftB : F
  liftA : F
  gainR : F
  gainG : F
  gainB : F
  gainA : F
  multiplyR : F
  multiplyG : F
  multiplyB : F
  multiplyA : F
  offsetR : F
  offsetG : F
  offsetB : F
  offsetA : F
  gammaR : F
  gammaG : F
  gammaB : F
  gammaA : F
  reverse : Int
  clampBlack : Int
  clampWhite : Int
  premult : Int
  mix : F

namespace GradeOp

variable {F : Type} [FloatLike F]

/-- colorop/colorgrade.rs:152-203 `default`. -/
def new : GradeOp F :=
  { enable := 1, processR := 1, processG := 1, processB := 1, processA := 0, blackPointR := 0,
    blackPointG := 0, blackPointB := 0, blackPointA := 0, whitePointR := 1, whitePointG := 1,
    whitePointB := 1, whitePointA := 1, liftR := 0, liftG := 0, liftB := 0, liftA := 0,
    gainR := 1, gainG := 1, gainB := 1, gainA := 1, multiplyR := 1, multiplyG := 1,
    multiplyB := 1, multiplyA := 1, offsetR := 0, offsetG := 0, offsetB := 0, offsetA := 0,
    gammaR := 1, gammaG := 1, gammaB := 1, gammaA := 1, reverse := 0, clampBlack := 1,
    clampWhite := 0, premult := 0, mix := 1 }

/-- colorop/colorgrade.rs:285-337 `attr_exists`. -/
def attrExists (_ : GradeOp F) (name : String) : AttrState :=
  match name with
  | "enable" => .exists
  | "process_r" => .exists
  | "process_g" => .exists
  | "process_b" => .exists
  | "process_a" => .exists
  | "black_point_r" => .exists
  | "black_point_g" => .exists
  | "black_point_b" => .exists
  | "black_point_a" => .exists
  | "white_point_r" => .exists
  | "white_point_g" => .exists
  | "white_point_b" => .exists
  | "white_point_a" => .exists
  | "lift_r" => .exists
  | "lift_g" => .exists
  | "lift_b" => .exists
  | "lift_a" => .exists
  | "gain_r" => .exists
  | "gain_g" => .exists
  | "gain_b" => .exists
  | "gain_a" => .exists
  | "multiply_r" => .exists
  | "multiply_g" => .exists
  | "multiply_b" => .exists
  | "multiply_a" => .exists
  | "offset_r" => .exists
  | "offset_g" => .exists
  | "offset_b" => .exists
  | "offset_a" => .exists
  | "gamma_r" => .exists
  | "gamma_g" => .exists
  | "gamma_b" => .exists
  | "gamma_a" => .exists
  | "reverse" => .exists
  | "clamp_black" => .exists
  | "clamp_white" => .exists
  | "premult" => .exists
  | "mix" => .exists
  | _ => .missing

/-- colorop/colorgrade.rs:339-341 `get_attr_str`. -/
def getStr (_ : GradeOp F) (_name : String) : Bytes :=
  []

/-- colorop/colorgrade.rs:343-345 `set_attr_str`. -/
def setStr (a : GradeOp F) (_name : String) (_value : Bytes) : GradeOp F :=
  a

/-- colorop/colorgrade.rs:347-363 `get_attr_i32`. -/
def getI32 (a : GradeOp F) (name : String) : Int :=
  match name with
  | "enable" => a.enable
  | "process_r" => a.processR
  | "process_g" => a.processG
  | "process_b" => a.processB
  | "process_a" => a.processA
  | "reverse" => a.reverse
  | "clamp_black" => a.clampBlack
  | "clamp_white" => a.clampWhite
  | "premult" => a.premult
  | _ => 0

/-- colorop/colorgrade.rs:365-381 `set_attr_i32`. -/
def setI32 (a : GradeOp F) (name : String) (value : Int) : GradeOp F :=
  match name with
  | "enable" => { a with enable := value }
  | "process_r" => { a with processR := value }
  | "process_g" => { a with processG := value }
  | "process_b" => { a with processB := value }
  | "process_a" => { a with processA := value }
  | "reverse" => { a with reverse := value }
  | "clamp_black" => { a with clampBlack := value }
  | "clamp_white" => { a with clampWhite := value }
  | "premult" => { a with premult := value }
  | _ => a

/-- colorop/colorgrade.rs:383-424 `get_attr_f32`. -/
def getF32 (a : GradeOp F) (name : String) : F :=
  match name with
  | "black_point_r" => a.blackPointR
  | "black_point_g" => a.blackPointG
  | "black_point_b" => a.blackPointB
  | "black_point_a" => a.blackPointA
  | "white_point_r" => a.whitePointR
  | "white_point_g" => a.whitePointG
  | "white_point_b" => a.whitePointB
  | "white_point_a" => a.whitePointA
  | "lift_r" => a.liftR
  | "lift_g" => a.liftG
  | "lift_b" => a.liftB
  | "lift_a" => a.liftA
  | "gain_r" => a.gainR
  | "gain_g" => a.gainG
  | "gain_b" => a.gainB
  | "gain_a" => a.gainA
  | "multiply_r" => a.multiplyR
  | "multiply_g" => a.multiplyG
  | "multiply_b" => a.multiplyB
  | "multiply_a" => a.multiplyA
  | "offset_r" => a.offsetR
  | "offset_g" => a.offsetG
  | "offset_b" => a.offsetB
  | "offset_a" => a.offsetA
  | "gamma_r" => a.gammaR
  | "gamma_g" => a.gammaG
  | "gamma_b" => a.gammaB
  | "gamma_a" => a.gammaA
  | "mix" => a.mix
  | _ => 0

/-- colorop/colorgrade.rs:426-467 `set_attr_f32`. -/
def setF32 (a : GradeOp F) (name : String) (value : F) : GradeOp F :=
  match name with
  | "black_point_r" => { a with blackPointR := value }
  | "black_point_g" => { a with blackPointG := value }
  | "black_point_b" => { a with blackPointB := value }
  | "black_point_a" => { a with blackPointA := value }
  | "white_point_r" => { a with whitePointR := value }
  | "white_point_g" => { a with whitePointG := value }
  | "white_point_b" => { a with whitePointB := value }
  | "white_point_a" => { a with whitePointA := value }
  | "lift_r" => { a with liftR := value }
  | "lift_g" => { a with liftG := value }
  | "lift_b" => { a with liftB := value }
  | "lift_a" => { a with liftA := value }
  | "gain_r" => { a with gainR := value }
  | "gain_g" => { a with gainG := value }
  | "gain_b" => { a with gainB := value }
  | "gain_a" => { a with gainA := value }
  | "multiply_r" => { a with multiplyR := value }
  | "multiply_g" => { a with multiplyG := value }
  | "multiply_b" => { a with multiplyB := value }
  | "multiply_a" => { a with multiplyA := value }
  | "offset_r" => { a with offsetR := value }
  | "offset_g" => { a with offsetG := value }
  | "offset_b" => { a with offsetB := value }
  | "offset_a" => { a with offsetA := value }
  | "gamma_r" => { a with gammaR := value }
  | "gamma_g" => { a with gammaG := value }
  | "gamma_b" => { a with gammaB := value }
  | "gamma_a" => { a with gammaA := value }
  | "mix" => { a with mix := value }
  | _ => a

end GradeOp

end OCG
