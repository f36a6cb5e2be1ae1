import Verif.Model.Xform
import Verif.Model.Interp
import Verif.Model.Hash
import Verif.Model.BBox
import Verif.Model.Loop
/-
Model of src/bbox/bbox2df.rs and src/deformer/transform.rs.
-/

namespace OCG

/-- bbox2df.rs:28-36 `BBox2Df`. -/
structure BBoxF (F : Type) where
  minX : F
  minY : F
  maxX : F
  maxY : F

/-- bbox2df.rs:56-65 `From<BBox2Di> for BBox2Df`. -/
def BBoxF.ofBBox {F : Type} [FloatLike F] (b : BBox) : BBoxF F :=
  { minX := FloatLike.ofInt b.minX, minY := FloatLike.ofInt b.minY,
    maxX := FloatLike.ofInt b.maxX, maxY := FloatLike.ofInt b.maxY }

/-- deformer/transform.rs:39-52 `DeformerTransform`. -/
structure TransformDeformer (F : Type) where
  enable : Int
  invert : Int
  translateX : F
  translateY : F
  rotate : F
  rotateCenterX : F
  rotateCenterY : F
  scaleX : F
  scaleY : F
  pivotX : F
  pivotY : F

namespace TransformDeformer

variable {F : Type} [FloatLike F]

/-- deformer/transform.rs:74-90 `Default`. -/
def default : TransformDeformer F :=
  { enable := 1, invert := 0, translateX := 0, translateY := 0, rotate := 0,
    rotateCenterX := 0, rotateCenterY := 0, scaleX := 1, scaleY := 1,
    pivotX := 1 / FloatLike.ofInt 2, pivotY := 1 / FloatLike.ofInt 2 }

/-- deformer/transform.rs:54-72 `Hash`. -/
def hashItems [FloatBits F] (d : TransformDeformer F) : List HashItem :=
  if d.enable = 0 then [.i32 d.enable]
  else [.i32 d.enable, .i32 d.invert] ++ hashFloat d.translateX ++ hashFloat d.translateY ++
    hashFloat d.rotate ++ hashFloat d.rotateCenterX ++ hashFloat d.rotateCenterY ++
    hashFloat d.scaleX ++ hashFloat d.scaleY ++ hashFloat d.pivotX ++ hashFloat d.pivotY

/-- deformer/transform.rs:93-140 `_apply`; `tryInverse` is nalgebra's
`Matrix4::try_inverse` (external). -/
def apply [FloatConst F] (tryInverse : Mat4 F → Option (Mat4 F)) (d : TransformDeformer F)
    (xd yd : F) (window : BBoxF F) (inverse : Bool) : Res (F × F) := do
  let tx := Interp.inverseLerp window.minX window.maxX d.translateX
  let ty := Interp.inverseLerp window.minX window.maxX d.translateY
  let m ← Xform.transform2d .srt tx ty d.rotateCenterX d.rotateCenterY d.rotate d.scaleX d.scaleY
  let doInvert := if inverse = false then decide (d.invert > 0) else decide (d.invert = 0)
  let m := if doInvert then (match tryInverse m with | some v => v | none => m) else m
  let r := Xform.mulVec m (Xform.vec (xd - d.pivotX) (yd - d.pivotY) 0 1)
  .ok (r 0 + d.pivotX, r 1 + d.pivotY)

end TransformDeformer
end OCG
