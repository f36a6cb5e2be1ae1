import Verif.Model.Float
import Verif.Model.Enums
/-
Model of src/math/xform.rs and of the 4x4 matrices it uses (nalgebra, external).
-/

namespace OCG

/-- nalgebra's `Matrix4<f32>` and cxxbridge.rs `Matrix4`: entry in row `i`, column `j`. -/
abbrev Mat4 (F : Type) := Fin 4 → Fin 4 → F

/-- cxxbridge.rs:512-523 `TransformationOrder`. -/
inductive TransformationOrder where
  | srt | trs | uninitialized
  deriving DecidableEq, Repr

/-- `std::f32::consts::PI`. -/
class FloatConst (F : Type) where
  pi : F

namespace Xform

variable {F : Type} [FloatLike F]

/-- nalgebra `Matrix4::new`: sixteen entries row by row (external). -/
def mk (a00 a01 a02 a03 a10 a11 a12 a13 a20 a21 a22 a23 a30 a31 a32 a33 : F) : Mat4 F :=
  fun i j => match i, j with
    | 0, 0 => a00 | 0, 1 => a01 | 0, 2 => a02 | 0, 3 => a03
    | 1, 0 => a10 | 1, 1 => a11 | 1, 2 => a12 | 1, 3 => a13
    | 2, 0 => a20 | 2, 1 => a21 | 2, 2 => a22 | 2, 3 => a23
    | 3, 0 => a30 | 3, 1 => a31 | 3, 2 => a32 | 3, 3 => a33

/-- nalgebra matrix product (external; the order of the additions is not specified by /repo,
which only matters for rounding). -/
def mul (a b : Mat4 F) : Mat4 F := fun i j =>
  a i 0 * b 0 j + a i 1 * b 1 j + a i 2 * b 2 j + a i 3 * b 3 j

/-- nalgebra `Point4::new` (external). -/
def vec (x y z w : F) : Fin 4 → F := fun i => match i with
  | 0 => x | 1 => y | 2 => z | 3 => w

/-- nalgebra product of a matrix and a `Point4` (external). -/
def mulVec (a : Mat4 F) (v : Fin 4 → F) : Fin 4 → F := fun i =>
  a i 0 * v 0 + a i 1 * v 1 + a i 2 * v 2 + a i 3 * v 3

/-- math/xform.rs:26-47 `create_translate_2d`. -/
def translate2d (tx ty : F) : Mat4 F :=
  mk 1 0 0 tx
     0 1 0 ty
     0 0 1 0
     0 0 0 1

/-- math/xform.rs:49-75 `create_rotate_2d`. -/
def rotate2d [FloatConst F] (cx cy degree : F) : Mat4 F :=
  let radian := degree * FloatConst.pi / FloatLike.ofInt 180
  let c := FloatLike.cos radian
  let s := FloatLike.sin radian
  mk c (-s) (cx * (1 - c) + cy * s) 0
     s c (cy * (1 - c) - cx * s) 0
     0 0 1 0
     0 0 0 1

/-- math/xform.rs:77-84 `create_scale_2d`. -/
def scale2d (sx sy : F) : Mat4 F :=
  mk sx 0 0 0
     0 sy 0 0
     0 0 1 0
     0 0 0 1

/-- math/xform.rs:86-105 `create_transform_2d`. -/
def transform2d [FloatConst F] (order : TransformationOrder)
    (tx ty rcx rcy degree sx sy : F) : Res (Mat4 F) :=
  let translate := translate2d tx ty
  let rotate := rotate2d rcx rcy degree
  let scale := scale2d sx sy
  match order with
  | .srt => .ok (mul (mul translate rotate) scale)
  | .trs => .ok (mul (mul scale rotate) translate)
  | .uninitialized => .error .explicit

end Xform
end OCG
