import Verif.Model.Xform
import Verif.Model.Hash
/-
Model of src/data/matrix.rs, src/data/vector4f32.rs and src/data/vector4i32.rs: the matrices and
vectors handed to C++.
-/

namespace OCG

/-- cxxbridge.rs:94-117 `Matrix4`. -/
structure Matrix4 (F : Type) where
  m00 : F
  m01 : F
  m02 : F
  m03 : F
  m10 : F
  m11 : F
  m12 : F
  m13 : F
  m20 : F
  m21 : F
  m22 : F
  m23 : F
  m30 : F
  m31 : F
  m32 : F
  m33 : F
  deriving DecidableEq

namespace Matrix4

variable {F : Type} [FloatLike F]

/-- data/matrix.rs:29-51 `from_diagonal`. -/
def fromDiagonal (x y z w : F) : Matrix4 F :=
  ⟨x, 0, 0, 0, 0, y, 0, 0, 0, 0, z, 0, 0, 0, 0, w⟩

/-- data/matrix.rs:53-75 `identity`. -/
def identity : Matrix4 F := ⟨1, 0, 0, 0, 0, 1, 0, 0, 0, 0, 1, 0, 0, 0, 0, 1⟩

/-- data/matrix.rs:77-84 `to_na_matrix`. -/
def toNa (m : Matrix4 F) : Mat4 F :=
  Xform.mk m.m00 m.m01 m.m02 m.m03 m.m10 m.m11 m.m12 m.m13 m.m20 m.m21 m.m22 m.m23
    m.m30 m.m31 m.m32 m.m33

/-- data/matrix.rs:86-108 `from_na_matrix`. -/
def fromNa (v : Mat4 F) : Matrix4 F :=
  { m00 := v 0 0, m01 := v 0 1, m02 := v 0 2, m03 := v 0 3
    m10 := v 1 0, m11 := v 1 1, m12 := v 1 2, m13 := v 1 3
    m20 := v 2 0, m21 := v 2 1, m22 := v 2 2, m23 := v 2 3
    m30 := v 3 0, m31 := v 3 1, m32 := v 3 2, m33 := v 3 3 }

/-- data/matrix.rs:111-133 `Hash`. -/
def hashItems [FloatBits F] (m : Matrix4 F) : List HashItem :=
  hashFloat m.m00 ++ hashFloat m.m01 ++ hashFloat m.m02 ++ hashFloat m.m03 ++
  hashFloat m.m10 ++ hashFloat m.m11 ++ hashFloat m.m12 ++ hashFloat m.m13 ++
  hashFloat m.m20 ++ hashFloat m.m21 ++ hashFloat m.m22 ++ hashFloat m.m23 ++
  hashFloat m.m30 ++ hashFloat m.m31 ++ hashFloat m.m32 ++ hashFloat m.m33

end Matrix4

/-- cxxbridge.rs:75-92 `Vector4f32` and `Vector4i32`. -/
structure Vector4 (A : Type) where
  x : A
  y : A
  z : A
  w : A
  deriving DecidableEq

namespace Vector4

/-- data/vector4f32.rs:33-40 and data/vector4i32.rs:31-38 `identity`. -/
def identity {A : Type} [Zero A] : Vector4 A := ⟨0, 0, 0, 0⟩

/-- data/vector4f32.rs:42-44 and data/vector4i32.rs:40-42 `to_na_vector`. -/
def toNa {A : Type} (v : Vector4 A) : Fin 4 → A := fun i => match i with
  | 0 => v.x | 1 => v.y | 2 => v.z | 3 => v.w

/-- data/vector4f32.rs:46-53 and data/vector4i32.rs:44-51 `from_na_vector`. -/
def fromNa {A : Type} (v : Fin 4 → A) : Vector4 A := ⟨v 0, v 1, v 2, v 3⟩

/-- data/vector4f32.rs:56-63 `Hash`. -/
def hashItems {F : Type} [FloatLike F] [FloatBits F] (v : Vector4 F) : List HashItem :=
  hashFloat v.x ++ hashFloat v.y ++ hashFloat v.z ++ hashFloat v.w

end Vector4
end OCG
