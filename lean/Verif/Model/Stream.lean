import Verif.Model.Image
import Verif.Model.Deform
import Verif.Model.ColorOps
import Verif.Model.NodeHash
/-
Model of src/stream.rs: the data handed from node to node.  Reference counting is not modelled;
`StreamDataImplRc` (stream.rs:247-361) only wraps the value.
-/

namespace OCG

/-- cxxbridge.rs:312-319 `StreamDataState`. -/
inductive StreamState where
  | invalid
  | valid
  deriving DecidableEq, Repr, Inhabited

/-- stream.rs:42-53 `StreamDataImpl`. -/
structure Stream (F H : Type) where
  state : StreamState
  hash : Nat
  displayWindow : BBox
  dataWindow : BBox
  colorMatrix : Mat4 F
  imageSpec : ImageSpec F
  pixelBlock : PixelBlock F H
  deformers : List (Deformer F)
  colorOps : List (GradeOp F)

section
variable {F H : Type} [FloatLike F]

/-- data.rs:76-97 `COLOR_BARS`; 0.9215 and 0.0627 are written as quotients. -/
def colorBars : List F :=
  let o : F := FloatLike.ofInt 9215 / FloatLike.ofInt 10000
  let z : F := FloatLike.ofInt 627 / FloatLike.ofInt 10000
  [o, o, o,  o, o, z,  z, o, o,  z, o, z,
   o, o, o,  o, o, z,  z, o, o,  z, o, z,
   o, z, o,  o, z, z,  z, z, o,  z, z, z,
   o, z, o,  o, z, z,  z, z, o,  z, z, z]

/-- pixelblock/pixelblock.rs:87-99 `new_color_bars`. -/
def PixelBlock.colorBars : PixelBlock F H := ⟨⟨4, 4, 3⟩, ⟨.f32, OCG.colorBars (F := F)⟩⟩

/-- data/matrix.rs:53-76 `Matrix4::identity`. -/
def Mat4.identity : Mat4 F :=
  Xform.mk 1 0 0 0
           0 1 0 0
           0 0 1 0
           0 0 0 1

namespace Stream

/-- stream.rs:56-82 `new`. -/
def new : Stream F H :=
  { state := .invalid, hash := 0, displayWindow := ⟨0, 0, 4, 4⟩, dataWindow := ⟨0, 0, 4, 4⟩,
    colorMatrix := Mat4.identity, imageSpec := ImageSpec.new, pixelBlock := PixelBlock.colorBars,
    deformers := [], colorOps := [] }

/-- stream.rs:163-165 `push_deformer`. -/
def pushDeformer (s : Stream F H) (d : Deformer F) : Stream F H :=
  { s with deformers := s.deformers ++ [d] }

/-- stream.rs:188-190 `push_color_op`. -/
def pushColorOp (s : Stream F H) (op : GradeOp F) : Stream F H :=
  { s with colorOps := s.colorOps ++ [op] }

end Stream

/-- colorop.rs:75-81 `color_ops_hash` with colorop.rs:55-62 and
colorop/colorgrade.rs:207-211 `hash_color_op`: the hash of the hashes of the operations.  The two
hash functions are `DefaultHasher`. -/
def colorOpsHash [FloatBits F] (hf : ByteHash) (ops : List (GradeOp F)) : Nat :=
  hf (ops.flatMap fun op => HashItem.toBytes (.u64 (hf (hashBytes op.hashItems))))

end
end OCG
