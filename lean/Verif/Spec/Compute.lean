import Verif.Model.Compute
import Verif.Spec.Attrs
/-
Independent specification for the results of single nodes.
-/

namespace OCG.ComputeSpec

variable {F H : Type} [FloatLike F]

/-- The same image, with the same pending operations: everything but the hash of the stream. -/
structure SameImage (s t : Stream F H) : Prop where
  state : s.state = t.state
  display : s.displayWindow = t.displayWindow
  data : s.dataWindow = t.dataWindow
  pixels : s.pixelBlock = t.pixelBlock
  spec : s.imageSpec = t.imageSpec
  matrix : s.colorMatrix = t.colorMatrix
  deformers : s.deformers = t.deformers
  ops : s.colorOps = t.colorOps

/-- The value of every attribute but `enable` that the node has. -/
structure Describes (n : Node F) (getI32 : String → Int) (getF32 : String → F) : Prop where
  ints : ∀ name ∈ AttrSpec.names n.attrs.nodeType .i32, name ≠ "enable" →
    getI32 name = n.getI32 name
  reals : ∀ name ∈ AttrSpec.names n.attrs.nodeType .f32, getF32 name = n.getF32 name

/-- The camera of a lens model: a lens node has no attributes for it, so it is always a focal length of
3, a film back of 3.6 by 2.4 (centimetres) and square pixels. -/
structure StandardCamera (getF32 : String → F) : Prop where
  focal : getF32 "focal_length" = FloatLike.ofInt 3
  width : getF32 "film_back_width" = FloatLike.ofInt 36 / FloatLike.ofInt 10
  height : getF32 "film_back_height" = FloatLike.ofInt 24 / FloatLike.ofInt 10
  aspect : getF32 "pixel_aspect" = 1

/-- A grade that is switched on for at least one channel. -/
def Grades (n : Node F) : Prop :=
  n.getI32 "enable" = 1 ∧ (n.getI32 "process_r" ≠ 0 ∨ n.getI32 "process_g" ≠ 0 ∨
    n.getI32 "process_b" ≠ 0 ∨ n.getI32 "process_a" ≠ 0)

instance (n : Node F) : Decidable (Grades n) := by unfold Grades; infer_instance

/-- What may remain to be done after baking with an option: everything not applied to the pixels.
Only an untouched image keeps its windows and colour space for certain. -/
def Remaining (option : BakeOption) (b r : Baked F H) (dst : Bytes) : Prop :=
  match option with
  | .nothing => r = b
  | .colorSpace => r.stream = b.stream ∧ r.dataWindow = b.dataWindow
  | .colorSpaceAndGrade =>
    r.stream = { b.stream with colorMatrix := Mat4.identity, colorOps := [] } ∧
    r.dataWindow = b.dataWindow ∧ r.spec.colorSpace = dst
  | .all => r.stream =
      { b.stream with colorMatrix := Mat4.identity, colorOps := [], deformers := [] } ∧
    r.spec.colorSpace = dst
  | .uninitialized => False

end OCG.ComputeSpec
