import Verif.Model.Node
/-
Independent specification of the attributes of the nodes: for each node type the attributes it
has, by the kind of their values.  (These are the public fields of the attribute structures.)
-/

namespace OCG.AttrSpec

/-- Kinds of attribute values. -/
inductive Kind where
  | str | i32 | f32
  deriving DecidableEq, Repr

/-- The attributes of each node type. -/
def names : NodeType → Kind → List String
  | .readImage, .str => [
    "file_path"]
  | .readImage, .i32 => [
    "enable", "use_cache"]
  | .writeImage, .str => [
    "file_path"]
  | .writeImage, .i32 => [
    "enable", "execute", "crop_on_write", "pixel_data_type", "exr_compression",
    "exr_dwa_compression_level", "png_compression_level", "jpeg_compression_level",
    "jpeg_subsampling", "jpeg_progressive"]
  | .grade, .i32 => [
    "enable", "process_r", "process_g", "process_b", "process_a", "reverse", "clamp_black",
    "clamp_white", "premult"]
  | .grade, .f32 => [
    "black_point_r", "black_point_g", "black_point_b", "black_point_a", "white_point_r",
    "white_point_g", "white_point_b", "white_point_a", "lift_r", "lift_g", "lift_b", "lift_a",
    "gain_r", "gain_g", "gain_b", "gain_a", "multiply_r", "multiply_g", "multiply_b",
    "multiply_a", "offset_r", "offset_g", "offset_b", "offset_a", "gamma_r", "gamma_g",
    "gamma_b", "gamma_a", "mix"]
  | .lensDistort, .i32 => [
    "enable", "direction"]
  | .lensDistort, .f32 => [
    "lens_center_offset_x", "lens_center_offset_y", "distortion", "anamorphic_squeeze",
    "curvature_x", "curvature_y", "quartic_distortion"]
  | .transform, .i32 => [
    "enable", "invert"]
  | .transform, .f32 => [
    "translate_x", "translate_y", "rotate", "rotate_center_x", "rotate_center_y", "scale_x",
    "scale_y", "pivot_x", "pivot_y"]
  | .mergeImage, .i32 => [
    "enable", "use_cache", "mode"]
  | .mergeImage, .f32 => [
    "mix"]
  | .cropImage, .i32 => [
    "enable", "use_cache", "window_min_x", "window_min_y", "window_max_x", "window_max_y",
    "reformat", "black_outside", "intersect"]
  | .viewer, .str => [
    "bake_color_space"]
  | .viewer, .i32 => [
    "enable", "use_cache", "bake_option", "bake_pixel_data_type", "crop_to_format"]
  | .resampleImage, .i32 => [
    "enable", "use_cache", "factor", "interpolate"]
  | _, _ => []

/-- A value of some kind. -/
inductive Value (F : Type) where
  | str (s : Bytes)
  | i32 (n : Int)
  | f32 (x : F)

/-- The kind of a value. -/
def Value.kind {F : Type} : Value F → Kind
  | .str _ => .str
  | .i32 _ => .i32
  | .f32 _ => .f32

variable {F S : Type} [FloatLike F]

/-- The typed setter for the kind of the value. -/
def set (g : Graph (Node F) S) (id : Nat) (name : String) : Value F → Res (Graph (Node F) S)
  | .str s => g.setNodeStr id name s
  | .i32 n => g.setNodeI32 id name n
  | .f32 x => g.setNodeF32 id name x

/-- The typed getter of a kind. -/
def get (g : Graph (Node F) S) (id : Nat) (name : String) : Kind → Res (Value F)
  | .str => (g.getNodeStr id name).map .str
  | .i32 => (g.getNodeI32 id name).map .i32
  | .f32 => (g.getNodeF32 id name).map .f32

/-- The setter and the getter of a kind work together on an attribute of a node. -/
def Supports (n : Node F) (name : String) : Kind → Prop
  | .str => ∀ v, (n.setStr name v).getStr name = v
  | .i32 => ∀ v, (n.setI32 name v).getI32 name = v
  | .f32 => ∀ v, (n.setF32 name v).getF32 name = v

end OCG.AttrSpec
