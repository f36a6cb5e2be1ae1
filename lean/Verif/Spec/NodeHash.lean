import Verif.Spec.Attrs
import Verif.Model.NodeHash
/-
Independent specification of what the hash of a node must cover: for each node type, the
attributes that its result depends on, given by name and read through the getters.
-/

namespace OCG.HashSpec

open AttrSpec

variable {F : Type} [FloatLike F]

/-- The seven values of one channel of a grade. -/
def gradeChannel (c : String) : List String :=
  ["black_point_" ++ c, "white_point_" ++ c, "lift_" ++ c, "gain_" ++ c, "multiply_" ++ c,
    "offset_" ++ c, "gamma_" ++ c]

/-- The integer attributes that the result of a node depends on. -/
def relevantI32 (n : Node F) : List String :=
  match n.attrs.nodeType with
  | .null => []
  | .readImage => ["enable"]
  | .writeImage => ["enable"]
  | .grade =>
    if n.getI32 "enable" = 0 then ["enable"]
    else ["enable", "process_r", "process_g", "process_b", "process_a"] ++
      (if n.getI32 "process_r" = 0 ∧ n.getI32 "process_g" = 0 ∧ n.getI32 "process_b" = 0 ∧
          n.getI32 "process_a" = 0 then []
       else ["reverse", "clamp_black", "clamp_white", "premult"])
  | .lensDistort => if n.getI32 "enable" = 0 then ["enable"] else ["enable", "direction"]
  | .transform => if n.getI32 "enable" = 0 then ["enable"] else ["enable", "invert"]
  | .mergeImage => if n.getI32 "enable" = 1 then ["enable", "mode"] else ["enable"]
  | .cropImage =>
    if n.getI32 "enable" = 0 then ["enable"]
    else ["enable", "window_min_x", "window_min_y", "window_max_x", "window_max_y", "reformat",
      "black_outside", "intersect"]
  | .viewer =>
    if n.getI32 "enable" = 0 then ["enable"]
    else if n.getI32 "bake_option" = 0 then ["enable", "bake_option"]
    else ["enable", "bake_option", "crop_to_format", "bake_pixel_data_type"]
  | .resampleImage =>
    if n.getI32 "enable" = 1 then
      (if n.getI32 "factor" = 0 then ["enable", "factor"] else ["enable", "factor", "interpolate"])
    else ["enable"]

/-- The real attributes that the result of a node depends on. -/
def relevantF32 (n : Node F) : List String :=
  match n.attrs.nodeType with
  | .grade =>
    if n.getI32 "enable" = 0 then []
    else
      (if n.getI32 "process_r" = 0 then [] else gradeChannel "r") ++
      (if n.getI32 "process_g" = 0 then [] else gradeChannel "g") ++
      (if n.getI32 "process_b" = 0 then [] else gradeChannel "b") ++
      (if n.getI32 "process_a" = 0 then [] else gradeChannel "a") ++
      (if n.getI32 "process_r" = 0 ∧ n.getI32 "process_g" = 0 ∧ n.getI32 "process_b" = 0 ∧
          n.getI32 "process_a" = 0 then []
       else ["mix"])
  | .lensDistort =>
    if n.getI32 "enable" = 0 then []
    else ["lens_center_offset_x", "lens_center_offset_y", "distortion", "anamorphic_squeeze",
      "curvature_x", "curvature_y", "quartic_distortion"]
  | .transform =>
    if n.getI32 "enable" = 0 then []
    else ["translate_x", "translate_y", "rotate", "rotate_center_x", "rotate_center_y", "scale_x",
      "scale_y", "pivot_x", "pivot_y"]
  | .mergeImage => if n.getI32 "enable" = 1 then ["mix"] else []
  | _ => []

/-- The text attributes that the result of a node depends on, except file paths. -/
def relevantStr (n : Node F) : List String :=
  match n.attrs.nodeType with
  | .viewer =>
    if n.getI32 "enable" = 0 then []
    else if n.getI32 "bake_option" = 0 then []
    else ["bake_color_space"]
  | _ => []

/-- The node reads or writes a file. -/
def UsesFile (n : Node F) : Prop :=
  (n.attrs.nodeType = .readImage ∨ n.attrs.nodeType = .writeImage) ∧ n.getI32 "enable" ≠ 0

/-- The file that the node refers to for a frame. -/
def path (shell : Bytes → Option Bytes) (n : Node F) (frame : F) : Bytes :=
  Path.expandString shell (n.getStr "file_path") (frameNum frame)

/-- The attributes hold values of their types (32 bit integers and texts; 255 is not a byte of
any UTF-8 text). -/
def Typed (n : Node F) : Prop :=
  (∀ name, InI32 (n.getI32 name)) ∧ (∀ name, ∀ b ∈ n.getStr name, b < 255)

/-- Everything that the result of a node depends on, for a frame and input hashes, is the same
for two nodes. -/
structure SameWork (shell : Bytes → Option Bytes) (n n' : Node F) (frame frame' : F)
    (inputs inputs' : List Nat) : Prop where
  type : n.attrs.nodeType = n'.attrs.nodeType
  ints : ∀ name ∈ relevantI32 n, n.getI32 name = n'.getI32 name
  reals : ∀ name ∈ relevantF32 n, n.getF32 name = n'.getF32 name
  texts : ∀ name ∈ relevantStr n, n.getStr name = n'.getStr name
  file : UsesFile n → path shell n frame = path shell n' frame'
  inputs : inputs = inputs'

end OCG.HashSpec
