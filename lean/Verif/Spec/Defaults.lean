import Verif.Spec.Attrs
/-
The settings of new nodes.
-/

namespace OCG.DefaultSpec

open AttrSpec

/-- A setting of a new node: a whole number, a fraction, or a name. -/
inductive Setting where
  | whole (n : Int)
  | ratio (a b : Int)
  | name (s : Bytes)

/-- The settings of new nodes that are not 0 or empty.  Nodes are switched on and use the cache.
Writing is switched on, crops the picture as the kind of file needs it (2), keeps the type of the
pixels (255) and compresses as usual.  A grade works on red, green and blue, keeps values above 0, and
like merges and transforms has its factors at 1.  Merges lay the first picture over the second one
(1).  Viewers bake half floats (1) in linear light. -/
def special : NodeType → List (String × Setting)
  | .null => []
  | .readImage => [("enable", .whole 1), ("use_cache", .whole 1)]
  | .writeImage => [("enable", .whole 1), ("execute", .whole 1), ("crop_on_write", .whole 2),
      ("pixel_data_type", .whole 255), ("exr_dwa_compression_level", .whole 45),
      ("png_compression_level", .whole 6), ("jpeg_compression_level", .whole 90)]
  | .grade => [("enable", .whole 1), ("process_r", .whole 1), ("process_g", .whole 1),
      ("process_b", .whole 1), ("clamp_black", .whole 1),
      ("white_point_r", .ratio 1 1), ("white_point_g", .ratio 1 1), ("white_point_b", .ratio 1 1),
      ("white_point_a", .ratio 1 1), ("gain_r", .ratio 1 1), ("gain_g", .ratio 1 1),
      ("gain_b", .ratio 1 1), ("gain_a", .ratio 1 1), ("multiply_r", .ratio 1 1),
      ("multiply_g", .ratio 1 1), ("multiply_b", .ratio 1 1), ("multiply_a", .ratio 1 1),
      ("gamma_r", .ratio 1 1), ("gamma_g", .ratio 1 1), ("gamma_b", .ratio 1 1),
      ("gamma_a", .ratio 1 1), ("mix", .ratio 1 1)]
  | .lensDistort => [("enable", .whole 1), ("anamorphic_squeeze", .ratio 1 1)]
  | .transform => [("enable", .whole 1), ("scale_x", .ratio 1 1), ("scale_y", .ratio 1 1),
      ("pivot_x", .ratio 1 2), ("pivot_y", .ratio 1 2)]
  | .mergeImage => [("enable", .whole 1), ("use_cache", .whole 1), ("mode", .whole 1),
      ("mix", .ratio 1 1)]
  | .cropImage => [("enable", .whole 1), ("use_cache", .whole 1)]
  | .viewer => [("enable", .whole 1), ("use_cache", .whole 1), ("bake_pixel_data_type", .whole 1),
      ("bake_color_space", .name [76, 105, 110, 101, 97, 114])]
  | .resampleImage => [("enable", .whole 1), ("use_cache", .whole 1)]

variable {F : Type} [FloatLike F]

/-- A setting as a value of a kind; 0 or empty if nothing else is said. -/
def value : Kind → Option Setting → Value F
  | .str, some (.name s) => .str s
  | .str, _ => .str []
  | .i32, some (.whole n) => .i32 n
  | .i32, _ => .i32 0
  | .f32, some (.ratio a b) => .f32 (if b = 1 then (if a = 1 then 1 else FloatLike.ofInt a)
      else (if a = 1 then 1 else FloatLike.ofInt a) / FloatLike.ofInt b)
  | .f32, _ => .f32 0

/-- The value an attribute of a new node has. -/
def defaultOf (t : NodeType) (name : String) (k : Kind) : Value F :=
  value k ((special t).lookup name)

end OCG.DefaultSpec
