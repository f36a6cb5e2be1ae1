import Verif.Model.Brownian
/-
The settings of deformers and colour operations, and how setting and reading them should behave.
-/

namespace OCG.SettingsSpec

/-- The settings of an operation as they are seen from outside. -/
structure Block (A F : Type) where
  has : A → String → AttrState
  getI32 : A → String → Int
  setI32 : A → String → Int → A
  getF32 : A → String → F
  setF32 : A → String → F → A

/-- The whole numbers are called `ints`, the numbers are called `floats`; there are no others, they
are independent of each other, and nothing else belongs to the operation. -/
structure Keeps {A F : Type} [FloatLike F] (b : Block A F) (ints floats : List String) : Prop where
  has : ∀ a name, b.has a name = .exists ↔ name ∈ ints ∨ name ∈ floats
  distinct : ∀ name, ¬ (name ∈ ints ∧ name ∈ floats)
  int : ∀ a name v, name ∈ ints → b.getI32 (b.setI32 a name v) name = v
  float : ∀ a name v, name ∈ floats → b.getF32 (b.setF32 a name v) name = v
  noInt : ∀ a name v, name ∉ ints → b.setI32 a name v = a ∧ b.getI32 a name = 0
  noFloat : ∀ a name v, name ∉ floats → b.setF32 a name v = a ∧ b.getF32 a name = 0
  otherInt : ∀ a name v other, other ≠ name → b.getI32 (b.setI32 a name v) other = b.getI32 a other
  otherFloat : ∀ a name v other, other ≠ name →
    b.getF32 (b.setF32 a name v) other = b.getF32 a other
  intFloat : ∀ a name v other, b.getF32 (b.setI32 a name v) other = b.getF32 a other
  floatInt : ∀ a name v other, b.getI32 (b.setF32 a name v) other = b.getI32 a other
  all : ∀ a a', (∀ name, b.getI32 a name = b.getI32 a' name) →
    (∀ name, b.getF32 a name = b.getF32 a' name) → a = a'

variable {F : Type} [FloatLike F]

/-- The settings of the transform deformer. -/
def transform : Block (TransformDeformer F) F :=
  ⟨(·.attrExists), (·.getI32), (·.setI32), (·.getF32), (·.setF32)⟩

/-- The settings of the lens deformer. -/
def lens : Block (Tde4Deformer F) F :=
  ⟨(·.attrExists), (·.getI32), (·.setI32), (·.getF32), (·.setF32)⟩

/-- The settings of the grade. -/
def grade : Block (GradeOp F) F :=
  ⟨(·.attrExists), (·.getI32), (·.setI32), (·.getF32), (·.setF32)⟩

/-- The settings of the Brownian deformer. -/
def brownian : Block (BrownianDeformer F) F :=
  ⟨fun _ => BrownianDeformer.attrExists, (·.getI32), (·.setI32), (·.getF32), (·.setF32)⟩

/-- One name for each channel. -/
def channels (name : String) : List String :=
  [name ++ "_r", name ++ "_g", name ++ "_b", name ++ "_a"]

/-- The whole numbers of a grade. -/
def gradeInts : List String :=
  "enable" :: channels "process" ++ ["reverse", "clamp_black", "clamp_white", "premult"]

/-- The numbers of a grade. -/
def gradeFloats : List String :=
  channels "black_point" ++ channels "white_point" ++ channels "lift" ++ channels "gain" ++
    channels "multiply" ++ channels "offset" ++ channels "gamma" ++ ["mix"]

/-- The whole numbers of a transform deformer. -/
def transformInts : List String := ["enable", "invert"]

/-- The numbers of a transform deformer. -/
def transformFloats : List String :=
  ["translate_x", "translate_y", "rotate", "rotate_center_x", "rotate_center_y", "scale_x",
    "scale_y", "pivot_x", "pivot_y"]

/-- The whole numbers of a lens deformer. -/
def lensInts : List String := ["enable", "direction"]

/-- The numbers of a lens deformer. -/
def lensFloats : List String :=
  ["focal_length", "film_back_width", "film_back_height", "pixel_aspect", "lens_center_offset_x",
    "lens_center_offset_y", "distortion", "anamorphic_squeeze", "curvature_x", "curvature_y",
    "quartic_distortion"]

end OCG.SettingsSpec
