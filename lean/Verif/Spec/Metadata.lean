import Verif.Model.Compute
/-
What users expect of the metadata of a picture: it describes the picture as a whole and stays with
it.  (The colour space is apart, because nodes convert colours.)
-/

namespace OCG.MetadataSpec

/-- What is told about a picture besides its colour space. -/
structure Metadata (F : Type) where
  gamma : F
  pixelAspect : F
  orientation : ImageOrientation
  unassociatedAlpha : Bool
  dither : Int
  deriving DecidableEq

section
variable {F H : Type}

/-- The metadata of an image specification. -/
def metadata (s : ImageSpec F) : Metadata F :=
  ⟨s.gamma, s.pixelAspect, s.orientation, s.unassociatedAlpha, s.dither⟩

/-- The metadata in the header of a file. -/
def ofFile (s : FileSpec F) : Metadata F :=
  ⟨s.gamma, s.pixelAspect, ImageOrientation.ofI32 s.orientation, s.unassociatedAlpha ≠ 0, s.dither⟩

variable [FloatLike F]

/-- Nothing special: gamma and pixel aspect 1, upright, associated alpha and no dither. -/
def plain : Metadata F := ⟨1, 1, .normal, false, 0⟩

/-- Metadata that was not made up: it is plain or that of a file. -/
def Known (oiio : Oiio F H) (m : Metadata F) : Prop :=
  m = plain ∨ ∃ path spec, oiio.header path = some spec ∧ m = ofFile spec

end
end OCG.MetadataSpec
