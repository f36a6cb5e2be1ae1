import Verif.Model.Compute
/-
When a file can be read, and what it looks like when there is no picture.
-/

namespace OCG.ReadSpec

variable {F H : Type}

/-- OpenImageIO opens the file and finds at least the three channels red, green and blue. -/
def Readable (oiio : Oiio F H) (path : Bytes) : Prop :=
  ∃ spec, oiio.header path = some spec ∧ 3 ≤ spec.numChannels

/-- The stream holds no pixel at all. -/
structure NoPixels (s : Stream F H) : Prop where
  dataWindow : s.dataWindow = ⟨0, 0, 0, 0⟩
  displayWindow : s.displayWindow = ⟨0, 0, 0, 0⟩
  width : s.pixelBlock.size.width = 0
  height : s.pixelBlock.size.height = 0
  channels : s.pixelBlock.size.numChannels = 0
  data : s.pixelBlock.block.data = []

end OCG.ReadSpec
