import Verif.Model.PixelBlock
import Verif.Spec.BBox
/-
Independent specification of pixel blocks.
-/

namespace OCG.BlockSpec

/-- A block size that can be stored: positive extents and an element count that fits `i32`
(the type in which the code computes it). -/
def ValidSize (b : BlockSize) : Prop :=
  0 < b.width ∧ 0 < b.height ∧ 0 < b.numChannels ∧
    b.width * b.height * b.numChannels ≤ 2147483647

/-- `(x, y)` is a pixel of the block. -/
def InBlock (b : BlockSize) (x y : Int) : Prop :=
  0 ≤ x ∧ x < b.width ∧ 0 ≤ y ∧ y < b.height

/-- The number of elements of the block. -/
def elements (b : BlockSize) : Int := b.width * b.height * b.numChannels

/-- Channel `c` of pixel `(x, y)` of a row-major buffer with interleaved channels. -/
def channelAt {α : Type} (b : BlockSize) (data : List α) (x y c : Int) : Option α :=
  data[((y * b.width + x) * b.numChannels + c).toNat]?

/-- The image of 32-bit floats with the given size and values. -/
def floatImage {F H : Type} (size : BlockSize) (values : List F) : PixelBlock F H :=
  { size := size, block := { dtype := .f32, data := values } }

/-- The buffer of a block has exactly one element per pixel and channel. -/
def WellFormed {F H : Type} (b : PixelBlock F H) : Prop :=
  ValidSize b.size ∧ (b.block.data.length : Int) = elements b.size

end OCG.BlockSpec
