import Verif.Model.Image
import Verif.Spec.Block
/-
What images with windows look like, and what cropping and merging should do.
-/

namespace OCG.ImageSpecs

open BlockSpec BBoxSpec

/-- The size of a block with `channels` channels that fills a window. -/
def sizeFor (window : BBox) (channels : Int) : BlockSize :=
  ⟨window.maxX - window.minX, window.maxY - window.minY, channels⟩

/-- The image holds floats, one for every channel of every pixel of its data window. -/
structure Filled {F H : Type} (image : Image F H) (channels : Int) (values : List F) : Prop where
  block : image.pixelBlock = floatImage (sizeFor image.dataWindow channels) values
  size : ValidSize (sizeFor image.dataWindow channels)
  length : (values.length : Int) = elements (sizeFor image.dataWindow channels)

/-- The value of channel `c` at position `(x, y)` of the plane: pixels outside the window, and
channels that are not stored, are zero. -/
def valueAt {F : Type} [Zero F] (window : BBox) (channels : Int) (values : List F)
    (x y c : Int) : F :=
  if Has window x y ∧ c < channels then
    (channelAt (sizeFor window channels) values (x - window.minX) (y - window.minY) c).getD 0
  else 0

/-- The merge formulas: `a` and `b` give the channels of the two pixels; channel 3 is alpha. -/
def blend {F : Type} [FloatLike F] : MergeImageMode → F → (Int → F) → (Int → F) → Int → F
  | .add, mix, a, b, c => a c + b c * mix
  | .over, mix, a, b, c => a c + b c * ((1 - a 3) * mix)
  | .multiply, mix, a, b, c => a c * (b c * mix)
  | .uninitialized, _, _, _, _ => 0

/-- `w` is the smallest window that covers both `a` and `b`. -/
def SmallestCover (a b w : BBox) : Prop :=
  (Inside a w ∧ Inside b w) ∧ ∀ w', Inside a w' → Inside b w' → Inside w w'

end OCG.ImageSpecs
