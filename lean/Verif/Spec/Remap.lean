import Verif.Spec.Block
import Verif.Spec.Field
/-
What sampling an image at a list of positions should do.
-/

namespace OCG.RemapSpec

/-- Every channel of pixel `(x, y)` of `out` is that channel of pixel `(sx, sy)` of `src`. -/
def CopiesPixel {F : Type} (outSize : BlockSize) (out : List F) (srcSize : BlockSize)
    (src : List F) (x y sx sy : Int) : Prop :=
  ∀ c, 0 ≤ c → c < outSize.numChannels →
    ∃ v, BlockSpec.channelAt outSize out x y c = some v ∧
      BlockSpec.channelAt srcSize src sx sy c = some v

section
variable {F : Type} [Field F] [LinearOrder F]

/-- `k` is the pixel among `0 .. size - 1` whose position is nearest to `x`. -/
def Nearest (size : Int) (x : F) (k : Int) : Prop :=
  0 ≤ k ∧ k < size ∧ ∀ j, 0 ≤ j → j < size → |x - (k : F)| ≤ |x - (j : F)|

/-- The coordinate `x` of the display window in the source: the two ends of the display
window correspond to `first` and `last`. -/
def position (dispMin dispMax first last : Int) (x : F) : F :=
  first + (x - dispMin) * (last - first) / (dispMax - dispMin)

/-- Rounding an exact number and casting it to `i32` gives the nearest `i32`. -/
class RoundLaws (F : Type) [Field F] [LinearOrder F] [FloatOps F] : Prop where
  range : ∀ x : F, InI32 (FloatOps.toI32 (FloatOps.round x))
  nearest : ∀ (x : F) (k : Int), InI32 k →
    |x - (FloatOps.toI32 (FloatOps.round x) : F)| ≤ |x - (k : F)|

end

end OCG.RemapSpec
