import Verif.Model.Float
/-
Independent notion of applying a function to every pixel of an interleaved buffer.
-/

namespace OCG.PixelSpec

/-- Pixel number `i` of a buffer with `n` values for each pixel. -/
def pixel {F : Type} (n : Nat) (buf : List F) (i : Nat) : List F := (buf.drop (i * n)).take n

/-- `out` is `buf` with `g` applied to every pixel; an incomplete last pixel stays. -/
structure Mapped {F : Type} (n : Nat) (g : List F → List F) (buf out : List F) : Prop where
  length : out.length = buf.length
  pixels : ∀ i, i < buf.length / n → pixel n out i = g (pixel n buf i)
  rest : out.drop (buf.length / n * n) = buf.drop (buf.length / n * n)

end OCG.PixelSpec
