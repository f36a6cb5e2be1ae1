import Verif.Spec.Resample
/-
What a picture looks like after it was resampled with interpolation.
-/

namespace OCG.PictureSpec

open BlockSpec BBoxSpec ImageSpecs OiioSpec ColorSpec

variable {F H : Type} [FloatLike F]

/-- How pixels are blended: from the number of channels, the old and the new width and height, and
the old pixels (counted from zero), the pixel at a place of the new image. -/
abbrev Blend (F : Type) :=
  Nat → Int → Int → Int → Int → (Int → Int → List F) → Int → Int → List F

/-- OpenImageIO resamples float images with interpolation by `blend`, which looks at pixels of the
image only; and this succeeds. -/
structure Blends (oiio : Oiio F H) (blend : Blend F) : Prop where
  inside : ∀ n w h w' h' (f g : Int → Int → List F), 0 < w → 0 < h →
    (∀ i j, 0 ≤ i → i < w → 0 ≤ j → j < h → f i j = g i j) →
    ∀ x y, 0 ≤ x → x < w' → 0 ≤ y → y < h' → blend n w h w' h' f x y = blend n w h w' h' g x y
  pixels : ∀ (w h w' h' : Int) (n : Nat) (data old : List F),
    ValidSize ⟨w, h, n⟩ → (data.length : Int) = elements ⟨w, h, n⟩ →
    ValidSize ⟨w', h', n⟩ → (old.length : Int) = elements ⟨w', h', n⟩ →
    (oiio.resample ⟨w, h, n⟩ ⟨.f32, data⟩ true w' h' .f32 old).1 = true ∧
    ∀ x y, 0 ≤ x → x < w' → 0 ≤ y → y < h' →
      pixelAt ⟨0, 0, w', h'⟩ n (oiio.resample ⟨w, h, n⟩ ⟨.f32, data⟩ true w' h' .f32 old).2 x y =
        blend n w h w' h' (pixelAt ⟨0, 0, w, h⟩ n data) x y

/-- `Q` is `P` resampled by `2 ^ factor`: a picture at the origin with the new size, its pixels
blended from those of `P`. -/
structure IsInterpolated (blend : Blend F) (factor : Int) (P Q : Picture F) : Prop where
  origin : Q.data.minX = 0 ∧ Q.data.minY = 0
  width : ScaledTo (P.data.maxX - P.data.minX) factor Q.data.maxX
  height : ScaledTo (P.data.maxY - P.data.minY) factor Q.data.maxY
  display : Q.display = Q.data
  channels : Q.channels = P.channels
  space : Q.space = P.space
  pixels : ∀ x y, Has Q.data x y → Q.at_ x y =
    blend P.channels (P.data.maxX - P.data.minX) (P.data.maxY - P.data.minY) Q.data.maxX Q.data.maxY
      (fun i j => P.at_ (P.data.minX + i) (P.data.minY + j)) x y

/-- Colours can be carried out before or after blending. -/
def Fair (blend : Blend F) (n : Nat) (m : Mat4 F) (ops : List (GradeOp F)) : Prop :=
  ∀ w h w' h' (f g : Int → Int → List F), 0 < w → 0 < h →
    (∀ i j, 0 ≤ i → i < w → 0 ≤ j → j < h → (f i j).length = n ∧ Graded n m ops (f i j) (g i j)) →
    ∀ x y, 0 ≤ x → x < w' → 0 ≤ y → y < h' →
      Graded n m ops (blend n w h w' h' f x y) (blend n w h w' h' g x y)

/-- A grade that is a straight line in every channel it processes: not reversed, no gamma. -/
structure Straight (op : GradeOp F) : Prop where
  forward : op.getI32 "reverse" = 0
  gamma : ∀ c, c < 4 → processes op c = 0 ∨ (values op c).2.2.2.2.2.2 = 1

section
variable {F : Type} [Field F]

/-- Which old pixels count how much for a new one. -/
abbrev Weights (F : Type) := Int → Int → Int → Int → Int → Int → List ((Int × Int) × F)

/-- Blending by weighted means, every channel on its own. -/
def meanBlend (weights : Weights F) : Blend F := fun n w h w' h' f x y =>
  (List.range n).map fun c =>
    ((weights w h w' h' x y).map fun e => e.2 * (f e.1.1 e.1.2).getD c 0).sum

/-- The weights belong to pixels of the image and add up to one. -/
structure IsMean (weights : Weights F) : Prop where
  inside : ∀ w h w' h' x y, 0 < w → 0 < h → 0 ≤ x → x < w' → 0 ≤ y → y < h' →
    ∀ e ∈ weights w h w' h' x y, 0 ≤ e.1.1 ∧ e.1.1 < w ∧ 0 ≤ e.1.2 ∧ e.1.2 < h
  one : ∀ w h w' h' x y, 0 < w → 0 < h → 0 ≤ x → x < w' → 0 ≤ y → y < h' →
    ((weights w h w' h' x y).map Prod.snd).sum = 1

end

end OCG.PictureSpec
