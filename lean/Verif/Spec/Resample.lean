import Verif.Spec.Picture
/-
What a picture looks like after it was resampled without interpolation.
-/

namespace OCG.PictureSpec

open BlockSpec BBoxSpec ImageSpecs OiioSpec

variable {F H : Type}

/-- OpenImageIO resamples without interpolation by picking pixels: of an image with `n` columns it
makes one with `m` columns whose column `i` is column `pick n m i` of the other, whatever there is in
it, and rows alike; and this succeeds.  Which ones are picked is up to OpenImageIO. -/
structure Picks (oiio : Oiio F H) (pick : Int → Int → Int → Int) : Prop where
  range : ∀ n m i, 0 < n → 0 ≤ i → i < m → 0 ≤ pick n m i ∧ pick n m i < n
  pixels : ∀ (size : BlockSize) (w h : Int) (t : DType) (data old : List (Elem F H t)),
    ValidSize size → (data.length : Int) = elements size →
    ValidSize ⟨w, h, size.numChannels⟩ → (old.length : Int) = elements ⟨w, h, size.numChannels⟩ →
    (oiio.resample size ⟨t, data⟩ false w h t old).1 = true ∧
    ∀ x y c, 0 ≤ x → x < w → 0 ≤ y → y < h → 0 ≤ c → c < size.numChannels →
      channelAt ⟨w, h, size.numChannels⟩ (oiio.resample size ⟨t, data⟩ false w h t old).2 x y c =
        channelAt size data (pick size.width w x) (pick size.height h y) c

/-- `Q` is `P` resampled by `2 ^ factor`: a picture at the origin with the new size, made of the
pixels of `P` that are picked. -/
structure IsResampled (pick : Int → Int → Int → Int) (factor : Int) (P Q : Picture F) : Prop where
  origin : Q.data.minX = 0 ∧ Q.data.minY = 0
  width : ScaledTo (P.data.maxX - P.data.minX) factor Q.data.maxX
  height : ScaledTo (P.data.maxY - P.data.minY) factor Q.data.maxY
  display : Q.display = Q.data
  channels : Q.channels = P.channels
  space : Q.space = P.space
  pixels : ∀ x y, Has Q.data x y → Q.at_ x y =
    P.at_ (P.data.minX + pick (P.data.maxX - P.data.minX) Q.data.maxX x)
      (P.data.minY + pick (P.data.maxY - P.data.minY) Q.data.maxY y)

end OCG.PictureSpec
