import Verif.Spec.Ieee
import Verif.Spec.Picture
/-
Premultiplied pictures: pictures whose colours are already multiplied by alpha.
-/

namespace OCG.PremultipliedSpec

open IeeeSpec PictureSpec BBoxSpec

/-- The channels of a premultiplied pixel: no colour is larger than alpha (channel 3), and alpha
is between 0 and 1. -/
structure Premultiplied (v : Int → F32) : Prop where
  finite : ∀ c, 0 ≤ c → c < 4 → IsFinite (v c)
  nonneg : ∀ c, 0 ≤ c → c < 4 → 0 ≤ val (v c)
  le_alpha : ∀ c, 0 ≤ c → c < 4 → val (v c) ≤ val (v 3)
  alpha : val (v 3) ≤ 1

/-- Every pixel of the picture is premultiplied. -/
def AllPremultiplied (P : Picture F32) : Prop :=
  P.channels = 4 ∧ ∀ x y, Has P.data x y → 
    Premultiplied (fun c => (P.at_ x y).getD c.toNat (Ieee.zero false))

end OCG.PremultipliedSpec
