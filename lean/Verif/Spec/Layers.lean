import Verif.Spec.Picture
import Verif.Spec.Ieee
/-
What a merged pixel is when one of the two layers is opaque, empty, white or black.
-/

namespace OCG.LayersSpec

open PictureSpec IeeeSpec Ieee

/-- All four channels of a pixel (those that are not there count as 0) are finite numbers. -/
def FinitePixel [Libm single32] (P : Picture F32) (x y : Int) : Prop :=
  ∀ c : Int, 0 ≤ c → c < 4 → IsFinite (P.value x y c)

/-- All channels of the pixel, with the opacity, have the value `t`. -/
def AllAre [Libm single32] (t : ℚ) (P : Picture F32) (x y : Int) : Prop :=
  ∀ c : Int, 0 ≤ c → c < 4 → val (P.value x y c) = t

/-- What is expected at one position of `A` merged with `B`: the pixel of one of the two, or
nothing. -/
inductive Expected [Libm single32] (A B : Picture F32) (x y : Int) :
    MergeImageMode → F32 → (Int → ℚ) → Prop
  /-- an opaque layer hides everything below, whatever the mix -/
  | opaque {mix : F32} : IsFinite mix → val (A.value x y 3) = 1 →
      Expected A B x y .over mix fun c => val (A.value x y c)
  /-- an empty layer in front changes nothing -/
  | emptyFront {mode : MergeImageMode} {mix : F32} : IsFinite mix → val mix = 1 →
      mode = .add ∨ mode = .over →
      AllAre 0 A x y → Expected A B x y mode mix fun c => val (B.value x y c)
  /-- an empty layer behind changes nothing -/
  | emptyBehindAdd {mix : F32} : IsFinite mix → AllAre 0 B x y →
      Expected A B x y .add mix fun c => val (A.value x y c)
  | emptyBehindOver {mix : F32} : IsFinite mix → 0 ≤ val mix → val mix ≤ 1 →
      0 ≤ val (A.value x y 3) → val (A.value x y 3) ≤ 1 → AllAre 0 B x y →
      Expected A B x y .over mix fun c => val (A.value x y c)
  /-- multiplying with white changes nothing -/
  | whiteFront {mix : F32} : IsFinite mix → val mix = 1 → AllAre 1 A x y →
      Expected A B x y .multiply mix fun c => val (B.value x y c)
  | whiteBehind {mix : F32} : IsFinite mix → val mix = 1 → AllAre 1 B x y →
      Expected A B x y .multiply mix fun c => val (A.value x y c)
  /-- multiplying with black leaves nothing -/
  | black {mix : F32} : IsFinite mix → val mix = 1 → AllAre 0 A x y ∨ AllAre 0 B x y →
      Expected A B x y .multiply mix fun _ => 0

end OCG.LayersSpec
