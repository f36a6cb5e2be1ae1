import Verif.Spec.Plain
/-
Pictures with a patch.
-/

namespace OCG.PatchSpec

open PictureSpec BBoxSpec IeeeSpec

/-- Every pixel of the picture is opaque. -/
def Opaque [Libm single32] (P : Picture F32) : Prop :=
  ∀ x y, Has P.data x y → val (P.value x y 3) = 1

/-- `Q` is `B` with the patch `A`: where `A` has a pixel that one, everywhere else that of `B`. -/
structure IsPatched [Libm single32] (A B Q : Picture F32) : Prop where
  display : Q.display = B.display
  channels : Q.channels = B.channels
  patch : ∀ x y, Has A.data x y → Q.pixel x y = A.pixel x y
  rest : ∀ x y, ¬ Has A.data x y → Q.pixel x y = B.pixel x y

/-- The picture `P` with the pixels of `G` inside the window. -/
def within (W : BBox) (G P : Picture F32) : Picture F32 :=
  { P with at_ := fun x y => if Has W x y then G.at_ x y else P.at_ x y }

end OCG.PatchSpec
