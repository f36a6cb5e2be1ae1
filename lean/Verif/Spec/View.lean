import Verif.Spec.Turn
import Verif.Spec.Moved
/-
Windows in front of pictures that are mirrored and moved.
-/

namespace OCG.ViewSpec

open PictureSpec BBoxSpec TurnSpec

/-- What a window shows of a picture behind it that is mirrored and moved. -/
def view {F : Type} (W : BBox) (reformat : Bool) (s : List Turn) (P : Picture F) : Picture F :=
  { P with
    data := W
    display := if reformat then W else P.display
    at_ := fun x y => P.at_ (sourceX s x) (sourceY s y) }

/-- The window lies in the picture, and so does everything that is moved behind it. -/
def InView {F : Type} (W : BBox) (s : List Turn) (P : Picture F) : Prop :=
  ∀ x y, Has W x y → Has P.data x y ∧ Has P.data (sourceX s x) (sourceY s y)

end OCG.ViewSpec
