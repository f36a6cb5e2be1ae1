import Verif.Spec.Local
/-
C132: pictures, nodes and files that are the same, only somewhere else.
-/

namespace OCG.MovedSpec

open PictureSpec BBoxSpec ComputeSpec GraphSpec

variable {F H : Type} [FloatLike F]

/-- The window, moved. -/
def moved (dx dy : Int) (w : BBox) : BBox := ⟨w.minX + dx, w.minY + dy, w.maxX + dx, w.maxY + dy⟩

/-- `Q` has the pixels of `P`, moved.  (Nothing is said of the display windows, which the code reads
as if they started at zero.) -/
structure Moved (dx dy : Int) (P Q : Picture F) : Prop where
  data : Q.data = moved dx dy P.data
  channels : Q.channels = P.channels
  space : Q.space = P.space
  pixels : ∀ x y, Has P.data x y → Q.at_ (x + dx) (y + dy) = P.at_ x y

/-- The numbers that place the window of a crop. -/
def windowNames : List String := ["window_min_x", "window_min_y", "window_max_x", "window_max_y"]

/-- The nodes are the same, or they are crops that differ only in where their windows are. -/
def MovedNode (dx dy : Int) (n n' : Node F) : Prop :=
  (n.attrs.nodeType ≠ .cropImage ∧ n' = n) ∨
  (n.attrs.nodeType = .cropImage ∧ n'.attrs.nodeType = .cropImage ∧
    (∀ name, name ∉ windowNames → n'.getI32 name = n.getI32 name) ∧
    cropWindow n' = moved dx dy (cropWindow n))

/-- The disks have the same image at a path, apart from its position. -/
structure MovedFile [HalfLike F H] (dx dy : Int) (lib lib' : NodeLib F H) (path : Bytes) : Prop where
  header : ∃ spec, lib.oiio.header path = some spec ∧
    lib'.oiio.header path = some { spec with x := spec.x + dx, y := spec.y + dy }
  pixels : ∀ n t size (init : List (Elem F H t)),
    lib'.oiio.pixels path n t size init = lib.oiio.pixels path n t size init

end OCG.MovedSpec
