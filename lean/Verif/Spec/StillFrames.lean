import Verif.Spec.PictureGraph
/-
C128: what depends on the frame.
-/

namespace OCG.FrameSpec

open PictureSpec

variable {F H : Type} [FloatLike F]

/-- The node has a file. -/
def HasFile (n : Node F) : Prop := n.attrs.nodeType = .readImage ∨ n.attrs.nodeType = .writeImage

/-- The name of the file, if there is one, has no place for a frame number. -/
def NoFrameNumber (lib : NodeLib F H) (n : Node F) : Prop :=
  HasFile n → 35 ∉ (lib.shell (n.getStr "file_path")).getD (n.getStr "file_path")

/-- The name of the file, if there is one, is the same at both frames. -/
def SameName (lib : NodeLib F H) (f f' : F) (n : Node F) : Prop :=
  HasFile n → filePath lib n f = filePath lib n f'

end OCG.FrameSpec
