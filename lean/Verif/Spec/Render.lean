import Verif.Spec.PictureGraph
/-
Which files there are after some frames were rendered.
-/

namespace OCG.RenderSpec

variable {F H : Type} [FloatLike F] [HalfLike F H]

/-- A write node that writes. -/
def Writes (n : Node F) : Prop :=
  n.attrs.nodeType = .writeImage ∧ n.getI32 "enable" ≠ 0 ∧ n.getI32 "execute" ≠ 0

/-- The file that was handed to OpenImageIO last for a path. -/
def lastFor (jobs : List (WriteJob F H)) (path : Bytes) : Option (WriteJob F H) :=
  jobs.reverse.find? (·.path = path)

end OCG.RenderSpec
