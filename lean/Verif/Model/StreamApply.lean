import Verif.Model.Stream
/-
Model of src/stream.rs: the calls by which a user of a stream applies the deformers and colour
operations waiting in it to their own buffers.
-/

namespace OCG.Stream

variable {F H : Type} [FloatLike F]

/-- stream.rs:140-153 `apply_deformers` (and its wrapper stream.rs:310-318).  The display window
is handed on but not used (see `applyDeformersToPositions`). -/
def applyDeformers [FloatConst F] (s : Stream F H) (lib : DeformLib F) (buffer : List F)
    (dataWindow : BBoxF F) : Res (List F) :=
  applyDeformersToPositions lib s.deformers dataWindow buffer

/-- stream.rs:171-174 `apply_color_ops` (and its wrapper stream.rs:328-330). -/
def applyColorOps (s : Stream F H) (pixels : List F) (numChannels : Int) : Res (List F) :=
  OCG.applyColorOps s.colorOps pixels numChannels

end OCG.Stream
