import Verif.Spec.Render
import Verif.Spec.Idle
import Verif.Spec.Ieee
/-
What it means that a graph only copies files, and that a copy is faithful.
-/

namespace OCG.CopySpec

open BlockSpec BBoxSpec ImageSpecs GraphSpec PictureSpec IeeeSpec

variable {F H : Type} [FloatLike F] [HalfLike F H]

/-- The graph behind `start` reads the file `src` and does nothing to it: a node without inputs reads
the file, every other node has one input and does nothing, except for the write node itself. -/
def Copies {C : Type} (lib : NodeLib F H) (srt : EdgeSort) (g : Graph (Node F) C) (start : Nat)
    (frame : F) (src : Bytes) : Prop :=
  ∀ i n ins, Upstream g.graph start i → g.nodes[i]? = some n →
    g.graph.findDirectUpstream srt i = .ok ins →
    ins = [] ∧ n.attrs.nodeType = .readImage ∧ n.getI32 "enable" ≠ 0 ∧ filePath lib n frame = src ∨
    ins.length = 1 ∧ (IdleSpec.Idle n ∨ i = start)

/-- The window of the pixels in a file, where the code puts it (see C63). -/
def fileWindow (spec : FileSpec F) : BBox :=
  ⟨spec.x + spec.fullX, spec.y + spec.fullY, spec.x + spec.width + spec.fullX,
    spec.y + spec.height + spec.fullY⟩

/-- The file can be read, is in linear light, and has the header `spec` and the pixels `data`, of the
type `t` with `n` channels.  Files that are not floats are read with four channels, the missing ones
white. -/
structure FileHas (lib : NodeLib F H) (path : Bytes) (spec : FileSpec F) (t : DType) (n : Nat)
    (data : List (Elem F H t)) : Prop where
  file : lib.pathKind path = .file
  header : lib.oiio.header path = some spec
  sane : OiioSpec.Sane spec
  format : spec.format = .known t
  space : spec.colorSpace = colorSpaceLinear
  three : n = 3 ∨ n = 4
  channels : (n : Int) = if t = .f32 then spec.numChannels else 4
  length : (data.length : Int) = elements (sizeFor (fileWindow spec) n)
  pixels : data = lib.oiio.pixels path spec.numChannels t (sizeFor (fileWindow spec) n)
    (List.replicate data.length (whiteElem t))

/-- A value that is a number: not a NaN and not infinite. -/
def Ordinary : (t : DType) → Elem F32 F16 t → Prop
  | .u8, _ => True
  | .u16, _ => True
  | .f16, x => IsFinite (f := half16) x
  | .f32, x => IsFinite (f := single32) x

/-- The same whole number, or floats of the same value (0 and -0 are the same value). -/
def Unchanged : (t : DType) → Elem F32 F16 t → Elem F32 F16 t → Prop
  | .u8, x, y => x = y
  | .u16, x, y => x = y
  | .f16, x, y => Same (f := half16) y x
  | .f32, x, y => Same (f := single32) y x

/-- What is written has the values of the file, and the size and the place of the file if the display
window of the file starts at zero. -/
structure IsCopy (spec : FileSpec F32) (t : DType) (n : Nat) (data : List (Elem F32 F16 t))
    (job : WriteJob F32 F16) : Prop where
  pixels : ∃ out, (⟨job.size, job.block⟩ : PixelBlock F32 F16) =
      ⟨⟨spec.width, spec.height, n⟩, ⟨t, out⟩⟩ ∧ List.Forall₂ (Unchanged t) data out
  format : job.spec.format = spec.format
  width : job.spec.width = spec.width
  height : job.spec.height = spec.height
  fullX : job.spec.fullX = 0
  fullY : job.spec.fullY = 0
  fullWidth : job.spec.fullWidth = spec.fullWidth
  fullHeight : job.spec.fullHeight = spec.fullHeight
  x : spec.fullX = 0 → job.spec.x = spec.x
  y : spec.fullY = 0 → job.spec.y = spec.y

end OCG.CopySpec
