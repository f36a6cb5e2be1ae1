import Verif.Spec.FileShows
import Verif.Spec.Channels
import Verif.Spec.Idle
import Verif.Spec.Render
/-
C147: a part of a graph is rendered to files, and the files are read in its place.
-/

namespace OCG.PrecompSpec

open PictureSpec BBoxSpec BlockSpec ImageSpecs GraphSpec BuiltSpec IdleSpec RenderSpec

section
variable {F H : Type} [FloatLike F] [HalfLike F H]

/-- OpenImageIO reads the file that was handed to it: the windows, the number of channels and the
type, a linear colour space, and all values.  (No lossy compression.) -/
structure OnDisk (lib : NodeLib F H) (job : WriteJob F H) : Prop where
  kind : lib.pathKind job.path = .file
  header : ∃ spec, lib.oiio.header job.path = some spec ∧ spec.x = job.spec.x ∧
    spec.y = job.spec.y ∧ spec.width = job.spec.width ∧ spec.height = job.spec.height ∧
    spec.fullX = job.spec.fullX ∧ spec.fullY = job.spec.fullY ∧
    spec.fullWidth = job.spec.fullWidth ∧ spec.fullHeight = job.spec.fullHeight ∧
    spec.numChannels = job.spec.numChannels ∧ spec.format = job.spec.format ∧
    spec.colorSpace = colorSpaceLinear
  pixels : ∀ (t : DType) (d old : List (Elem F H t)), job.block = ⟨t, d⟩ → old.length = d.length →
    lib.oiio.pixels job.path job.spec.numChannels t job.size old = d

/-- The second library is the first one after the files were written: they are on disk, and nothing
else changed. -/
structure Saved (lib lib' : NodeLib F H) (jobs : List (WriteJob F H)) : Prop where
  shell : lib'.shell = lib.shell
  bake : lib'.bake = lib.bake
  lens : lib'.lensAccepts = lib.lensAccepts
  writer : lib'.oiio.hasWriter = lib.oiio.hasWriter
  resample : lib'.oiio.resample = lib.oiio.resample
  written : ∀ job ∈ jobs, OnDisk lib' job
  others : ∀ path, (∀ job ∈ jobs, job.path ≠ path) → lib'.pathKind path = lib.pathKind path ∧
    lib'.oiio.header path = lib.oiio.header path ∧ lib'.oiio.pixels path = lib.oiio.pixels path

/-- A node that reads the files that the write node `n` writes at these frames, and has no input. -/
structure ReadsBack (lib : NodeLib F H) (frames : List F) (n : Node F) (sg : SGraph) (j : Nat)
    (m : Node F) : Prop where
  read : m.attrs.nodeType = .readImage
  enable : m.getI32 "enable" ≠ 0
  path : ∀ fr ∈ frames, filePath lib m fr = filePath lib n fr
  noInput : ∀ a, Feeds sg a j → a = j

/-- The graph `g'` above `start'` is the graph `g`, where nodes that read the files of the write node
`n` may stand for the node `u`.  `φ` tells which node a node stands for. -/
def StandsFor (lib : NodeLib F H) (frames : List F) (n : Node F) (φ : Nat → Nat)
    (g g' : Graph (Node F) (Stream F H)) (u start' : Nat) : Prop :=
  ∀ j, Upstream g'.graph start' j → SameAt SameSettings (fun i k => φ k = i) g g' (φ j) j ∨
    φ j = u ∧ ∃ m, g'.nodes[j]? = some m ∧ ReadsBack lib frames n g'.graph j m

/-- The size of the picture is that of a file (far inside 32 bits). -/
structure FileSized {F : Type} (P : Picture F) : Prop where
  area : (P.data.maxX - P.data.minX) * (P.data.maxY - P.data.minY) * 4 ≤ 2147483647
  dataX : -500000000 ≤ P.data.minX ∧ P.data.maxX ≤ 500000000
  dataY : -500000000 ≤ P.data.minY ∧ P.data.maxY ≤ 500000000
  displayX : 0 ≤ P.display.maxX ∧ P.display.maxX ≤ 500000000
  displayY : 0 ≤ P.display.maxY ∧ P.display.maxY ≤ 500000000

end

variable [Libm single32]
open ChannelSpec

/-- A file of the type `t` can hold the picture: nothing is waiting to be moved, the display window
starts at the origin, the colours are linear and ordinary numbers of the type, and files that do not
have floats have four channels. -/
structure Storable (t : DType) (L : Layer F32) : Prop where
  still : L.moves = []
  origin : L.still.display.minX = 0 ∧ L.still.display.minY = 0
  linear : L.still.space = colorSpaceLinear
  proper : Proper L.still
  channels : t = .f32 ∨ L.still.channels = 4
  values : ∀ x y, Has L.still.data x y → ∀ v ∈ L.still.at_ x y, inType F16 t v = v
  size : FileSized L.still

end OCG.PrecompSpec
