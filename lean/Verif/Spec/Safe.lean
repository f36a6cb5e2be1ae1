import Verif.Spec.Graph
import Verif.Spec.Picture
import Verif.Spec.Sized
import Verif.Spec.Execute
import Verif.Model.Lut
/-
Reasonable ways to use the library: all windows are of moderate size, no node is set to one of the
values known to panic, and the files have headers that can be read.
-/

namespace OCG.SafeSpec

open GraphSpec PictureSpec SizedSpec

/-- The coordinates in use. -/
structure Limits where
  low : Int
  high : Int

/-- A picture that fills the limits has less than 2³¹ values with four channels, and the picture of
a new stream (4 by 4 pixels) is within the limits. -/
structure Limits.Workable (l : Limits) : Prop where
  low : l.low ≤ 0
  high : 4 ≤ l.high
  small : 4 * ((l.high - l.low) * (l.high - l.low)) ≤ 2147483647

/-- A window that is not empty and lies within the limits. -/
structure Within (l : Limits) (w : BBox) : Prop where
  left : l.low ≤ w.minX
  wide : w.minX < w.maxX
  right : w.maxX ≤ l.high
  bottom : l.low ≤ w.minY
  tall : w.minY < w.maxY
  top : w.maxY ≤ l.high

/-- Whole numbers within the limits survive the way to floats and back. -/
def WholeNumbers (F : Type) [FloatLike F] (l : Limits) : Prop :=
  ∀ k, l.low ≤ k → k ≤ l.high →
    FloatLike.toI32 (FloatLike.floor (FloatLike.ofInt k : F)) = k ∧
    FloatLike.toI32 (FloatLike.ceil (FloatLike.ofInt k : F)) = k

/-- Pixels with windows: the windows are within the limits, there are three or four channels, and
the block has all its values. -/
structure Tidy {F H : Type} (l : Limits) (block : PixelBlock F H) (data display : BBox) : Prop where
  dataFits : Within l data
  displayFits : Within l display
  channels : block.size.numChannels = 3 ∨ block.size.numChannels = 4
  complete : Complete block data

section
variable {F H : Type} [FloatLike F]

/-- The pixels of a stream are tidy, and only transforms wait to be applied. -/
structure TidyStream (l : Limits) (s : Stream F H) : Prop where
  pixels : Tidy l s.pixelBlock s.dataWindow s.displayWindow
  deformers : ∀ d ∈ s.deformers, d.enable = 1 → ∃ t, d = .transform t

end

/-- A file with a header that can be used: three or four channels of a type that can be stored,
windows (as the code places them, see C63) within the limits, and no overflow in the sums that
place them. -/
structure SafeHeader {F : Type} (l : Limits) (spec : FileSpec F) : Prop where
  channels : spec.numChannels = 3 ∨ spec.numChannels = 4
  format : spec.format ≠ .unknown
  data : Within l ⟨spec.x + spec.fullX, spec.y + spec.fullY, spec.x + spec.width + spec.fullX,
    spec.y + spec.height + spec.fullY⟩
  display : Within l ⟨0, 0, spec.fullWidth, spec.fullHeight⟩
  right : InI32 (spec.x + spec.width)
  top : InI32 (spec.y + spec.height)
  fullRight : InI32 (spec.fullX + spec.fullWidth)
  fullTop : InI32 (spec.fullY + spec.fullHeight)

variable {F H : Type} [FloatLike F] [HalfLike F H] [FloatConst F] [FloatBits F]

/-- The settings of a node with a number of connected inputs are none of those that can crash:
* a reader whose path is a file has a header that can be used (other paths do not matter);
* a writer that writes knows when to crop;
* a crop does not ask for black outside, and its window is within the limits;
* a viewer that is on knows what to bake;
* a resample that is on has at most one input (only debug builds mind), and either the limits allow
  the largest size it makes, or it makes pictures smaller;
* lens distortion is off. -/
def SafeNode (p : Profile) (lib : NodeLib F H) (l : Limits) (frame : F) (n : Node F)
    (inputs : Nat) : Prop :=
  match n.attrs.nodeType with
  | .readImage => n.getI32 "enable" ≠ 0 → lib.pathKind (filePath lib n frame) = .file →
      ∃ spec, lib.oiio.header (filePath lib n frame) = some spec ∧ SafeHeader l spec
  | .writeImage => n.getI32 "enable" ≠ 0 → n.getI32 "execute" ≠ 0 →
      CropOnWrite.ofI32 (n.getI32 "crop_on_write") ≠ .uninitialized
  | .cropImage => n.getI32 "enable" = 1 → n.getI32 "black_outside" ≠ 1 ∧
      Within l ⟨n.getI32 "window_min_x", n.getI32 "window_min_y", n.getI32 "window_max_x",
        n.getI32 "window_max_y"⟩
  | .viewer => n.getI32 "enable" ≠ 0 →
      BakeOption.ofI32 (n.getI32 "bake_option") ≠ .uninitialized ∨ n.getI32 "crop_to_format" ≠ 0
  | .resampleImage => n.getI32 "enable" = 1 → (p = .release ∨ inputs ≤ 1) ∧
      (0 < n.getI32 "factor" → 16384 ≤ l.high) ∧ (n.getI32 "factor" < 0 → -l.low ≤ l.high)
  | .lensDistort => n.getI32 "enable" ≠ 1
  | _ => True

/-- An execution of a node that makes sense: the graph was made through the calls of the library,
the node is there, the connections upstream of it have no cycles and can be ranked (see C38), and
all nodes upstream of it are safe at all frames. -/
structure SafeExecution (p : Profile) (lib : NodeLib F H) (srt : EdgeSort) (l : Limits)
    (g : Graph (Node F) (Stream F H)) (id : Nat) (frames : List F) : Prop where
  reached : ∃ r, Reach (nodeSem p lib) srt r g
  safe : ∃ start, At g id start ∧ g.graph.contains start = true ∧ Leveled g.graph start ∧
    ∀ i n ins, Upstream g.graph start i → g.nodes[i]? = some n →
      g.graph.findDirectUpstream srt i = .ok ins →
      ∀ frame ∈ frames, SafeNode p lib l frame n ins.length

/-- A cache that is off, or large enough for any picture within the limits (only debug builds
mind), and smaller than any memory. -/
def SafeCapacity (p : Profile) (l : Limits) (capacity : Nat) : Prop :=
  capacity < 2 ^ 63 ∧ (p = .release ∨ capacity = 0 ∨
    (l.high - l.low) * (l.high - l.low) * 16 ≤ capacity)

/-- A lookup table of a reasonable size: its image (a row for each step of blue, see C58) is within
the limits, and floats place it exactly. -/
def SafeLut (F : Type) [FloatLike F] (p : Profile) (l : Limits) (n : Nat) : Prop :=
  Within l ⟨0, 0, ((n * n : Nat) : Int), n⟩ ∧
    lutImageSize F p n 3 = .ok (((n * n : Nat) : Int), (n : Int))

/-- The cache and the written files, and the outputs of all graphs, after reasonable use: any
graphs, edited between executions in any way, sharing one cache whose capacity is changed at any
time, and lookup tables with three channels in between, for any names and any stream. -/
inductive SafeSession (p : Profile) (lib : NodeLib F H) (srt : EdgeSort) (l : Limits) :
    World F H → List (Stream F H) → Prop
  | start (capacity : Nat) : SafeCapacity p l capacity →
    SafeSession p lib srt l ⟨.withCapacity capacity, []⟩ [.new]
  | capacity {w outs} (capacity : Nat) (cache : Cache (Image F H)) :
    SafeSession p lib srt l w outs → SafeCapacity p l capacity →
    w.cache.setCapacity Image.sizeBytes p capacity = .ok cache →
    SafeSession p lib srt l { w with cache := cache } outs
  | execute {w outs} (w' : World F H) (fuel : Nat) (g g' : Graph (Node F) (Stream F H)) (id : Nat)
      (frames : List F) (status : ExecuteStatus) :
    SafeSession p lib srt l w outs → g.output ∈ outs → SafeExecution p lib srt l g id frames →
    Graph.execute (nodeSem p lib) srt fuel g id frames w = .ok (status, g', w') →
    SafeSession p lib srt l w' (g'.output :: outs)
  | transformLut {w outs} (src dst : Bytes) (n : Nat) (cache : Cache (Image F H))
      (image : Image F H) :
    SafeSession p lib srt l w outs → SafeLut F p l n →
    getTransformLut p lib.hash lib.bake.color src dst n w.cache = .ok (cache, image) →
    SafeSession p lib srt l { w with cache := cache } outs
  | opsLut {w outs} (s : Stream F H) (n : Nat) (cache : Cache (Image F H)) (image : Image F H) :
    SafeSession p lib srt l w outs → SafeLut F p l n →
    getOpsLut p lib.hash s n 3 w.cache = .ok (cache, image) →
    SafeSession p lib srt l { w with cache := cache } outs

end OCG.SafeSpec
