import Verif.Model.Compute
/-
When an image has all the pixels it claims to have, and all the ways to use the library that make
images.
-/

namespace OCG.SizedSpec

/-- The block has one value for every channel of every pixel of the window, no more and no less.  (A window
that is inverted in both directions counts like the window the right way round.) -/
structure Complete {F H : Type} (b : PixelBlock F H) (window : BBox) : Prop where
  width : b.size.width = window.maxX - window.minX
  height : b.size.height = window.maxY - window.minY
  values : (b.block.data.length : Int) =
    (window.maxX - window.minX) * (window.maxY - window.minY) * b.size.numChannels

/-- The sizes of a window with a number of channels can be computed in 32 bits. -/
structure Fits (window : BBox) (channels : Int) : Prop where
  width : InI32 (window.maxX - window.minX)
  height : InI32 (window.maxY - window.minY)
  pixels : InI32 ((window.maxX - window.minX) * (window.maxY - window.minY))
  values : InI32 ((window.maxX - window.minX) * (window.maxY - window.minY) * channels)
  positive : 0 ≤ (window.maxX - window.minX) * (window.maxY - window.minY) * channels

/-- The sizes in the headers of the files are `int`s. -/
def IntSizes {F H : Type} (oiio : Oiio F H) : Prop :=
  ∀ path spec, oiio.header path = some spec → InI32 spec.width ∧ InI32 spec.height

variable {F H : Type} [FloatLike F] [HalfLike F H] [FloatConst F] [FloatBits F]

/-- The cache and the written files, the outputs of all graphs and the lookup tables, after using
the library in any way: any graphs, edited between executions in any way, sharing one cache whose
capacity is changed at any time. -/
inductive Session (p : Profile) (lib : NodeLib F H) (srt : EdgeSort) :
    World F H → List (Stream F H) → List (Image F H) → Prop
  | start (capacity : Nat) : Session p lib srt ⟨.withCapacity capacity, []⟩ [.new] []
  | capacity {w outs luts} (capacity : Nat) (cache : Cache (Image F H)) :
    Session p lib srt w outs luts → w.cache.setCapacity Image.sizeBytes p capacity = .ok cache →
    Session p lib srt { w with cache := cache } outs luts
  | execute {w outs luts} (w' : World F H) (fuel : Nat) (g g' : Graph (Node F) (Stream F H)) (id : Nat)
      (frames : List F) (status : ExecuteStatus) :
    Session p lib srt w outs luts → g.output ∈ outs →
    Graph.execute (nodeSem p lib) srt fuel g id frames w = .ok (status, g', w') →
    Session p lib srt w' (g'.output :: outs) luts
  | transformLut {w outs luts} (src dst : Bytes) (cubeSize : Int) (cache : Cache (Image F H))
      (image : Image F H) :
    Session p lib srt w outs luts → InI32 cubeSize →
    getTransformLut p lib.hash lib.bake.color src dst cubeSize w.cache = .ok (cache, image) →
    Session p lib srt { w with cache := cache } outs (image :: luts)
  | opsLut {w outs luts} (stream : Stream F H) (cubeSize numChannels : Int)
      (cache : Cache (Image F H)) (image : Image F H) :
    Session p lib srt w outs luts → InI32 cubeSize →
    getOpsLut p lib.hash stream cubeSize numChannels w.cache = .ok (cache, image) →
    Session p lib srt { w with cache := cache } outs (image :: luts)

end OCG.SizedSpec
