import Verif.Model.Graph
import Verif.Model.Compute
import Verif.Model.Lut
/-
C133: the memory that the cache takes after any use of the library.
-/

namespace OCG.CacheLimitSpec

variable {F H : Type} [FloatLike F] [HalfLike F H] [FloatConst F] [FloatBits F]

/-- The bytes that the images in a cache take. -/
def bytesHeld (c : Cache (Image F H)) : Nat := (c.lru.map fun e => e.2.sizeBytes).sum

/-- The cache knows how much memory its images take, it is no more than allowed, and no image is
stored twice under one key. -/
structure WithinLimit (c : Cache (Image F H)) : Prop where
  counted : c.used = bytesHeld c
  fits : bytesHeld c ≤ c.capacity
  once : (c.lru.map (·.1)).Nodup

/-- The caches and written files that any use of a build of the library can lead to: any graphs,
whether or not they were made by the library, executed in any order, lookup tables of any size in
between, and the capacity set at any time (to less than 2⁶³ bytes). -/
inductive AnyUse (p : Profile) (lib : NodeLib F H) (srt : EdgeSort) : World F H → Prop
  | start (capacity : Nat) : capacity < 2 ^ 63 → AnyUse p lib srt ⟨.withCapacity capacity, []⟩
  | capacity {w} (capacity : Nat) (cache : Cache (Image F H)) : AnyUse p lib srt w →
    capacity < 2 ^ 63 → w.cache.setCapacity Image.sizeBytes p capacity = .ok cache →
    AnyUse p lib srt { w with cache := cache }
  | execute {w} (w' : World F H) (fuel : Nat) (g g' : Graph (Node F) (Stream F H)) (id : Nat)
      (frames : List F) (status : ExecuteStatus) : AnyUse p lib srt w →
    g.execute (nodeSem p lib) srt fuel id frames w = .ok (status, g', w') → AnyUse p lib srt w'
  | transformLut {w} (src dst : Bytes) (n : Int) (cache : Cache (Image F H)) (image : Image F H) :
    AnyUse p lib srt w →
    getTransformLut p lib.hash lib.bake.color src dst n w.cache = .ok (cache, image) →
    AnyUse p lib srt { w with cache := cache }
  | opsLut {w} (s : Stream F H) (n k : Int) (cache : Cache (Image F H)) (image : Image F H) :
    AnyUse p lib srt w → getOpsLut p lib.hash s n k w.cache = .ok (cache, image) →
    AnyUse p lib srt { w with cache := cache }

end OCG.CacheLimitSpec
