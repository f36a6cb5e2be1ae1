import Verif.Spec.CacheRun
/-
What it means that results are taken from the cache instead of being computed again.
-/

namespace OCG.RecallSpec

open CacheSpec

variable {F H : Type} [FloatLike F] [HalfLike F H] [FloatConst F] [FloatBits F]

/-- The same outside world, except for what is in the files that are read. -/
structure OtherFiles (lib lib' : NodeLib F H) : Prop where
  hash : lib'.hash = lib.hash
  shell : lib'.shell = lib.shell
  pathKind : lib'.pathKind = lib.pathKind
  bake : lib'.bake = lib.bake
  lensAccepts : lib'.lensAccepts = lib.lensAccepts
  hasWriter : lib'.oiio.hasWriter = lib.oiio.hasWriter
  stores : lib'.oiio.stores = lib.oiio.stores
  resample : lib'.oiio.resample = lib.oiio.resample
  toInt : lib'.oiio.toInt = lib.oiio.toInt

/-- The second cache finds whatever the first one finds. -/
def Holds {V : Type} (c c' : Cache V) : Prop :=
  ∀ k v, (c.get k).2 = some v → (c'.get k).2 = some v

/-- Nothing was missing from the cache, put into it or dropped from it. -/
structure OnlyHits {V : Type} (c c' : Cache V) : Prop where
  found : ∀ k, (c'.get k).2 = (c.get k).2
  used : c'.used = c.used
  capacity : c'.capacity = c.capacity
  misses : c'.misses = c.misses
  inserts : c'.inserts = c.inserts
  evictions : c'.evictions = c.evictions

/-- A computation that gives the same with its result in the cache: files are read with the cache
switched on, nothing is waiting in front of a crop or a baking viewer, and resampling did not
fail. -/
structure Repeatable (p : Profile) (lib : NodeLib F H) (c : Call F H) : Prop where
  files : c.node.attrs.nodeType = .readImage → c.node.getI32 "use_cache" ≠ 0
  settled : Caches lib c → Settled c
  resampled : c.node.attrs.nodeType = .resampleImage → ∀ out, ¬ Gives p lib c .error out

/-- The world after any number of executions of any graphs, with whatever files there were at the
time. -/
inductive Later (p : Profile) (srt : EdgeSort) (w : World F H) : World F H → Prop
  | refl : Later p srt w w
  | step {w1 w2 fuel id frames st} {g g' : Graph (Node F) (Stream F H)} (lib : NodeLib F H) :
      Later p srt w w1 → g.execute (nodeSem p lib) srt fuel id frames w1 = .ok (st, g', w2) →
      Later p srt w w2

end OCG.RecallSpec
