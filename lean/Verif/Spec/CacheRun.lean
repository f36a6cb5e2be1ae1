import Verif.Model.Compute
import Verif.Spec.NodeHash
/-
What it means for the cache not to matter: computations as values, computing with the cache
switched off, and the conditions under which the hash identifies the work.
-/

namespace OCG.CacheSpec

open HashSpec

variable {F H : Type} [FloatLike F] [HalfLike F H] [FloatConst F] [FloatBits F]

/-- One computation: what is handed to `compute` besides the cache. -/
structure Call (F H : Type) where
  node : Node F
  frame : F
  mode : Mode
  inputs : List (Stream F H)
  prev : Stream F H

/-- The hash under which the computation is cached. -/
def Call.key (lib : NodeLib F H) (c : Call F H) : Nat :=
  c.node.hash lib.hash lib.shell c.frame (c.inputs.map (·.hash))

/-- Doing the computation. -/
def Call.run (p : Profile) (lib : NodeLib F H) (c : Call F H) (w : World F H) :
    Res (Computed F H) :=
  c.node.run p lib c.frame c.mode c.inputs c.prev w

/-- The cache holds nothing and never will. -/
structure IsOff (w : World F H) : Prop where
  empty : w.cache.lru = []
  capacity : w.cache.capacity = 0

/-- With the cache switched off, the computation succeeds with this status and output. -/
def Gives (p : Profile) (lib : NodeLib F H) (c : Call F H) (st : NodeStatus) (out : Stream F H) :
    Prop :=
  ∃ w, c.run p lib ⟨.withCapacity 0, []⟩ = .ok (st, out, w)

/-- The computation looks into the cache. -/
def Caches (lib : NodeLib F H) (c : Call F H) : Prop :=
  c.node.getI32 "use_cache" ≠ 0 ∧
  match c.node.attrs.nodeType with
  | .readImage =>
    c.mode &&& modePixel = modePixel ∧ c.node.getI32 "enable" ≠ 0 ∧
      lib.pathKind (path lib.shell c.node c.frame) = .file
  | .mergeImage => c.node.getI32 "enable" = 1 ∧ c.inputs ≠ []
  | .cropImage => c.node.getI32 "enable" = 1 ∧ c.inputs ≠ []
  | .resampleImage =>
    c.node.getI32 "enable" = 1 ∧ c.inputs ≠ [] ∧ c.node.getI32 "factor" ≠ 0
  | .viewer => c.node.getI32 "enable" = 1 ∧ c.node.getI32 "bake_option" ≠ 0
  | _ => False

/-- No colour change is waiting to be applied to the pixels. -/
structure Ungraded (s : Stream F H) : Prop where
  matrix : s.colorMatrix = Mat4.identity
  ops : s.colorOps = []

/-- The input of a cropping or baking node has nothing waiting that the node would apply to the
pixels. -/
def Settled (c : Call F H) : Prop :=
  match c.node.attrs.nodeType with
  | .cropImage => ∀ s ∈ c.inputs.head?, Ungraded s ∧ s.deformers = []
  | .viewer =>
    c.node.getI32 "crop_to_format" ≠ 0 ∨ c.node.getI32 "bake_option" ≠ 1 →
      ∀ s ∈ c.inputs.head?, Ungraded s
  | _ => True

/-- Streams computed, with the cache switched off, by computations in `K` from each other. -/
inductive Produced (p : Profile) (lib : NodeLib F H) (K : Call F H → Prop) : Stream F H → Prop
  | new : Produced p lib K .new
  | step (c : Call F H) (st : NodeStatus) (out : Stream F H) : K c →
    (∀ s ∈ c.inputs, Produced p lib K s) → Produced p lib K c.prev → Gives p lib c st out →
    Produced p lib K out

/-- A grade leaves the values of the channels it does not process at their defaults. -/
def Untouched (n : Node F) : Prop :=
  n.attrs.nodeType = .grade → ∀ ch ∈ ["r", "g", "b", "a"], n.getI32 ("process_" ++ ch) = 0 →
    ∀ name ∈ gradeChannel ch, n.getF32 name = (GradeAttrs.new : GradeAttrs F).getF32 name

/-- The computations in `K` are such that the hash should identify the work: no two hash
collisions, and none of the attributes that the hash leaves out is used. -/
structure Regular (p : Profile) (lib : NodeLib F H) (K : Call F H → Prop) : Prop where
  /-- hashes are 64 bit -/
  range : ∀ b, lib.hash b < 2 ^ 64
  /-- `shellexpand` gives texts for texts -/
  shell : ∀ s t, (∀ b ∈ s, b < 255) → lib.shell s = some t → ∀ b ∈ t, b < 255
  typed : ∀ c, K c → Typed c.node
  /-- no collision between two of the byte streams that are hashed -/
  collision : ∀ c c', K c → K c' → c.key lib = c'.key lib →
    hashBytes (c.node.hashItems lib.shell c.frame (c.inputs.map (·.hash))) =
      hashBytes (c'.node.hashItems lib.shell c'.frame (c'.inputs.map (·.hash)))
  /-- no hash is the hash of a new stream -/
  nonzero : ∀ c, K c → c.key lib ≠ 0
  /-- file nodes are enabled with 1 -/
  files : ∀ c, K c → c.node.attrs.nodeType = .readImage ∨ c.node.attrs.nodeType = .writeImage →
    c.node.getI32 "enable" = 0 ∨ c.node.getI32 "enable" = 1
  /-- all lens distortions have the same direction -/
  lenses : ∀ c c', K c → K c' → c.node.attrs.nodeType = .lensDistort →
    c'.node.attrs.nodeType = .lensDistort →
    c.node.getI32 "direction" = c'.node.getI32 "direction"
  grades : ∀ c, K c → Untouched c.node
  /-- viewers and resampling nodes have one input -/
  single : ∀ c, K c → c.node.attrs.nodeType = .viewer ∨ c.node.attrs.nodeType = .resampleImage →
    c.inputs.length = 1
  settled : ∀ c, K c → Caches lib c → Settled c
  /-- no resampling fails -/
  resampled : ∀ c, K c → c.node.attrs.nodeType = .resampleImage → ∀ out,
    ¬ Gives p lib c .error out

/-- The nodes with every computation recorded beside the world. -/
def logged (p : Profile) (lib : NodeLib F H) :
    NodeSem (Node F) (Stream F H) (World F H × List (Call F H)) F where
  id := (nodeSem p lib).id
  status := (nodeSem p lib).status
  hash := (nodeSem p lib).hash
  validate := (nodeSem p lib).validate
  compute n frame mode inputs prev w :=
    ((nodeSem p lib).compute n frame mode inputs prev w.1).map fun x =>
      (x.1, x.2.1, x.2.2.1, (x.2.2.2, w.2 ++ [⟨n, frame, mode, inputs, prev⟩]))

/-- The worlds reached by executing graphs and changing the capacity of the cache, where all
computations are in `K`. -/
inductive History (p : Profile) (lib : NodeLib F H) (srt : EdgeSort) (K : Call F H → Prop) :
    World F H → Prop
  | start (capacity : Nat) (writes : List (WriteJob F H)) :
    History p lib srt K ⟨.withCapacity capacity, writes⟩
  | capacity (w : World F H) (capacity : Nat) (cache : Cache (Image F H)) :
    History p lib srt K w → w.cache.setCapacity Image.sizeBytes p capacity = .ok cache →
    History p lib srt K { w with cache := cache }
  | execute (w w' : World F H) (fuel : Nat) (g g' : Graph (Node F) (Stream F H)) (id : Nat)
      (frames : List F) (status : ExecuteStatus) (log : List (Call F H)) :
    History p lib srt K w → Produced p lib K g.output →
    Graph.execute (logged p lib) srt fuel g id frames (w, []) = .ok (status, g', (w', log)) →
    (∀ c ∈ log, K c) → History p lib srt K w'

end OCG.CacheSpec
