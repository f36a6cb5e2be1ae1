import Verif.Model.GraphCpp
import Verif.Model.Lut
/-
Model of the C++ classes that a host program uses (src/graph.cpp, src/cache.cpp, src/stream.cpp,
src/node.cpp, src/colorlutimage.cpp), and of a host program that makes objects of these classes and
calls them.  The objects are known by numbers that the host chooses (its variables).
-/

namespace OCG

variable {F H : Type} [FloatLike F] [HalfLike F H] [FloatConst F] [FloatBits F]

/-- How a host program can end early; model only.  The Rust code aborts when it panics
(Cargo.toml:69), and the C++ methods are `noexcept`. -/
inductive Crash where
  | panic (why : Panic)
  /-- an object is used whose `rust::Box` was moved away -/
  | null
  /-- there is no such object (the host does not compile) -/
  | missing
  deriving DecidableEq, Repr

/-- A call of Rust code from C++. -/
def fromRust {A : Type} : Res A → Except Crash A
  | .ok a => .ok a
  | .error e => .error (.panic e)

/-- The `inner.inner` of a C++ object, a `rust::Box`: nothing while it is moved away
(include/opencompgraph/cache.h:59, stream.h:100). -/
abbrev Holder (A : Type) := Option A

/-- cache.cpp:33-35 and stream.cpp:40-42 `get_box`; also an access through `inner.inner->`, which
needs the box to be there. -/
def Holder.getBox {A : Type} : Holder A → Except Crash (A × Holder A)
  | some a => .ok (a, none)
  | none => .error .null

/-- cache.cpp:37-39 and stream.cpp:44-46 `set_box`. -/
def Holder.setBox {A : Type} (_ : Holder A) (a : A) : Holder A := some a

/-- The calls of a graph that need nothing else, graph.cpp:36-130.  The random identifier of
graph.cpp:45 and the one made from a name (graph.cpp:53) are arguments here. -/
inductive GraphCall (F : Type) where
  | createNode (t : NodeType) (id : Nat)
  | deleteNode (id : Nat)
  | connect (src dst slot : Nat)
  | disconnect (dst slot : Nat)
  | setF32 (id : Nat) (name : String) (value : F)
  | setI32 (id : Nat) (name : String) (value : Int)
  | setStr (id : Nat) (name : String) (value : Bytes)
  | getF32 (id : Nat) (name : String)
  | getI32 (id : Nat) (name : String)
  | getStr (id : Nat) (name : String)
  | attrExists (id : Nat) (name : String)
  | nodeStatus (id : Nat)
  | nodeExists (id : Nat)
  | state
  | executeStatus

/-- What a call gives back to the host. -/
inductive Answer (F H : Type) where
  | none
  | node (t : NodeType) (id : Nat)
  | bool (b : Bool)
  | f32 (x : F)
  | i32 (n : Int)
  | str (s : Bytes)
  | attrState (s : AttrState)
  | nodeStatus (s : NodeStatus)
  | graphState (s : GraphState)
  | status (s : ExecuteStatus)
  | cache (count usedBytes capacityBytes : Nat)
  /-- all that the methods of a stream tell (stream.cpp:48-115) -/
  | stream (s : Stream F H)
  | image (i : Image F H)

/-- graph.cpp:36-130: `create_node`, `delete_node`, the attributes, `node_status`, `node_exists`,
`disconnect_input`, `connect`, `state` and `execute_status`; node.cpp:28-55 for the `Node` that is
given back. -/
def Graph.call (p : Profile) (lib : NodeLib F H) (g : Graph (Node F) (Stream F H)) :
    GraphCall F → Res (Graph (Node F) (Stream F H) × Answer F H)
  | .createNode t id => do
    let (g, _) ← g.addNode (nodeSem p lib) (Node.create t id)
    .ok (g, .node t id)
  | .deleteNode id => let (g, done) := g.removeNode id; .ok (g, .bool done)
  | .connect src dst slot => do let g ← g.connect src dst slot; .ok (g, .none)
  | .disconnect dst slot => .ok (g.disconnectInput dst slot, .none)
  | .setF32 id name value => do let g ← g.setNodeF32 id name value; .ok (g, .none)
  | .setI32 id name value => do let g ← g.setNodeI32 id name value; .ok (g, .none)
  | .setStr id name value => do let g ← g.setNodeStr id name value; .ok (g, .none)
  | .getF32 id name => do let x ← g.getNodeF32 id name; .ok (g, .f32 x)
  | .getI32 id name => do let x ← g.getNodeI32 id name; .ok (g, .i32 x)
  | .getStr id name => do let x ← g.getNodeStr id name; .ok (g, .str x)
  | .attrExists id name => do let x ← g.nodeAttrExists id name; .ok (g, .attrState x)
  | .nodeStatus id => do let x ← g.query id .nonExistent fun n => n.status; .ok (g, .nodeStatus x)
  | .nodeExists id => .ok (g, .bool (g.nodeExists id))
  | .state => .ok (g, .graphState g.state)
  | .executeStatus => .ok (g, .status g.status)

/-- The objects of a host program, and the files its graphs have handed to OpenImageIO, with the
graph each is from. -/
structure Host (F H : Type) where
  graphs : Nat → Option (Graph (Node F) (Stream F H))
  caches : Nat → Option (Holder (Cache (Image F H)))
  streams : Nat → Option (Holder (Stream F H))
  writes : List (Nat × WriteJob F H)

/-- A host that has just started. -/
def Host.start : Host F H := ⟨fun _ => none, fun _ => none, fun _ => none, []⟩

/-- The statements of a host program. -/
inductive HostOp (F : Type) where
  | newGraph (g : Nat)
  | dropGraph (g : Nat)
  | graph (g : Nat) (call : GraphCall F)
  | execute (g id : Nat) (frames : List F) (c : Nat)
  | output (g s : Nat)
  | newCache (c : Nat)
  | dropCache (c : Nat)
  | setCapacity (c bytes : Nat)
  | lookCache (c : Nat)
  | newStream (s : Nat)
  | dropStream (s : Nat)
  | lookStream (s : Nat)
  | transformLut (src dst : Bytes) (edge : Int) (c : Nat)
  | opsLut (s : Nat) (edge channels : Int) (c : Nat)

/-- An object the host has made. -/
def object {A : Type} (m : Nat → Option A) (i : Nat) : Except Crash A :=
  match m i with
  | some a => .ok a
  | none => .error .missing

/-- A new value for a variable. -/
def assign {A : Type} (m : Nat → Option A) (i : Nat) (a : Option A) : Nat → Option A :=
  fun j => if j = i then a else m j

namespace Host

/-- One statement.  `newGraph`: graph.cpp:31-34, cxxbridge.rs:1024-1029; `execute`: graph.cpp:146-155;
`output`: graph.cpp:162-165, graph.rs:633-638, stream.cpp:35-38; `newCache`: cache.cpp:29-31 (the
capacity is 0), `setCapacity` and `lookCache`: cache.cpp:41-55; `newStream`: stream.cpp:30-33;
`lookStream`: stream.cpp:48-115; `transformLut`: colorlutimage.cpp:36-50; `opsLut`:
colorlutimage.cpp:52-72.  The `drop`s are the destructors. -/
def step (p : Profile) (lib : NodeLib F H) (srt : EdgeSort) (fuel : Nat) (h : Host F H) :
    HostOp F → Except Crash (Host F H × Answer F H)
  | .newGraph g => .ok ({ h with graphs := assign h.graphs g (some (Graph.new Stream.new)) }, .none)
  | .dropGraph g => .ok ({ h with graphs := assign h.graphs g none }, .none)
  | .graph g call => do
    let graph ← object h.graphs g
    let (graph, answer) ← fromRust (graph.call p lib call)
    .ok ({ h with graphs := assign h.graphs g (some graph) }, answer)
  | .execute g id frames c => do
    let graph ← object h.graphs g
    let holder ← object h.caches c
    let (cache, holder) ← holder.getBox
    let (status, graph, w) ← fromRust (graph.execute (nodeSem p lib) srt fuel id frames ⟨cache, []⟩)
    let holder := holder.setBox w.cache
    .ok ({ h with graphs := assign h.graphs g (some graph)
                  caches := assign h.caches c (some holder)
                  writes := h.writes ++ w.writes.map fun job => (g, job) }, .status status)
  | .output g s => do
    let graph ← object h.graphs g
    .ok ({ h with streams := assign h.streams s (some (some graph.output)) }, .none)
  | .newCache c =>
    .ok ({ h with caches := assign h.caches c (some (some (.withCapacity 0))) }, .none)
  | .dropCache c => .ok ({ h with caches := assign h.caches c none }, .none)
  | .setCapacity c bytes => do
    let holder ← object h.caches c
    let (cache, holder) ← holder.getBox
    let cache ← fromRust (cache.setCapacity Image.sizeBytes p bytes)
    .ok ({ h with caches := assign h.caches c (some (holder.setBox cache)) }, .none)
  | .lookCache c => do
    let holder ← object h.caches c
    let (cache, holder) ← holder.getBox
    .ok ({ h with caches := assign h.caches c (some (holder.setBox cache)) },
      .cache cache.lru.length cache.used cache.capacity)
  | .newStream s => .ok ({ h with streams := assign h.streams s (some (some .new)) }, .none)
  | .dropStream s => .ok ({ h with streams := assign h.streams s none }, .none)
  | .lookStream s => do
    let holder ← object h.streams s
    let (stream, holder) ← holder.getBox
    .ok ({ h with streams := assign h.streams s (some (holder.setBox stream)) }, .stream stream)
  | .transformLut src dst edge c => do
    let holder ← object h.caches c
    let (cache, holder) ← holder.getBox
    let (cache, image) ← fromRust (getTransformLut p lib.hash lib.bake.color src dst edge cache)
    .ok ({ h with caches := assign h.caches c (some (holder.setBox cache)) }, .image image)
  | .opsLut s edge channels c => do
    let streamHolder ← object h.streams s
    let holder ← object h.caches c
    let (stream, streamHolder) ← streamHolder.getBox
    let (cache, holder) ← holder.getBox
    let (cache, image) ← fromRust (getOpsLut p lib.hash stream edge channels cache)
    let holder := holder.setBox cache
    let streamHolder := streamHolder.setBox stream
    .ok ({ h with caches := assign h.caches c (some holder)
                  streams := assign h.streams s (some streamHolder) }, .image image)

/-- A host program: statements one after the other. -/
def run (p : Profile) (lib : NodeLib F H) (srt : EdgeSort) (fuel : Nat) (h : Host F H) :
    List (HostOp F) → Except Crash (Host F H × List (Answer F H))
  | [] => .ok (h, [])
  | op :: ops => do
    let (h, answer) ← h.step p lib srt fuel op
    let (h, answers) ← run p lib srt fuel h ops
    .ok (h, answer :: answers)

end Host
end OCG
