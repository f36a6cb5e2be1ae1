import Verif.Model.GraphIter
/-
Model of src/graph.rs, generic in the node and stream types.  What the nodes do is a
parameter (`NodeSem`), instantiated in `Verif.Model.Node`.
-/

namespace OCG

/-- cxxbridge.rs:184-193 `GraphState`. -/
inductive GraphState where
  | dirty
  | clean
  | uninitialized
  deriving DecidableEq, Repr

/-- cxxbridge.rs:196-205 `ExecuteStatus`. -/
inductive ExecuteStatus where
  | error
  | success
  | uninitialized
  deriving DecidableEq, Repr

/-- cxxbridge.rs:286-299 `NodeStatus`. -/
inductive NodeStatus where
  | error
  | valid
  | warning
  | nonExistent
  | uninitialized
  deriving DecidableEq, Repr

/-- data.rs:98-102 `ErrorCode`. -/
inductive ErrorCode where
  | failure
  | invalid
  | uninitialized
  deriving DecidableEq, Repr

/-- `NodeComputeMode` bits (data.rs:104-114). -/
abbrev Mode := Nat

/-- data.rs:112 `NodeComputeMode::ALL`. -/
def modeAll : Mode := 15

/-- The `NodeImpl` methods that graph.rs calls (node.rs:49-134). -/
structure NodeSem (N S C Fr : Type) where
  /-- node.rs:50-52 `get_id` -/
  id : N → Nat
  /-- node.rs:75-83 `get_status` -/
  status : N → NodeStatus
  /-- node.rs:85-92 `hash` -/
  hash : N → Fr → List Nat → Nat
  /-- node.rs:94-108 `validate_inputs` -/
  validate : N → Mode → Nat → List N → Res (List Mode)
  /-- node.rs:110-134 `compute`: node, frame, mode, inputs, the previous output and the
  cache give the node with its new status, the status, the new output and the cache -/
  compute : N → Fr → Mode → List S → S → C → Res (N × NodeStatus × S × C)

/-- graph.rs:55-63 `GraphImpl`. -/
structure Graph (N S : Type) where
  nodes : List N
  ids : List Nat
  graph : SGraph
  output : S
  state : GraphState
  status : ExecuteStatus

namespace Graph

variable {N S C Fr : Type}

/-- graph.rs:67-83 `new`; `output` is `StreamDataImpl::new()`. -/
def new (output : S) : Graph N S := ⟨[], [], .empty, output, .uninitialized, .uninitialized⟩

/-- `Iterator::position` (core). -/
def position (id : Nat) : List Nat → Nat → Option Nat
  | [], _ => none
  | x :: xs, i => if x = id then some i else position id xs (i + 1)

/-- graph.rs:250-258 `find_node_index_from_id`. -/
def find (g : Graph N S) (id : Nat) : Option Nat := position id g.ids 0

/-- graph.rs:239-247 `node_exists`. -/
def nodeExists (g : Graph N S) (id : Nat) : Bool :=
  match g.find id with
  | some _ => true
  | none => false

/-- graph.rs:96-107 `add_node`. -/
def addNode (sem : NodeSem N S C Fr) (g : Graph N S) (n : N) : Res (Graph N S × Nat) :=
  let id := sem.id n
  let nodesIndex := g.nodes.length
  let r := g.graph.addNode id
  if r.2 = nodesIndex then
    .ok ({ g with nodes := g.nodes ++ [n], ids := g.ids ++ [id], graph := r.1, state := .dirty },
      r.2)
  else .error .assertion

/-- graph.rs:110-128 `remove_node`. -/
def removeNode (g : Graph N S) (id : Nat) : Graph N S × Bool :=
  match g.find id with
  | none => (g, false)
  | some i =>
    match g.graph.removeNode i with
    | some sg => ({ g with graph := sg, state := .dirty }, true)
    | none => (g, false)

/-- graph.rs:130-225, the pattern shared by `node_attr_exists`, `get_node_attr_str`,
`get_node_attr_i32`, `get_node_attr_f32` and `node_status`: query the node, or give the default
for an unknown node.  Indexing `self.nodes` panics out of range. -/
def query {α : Type} (g : Graph N S) (id : Nat) (dflt : α) (f : N → α) : Res α :=
  match g.find id with
  | none => .ok dflt
  | some i =>
    match g.nodes[i]? with
    | some n => .ok (f n)
    | none => .error .index

/-- graph.rs:152-164, 177-189, 202-214, the pattern shared by `set_node_attr_str`,
`set_node_attr_i32` and `set_node_attr_f32`. -/
def setAttr (g : Graph N S) (id : Nat) (f : N → N) : Res (Graph N S) :=
  match g.find id with
  | none => .ok g
  | some i =>
    match g.nodes[i]? with
    | some n => .ok { g with nodes := g.nodes.set i (f n), state := .dirty }
    | none => .error .index

/-- graph.rs:285-296, the loop removing the collected edges. -/
def removeEdges : List Edge → SGraph × GraphState → SGraph × GraphState
  | [], s => s
  | e :: es, s =>
    if s.1.hasEdge e.src e.dst then removeEdges es (s.1.removeEdge e.src e.dst, .dirty)
    else removeEdges es s

/-- graph.rs:265-297 `disconnect_input`. -/
def disconnectInput (g : Graph N S) (dstId inputNum : Nat) : Graph N S :=
  match g.find dstId with
  | none => g
  | some dst =>
    let existing := (g.graph.incoming dst).takeWhile fun e => e.weight == inputNum
    let r := removeEdges existing (g.graph, g.state)
    { g with graph := r.1, state := r.2 }

/-- graph.rs:308-332 `connect`. -/
def connect (g : Graph N S) (srcId dstId inputNum : Nat) : Res (Graph N S) :=
  match g.find srcId with
  | none => .ok g
  | some src =>
    match g.find dstId with
    | none => .ok g
    | some dst => do
      let g1 := g.disconnectInput dstId inputNum
      let sg ← g1.graph.updateEdge src dst inputNum
      .ok { g1 with graph := sg, state := .dirty }

/-- The `FxHashMap<GraphIdx, _>` values of `execute_frame` (std-like map, external). -/
abbrev IdxMap (α : Type) := Nat → Option α

/-- `HashMap::insert`. -/
def IdxMap.insert {α : Type} (m : IdxMap α) (k : Nat) (v : α) : IdxMap α :=
  fun j => if j = k then some v else m j

/-- graph.rs:378-386 and 402-410: look up every parent, panicking for a missing one. -/
def lookupAll {α : Type} (m : IdxMap α) : List Nat → Res (List α)
  | [] => .ok []
  | i :: is =>
    match m i with
    | none => .error .missingParent
    | some v => do
      let vs ← lookupAll m is
      .ok (v :: vs)

/-- graph.rs:491-500, the hash phase of `execute_frame` over the given (already reversed)
node indices; includes `compute_node_input_hash_values` (graph.rs:392-412). -/
def hashPhase (sem : NodeSem N S C Fr) (srt : EdgeSort) (g : Graph N S) (frame : Fr) :
    List Nat → IdxMap Nat → Res (IdxMap Nat)
  | [], m => .ok m
  | i :: is, m =>
    match g.nodes[i]? with
    | none => .error .index
    | some n => do
      let parents ← g.graph.findDirectUpstream srt i
      let hs ← lookupAll m parents
      hashPhase sem srt g frame is (m.insert i (sem.hash n frame hs))

/-- graph.rs:512-516: the input nodes. -/
def nodesAt (g : Graph N S) : List Nat → Res (List N)
  | [] => .ok []
  | i :: is =>
    match g.nodes[i]? with
    | none => .error .index
    | some n => do
      let ns ← nodesAt g is
      .ok (n :: ns)

/-- graph.rs:509-529, the validate loop, for at most `fuel` iterations.  `push_front` of each
pair in turn leaves the last pair at the front. -/
def validateLoop (sem : NodeSem N S C Fr) (srt : EdgeSort) (g : Graph N S) (hashes : IdxMap Nat) :
    Nat → List (Nat × Mode) → List (Nat × Mode) → Res (List (Nat × Mode))
  | 0, _, _ => .error .unfinished
  | _ + 1, [], validated => .ok validated
  | fuel + 1, (i, mode) :: stack, validated => do
    let ups ← g.graph.findDirectUpstream srt i
    let inputNodes ← g.nodesAt ups
    match g.nodes[i]? with
    | none => .error .index
    | some n =>
      match hashes i with
      | none => .error .explicit
      | some h => do
        let modes ← sem.validate n mode h inputNodes
        let pairs := ups.zip modes
        validateLoop sem srt g hashes fuel (pairs.reverse ++ stack) (validated ++ pairs)

/-- The result of the compute phase: the error code if it stopped early, the graph and the
cache. -/
abbrev FrameResult (N S C : Type) := Option ErrorCode × Graph N S × C

/-- graph.rs:451-469, the outcome of `compute_node_output` for a node status. -/
def statusError : NodeStatus → Option ErrorCode
  | .valid | .warning => none
  | .uninitialized => some .uninitialized
  | .error => some .failure
  | .nonExistent => some .failure

/-- graph.rs:533-543, the compute phase over the (already reversed) validated nodes; includes
`compute_node_input_stream_data` (graph.rs:368-388) and `compute_node_output`
(graph.rs:415-470). -/
def computePhase (sem : NodeSem N S C Fr) (srt : EdgeSort) (frame : Fr) :
    List (Nat × Mode) → Graph N S → C → IdxMap S → Res (FrameResult N S C)
  | [], g, c, _ => .ok (none, g, c)
  | (i, mode) :: rest, g, c, streams => do
    let parents ← g.graph.findDirectUpstream srt i
    let inputs ← lookupAll streams parents
    match g.nodes[i]? with
    | none => .error .index
    | some n => do
      let (n', st, out, c') ← sem.compute n frame mode inputs g.output c
      let g' := { g with nodes := g.nodes.set i n', output := out }
      match statusError st with
      | some e => .ok (some e, g', c')
      | none => computePhase sem srt frame rest g' c' (streams.insert i out)

/-- graph.rs:472-548 `execute_frame`. -/
def executeFrame (sem : NodeSem N S C Fr) (srt : EdgeSort) (fuel : Nat) (g : Graph N S)
    (order : List Nat) (frame : Fr) (c : C) : Res (FrameResult N S C) := do
  let hashes ← hashPhase sem srt g frame order.reverse (fun _ => none)
  match order with
  | [] => .error .index
  | start :: _ => do
    let validated ← validateLoop sem srt g hashes fuel [(start, modeAll)] [(start, modeAll)]
    computePhase sem srt frame validated.reverse g c (fun _ => none)

/-- graph.rs:580-597, the loop over the frames of `execute`. -/
def frameLoop (sem : NodeSem N S C Fr) (srt : EdgeSort) (fuel : Nat) (order : List Nat) :
    List Fr → Graph N S → C → Res (FrameResult N S C)
  | [], g, c => .ok (none, g, c)
  | f :: fs, g, c => do
    let (e, g', c') ← g.executeFrame sem srt fuel order f c
    match e with
    | some e => .ok (some e, g', c')
    | none => frameLoop sem srt fuel order fs g' c'

/-- graph.rs:584-592, the status for an error code. -/
def errorStatus : ErrorCode → ExecuteStatus
  | .failure => .error
  | .invalid => .error
  | .uninitialized => .uninitialized

/-- graph.rs:561-610 `execute`. -/
def execute (sem : NodeSem N S C Fr) (srt : EdgeSort) (fuel : Nat) (g : Graph N S)
    (startId : Nat) (frames : List Fr) (c : C) : Res (ExecuteStatus × Graph N S × C) :=
  match g.find startId with
  | none => .ok (.error, { g with status := .error }, c)
  | some start => do
    let order ← g.graph.findAllUpstream srt start
    let (e, g', c') ← frameLoop sem srt fuel order frames g c
    match e with
    | some e => .ok (errorStatus e, { g' with status := errorStatus e }, c')
    | none => .ok (.success, { g' with state := .clean, status := .success }, c')

end Graph

end OCG
