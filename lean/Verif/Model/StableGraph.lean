import Verif.Model.Prelude
/-
Model of the parts of `petgraph::stable_graph::StableGraph` (version 0.5.1, external) that
src/graph.rs and src/graphiter.rs use.
-/

namespace OCG

/-- One connection, with node indices and the input number (`EdgeWeight`, data.rs:31). -/
structure Edge where
  src : Nat
  dst : Nat
  weight : Nat
  deriving DecidableEq, Repr

/-- `NodeGraph` (graph.rs:52-53).  Vacant slots are `none`; `free` is the list of vacant
slots, last freed first; `edges` are newest first, which is the order in which
`edges_directed` enumerates them. -/
structure SGraph where
  slots : List (Option Nat)
  free : List Nat
  edges : List Edge
  deriving DecidableEq, Repr

namespace SGraph

/-- `NodeGraph::with_capacity(0, 0)` (graph.rs:71). -/
def empty : SGraph := ⟨[], [], []⟩

/-- Whether index `a` holds a node (petgraph `get_node`). -/
def contains (g : SGraph) (a : Nat) : Bool :=
  match g.slots[a]? with
  | some (some _) => true
  | _ => false

/-- petgraph `StableGraph::add_node`: reuses the slot freed last. -/
def addNode (g : SGraph) (w : Nat) : SGraph × Nat :=
  match g.free with
  | [] => ({ g with slots := g.slots ++ [some w] }, g.slots.length)
  | i :: rest => ({ g with slots := g.slots.set i (some w), free := rest }, i)

/-- petgraph `StableGraph::remove_node`; `none` if there is no such node. -/
def removeNode (g : SGraph) (a : Nat) : Option SGraph :=
  if g.contains a then
    some { slots := g.slots.set a none
           free := a :: g.free
           edges := g.edges.filter fun e => e.src != a && e.dst != a }
  else none

/-- petgraph `edges_directed(a, Direction::Incoming)`. -/
def incoming (g : SGraph) (a : Nat) : List Edge :=
  if g.contains a then g.edges.filter fun e => e.dst == a else []

/-- Whether petgraph `find_edge(a, b)` finds an edge. -/
def hasEdge (g : SGraph) (a b : Nat) : Bool :=
  g.contains a && g.edges.any fun e => e.src == a && e.dst == b

/-- petgraph `remove_edge(find_edge(a, b))`, the first edge from `a` to `b`. -/
def removeEdge (g : SGraph) (a b : Nat) : SGraph :=
  { g with edges := g.edges.eraseP fun e => e.src == a && e.dst == b }

/-- Replace the weight of the first edge from `a` to `b`. -/
def setWeight (a b w : Nat) : List Edge → List Edge
  | [] => []
  | e :: es =>
    if e.src == a && e.dst == b then { e with weight := w } :: es else e :: setWeight a b w es

/-- petgraph `StableGraph::update_edge`: replaces the weight of an existing edge, otherwise
`add_edge`, which panics when an end point is missing. -/
def updateEdge (g : SGraph) (a b w : Nat) : Res SGraph :=
  if g.hasEdge a b then .ok { g with edges := setWeight a b w g.edges }
  else if g.contains a && g.contains b then .ok { g with edges := ⟨a, b, w⟩ :: g.edges }
  else .error .index

/-- petgraph `node_bound`: one past the largest index of a present node, given the slots
from index `i` on and the bound found so far. -/
def boundFrom : List (Option Nat) → Nat → Nat → Nat
  | [], _, b => b
  | none :: rest, i, b => boundFrom rest (i + 1) b
  | some _ :: rest, i, _ => boundFrom rest (i + 1) (i + 1)

/-- petgraph `node_bound`. -/
def nodeBound (g : SGraph) : Nat := boundFrom g.slots 0 0

end SGraph

/-- `sort_unstable_by_key` on edges by weight (core, external): some sorted permutation,
with unspecified order of equal keys. -/
structure EdgeSort where
  run : List Edge → List Edge
  perm : ∀ l, (run l).Perm l
  sorted : ∀ l, (run l).Pairwise fun a b => a.weight ≤ b.weight

end OCG
