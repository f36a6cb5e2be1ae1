import Verif.Model.StableGraph
/-
Model of src/graphiter.rs and of the two searches of src/graph.rs that use it.
-/

namespace OCG

/-- graphiter.rs:28-32 `UpstreamEvalSearch`: the queue of (node, depth) and the set of
discovered nodes. -/
structure Search where
  stack : List (Nat × Nat)
  discovered : List Nat
  deriving DecidableEq, Repr

namespace Search

/-- graphiter.rs:41-50 `new`.  The visit map is a bit set of `node_bound` bits, and visiting
an index outside panics. -/
def new (g : SGraph) (start : Nat) : Res Search :=
  if start < g.nodeBound then .ok ⟨[(start, 0)], [start]⟩ else .error .index

/-- graphiter.rs:67-72, the loop over the sorted edges of a node of depth `depth`. -/
def pushAll (depth : Nat) : List Edge → Search → Search
  | [], s => s
  | e :: es, s =>
    if s.discovered.contains e.src then pushAll depth es s
    else pushAll depth es ⟨s.stack ++ [(e.src, depth + 1)], e.src :: s.discovered⟩

/-- graphiter.rs:54-76 `next`. -/
def next (srt : EdgeSort) (g : SGraph) (s : Search) : Option ((Nat × Nat) × Search) :=
  match s.stack with
  | [] => none
  | (node, depth) :: rest =>
    some ((node, depth), pushAll depth (srt.run (g.incoming node)) { s with stack := rest })

/-- graph.rs:341-343, the `while let` loop of `find_all_upstream_nodes`, for at most `fuel`
iterations. -/
def allLoop (srt : EdgeSort) (g : SGraph) : Nat → Search → List Nat → Res (List Nat)
  | 0, _, _ => .error .unfinished
  | fuel + 1, s, acc =>
    match s.next srt g with
    | none => .ok acc
    | some ((node, _), s') => allLoop srt g fuel s' (acc ++ [node])

/-- graph.rs:353-362, the `while let` loop of `find_direct_upstream_nodes`. -/
def directLoop (srt : EdgeSort) (g : SGraph) : Nat → Search → List Nat → Res (List Nat)
  | 0, _, _ => .error .unfinished
  | fuel + 1, s, acc =>
    match s.next srt g with
    | none => .ok acc
    | some ((node, depth), s') =>
      if depth = 0 then directLoop srt g fuel s' acc
      else if depth > 1 then .ok acc
      else directLoop srt g fuel s' (acc ++ [node])

end Search

/-- graph.rs:336-345 `find_all_upstream_nodes`.  Each iteration takes a node from the queue,
and each node enters the queue once, so the number of iterations given is enough
(`findAll_ok`). -/
def SGraph.findAllUpstream (srt : EdgeSort) (g : SGraph) (start : Nat) : Res (List Nat) := do
  let s ← Search.new g start
  Search.allLoop srt g (g.slots.length + 2) s []

/-- graph.rs:349-364 `find_direct_upstream_nodes`. -/
def SGraph.findDirectUpstream (srt : EdgeSort) (g : SGraph) (start : Nat) : Res (List Nat) := do
  let s ← Search.new g start
  Search.directLoop srt g (g.slots.length + 2) s []

end OCG
