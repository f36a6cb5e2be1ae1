import Verif.Spec.Graph
/-
What executing a graph should compute.
-/

namespace OCG.GraphSpec

variable {N S C Fr : Type}

/-- The work requested from each node when `start` is executed: everything from `start`, and
from the inputs of a node what the node asks for. -/
inductive Requested (sem : NodeSem N S C Fr) (srt : EdgeSort) (g : Graph N S) (start : Nat) :
    Nat → Mode → Prop
  | start : Requested sem srt g start start modeAll
  | input {i m n h ins ns modes j m'} : Requested sem srt g start i m →
      g.nodes[i]? = some n → g.graph.findDirectUpstream srt i = .ok ins →
      ins.map (g.nodes[·]?) = ns.map some → sem.validate n m h ns = .ok modes →
      (j, m') ∈ ins.zip modes → Requested sem srt g start j m'

/-- The nodes compute the function `f` of frame, mode and inputs, whatever is left in the
output stream from before and whatever the cache holds, as long as the cache satisfies `good`. -/
def Computes (sem : NodeSem N S C Fr) (f : N → Fr → Mode → List S → NodeStatus × S)
    (good : C → Prop) : Prop :=
  ∀ n fr m ins prev c n' st out c', good c →
    sem.compute n fr m ins prev c = .ok (n', st, out, c') →
      (st, out) = f n fr m ins ∧ f n' = f n ∧ good c'

/-- No node is asked for different work by different consumers, as far as it matters to the
node. -/
def OneRequest (sem : NodeSem N S C Fr) (f : N → Fr → Mode → List S → NodeStatus × S)
    (srt : EdgeSort) (g : Graph N S) (start : Nat) (fr : Fr) : Prop :=
  ∀ i m m' n, Requested sem srt g start i m → Requested sem srt g start i m' →
    g.nodes[i]? = some n → f n fr m = f n fr m'

/-- `v` gives every node upstream of `start` the node's function applied to the values of its
inputs, in input order. -/
def Solves (sem : NodeSem N S C Fr) (f : N → Fr → Mode → List S → NodeStatus × S)
    (srt : EdgeSort) (g : Graph N S) (start : Nat) (fr : Fr) (v : Nat → S) : Prop :=
  ∀ i m n ins, Upstream g.graph start i → Requested sem srt g start i m →
    g.nodes[i]? = some n → g.graph.findDirectUpstream srt i = .ok ins →
    v i = (f n fr m (ins.map v)).2

/-- `v` gives every node upstream of `start`, for each request made to it, the node's function
applied to the values of its inputs for the requests the node makes to them.  This is the
recursive evaluation of the graph. -/
def SolvesRequests (sem : NodeSem N S C Fr) (f : N → Fr → Mode → List S → NodeStatus × S)
    (srt : EdgeSort) (g : Graph N S) (start : Nat) (fr : Fr) (v : Nat → Mode → S) : Prop :=
  ∀ i m n ins ns h modes, Requested sem srt g start i m → g.nodes[i]? = some n →
    g.graph.findDirectUpstream srt i = .ok ins → ins.map (g.nodes[·]?) = ns.map some →
    sem.validate n m h ns = .ok modes →
    v i m = (f n fr m ((ins.zip modes).map fun x => v x.1 x.2)).2

/-- The node statuses that stop the execution. -/
def Fails (st : NodeStatus) : Prop := st ≠ .valid ∧ st ≠ .warning

/-- The same nodes, with every computation and its status recorded beside the cache. -/
def recording (sem : NodeSem N S C Fr) : NodeSem N S (C × List (Nat × NodeStatus)) Fr where
  id := sem.id
  status := sem.status
  hash := sem.hash
  validate := sem.validate
  compute n fr m ins prev c :=
    (sem.compute n fr m ins prev c.1).map fun x =>
      (x.1, x.2.1, x.2.2.1, (x.2.2.2, c.2 ++ [(sem.id n, x.2.1)]))

/-- The graph is arranged in levels: a node's inputs (other than itself) are all one level
above it. -/
def Leveled (sg : SGraph) (start : Nat) : Prop :=
  ∃ level : Nat → Nat, ∀ u v, Upstream sg start v → Feeds sg u v → u ≠ v →
    level u = level v + 1

end OCG.GraphSpec
