import Verif.Model.Graph
/-
Histories of graph API calls, and what users mean by connections.
-/

namespace OCG.GraphSpec

variable {N S C Fr : Type}

/-- `Reach sem srt removed g`: `g` is the state after some history of API calls, none of
which panicked; `removed` tells whether some `remove_node` call has returned true. -/
inductive Reach (sem : NodeSem N S C Fr) (srt : EdgeSort) : Bool → Graph N S → Prop
  | new (output : S) : Reach sem srt false (Graph.new output)
  | add {r g g' i} (n : N) : Reach sem srt r g → g.addNode sem n = .ok (g', i) →
      Reach sem srt r g'
  | remove {r g} (id : Nat) : Reach sem srt r g →
      Reach sem srt (r || (g.removeNode id).2) (g.removeNode id).1
  | connect {r g g'} (src dst slot : Nat) : Reach sem srt r g →
      g.connect src dst slot = .ok g' → Reach sem srt r g'
  | disconnect {r g} (dst slot : Nat) : Reach sem srt r g →
      Reach sem srt r (g.disconnectInput dst slot)
  | setAttr {r g g'} (id : Nat) (f : N → N) : Reach sem srt r g →
      (∀ n, sem.id (f n) = sem.id n) → g.setAttr id f = .ok g' → Reach sem srt r g'
  | execute {r g g' st c c'} (fuel id : Nat) (frames : List Fr) : Reach sem srt r g →
      g.execute sem srt fuel id frames c = .ok (st, g', c') → Reach sem srt r g'

/-- Node index `i` holds the node with this identifier (the first one added with it). -/
def At (g : Graph N S) (id i : Nat) : Prop :=
  g.ids[i]? = some id ∧ ∀ j, j < i → g.ids[j]? ≠ some id

/-- The identifier was never added. -/
def Unknown (g : Graph N S) (id : Nat) : Prop := id ∉ g.ids

/-- There is a connection from the node at index `a` into slot `slot` of the node at
index `b`. -/
def Conn (g : Graph N S) (a b slot : Nat) : Prop := ⟨a, b, slot⟩ ∈ g.graph.edges

/-- Every input slot has at most one source. -/
def UniqueSlots (g : Graph N S) : Prop :=
  ∀ a a' b slot, Conn g a b slot → Conn g a' b slot → a = a'

/-- The latest connections into `b` are into `slot`, as far as connections into `slot` from
nodes other than `a` go: nothing newer enters another slot of `b`. -/
def SlotIsLatest (g : Graph N S) (a b slot : Nat) : Prop :=
  ∀ newer e older, g.graph.edges = newer ++ e :: older → e.dst = b → e.weight = slot →
    e.src ≠ a → ∀ e' ∈ newer, e'.dst = b → e'.weight = slot

/-- Histories in which a slot is only reconnected while nothing newer enters another slot
of that node (for instance: the slot is empty, or it is the node's only connected slot, or it
was connected last). -/
inductive Orderly (sem : NodeSem N S C Fr) (srt : EdgeSort) : Graph N S → Prop
  | new (output : S) : Orderly sem srt (Graph.new output)
  | add {g g' i} (n : N) : Orderly sem srt g → g.addNode sem n = .ok (g', i) →
      Orderly sem srt g'
  | remove {g} (id : Nat) : Orderly sem srt g → Orderly sem srt (g.removeNode id).1
  | connect {g g'} (src dst slot : Nat) : Orderly sem srt g →
      (∀ a b, At g src a → At g dst b → SlotIsLatest g a b slot) →
      g.connect src dst slot = .ok g' → Orderly sem srt g'
  | disconnect {g} (dst slot : Nat) : Orderly sem srt g →
      Orderly sem srt (g.disconnectInput dst slot)
  | setAttr {g g'} (id : Nat) (f : N → N) : Orderly sem srt g →
      (∀ n, sem.id (f n) = sem.id n) → g.setAttr id f = .ok g' → Orderly sem srt g'
  | execute {g g' st c c'} (fuel id : Nat) (frames : List Fr) : Orderly sem srt g →
      g.execute sem srt fuel id frames c = .ok (st, g', c') → Orderly sem srt g'

/-- One step upstream: `a` feeds `b`. -/
def Feeds (sg : SGraph) (a b : Nat) : Prop := ∃ e ∈ sg.edges, e.src = a ∧ e.dst = b

/-- `a` can be reached from `b` by going upstream any number of steps. -/
inductive Upstream (sg : SGraph) (b : Nat) : Nat → Prop
  | refl : Upstream sg b b
  | step {c a} : Upstream sg b c → Feeds sg a c → Upstream sg b a

/-- One edit of a graph that touches neither the node at index `start` nor its upstream nodes:
adding a node, removing or changing a node that is not upstream, connecting to or disconnecting
an input of a node that is not upstream. -/
inductive FarEdit (sem : NodeSem N S C Fr) (start : Nat) : Graph N S → Graph N S → Prop
  | add {g g' i} (n : N) : g.addNode sem n = .ok (g', i) → FarEdit sem start g g'
  | remove {g} (id i : Nat) : At g id i → ¬ Upstream g.graph start i →
      FarEdit sem start g (g.removeNode id).1
  | connect {g g'} (src dst slot b : Nat) : g.connect src dst slot = .ok g' → At g dst b →
      ¬ Upstream g.graph start b → FarEdit sem start g g'
  | disconnect {g} (dst slot b : Nat) : At g dst b → ¬ Upstream g.graph start b →
      FarEdit sem start g (g.disconnectInput dst slot)
  | setAttr {g g'} (id i : Nat) (f : N → N) : g.setAttr id f = .ok g' → At g id i →
      ¬ Upstream g.graph start i → FarEdit sem start g g'

/-- Any number of such edits. -/
inductive FarEdits (sem : NodeSem N S C Fr) (start : Nat) : Graph N S → Graph N S → Prop
  | none (g) : FarEdits sem start g g
  | more {g g' g''} : FarEdit sem start g g' → FarEdits sem start g' g'' → FarEdits sem start g g''

end OCG.GraphSpec
