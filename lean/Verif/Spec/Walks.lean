import Verif.Spec.Graph
/-
Ways through a graph from a node down to the executed node.
-/

namespace OCG.GraphSpec

/-- A way from some node down to `start`: the nodes it passes, the last one being `start`; each
node feeds the next one (a node connected to itself does not count). -/
inductive Walk (sg : SGraph) (start : Nat) : List Nat → Prop
  | stay : Walk sg start [start]
  | up {i j w} : Walk sg start (j :: w) → Feeds sg i j → i ≠ j → Walk sg start (i :: j :: w)

/-- The list contains every way to `start`, once. -/
def AllWalks (sg : SGraph) (start : Nat) (ws : List (List Nat)) : Prop :=
  ws.Nodup ∧ ∀ w, w ∈ ws ↔ Walk sg start w

end OCG.GraphSpec
