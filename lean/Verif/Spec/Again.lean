import Verif.Spec.Graph
import Verif.Model.Compute
import Mathlib.Data.List.Forall2
/-
When executing a graph should not depend on what was executed before.
-/

namespace OCG.AgainSpec

open GraphSpec

variable {F H : Type} [FloatLike F] [HalfLike F H]

/-- Graphs with the same nodes, settings and connections.  They may differ in what executing leaves
behind: the output, the statuses of the nodes, and the state and status of the graph. -/
structure SameSetup (g g' : Graph (Node F) (Stream F H)) : Prop where
  nodes : List.Forall₂ (fun n n' => n.id = n'.id ∧ n.attrs = n'.attrs) g.nodes g'.nodes
  ids : g.ids = g'.ids
  graph : g.graph = g'.graph

/-- The viewer, if it is one, does not bake everything. -/
def LeavesPixels (n : Node F) : Prop :=
  n.attrs.nodeType = .viewer → n.getI32 "enable" = 0 ∨ n.getI32 "bake_option" = 0 ∨
    (n.getI32 "crop_to_format" = 0 ∧ (n.getI32 "bake_option" = 1 ∨ n.getI32 "bake_option" = 2))

/-- The node has no more inputs than its type uses: two for merging, otherwise one. -/
def UsesInputs (sg : SGraph) (i : Nat) (n : Node F) : Prop :=
  (n.attrs.nodeType ≠ .mergeImage → ∀ a b, Feeds sg a i → Feeds sg b i → a = b) ∧
  ∀ a b c, Feeds sg a i → Feeds sg b i → Feeds sg c i → a = b ∨ a = c ∨ b = c

/-- A node that gives a picture of its own when it has no input: a reading node whose file name is
not that of a folder or device, and a viewer that is enabled. -/
def OwnPicture (lib : NodeLib F H) (frame : F) (n : Node F) : Prop :=
  (n.attrs.nodeType = .viewer → n.getI32 "enable" = 1) ∧
  ∀ a, n.attrs = .readImage a → a.enable = 1 →
    lib.pathKind (Path.expandString lib.shell a.filePath (frameNum frame)) ≠ .other

/-- The graph above `start` shows its files: every node passes on the wish for pixels to all its
inputs, and the nodes without inputs give pictures of their own. -/
structure ShowsFiles (lib : NodeLib F H) (g : Graph (Node F) (Stream F H)) (start : Nat)
    (frame : F) : Prop where
  leaves : ∀ i n, Upstream g.graph start i → g.nodes[i]? = some n → LeavesPixels n
  inputs : ∀ i n, Upstream g.graph start i → g.nodes[i]? = some n → UsesInputs g.graph i n
  own : ∀ i n, Upstream g.graph start i → g.nodes[i]? = some n →
    (∀ a, Feeds g.graph a i → a = i) → OwnPicture lib frame n

variable [FloatConst F] [FloatBits F]

/-- `g'` is `g` after any number of executions of any nodes for any frames, with whatever files and
cache there were at the time. -/
inductive Executed (p : Profile) (srt : EdgeSort) (g : Graph (Node F) (Stream F H)) :
    Graph (Node F) (Stream F H) → Prop
  | refl : Executed p srt g g
  | step {g1 g2 fuel id frames w w' st} (lib : NodeLib F H) : Executed p srt g g1 →
      g1.execute (nodeSem p lib) srt fuel id frames w = .ok (st, g2, w') → Executed p srt g g2

end OCG.AgainSpec
