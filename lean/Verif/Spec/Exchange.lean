import Verif.Spec.Built
/-
When two neighbouring nodes of a graph are exchanged.
-/

namespace OCG.ExchangeSpec

open GraphSpec

variable {F H : Type} [FloatLike F] [HalfLike F H]

/-- A node that moves pixels: a transform or a lens. -/
def Moves (n : Node F) : Prop := n.attrs.nodeType = .transform ∨ n.attrs.nodeType = .lensDistort

/-- A lens that is switched on has settings that the plug-in accepts. -/
def LensFits (lib : NodeLib F H) (n : Node F) : Prop :=
  ∀ a, n.attrs = .lensDistort a → a.enable = 1 → lib.lensAccepts a.deformer = true

/-- One of the nodes grades, and the other moves pixels. -/
def GradeAndMove (lib : NodeLib F H) (n m : Node F) : Prop :=
  (n.attrs.nodeType = .grade ∧ Moves m ∧ LensFits lib m) ∨
  (m.attrs.nodeType = .grade ∧ Moves n ∧ LensFits lib n)

/-- The graphs differ only in the order of two nodes, a grade and a transform or lens: the settings
of the node at `i`, which feeds the node at `k` only, and those of the node at `k` have been
exchanged. -/
structure Exchanged (lib : NodeLib F H) (g g' : Graph (Node F) (Stream F H)) (i k : Nat) :
    Prop where
  graph : g'.graph = g.graph
  ids : g'.ids = g.ids
  size : g'.nodes.length = g.nodes.length
  others : ∀ j n n', j ≠ i → j ≠ k → g.nodes[j]? = some n → g'.nodes[j]? = some n' →
    n.attrs = n'.attrs
  pair : ∃ n m n' m', g.nodes[i]? = some n ∧ g.nodes[k]? = some m ∧ g'.nodes[i]? = some n' ∧
    g'.nodes[k]? = some m' ∧ n'.attrs = m.attrs ∧ m'.attrs = n.attrs ∧ GradeAndMove lib n m
  apart : i ≠ k
  feeds : Feeds g.graph i k
  only : ∀ j, Feeds g.graph i j → j = k

end OCG.ExchangeSpec
