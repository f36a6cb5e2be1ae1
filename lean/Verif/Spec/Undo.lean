import Verif.Spec.Again
import Verif.Spec.Attrs
/-
Taking edits back: an edit, then whatever is done and taken back again in between, then the call
that takes the edit back.
-/

namespace OCG.UndoSpec

open GraphSpec AgainSpec

variable {F H : Type} [FloatLike F] [HalfLike F H] [FloatConst F] [FloatBits F]

/-- `g'` is `g` after edits that were all taken back, the last edit first, with any executions before,
between and after them. -/
inductive Undone (p : Profile) (srt : EdgeSort) :
    Graph (Node F) (Stream F H) → Graph (Node F) (Stream F H) → Prop
  | executed {g g'} : Executed p srt g g' → Undone p srt g g'
  | trans {g g1 g2} : Undone p srt g g1 → Undone p srt g1 g2 → Undone p srt g g2
  /-- An attribute is set, and then set to what it was before. -/
  | setting {g g1 g2 g3 id name} (v old : AttrSpec.Value F) :
      AttrSpec.get g id name v.kind = .ok old →
      AttrSpec.set g id name v = .ok g1 → Undone p srt g1 g2 →
      AttrSpec.set g2 id name old = .ok g3 → Undone p srt g g3
  /-- A node is connected to an empty slot of a node that it did not feed, and then the slot is
  disconnected. -/
  | connected {g g1 g2 src dst a b slot} : At g src a → At g dst b → (∀ x, ¬Conn g x b slot) →
      (∀ s, ¬Conn g a b s) → g.connect src dst slot = .ok g1 → Undone p srt g1 g2 →
      Undone p srt g (g2.disconnectInput dst slot)
  /-- A node is connected to an empty slot of a node that it fed through another slot, which moves
  the connection, and then to the slot it was in before. -/
  | moved {g g1 g2 g3 src dst a b slot slot'} : At g src a → At g dst b → Conn g a b slot →
      (∀ x, Conn g x b slot → x = a) → (∀ x, ¬Conn g x b slot') →
      g.connect src dst slot' = .ok g1 → Undone p srt g1 g2 →
      g2.connect src dst slot = .ok g3 → Undone p srt g g3
  /-- A slot is connected to a node that did not feed the node of the slot, and then to the node
  that fed it before. -/
  | replaced {g g1 g2 g3 src src' dst a a' b slot} : At g src a → At g dst b → Conn g a b slot →
      (∀ x, Conn g x b slot → x = a) → At g src' a' → (∀ s, ¬Conn g a' b s) →
      g.connect src' dst slot = .ok g1 → Undone p srt g1 g2 →
      g2.connect src dst slot = .ok g3 → Undone p srt g g3
  /-- A slot is disconnected, and then connected to the node that fed it before. -/
  | disconnected {g g2 g3 src dst a b slot} : At g src a → At g dst b → Conn g a b slot →
      (∀ x, Conn g x b slot → x = a) → Undone p srt (g.disconnectInput dst slot) g2 →
      g2.connect src dst slot = .ok g3 → Undone p srt g g3
  /-- A node with a new identifier is added, and then removed. -/
  | added {g g1 g2 i} (lib : NodeLib F H) (n : Node F) : (∀ j, ¬At g n.id j) →
      g.addNode (nodeSem p lib) n = .ok (g1, i) → Undone p srt g1 g2 →
      Undone p srt g (g2.removeNode n.id).1

/-- Everything that was there is there again: the nodes under the same identifiers, with the same
settings and the same connections, and nothing else is connected. -/
structure Restored (g g' : Graph (Node F) (Stream F H)) : Prop where
  ids : ∀ id i, At g id i → At g' id i
  nodes : ∀ (i : Nat) (n : Node F), g.nodes[i]? = some n → ∃ n' : Node F, g'.nodes[i]? = some n' ∧ n'.attrs = n.attrs
  present : ∀ i, g.graph.contains i = true → g'.graph.contains i = true
  conns : ∀ a b slot, Conn g' a b slot ↔ Conn g a b slot

end OCG.UndoSpec
