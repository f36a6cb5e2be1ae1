import Verif.Spec.Again
/-
When two graphs are the same network of nodes, although they were built in different ways.
-/

namespace OCG.BuiltSpec

open GraphSpec AgainSpec

variable {N N' S S' : Type}

/-- Where `ρ i j` holds, the node at `i` in the one graph and the node at `j` in the other are the
same (as far as `Same` says) and have the same inputs: inputs are in the same slots, and are again
related.  A connection of a node with itself does not count. -/
structure SameShape (Same : N → N' → Prop) (ρ : Nat → Nat → Prop) (g : Graph N S)
    (g' : Graph N' S') : Prop where
  nodes : ∀ i j, ρ i j → ∃ n n', g.nodes[i]? = some n ∧ g'.nodes[j]? = some n' ∧ Same n n'
  inputs : ∀ i j a slot, ρ i j → Conn g a i slot → a ≠ i →
    ∃ b, ρ a b ∧ Conn g' b j slot ∧ b ≠ j
  back : ∀ i j b slot, ρ i j → Conn g' b j slot → b ≠ j →
    ∃ a, ρ a b ∧ Conn g a i slot ∧ a ≠ i

/-- No node of the one graph stands for two nodes of the other. -/
def OneToOne (ρ : Nat → Nat → Prop) : Prop :=
  ∀ i j k l, ρ i j → ρ k l → (i = k ↔ j = l)

/-- Nodes of the same type with the same settings.  Their identifiers may differ. -/
def SameSettings {F : Type} [FloatLike F] (n n' : Node F) : Prop := n.attrs = n'.attrs

variable {F H : Type} [FloatLike F] [HalfLike F H]

/-- Every node above `start` makes a picture of its own or of its inputs: no viewer is switched off
or bakes everything, no file name is that of a folder or device, and no node has more inputs than
its type uses. -/
structure MakesPictures (lib : NodeLib F H) (g : Graph (Node F) (Stream F H)) (start : Nat)
    (frame : F) : Prop where
  leaves : ∀ i n, Upstream g.graph start i → g.nodes[i]? = some n → LeavesPixels n
  inputs : ∀ i n, Upstream g.graph start i → g.nodes[i]? = some n → UsesInputs g.graph i n
  own : ∀ i n, Upstream g.graph start i → g.nodes[i]? = some n → OwnPicture lib frame n

end OCG.BuiltSpec
