import Verif.Spec.Built
import Verif.Spec.Compute
/-
When two graphs differ only by nodes that do nothing.
-/

namespace OCG.IdleSpec

open GraphSpec

variable {N N' S S' : Type}

/-- The node at `i` does nothing (as far as `Off` says), and has `a` as its only input. -/
def Passes (Off : N → Prop) (g : Graph N S) (i a : Nat) : Prop :=
  (∃ n, g.nodes[i]? = some n ∧ Off n) ∧ Feeds g.graph a i ∧ a ≠ i ∧
    ∀ b, Feeds g.graph b i → b = a

/-- The node at `i` in the one graph and the node at `j` in the other are the same (as far as `Same`
says) and have related inputs in the same slots.  A connection of a node with itself does not
count. -/
structure SameAt (Same : N → N' → Prop) (ρ : Nat → Nat → Prop) (g : Graph N S) (g' : Graph N' S')
    (i j : Nat) : Prop where
  nodes : ∃ n n', g.nodes[i]? = some n ∧ g'.nodes[j]? = some n' ∧ Same n n'
  inputs : ∀ a slot, Conn g a i slot → a ≠ i → ∃ b, ρ a b ∧ Conn g' b j slot ∧ b ≠ j
  back : ∀ b slot, Conn g' b j slot → b ≠ j → ∃ a, ρ a b ∧ Conn g a i slot ∧ a ≠ i

/-- Where `ρ i j` holds, the nodes are the same and have related inputs; or one of them does nothing,
and its only input is related to the other. -/
def SameButIdle (Same : N → N' → Prop) (Off : N → Prop) (Off' : N' → Prop) (ρ : Nat → Nat → Prop)
    (g : Graph N S) (g' : Graph N' S') : Prop :=
  ∀ i j, ρ i j → SameAt Same ρ g g' i j ∨ (∃ a, Passes Off g i a ∧ ρ a j) ∨
    ∃ b, Passes Off' g' j b ∧ ρ i b

/-- A `Null` node, or a node for cropping, resampling, grading, moving or lenses that is switched
off. -/
def Idle {F : Type} [FloatLike F] (n : Node F) : Prop :=
  n.attrs.nodeType = .null ∨ n.getI32 "enable" = 0 ∧
    n.attrs.nodeType ∈ [.cropImage, .resampleImage, .grade, .transform, .lensDistort]

/-- The other graph has the same nodes and connections, except that the node `k`, whose only input
was `a`, is left out: what it fed is now fed by `a`, into the same slots. -/
structure Bypassed (Same : N → N → Prop) (Off : N → Prop) (g g' : Graph N S) (k a : Nat) : Prop where
  nodes : ∀ i n, i ≠ k → g.nodes[i]? = some n → ∃ n', g'.nodes[i]? = some n' ∧ Same n n'
  left : ∃ n, g.nodes[k]? = some n ∧ Off n
  input : Feeds g.graph a k ∧ a ≠ k ∧ ∀ b, Feeds g.graph b k → b = a
  conns : ∀ x y slot, y ≠ k →
    (Conn g' x y slot ↔ x ≠ k ∧ Conn g x y slot ∨ x = a ∧ Conn g k y slot)

end OCG.IdleSpec
