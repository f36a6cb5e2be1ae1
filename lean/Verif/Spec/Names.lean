import Verif.Model.Compute
import Verif.Model.FxHash
/-
Nodes with names, as the C++ interface creates them.
-/

namespace OCG.NameSpec

/-- The bytes of a string that can be handed over as a C string. -/
def IsName (b : Bytes) : Prop := ∀ x ∈ b, 0 < x ∧ x < 256

/-- The identifier of a node with this name. -/
def nameId (name : Bytes) : Nat := generateIdFromName fxHash name

section
variable {F H : Type} [FloatLike F] [HalfLike F H] [FloatConst F] [FloatBits F]

/-- graph.cpp:52-58 `create_node` with a name, once for each of the names. -/
def createAll (p : Profile) (lib : NodeLib F H) :
    List (NodeType × Bytes) → Graph (Node F) (Stream F H) → Res (Graph (Node F) (Stream F H))
  | [], g => .ok g
  | x :: l, g => do
    let (g, _) ← g.addNode (nodeSem p lib) (.create x.1 (nameId x.2))
    createAll p lib l g

end
end OCG.NameSpec
