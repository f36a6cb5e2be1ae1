import Verif.Spec.Alike
import Verif.Spec.Channels
/-
Graphs of which one has another part in place of a part of the other.
-/

namespace OCG.ReplaceSpec

open PictureSpec GraphSpec ChannelSpec AlikeSpec

variable {H : Type} [HalfLike F32 H] [Libm single32]

/-- The layers look the same, have the same colour space and the same deformers waiting. -/
structure SameLayer (L M : Layer F32) : Prop where
  still : LooksLike L.still M.still
  space : L.still.space = M.still.space
  moves : L.moves = M.moves

/-- Node `i` of the one graph and node `j` of the other: either they are the last nodes of parts that
were exchanged, which show the same, or they have the same settings, and so on for their inputs. All
pictures are made of ordinary numbers. -/
inductive Replaced (srt srt' : EdgeSort) (g g' : Graph (Node F32) (Stream F32 H))
    (pic pic' : Nat → Layer F32) : Nat → Nat → Prop
  | part {i j} : SameLayer (pic i) (pic' j) → Proper (pic i).still → Proper (pic' j).still →
      Replaced srt srt' g g' pic pic' i j
  | same {i j n n' ins ins'} : g.nodes[i]? = some n → g'.nodes[j]? = some n' → n.attrs = n'.attrs →
      g.graph.findDirectUpstream srt i = .ok ins → g'.graph.findDirectUpstream srt' j = .ok ins' →
      ins.length = ins'.length →
      (∀ k a b : Nat, ins[k]? = some a → ins'[k]? = some b → Replaced srt srt' g g' pic pic' a b) →
      Proper (pic i).still → Proper (pic' j).still → Replaced srt srt' g g' pic pic' i j

end OCG.ReplaceSpec
