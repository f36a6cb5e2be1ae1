import Verif.Spec.Replace
/-
Layers that show the same once the deformers that wait are carried out.
-/

namespace OCG.SettleSpec

open PictureSpec GraphSpec BlockSpec ImageSpecs AlikeSpec

variable {F H : Type} [FloatLike F] [FloatConst F] [HalfLike F H]

/-- The layers look the same, in the same colour space, once everything is carried out. What waits
may differ. -/
def RestsAlike (lib : NodeLib F H) (L M : Layer F) : Prop :=
  ∃ R S, Rests lib L R ∧ Rests lib M S ∧ LooksLike R S ∧ R.space = S.space

/-- The node does not let deformers wait and does not resample (which looks at the window before they
are carried out). -/
def Steady (n : Node F) : Prop :=
  n.attrs.nodeType ∈ [.null, .readImage, .grade, .cropImage, .mergeImage, .viewer, .writeImage]

/-- The picture has a size. -/
def Sized (L : Layer F) : Prop := ValidSize (sizeFor L.still.data L.still.channels)

/-- Node `i` of the one graph and node `j` of the other: either they are the last nodes of parts that
were exchanged, which show the same once carried out, or they are steady and have the same settings,
and so on for their inputs. -/
inductive Swapped (lib : NodeLib F H) (srt srt' : EdgeSort) (g g' : Graph (Node F) (Stream F H))
    (pic pic' : Nat → Layer F) : Nat → Nat → Prop
  | part {i j} : RestsAlike lib (pic i) (pic' j) → Sized (pic i) → Sized (pic' j) →
      Swapped lib srt srt' g g' pic pic' i j
  | same {i j n n' ins ins'} : g.nodes[i]? = some n → g'.nodes[j]? = some n' → n.attrs = n'.attrs →
      Steady n → g.graph.findDirectUpstream srt i = .ok ins →
      g'.graph.findDirectUpstream srt' j = .ok ins' → ins.length = ins'.length →
      (∀ k a b : Nat, ins[k]? = some a → ins'[k]? = some b →
        Swapped lib srt srt' g g' pic pic' a b) →
      Sized (pic i) → Sized (pic' j) → Swapped lib srt srt' g g' pic pic' i j

end OCG.SettleSpec
