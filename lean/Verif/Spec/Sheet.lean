import Verif.Spec.Plain
import Verif.Spec.Image
import Verif.Spec.PictureGraph
/-
Pictures that lie beside each other.
-/

namespace OCG.SheetSpec

open PictureSpec PlainSpec BBoxSpec IeeeSpec

/-- No position is in both pictures. -/
def Apart (P R : Picture F32) : Prop := ∀ x y, Has P.data x y → ¬ Has R.data x y

/-- The alpha of every pixel is a share. -/
def Shares [Libm single32] (P : Picture F32) : Prop :=
  ∀ x y, Has P.data x y → 0 ≤ val (P.value x y 3) ∧ val (P.value x y 3) ≤ 1

/-- `Q` is put together from the pictures of the list, which have `n` channels and ordinary numbers and
do not overlap: two at a time, in any order, by adding one to the other or laying one over the other. -/
inductive Sheet [Libm single32] (n : Nat) : List (Picture F32) → Picture F32 → Prop
  | one {P} : P.channels = n → AllPlain P → Sheet n [P] P
  | join {l m A B Q mode} : Sheet n l A → Sheet n m B → (∀ P ∈ l, ∀ R ∈ m, Apart P R) →
      mode = .add ∨ mode = .over ∧ (∀ P ∈ l, Shares P) → IsMerged mode 1 A B Q →
      Sheet n (l ++ m) Q

/-- The same by merge nodes: what a tree of merge nodes with a mix of 1 makes of the nodes that make the
pictures of the list. -/
inductive Laid [Libm single32] {H : Type} [HalfLike F32 H] (lib : NodeLib F32 H) (frame : F32) (n : Nat) :
    List (Picture F32) → Layer F32 → Prop
  | one {L P} : Rests lib L P → P.channels = n → AllPlain P → Laid lib frame n [P] L
  | join {l k A B Q m} : Laid lib frame n l A → Laid lib frame n k B →
      (∀ P ∈ l, ∀ R ∈ k, Apart P R) → m.attrs.nodeType = .mergeImage → m.getI32 "enable" = 1 →
      m.getF32 "mix" = 1 → MergeImageMode.ofI32 (m.getI32 "mode") = .add ∨
        MergeImageMode.ofI32 (m.getI32 "mode") = .over ∧ (∀ P ∈ l, Shares P) →
      Makes lib frame m [A, B] Q → Laid lib frame n (l ++ k) Q

/-- The smallest window that holds the windows of all pictures of the list. -/
structure Frames (l : List (Picture F32)) (w : BBox) : Prop where
  holds : ∀ P ∈ l, Inside P.data w
  least : ∀ v, (∀ P ∈ l, Inside P.data v) → Inside w v

end OCG.SheetSpec
