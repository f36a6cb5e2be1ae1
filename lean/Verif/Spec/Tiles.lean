import Verif.Spec.Plain
import Verif.Spec.Image
/-
Pictures cut into two parts.
-/

namespace OCG.TilesSpec

open PictureSpec BBoxSpec IeeeSpec

/-- Two windows cut the picture into parts that can be joined again: every pixel is in one of them.
A pixel that is in both may only be joined by laying it over itself, and only if it is opaque. -/
structure Parts [Libm single32] (mode : MergeImageMode) (W V : BBox) (P : Picture F32) : Prop where
  joins : mode = .add ∨ mode = .over
  covers : ∀ x y, Has P.data x y → Has W x y ∨ Has V x y
  once : ∀ x y, Has P.data x y → Has W x y → Has V x y →
    mode = .over ∧ val (P.value x y 3) = 1
  alpha : mode = .over → ∀ x y, Has P.data x y →
    0 ≤ val (P.value x y 3) ∧ val (P.value x y 3) ≤ 1

/-- `Q` is put together, by adding two at a time in any order, from parts of `P` that do not overlap in
`P`; together they show the positions in `S`. -/
inductive Assembled [Libm single32] (P : Picture F32) : (Int → Int → Prop) → Picture F32 → Prop
  | part {W r A} : IsCropped W r P A → Assembled P (Has W) A
  | join {S T A B Q} : Assembled P S A → Assembled P T B →
      (∀ x y, Has P.data x y → S x y → ¬ T x y) → IsMerged .add 1 A B Q →
      Assembled P (fun x y => S x y ∨ T x y) Q

end OCG.TilesSpec
