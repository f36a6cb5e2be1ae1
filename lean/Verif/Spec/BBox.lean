import Verif.Model.BBox
import Mathlib.Order.Interval.Finset.Defs
import Mathlib.Data.Int.Interval
import Mathlib.Data.Finset.Prod
/-
Independent specification of windows: the set of pixels in a window, and what it means for
an iterator to produce a list.
-/

namespace OCG.BBoxSpec

/-- Pixel `(x, y)` lies in the window (minimum inclusive, maximum exclusive). -/
def Has (b : BBox) (x y : Int) : Prop := b.minX ≤ x ∧ x < b.maxX ∧ b.minY ≤ y ∧ y < b.maxY

instance (b : BBox) (x y : Int) : Decidable (Has b x y) := by unfold Has; infer_instance

/-- The pixels of a window as a finite set. -/
def pixels (b : BBox) : Finset (Int × Int) :=
  (Finset.Ico b.minX b.maxX) ×ˢ (Finset.Ico b.minY b.maxY)

/-- `a` lies inside `b` (comparing the edges). -/
def Inside (a b : BBox) : Prop :=
  b.minX ≤ a.minX ∧ a.maxX ≤ b.maxX ∧ b.minY ≤ a.minY ∧ a.maxY ≤ b.maxY

/-- Window with a non-negative size in both directions. -/
def Proper (b : BBox) : Prop := b.minX ≤ b.maxX ∧ b.minY ≤ b.maxY

/-- The edges are `i32` values. -/
def InRange (b : BBox) : Prop := InI32 b.minX ∧ InI32 b.minY ∧ InI32 b.maxX ∧ InI32 b.maxY

/-- An iterator with state `s` produces exactly the items `xs` and then stops. -/
inductive Yields {σ α : Type} (next : σ → Option (α × σ)) : σ → List α → Prop
  | stop (s : σ) (h : next s = none) : Yields next s []
  | item (s s' : σ) (x : α) (xs : List α) (h : next s = some (x, s')) (t : Yields next s' xs) :
      Yields next s (x :: xs)

/-- Same for iterators that may panic; a panic is not allowed. -/
inductive YieldsM {σ α : Type} (next : σ → Res (Option (α × σ))) : σ → List α → Prop
  | stop (s : σ) (h : next s = .ok none) : YieldsM next s []
  | item (s s' : σ) (x : α) (xs : List α) (h : next s = .ok (some (x, s')))
      (t : YieldsM next s' xs) : YieldsM next s (x :: xs)

end OCG.BBoxSpec
