import Verif.Model.Deform
import Verif.Spec.Field
/-
What a lens deformer should do to points, and which points a window covers.
-/

namespace OCG.LensSpec

section
variable {F : Type} [Field F] [LinearOrder F]

/-- The position of a point in a window: 0 to 1 from one edge to the other. -/
def relative (w : BBoxF F) (q : F × F) : F × F :=
  ((q.1 - w.minX) / (w.maxX - w.minX), (q.2 - w.minY) / (w.maxY - w.minY))

/-- The point at a position in a window. -/
def absolute (w : BBoxF F) (q : F × F) : F × F :=
  (w.minX + q.1 * (w.maxX - w.minX), w.minY + q.2 * (w.maxY - w.minY))

/-- The point lies in the box, its edges included. -/
def Within (b : BBoxF F) (q : F × F) : Prop :=
  b.minX ≤ q.1 ∧ q.1 ≤ b.maxX ∧ b.minY ≤ q.2 ∧ q.2 ≤ b.maxY

/-- The point lies in the integer window. -/
def InWindow (w : BBox) (q : F × F) : Prop :=
  (w.minX : F) ≤ q.1 ∧ q.1 ≤ (w.maxX : F) ∧ (w.minY : F) ≤ q.2 ∧ q.2 ≤ (w.maxY : F)

/-- The integer window lies in another one. -/
def Inside (a b : BBox) : Prop :=
  b.minX ≤ a.minX ∧ a.maxX ≤ b.maxX ∧ b.minY ≤ a.minY ∧ a.maxY ≤ b.maxY

/-- Every edge of the window is a number that the cast to `i32` did not have to clip. -/
def NotClipped (w : BBox) : Prop :=
  (-2147483648 < w.minX ∧ w.minX < 2147483647) ∧ (-2147483648 < w.minY ∧ w.minY < 2147483647) ∧
  (-2147483648 < w.maxX ∧ w.maxX < 2147483647) ∧ (-2147483648 < w.maxY ∧ w.maxY < 2147483647)

/-- The boxes that the plug-in computes contain the deformed points of the box. -/
structure GoodBoxes (lens : LensPlugin F) : Prop where
  undistort : ∀ d b x y, Within b (x, y) → Within (lens.boxUndistort d b) (lens.undistort d x y)
  distort : ∀ d b x y, Within b (x, y) → Within (lens.boxDistort d b) (lens.distort d x y)

/-- The two functions of the plug-in undo each other. -/
structure Invertible (lens : LensPlugin F) : Prop where
  back : ∀ d x y, lens.distort d (lens.undistort d x y).1 (lens.undistort d x y).2 = (x, y)
  forth : ∀ d x y, lens.undistort d (lens.distort d x y).1 (lens.distort d x y).2 = (x, y)

end

/-- Rounding down or up and casting to `i32`, which clips, is exact for integers and goes to the
next integer otherwise. -/
class FloorLaws (F : Type) [Field F] [LinearOrder F] [FloatOps F] : Prop where
  floor_le : ∀ x : F, -2147483648 < FloatOps.toI32 (FloatOps.floor x) →
    ((FloatOps.toI32 (FloatOps.floor x) : Int) : F) ≤ x
  lt_floor : ∀ x : F, FloatOps.toI32 (FloatOps.floor x) < 2147483647 →
    x < ((FloatOps.toI32 (FloatOps.floor x) : Int) : F) + 1
  le_ceil : ∀ x : F, FloatOps.toI32 (FloatOps.ceil x) < 2147483647 →
    x ≤ ((FloatOps.toI32 (FloatOps.ceil x) : Int) : F)
  ceil_lt : ∀ x : F, -2147483648 < FloatOps.toI32 (FloatOps.ceil x) →
    ((FloatOps.toI32 (FloatOps.ceil x) : Int) : F) < x + 1

end OCG.LensSpec
