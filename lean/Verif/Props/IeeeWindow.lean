import Verif.Proofs.IeeeFloor
import Verif.Props.Lens
import Verif.Props.IeeeRemap
import Verif.Props.IeeeLut
/-
C92 in IEEE arithmetic: rounding a deformed box outwards to whole pixels.
-/

namespace OCG.Props

open IeeeSpec LensSpec
open Ieee hiding floor ceil round

/-- The operations that round a box outwards. -/
theorem outerBox_ieee {f : Format} [Libm f] (b : BBoxF (Ieee f)) :
    outerBox b =
      { minX := toRange (-2147483648) 2147483647 (Ieee.floor b.minX)
        minY := toRange (-2147483648) 2147483647 (Ieee.floor b.minY)
        maxX := toRange (-2147483648) 2147483647 (Ieee.ceil b.maxX)
        maxY := toRange (-2147483648) 2147483647 (Ieee.ceil b.maxY) } := rfl

/-- All edges of the box are numbers. -/
def FiniteBox {f : Format} (b : BBoxF (Ieee f)) : Prop :=
  IsFinite b.minX ∧ IsFinite b.minY ∧ IsFinite b.maxX ∧ IsFinite b.maxY

/-- The edges of a box as rational numbers. -/
def edges {f : Format} (b : BBoxF (Ieee f)) : BBoxF ℚ :=
  ⟨val b.minX, val b.minY, val b.maxX, val b.maxY⟩

/-- C92 in IEEE arithmetic: rounding a box outwards loses nothing.  The integer window is the
smallest one that contains the box, for every box of finite floats (of any of the formats) whose
outer window fits the integers. -/
theorem C92_ieee {f : Format} (hf : Ok f) [Libm f] (b : BBoxF (Ieee f)) (hb : FiniteBox b)
    (h : NotClipped (outerBox b)) :
    (∀ q : ℚ × ℚ, Within (edges b) q → InWindow (outerBox b) q) ∧
    ∀ w : BBox, (∀ q : ℚ × ℚ, Within (edges b) q → InWindow w q) →
      val b.minX ≤ val b.maxX → val b.minY ≤ val b.maxY → Inside (outerBox b) w := by
  obtain ⟨f1, f2, f3, f4⟩ := hb
  rw [outerBox_ieee, toRange_floor hf f1, toRange_floor hf f2, toRange_ceil hf f3,
    toRange_ceil hf f4] at *
  obtain ⟨⟨a1, a2⟩, ⟨a3, a4⟩, ⟨a5, a6⟩, ⟨a7, a8⟩⟩ := h
  dsimp only at a1 a2 a3 a4 a5 a6 a7 a8
  have e1 : max (-2147483648) (min 2147483647 ⌊val b.minX⌋) = ⌊val b.minX⌋ := by omega
  have e2 : max (-2147483648) (min 2147483647 ⌊val b.minY⌋) = ⌊val b.minY⌋ := by omega
  have e3 : max (-2147483648) (min 2147483647 ⌈val b.maxX⌉) = ⌈val b.maxX⌉ := by omega
  have e4 : max (-2147483648) (min 2147483647 ⌈val b.maxY⌉) = ⌈val b.maxY⌉ := by omega
  rw [e1, e2, e3, e4]
  constructor
  · rintro q ⟨q1, q2, q3, q4⟩
    exact ⟨(Int.floor_le _).trans q1, q2.trans (Int.le_ceil _), (Int.floor_le _).trans q3,
      q4.trans (Int.le_ceil _)⟩
  · intro w hw hbx hby
    obtain ⟨w1, -, w3, -⟩ := hw (val b.minX, val b.minY) ⟨le_refl _, hbx, le_refl _, hby⟩
    obtain ⟨-, w2, -, w4⟩ := hw (val b.maxX, val b.maxY) ⟨hbx, le_refl _, hby, le_refl _⟩
    exact ⟨Int.le_floor.mpr w1, Int.ceil_le.mpr w2, Int.le_floor.mpr w3, Int.ceil_le.mpr w4⟩

/-- Rounding a window outwards gives the window, up to the largest window whose edges are all
single floats. -/
theorem outer_single [Libm single32] (w : BBox) (h1 : w.minX.natAbs ≤ 2 ^ 24)
    (h2 : w.minY.natAbs ≤ 2 ^ 24) (h3 : w.maxX.natAbs ≤ 2 ^ 24) (h4 : w.maxY.natAbs ≤ 2 ^ 24) :
    outerBox (BBoxF.ofBBox w : BBoxF F32) = w := by
  have fl : ∀ n : Int, n.natAbs ≤ 2 ^ 24 →
      toRange (-2147483648) 2147483647 (Ieee.floor (ofInt n : F32)) = n := by
    intro n hn
    obtain ⟨a, b⟩ := int_single hn
    rw [toRange_floor ok_single a, b, Int.floor_intCast]
    omega
  have ce : ∀ n : Int, n.natAbs ≤ 2 ^ 24 →
      toRange (-2147483648) 2147483647 (Ieee.ceil (ofInt n : F32)) = n := by
    intro n hn
    obtain ⟨a, b⟩ := int_single hn
    rw [toRange_ceil ok_single a, b, Int.ceil_intCast]
    omega
  obtain ⟨x0, y0, x1, y1⟩ := w
  have e : (BBoxF.ofBBox ⟨x0, y0, x1, y1⟩ : BBoxF F32) = ⟨ofInt x0, ofInt y0, ofInt x1, ofInt y1⟩ :=
    rfl
  rw [e, outerBox_ieee]
  dsimp only at *
  rw [fl _ h1, fl _ h2, ce _ h3, ce _ h4]

section Examples
attribute [local instance] anyLibm

/-- The hypotheses of `C92_ieee` are met by a box with edges between pixels, on both sides of
zero. -/
example (q : ℚ × ℚ) (hq : Within (edges (⟨opp (div (ofInt 3) (ofInt 2)),
    opp (div (ofInt 1) (ofInt 2)), div (ofInt 5) (ofInt 2), div (ofInt 7) (ofInt 2)⟩ : BBoxF F32)) q) :
    InWindow ⟨-2, -1, 3, 4⟩ q := by
  have e : outerBox (⟨opp (div (ofInt 3) (ofInt 2)), opp (div (ofInt 1) (ofInt 2)),
    div (ofInt 5) (ofInt 2), div (ofInt 7) (ofInt 2)⟩ : BBoxF F32) = ⟨-2, -1, 3, 4⟩ := by
    decide +kernel
  have := C92_ieee ok_single (⟨opp (div (ofInt 3) (ofInt 2)), opp (div (ofInt 1) (ofInt 2)),
    div (ofInt 5) (ofInt 2), div (ofInt 7) (ofInt 2)⟩ : BBoxF F32)
    ⟨by rw [finite_iff]; decide +kernel, by rw [finite_iff]; decide +kernel,
      by rw [finite_iff]; decide +kernel, by rw [finite_iff]; decide +kernel⟩
    (by rw [e]; unfold NotClipped; decide)
  rw [e] at this
  exact this.1 q hq

end Examples

end OCG.Props
