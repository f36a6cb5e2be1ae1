import Verif.Model.BBox
import Verif.Spec.BBox
/-
C110: the centre of a window.
-/

namespace OCG.Props

open BBoxSpec

/-- The sums of opposite edges are 32 bit numbers. -/
def SmallSums (b : BBox) : Prop := InI32 (b.minX + b.maxX) ∧ InI32 (b.minY + b.maxY)

theorem half_cases (s : Int) :
    (0 ≤ s ∧ (s.tdiv 2 * 2 = s ∨ s.tdiv 2 * 2 + 1 = s)) ∨
      (s < 0 ∧ (s.tdiv 2 * 2 = s ∨ s.tdiv 2 * 2 - 1 = s)) := by
  have h1 := Int.mul_tdiv_add_tmod s 2
  by_cases h : 0 ≤ s
  · left
    have := Int.tmod_nonneg 2 h
    have := Int.tmod_lt_of_pos s (b := 2) (by decide)
    omega
  · right
    have h2 : (-s).tdiv 2 = -(s.tdiv 2) := Int.neg_tdiv s 2
    have h3 : (-s).tdiv 2 = (-s) / 2 := Int.tdiv_eq_ediv_of_nonneg (by omega)
    omega

theorem center_eq (p : Profile) {b : BBox} (h : SmallSums b) :
    b.center p = .ok ((b.minX + b.maxX).tdiv 2, (b.minY + b.maxY).tdiv 2) := by
  unfold BBox.center
  rw [i32_of h.1, i32_of h.2]
  rfl

/-- C110: the centre is the middle between the edges, up to half a pixel. -/
theorem C110_middle (p : Profile) (b : BBox) (h : SmallSums b) : ∃ cx cy, b.center p = .ok (cx, cy) ∧
    (2 * cx - (b.minX + b.maxX)).natAbs ≤ 1 ∧ (2 * cy - (b.minY + b.maxY)).natAbs ≤ 1 :=
  ⟨_, _, center_eq p h, by have := half_cases (b.minX + b.maxX); omega,
    by have := half_cases (b.minY + b.maxY); omega⟩

/-- C110: when the centre is a pixel of the window: unless the window is one pixel wide or high and
that pixel has a negative coordinate. -/
theorem C110_inside_partial (p : Profile) (b : BBox) (h : SmallSums b) (hx : b.minX < b.maxX)
    (hy : b.minY < b.maxY) : ∃ cx cy, b.center p = .ok (cx, cy) ∧
    (Has b cx cy ↔ ¬ (b.maxX = b.minX + 1 ∧ b.minX < 0) ∧ ¬ (b.maxY = b.minY + 1 ∧ b.minY < 0)) := by
  refine ⟨_, _, center_eq p h, ?_⟩
  have h1 := half_cases (b.minX + b.maxX)
  have h2 := half_cases (b.minY + b.maxY)
  unfold Has
  omega

/-- The window moved. -/
def movedBy (b : BBox) (dx dy : Int) : BBox := ⟨b.minX + dx, b.minY + dy, b.maxX + dx, b.maxY + dy⟩

/-- C110: when the centre moves with the window: if the sums are even or keep their sign. -/
theorem C110_moves_partial (p : Profile) (b : BBox) (dx dy : Int) (h : SmallSums b)
    (h' : SmallSums (movedBy b dx dy)) : ∃ cx cy cx' cy', b.center p = .ok (cx, cy) ∧
    (movedBy b dx dy).center p = .ok (cx', cy') ∧
    (cx' = cx + dx ↔ (b.minX + b.maxX) % 2 = 0 ∨
      (0 < b.minX + b.maxX ↔ 0 < b.minX + b.maxX + 2 * dx)) ∧
    (cy' = cy + dy ↔ (b.minY + b.maxY) % 2 = 0 ∨
      (0 < b.minY + b.maxY ↔ 0 < b.minY + b.maxY + 2 * dy)) := by
  refine ⟨_, _, _, _, center_eq p h, center_eq p h', ?_, ?_⟩
  · have h1 := half_cases (b.minX + b.maxX)
    have h2 := half_cases (b.minX + dx + (b.maxX + dx))
    simp only [movedBy] at h2 ⊢
    omega
  · have h1 := half_cases (b.minY + b.maxY)
    have h2 := half_cases (b.minY + dy + (b.maxY + dy))
    simp only [movedBy] at h2 ⊢
    omega

/-- The window mirrored at the origin. -/
def mirrored (b : BBox) : BBox := ⟨-b.maxX, -b.maxY, -b.minX, -b.minY⟩

/-- C110: the centre of the mirrored window is the mirrored centre. -/
theorem C110_mirror (p : Profile) (b : BBox) (h : SmallSums b) (h' : SmallSums (mirrored b)) :
    ∃ cx cy, b.center p = .ok (cx, cy) ∧ (mirrored b).center p = .ok (-cx, -cy) := by
  refine ⟨_, _, center_eq p h, ?_⟩
  rw [center_eq p h']
  have h1 := half_cases (b.minX + b.maxX)
  have h2 := half_cases (b.minY + b.maxY)
  have h3 := half_cases (-b.maxX + -b.minX)
  have h4 := half_cases (-b.maxY + -b.minY)
  simp only [mirrored]
  congr 2 <;> omega

/-- C110 fails for one column left of the origin: the centre is to the right of it. -/
theorem C110_counterexample_inside (p : Profile) :
    (⟨-1, 0, 0, 1⟩ : BBox).center p = .ok (0, 0) ∧ Has ⟨-1, 0, 0, 1⟩ (-1) 0 ∧
      ¬ Has ⟨-1, 0, 0, 1⟩ 0 0 := by
  refine ⟨by cases p <;> rfl, by unfold Has; decide, by unfold Has; decide⟩

/-- C110 fails for moving a window of three columns from one side of the origin to the other. -/
theorem C110_counterexample_moves (p : Profile) :
    (⟨-2, 0, 1, 1⟩ : BBox).center p = .ok (0, 0) ∧
      (movedBy ⟨-2, 0, 1, 1⟩ 2 0).center p = .ok (1, 0) := by
  cases p <;> exact ⟨rfl, rfl⟩

/-- C110 fails for windows far away from the origin: the sum overflows although the centre is a
32 bit number. -/
theorem C110_counterexample_far :
    (⟨1073741824, 0, 1073741826, 1⟩ : BBox).center .debug = .error .overflow ∧
      (⟨1073741824, 0, 1073741826, 1⟩ : BBox).center .release = .ok (-1073741823, 0) :=
  ⟨rfl, rfl⟩

example : ∃ cx cy, (⟨-20, -10, 20, 11⟩ : BBox).center .debug = .ok (cx, cy) ∧
    Has ⟨-20, -10, 20, 11⟩ cx cy := by
  obtain ⟨cx, cy, e, h⟩ := C110_inside_partial .debug ⟨-20, -10, 20, 11⟩
    (by unfold SmallSums InI32; decide) (by decide) (by decide)
  exact ⟨cx, cy, e, h.mpr (by decide)⟩

example : ∃ cx cy, (⟨3, 5, 20, 11⟩ : BBox).center .debug = .ok (cx, cy) ∧
    (2 * cx - 23).natAbs ≤ 1 := by
  obtain ⟨cx, cy, e, h, -⟩ := C110_middle .debug ⟨3, 5, 20, 11⟩ (by unfold SmallSums InI32; decide)
  exact ⟨cx, cy, e, h⟩

example : ∃ cx cy, (⟨3, 5, 20, 11⟩ : BBox).center .debug = .ok (cx, cy) ∧
    (movedBy ⟨3, 5, 20, 11⟩ 100 0).center .debug = .ok (cx + 100, cy + 0) := by
  obtain ⟨cx, cy, cx', cy', e, e', h1, h2⟩ := C110_moves_partial .debug ⟨3, 5, 20, 11⟩ 100 0
    (by unfold SmallSums InI32; decide) (by unfold SmallSums InI32; decide)
  have a := h1.mpr (by decide)
  have b := h2.mpr (by decide)
  subst a b
  exact ⟨cx, cy, e, e'⟩

example : ∃ cx cy, (⟨3, 5, 20, 11⟩ : BBox).center .debug = .ok (cx, cy) ∧
    (mirrored ⟨3, 5, 20, 11⟩).center .debug = .ok (-cx, -cy) :=
  C110_mirror .debug _ (by unfold SmallSums InI32; decide) (by unfold SmallSums InI32; decide)

end OCG.Props
