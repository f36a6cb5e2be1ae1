import Verif.Spec.BBox
import Mathlib.Tactic.Ring
import Mathlib.Tactic.Linarith
/-
Properties C10-C13: integer windows.
-/

namespace OCG.Props

open BBox BBoxSpec

/-! ### C10 -/

/-- C10, covering: every pixel of either window lies in the combined window. -/
theorem C10_combine_covers (a b : BBox) (x y : Int) (h : Has a x y ∨ Has b x y) :
    Has (combine a b) x y := by
  unfold Has combine at *
  simp only
  omega

/-- C10, smallest: if both windows have a pixel, every window that has all their pixels has
all pixels of the combined window. -/
theorem C10_combine_smallest (a b w : BBox) (ha : ∃ x y, Has a x y) (hb : ∃ x y, Has b x y)
    (hw : ∀ x y, Has a x y ∨ Has b x y → Has w x y) (x y : Int)
    (h : Has (combine a b) x y) : Has w x y := by
  obtain ⟨ax, ay, ha⟩ := ha
  obtain ⟨bx, by', hb⟩ := hb
  unfold Has combine at *
  simp only at h
  have h1 := hw a.minX a.minY (Or.inl (by omega))
  have h2 := hw (a.maxX - 1) (a.maxY - 1) (Or.inl (by omega))
  have h3 := hw b.minX b.minY (Or.inr (by omega))
  have h4 := hw (b.maxX - 1) (b.maxY - 1) (Or.inr (by omega))
  omega

/-- C10, edges: the combined window is the least upper bound of the two windows, also when
they are empty or inverted. -/
theorem C10_combine_least_edges (a b w : BBox) :
    Inside a (combine a b) ∧ Inside b (combine a b) ∧
      (Inside a w → Inside b w → Inside (combine a b) w) := by
  unfold Inside combine
  simp only
  omega

/-- C10: combining is commutative, associative and idempotent. -/
theorem C10_combine_laws (a b c : BBox) :
    combine a b = combine b a ∧ combine (combine a b) c = combine a (combine b c) ∧
      combine a a = a := by
  obtain ⟨a1, a2, a3, a4⟩ := a
  obtain ⟨b1, b2, b3, b4⟩ := b
  obtain ⟨c1, c2, c3, c4⟩ := c
  simp only [combine, BBox.mk.injEq]
  omega

example : (∃ x y, Has ⟨0, 0, 4, 3⟩ x y) ∧ (∃ x y, Has ⟨2, -5, 9, 1⟩ x y) ∧
    combine ⟨0, 0, 4, 3⟩ ⟨2, -5, 9, 1⟩ = ⟨0, -5, 9, 3⟩ :=
  ⟨⟨1, 1, by simp [Has]⟩, ⟨2, 0, by simp [Has]⟩, rfl⟩

/-- C10 needs non-empty windows for pixel-wise minimality: combining with an empty window
elsewhere enlarges the result. -/
theorem C10_empty_counterexample :
    ∃ a b : BBox, (∀ x y, ¬ Has a x y) ∧ ¬ (∀ x y, Has (combine a b) x y → Has b x y) := by
  refine ⟨⟨0, 0, 0, 0⟩, ⟨5, 5, 6, 6⟩, ?_, ?_⟩
  · intro x y; unfold Has; simp only; omega
  · intro h
    have := h 1 1 (by simp [Has, combine])
    simp [Has] at this

/-! ### C11 -/

/-- C11: a pixel lies in the intersection exactly when it lies in both windows, for all
windows, inverted ones included. -/
theorem C11_intersection_exact (a b : BBox) (x y : Int) :
    Has (intersection a b) x y ↔ Has a x y ∧ Has b x y := by
  unfold intersection
  split
  · unfold Has; simp only; omega
  · unfold Has; simp only; omega

/-- C11: the intersection never has negative size. -/
theorem C11_intersection_proper (a b : BBox) : Proper (intersection a b) := by
  unfold intersection Proper
  split
  · simp
  · simp only; omega

example : intersection ⟨0, 0, 10, 10⟩ ⟨4, -3, 20, 6⟩ = ⟨4, 0, 10, 6⟩ ∧
    Has (intersection ⟨0, 0, 10, 10⟩ ⟨4, -3, 20, 6⟩) 5 5 ∧
    intersection ⟨5, 0, 3, 4⟩ ⟨0, 0, 10, 10⟩ = ⟨5, 0, 5, 4⟩ := by
  refine ⟨by decide, ?_, by decide⟩
  rw [C11_intersection_exact]; simp [Has]

/-- C11: when the closed rectangles of two windows share no point, the intersection is the
window at the origin with all edges zero (not some other window without pixels). -/
theorem C11_disjoint_zero (a b : BBox)
    (h : ¬ ∃ x y : Int, a.minX ≤ x ∧ x ≤ a.maxX ∧ a.minY ≤ y ∧ y ≤ a.maxY ∧
      b.minX ≤ x ∧ x ≤ b.maxX ∧ b.minY ≤ y ∧ y ≤ b.maxY)
    (ha : Proper a) (hb : Proper b) :
    intersection a b = ⟨0, 0, 0, 0⟩ := by
  unfold intersection
  split
  · rfl
  · rename_i hn
    exfalso
    unfold Proper at ha hb
    exact h ⟨max a.minX b.minX, max a.minY b.minY, by omega, by omega, by omega, by omega,
      by omega, by omega, by omega, by omega⟩

example : intersection ⟨0, 0, 4, 4⟩ ⟨0, 6, 4, 9⟩ = ⟨0, 0, 0, 0⟩ := by
  refine C11_disjoint_zero _ _ ?_ (by simp [Proper]) (by simp [Proper])
  rintro ⟨x, y, h⟩; simp only at h; omega

/-- C11: when the closed rectangles of two proper windows meet, the intersection is the largest
window inside both, edge by edge. -/
theorem C11_largest_inside_both (a b c : BBox)
    (h : ∃ x y : Int, a.minX ≤ x ∧ x ≤ a.maxX ∧ a.minY ≤ y ∧ y ≤ a.maxY ∧
      b.minX ≤ x ∧ x ≤ b.maxX ∧ b.minY ≤ y ∧ y ≤ b.maxY) :
    Inside c (intersection a b) ↔ Inside c a ∧ Inside c b := by
  obtain ⟨x, y, h⟩ := h
  unfold intersection
  split
  · exfalso; omega
  · unfold Inside; simp only; omega

example : Inside ⟨5, 1, 9, 6⟩ (intersection ⟨0, 0, 10, 10⟩ ⟨4, -3, 20, 6⟩) :=
  (C11_largest_inside_both _ _ _ ⟨5, 5, by simp⟩).mpr ⟨by simp [Inside], by simp [Inside]⟩

/-! ### C12 -/

/-- C12, columns: iterating over a row of any window produces exactly the columns
`min_x, min_x + 1, ..., max_x - 1` (nothing for inverted windows) and then stops. -/
theorem C12_columns (b : BBox) :
    Yields (rowNext b) b.minX
      ((List.range (b.maxX - b.minX).toNat).map (fun i : Nat => b.minX + i)) := by
  suffices H : ∀ (n : Nat) (s : Int), (b.maxX - s).toNat = n →
      Yields (rowNext b) s ((List.range n).map (fun i : Nat => s + i)) from H _ _ rfl
  intro n
  induction n with
  | zero =>
    intro s hs
    refine Yields.stop s ?_
    unfold rowNext
    rw [if_pos (by omega)]
  | succ n ih =>
    intro s hs
    rw [List.range_succ_eq_map, List.map_cons, List.map_map]
    have := ih (s + 1) (by omega)
    refine Yields.item s (s + 1) _ _ ?_ ?_
    · unfold rowNext
      rw [if_neg (by omega)]
      simp
    · convert this using 2
      funext i
      simp only [Function.comp]
      push_cast
      omega

/-- C12, order: the produced columns are strictly increasing (hence distinct), and they are
exactly the columns of the window. -/
theorem C12_columns_ordered (b : BBox) (xs : List Int) (h : Yields (rowNext b) b.minX xs) :
    xs.Pairwise (· < ·) ∧ ∀ x, x ∈ xs ↔ b.minX ≤ x ∧ x < b.maxX := by
  have det : ∀ s ys zs, Yields (rowNext b) s ys → Yields (rowNext b) s zs → ys = zs := by
    intro s ys zs hy
    induction hy generalizing zs with
    | stop s h0 =>
      intro hz
      cases hz with
      | stop => rfl
      | item _ s' x xs h1 _ => rw [h0] at h1; simp at h1
    | item s s' x xs h0 _ ih =>
      intro hz
      cases hz with
      | stop _ h1 => rw [h0] at h1; simp at h1
      | item _ s'' x' xs' h1 t =>
        rw [h0] at h1
        simp only [Option.some.injEq, Prod.mk.injEq] at h1
        obtain ⟨rfl, rfl⟩ := h1
        rw [ih _ t]
  have := det _ _ _ h (C12_columns b)
  subst this
  constructor
  · rw [List.pairwise_map]
    exact List.pairwise_lt_range.imp (by omega)
  · intro x
    simp only [List.mem_map, List.mem_range]
    constructor
    · rintro ⟨i, hi, rfl⟩; omega
    · intro hx
      exact ⟨(x - b.minX).toNat, by omega, by omega⟩

/-- C12, rows (windows of non-negative height within the `i32` range): exactly `height` rows
are produced, numbered from 0 in order.
Missing: for an inverted window the height is cast to a huge unsigned number, see
`C12_rows_counterexample`. -/
theorem C12_rows_partial (p : Profile) (b : BBox) (h0 : b.minY ≤ b.maxY)
    (h1 : b.maxY - b.minY ≤ 2147483647) :
    YieldsM (rowsNext p b) 0 (List.range (b.maxY - b.minY).toNat) := by
  have hh : b.height p = .ok (b.maxY - b.minY) := i32_of (by unfold InI32; omega)
  suffices H : ∀ (n s : Nat), s + n = (b.maxY - b.minY).toNat →
      YieldsM (rowsNext p b) s (List.range' s n) by
    have := H (b.maxY - b.minY).toNat 0 (by omega)
    rwa [← List.range_eq_range'] at this
  intro n
  induction n with
  | zero =>
    intro s hs
    refine YieldsM.stop s ?_
    simp only [rowsNext, hh, bind, Except.bind, asUsize_of_nonneg (by omega : 0 ≤ b.maxY - b.minY)]
    rw [if_pos (by omega)]
  | succ n ih =>
    intro s hs
    rw [List.range'_succ]
    refine YieldsM.item s (s + 1) _ _ ?_ (ih (s + 1) (by omega))
    simp only [rowsNext, hh, bind, Except.bind, asUsize_of_nonneg (by omega : 0 ≤ b.maxY - b.minY)]
    rw [if_neg (by omega)]

example : YieldsM (rowsNext .debug ⟨-2, -1, 5, 2⟩) 0 [0, 1, 2] :=
  C12_rows_partial .debug ⟨-2, -1, 5, 2⟩ (by decide) (by decide)

/-- Why the row part is partial: an inverted window of height -1 produces rows without end
(more than any realistic number). -/
theorem C12_rows_counterexample (n : Nat) (hn : n < 2 ^ 63) :
    rowsNext .release ⟨0, 1, 1, 0⟩ n = .ok (some (n, n + 1)) := by
  have : (⟨0, 1, 1, 0⟩ : BBox).height .release = .ok (-1) := by decide
  simp only [rowsNext, this, bind, Except.bind]
  rw [if_neg]
  have := usizeMod_eq
  have h1 : asUsize (-1) = usizeMod - 1 := rfl
  omega

/-! ### C13 -/

/-- The number of pixels of a window with non-negative size is width times height. -/
theorem card_pixels (b : BBox) (hb : Proper b) :
    ((pixels b).card : Int) = (b.maxX - b.minX) * (b.maxY - b.minY) := by
  unfold pixels
  rw [Finset.card_product, Int.card_Ico, Int.card_Ico]
  unfold Proper at hb
  push_cast
  rw [Int.toNat_of_nonneg (by omega), Int.toNat_of_nonneg (by omega)]

/-- C13 (fewer than 2^31 pixels): the reported area is the number of pixels.
Missing: larger windows, see `C13_counterexample_debug` and `C13_counterexample_release`. -/
theorem C13_area_partial (p : Profile) (b : BBox) (hb : Proper b)
    (hw : b.maxX - b.minX ≤ 2147483647) (hh : b.maxY - b.minY ≤ 2147483647)
    (ha : (pixels b).card < 2147483648) :
    b.area p = .ok (pixels b).card := by
  have hc := card_pixels b hb
  unfold Proper at hb
  have h1 : b.width p = .ok (b.maxX - b.minX) := i32_of (by unfold InI32; omega)
  have h2 : b.height p = .ok (b.maxY - b.minY) := i32_of (by unfold InI32; omega)
  have h3 : i32 p ((b.maxX - b.minX) * (b.maxY - b.minY))
      = .ok ((b.maxX - b.minX) * (b.maxY - b.minY)) := by
    apply i32_of
    rw [← hc]; unfold InI32; omega
  simp only [area, h1, h2, h3, bind, Except.bind]
  rw [← hc]
  simp only [asU32, Except.ok.injEq]
  omega

example : (pixels ⟨-2, -1, 5, 2⟩).card = 21 ∧ Proper ⟨-2, -1, 5, 2⟩ ∧
    (⟨-2, -1, 5, 2⟩ : BBox).area .debug = .ok 21 := by
  refine ⟨by decide, by simp [Proper], by decide⟩

/-- C13 in release builds: the reported area is right up to 2^32 - 1 pixels. -/
theorem C13_area_release_partial (b : BBox) (hb : Proper b)
    (hw : b.maxX - b.minX ≤ 2147483647) (hh : b.maxY - b.minY ≤ 2147483647)
    (ha : (pixels b).card < 4294967296) :
    b.area .release = .ok (pixels b).card := by
  by_cases hs : (pixels b).card < 2147483648
  · exact C13_area_partial .release b hb hw hh hs
  have hc := card_pixels b hb
  unfold Proper at hb
  have h1 : b.width .release = .ok (b.maxX - b.minX) := i32_of (by unfold InI32; omega)
  have h2 : b.height .release = .ok (b.maxY - b.minY) := i32_of (by unfold InI32; omega)
  simp only [area, h1, h2, bind, Except.bind]
  rw [← hc]
  have h3 : i32 .release ((pixels b).card : Int) = .ok (wrapI32 (pixels b).card) := by
    unfold i32
    rw [if_neg]
    unfold InI32; omega
  rw [h3]
  simp only [Except.ok.injEq]
  rw [asU32, wrapI32, Int.bmod_def]
  split <;> omega

example : (⟨0, 0, 65536, 65535⟩ : BBox).area .release = .ok 4294901760 := by decide

/-- Why C13 is partial: computing the area of a 65536 x 65536 window panics in debug builds
and gives zero in release builds. -/
theorem C13_counterexample_debug : (⟨0, 0, 65536, 65536⟩ : BBox).area .debug = .error .overflow := by
  decide

theorem C13_counterexample_release : (⟨0, 0, 65536, 65536⟩ : BBox).area .release = .ok 0 := by
  decide

end OCG.Props
