import Verif.Spec.Lens
import Verif.Props.DeformPixels
import Mathlib.Tactic.Positivity
/-
Properties C91 and C92: what a lens deformer does to points, and which points the window of a
deformed image covers.
-/

namespace OCG.Props

open DeformSpec LensSpec BlockSpec RemapSpec PixelSpec

section
variable {F : Type} [Field F] [LinearOrder F] [IsStrictOrderedRing F] [FloatOps F]

omit [IsStrictOrderedRing F] in
theorem remap_into (a b x : F) : Interp.remap a b 0 1 x = (x - a) / (b - a) := by
  unfold Interp.remap Interp.lerp Interp.inverseLerp; ring

omit [IsStrictOrderedRing F] in
theorem remap_out (a b x : F) : Interp.remap 0 1 a b x = a + x * (b - a) := by
  unfold Interp.remap Interp.lerp Interp.inverseLerp
  rw [sub_zero, sub_zero, div_one]; ring

omit [IsStrictOrderedRing F] in
/-- C91: a lens deformer moves a point by undistorting (direction 0) or distorting (direction 1)
its position in the window; backwards it does the opposite; other directions panic.  Exact
arithmetic. -/
theorem C91_points (lens : LensPlugin F) (d : Tde4Deformer F) (w : BBoxF F) (q : F × F) :
    (d.direction = 0 →
      d.point lens w false q.1 q.2 =
        .ok (absolute w (lens.undistort d (relative w q).1 (relative w q).2)) ∧
      d.point lens w true q.1 q.2 =
        .ok (absolute w (lens.distort d (relative w q).1 (relative w q).2))) ∧
    (d.direction = 1 →
      d.point lens w false q.1 q.2 =
        .ok (absolute w (lens.distort d (relative w q).1 (relative w q).2)) ∧
      d.point lens w true q.1 q.2 =
        .ok (absolute w (lens.undistort d (relative w q).1 (relative w q).2))) ∧
    (d.direction ≠ 0 → d.direction ≠ 1 → ∀ inverse,
      d.point lens w inverse q.1 q.2 = .error .explicit) := by
  unfold Tde4Deformer.point Tde4Deformer.apply
  simp only [remap_into, remap_out]
  refine ⟨fun h => ?_, fun h => ?_, fun h0 h1 inverse => ?_⟩
  · simp only [if_pos h]; exact ⟨rfl, rfl⟩
  · simp only [h]; exact ⟨rfl, rfl⟩
  · rw [if_neg h0, if_neg h1]; rfl

omit [IsStrictOrderedRing F] [FloatOps F] in
theorem relative_absolute {w : BBoxF F} (hx : w.minX ≠ w.maxX) (hy : w.minY ≠ w.maxY) (q : F × F) :
    relative w (absolute w q) = q ∧ absolute w (relative w q) = q := by
  have h1 : w.maxX - w.minX ≠ 0 := sub_ne_zero.mpr (Ne.symm hx)
  have h2 : w.maxY - w.minY ≠ 0 := sub_ne_zero.mpr (Ne.symm hy)
  unfold relative absolute
  constructor
  · refine Prod.ext ?_ ?_ <;> simp only <;> field_simp <;> ring
  · refine Prod.ext ?_ ?_ <;> simp only <;> field_simp <;> ring

omit [IsStrictOrderedRing F] in
/-- C91: if the plug-in's two functions undo each other, distorting undoes undistorting: a deformer
run forwards and then backwards, or backwards and then forwards, gives every point back, and so
does the deformer with the other direction.  Exact arithmetic. -/
theorem C91_undo (lens : LensPlugin F) (hl : Invertible lens) (d : Tde4Deformer F)
    (hd : d.direction = 0 ∨ d.direction = 1) (w : BBoxF F) (hx : w.minX ≠ w.maxX)
    (hy : w.minY ≠ w.maxY) (q : F × F) (inverse : Bool) :
    ∃ r : F × F, d.point lens w inverse q.1 q.2 = .ok r ∧
      d.point lens w (!inverse) r.1 r.2 = .ok q := by
  obtain ⟨h0, h1, -⟩ := C91_points lens d w q
  have key : ∀ (f g : F → F → F × F) (r : F × F),
      (∀ x y, g (f x y).1 (f x y).2 = (x, y)) →
      r = absolute w (f (relative w q).1 (relative w q).2) →
      absolute w (g (relative w r).1 (relative w r).2) = q := by
    intro f g r hfg hr
    rw [hr, (relative_absolute hx hy _).1, hfg]
    exact (relative_absolute hx hy q).2
  rcases hd with h | h
  · obtain ⟨a, b⟩ := h0 h
    cases inverse
    · refine ⟨_, a, ?_⟩
      obtain ⟨_, b'⟩ := (C91_points lens d w (absolute w (lens.undistort d (relative w q).1
        (relative w q).2))).1 h
      exact b'.trans (congrArg Except.ok (key _ _ _ (hl.back d) rfl))
    · refine ⟨_, b, ?_⟩
      obtain ⟨a', _⟩ := (C91_points lens d w (absolute w (lens.distort d (relative w q).1
        (relative w q).2))).1 h
      exact a'.trans (congrArg Except.ok (key _ _ _ (hl.forth d) rfl))
  · obtain ⟨a, b⟩ := h1 h
    cases inverse
    · refine ⟨_, a, ?_⟩
      obtain ⟨_, b'⟩ := (C91_points lens d w (absolute w (lens.distort d (relative w q).1
        (relative w q).2))).2.1 h
      exact b'.trans (congrArg Except.ok (key _ _ _ (hl.forth d) rfl))
    · refine ⟨_, b, ?_⟩
      obtain ⟨a', _⟩ := (C91_points lens d w (absolute w (lens.undistort d (relative w q).1
        (relative w q).2))).2.1 h
      exact a'.trans (congrArg Except.ok (key _ _ _ (hl.back d) rfl))

/-- A lens deformer satisfies the hypothesis of C48. -/
theorem undoes_lens [FloatConst F] (lib : DeformLib F) (hl : Invertible lib.lens)
    (d : Tde4Deformer F) (hd : d.direction = 0 ∨ d.direction = 1) (display : BBox)
    (hx : display.minX < display.maxX) (hy : display.minY < display.maxY) :
    Undoes lib (BBoxF.ofBBox display) (.tde4 d) := by
  intro x y
  exact C91_undo lib.lens hl d hd (BBoxF.ofBBox display)
    (show ((display.minX : Int) : F) ≠ (display.maxX : F) by exact_mod_cast hx.ne)
    (show ((display.minY : Int) : F) ≠ (display.maxY : F) by exact_mod_cast hy.ne) (x, y) true

variable [FloorLaws F]

omit [IsStrictOrderedRing F] in
/-- C92: the integer window of a deformed image is the smallest one that contains the deformed
box.  Exact arithmetic. -/
theorem C92_smallest [IsStrictOrderedRing F] (b : BBoxF F) (h : NotClipped (outerBox b)) :
    (∀ q : F × F, Within b q → InWindow (outerBox b) q) ∧
    ∀ w : BBox, (∀ q : F × F, Within b q → InWindow w q) → b.minX ≤ b.maxX → b.minY ≤ b.maxY →
      Inside (outerBox b) w := by
  obtain ⟨⟨a1, a2⟩, ⟨a3, a4⟩, ⟨a5, a6⟩, ⟨a7, a8⟩⟩ := h
  have fl : ∀ x : F, -2147483648 < (FloatOps.toI32 (FloatOps.floor x) : Int) →
      ((FloatLike.toI32 (FloatLike.floor x) : Int) : F) ≤ x := fun x h => FloorLaws.floor_le x h
  have fu : ∀ x : F, (FloatOps.toI32 (FloatOps.floor x) : Int) < 2147483647 →
      x < ((FloatLike.toI32 (FloatLike.floor x) : Int) : F) + 1 := fun x h => FloorLaws.lt_floor x h
  have cu : ∀ x : F, (FloatOps.toI32 (FloatOps.ceil x) : Int) < 2147483647 →
      x ≤ ((FloatLike.toI32 (FloatLike.ceil x) : Int) : F) := fun x h => FloorLaws.le_ceil x h
  have cl : ∀ x : F, -2147483648 < (FloatOps.toI32 (FloatOps.ceil x) : Int) →
      ((FloatLike.toI32 (FloatLike.ceil x) : Int) : F) < x + 1 := fun x h => FloorLaws.ceil_lt x h
  constructor
  · rintro q ⟨q1, q2, q3, q4⟩
    exact ⟨(fl _ a1).trans q1, q2.trans (cu _ a6), (fl _ a3).trans q3, q4.trans (cu _ a8)⟩
  · intro w hw hbx hby
    obtain ⟨w1, -, w3, -⟩ := hw (b.minX, b.minY) ⟨le_refl _, hbx, le_refl _, hby⟩
    obtain ⟨-, w2, -, w4⟩ := hw (b.maxX, b.maxY) ⟨hbx, le_refl _, hby, le_refl _⟩
    dsimp only at w1 w2 w3 w4
    have b1 := lt_of_le_of_lt w1 (fu _ a2)
    have b3 := lt_of_le_of_lt w3 (fu _ a4)
    have b2 := lt_of_lt_of_le (cl _ a5) (add_le_add_left w2 1)
    have b4 := lt_of_lt_of_le (cl _ a7) (add_le_add_left w4 1)
    have c1 : w.minX < FloatLike.toI32 (FloatLike.floor b.minX) + 1 := by exact_mod_cast b1
    have c3 : w.minY < FloatLike.toI32 (FloatLike.floor b.minY) + 1 := by exact_mod_cast b3
    have c2 : FloatLike.toI32 (FloatLike.ceil b.maxX) < w.maxX + 1 := by exact_mod_cast b2
    have c4 : FloatLike.toI32 (FloatLike.ceil b.maxY) < w.maxY + 1 := by exact_mod_cast b4
    exact ⟨by show _ ≤ FloatLike.toI32 (FloatLike.floor b.minX); omega,
      by show FloatLike.toI32 (FloatLike.ceil b.maxX) ≤ _; omega,
      by show _ ≤ FloatLike.toI32 (FloatLike.floor b.minY); omega,
      by show FloatLike.toI32 (FloatLike.ceil b.maxY) ≤ _; omega⟩

variable [FloatConst F]

omit [FloorLaws F] in
/-- One lens deformer's box contains what the deformer makes of the points of the box. -/
theorem box_covers (lib : DeformLib F) (hg : GoodBoxes lib.lens) (d : Tde4Deformer F)
    (w : BBoxF F) (hx : w.minX < w.maxX) (hy : w.minY < w.maxY) {b b' : BBoxF F}
    (hb : d.box lib.lens b w = .ok b') {q r : F × F} (hq : Within b q)
    (hr : d.point lib.lens w false q.1 q.2 = .ok r) : Within b' r := by
  have h1 : 0 < w.maxX - w.minX := sub_pos.mpr hx
  have h2 : 0 < w.maxY - w.minY := sub_pos.mpr hy
  have hrel : Within ⟨(b.minX - w.minX) / (w.maxX - w.minX), (b.minY - w.minY) / (w.maxY - w.minY),
      (b.maxX - w.minX) / (w.maxX - w.minX), (b.maxY - w.minY) / (w.maxY - w.minY)⟩
      (relative w q) := by
    obtain ⟨q1, q2, q3, q4⟩ := hq
    refine ⟨?_, ?_, ?_, ?_⟩ <;> unfold relative <;> dsimp only <;>
      apply div_le_div_of_nonneg_right _ (by positivity) <;> linarith
  have habs : ∀ (c : BBoxF F) (s : F × F), Within c s →
      Within ⟨w.minX + c.minX * (w.maxX - w.minX) - (2 : Int), w.minY + c.minY * (w.maxY - w.minY) - (2 : Int),
        w.minX + c.maxX * (w.maxX - w.minX) + (2 : Int), w.minY + c.maxY * (w.maxY - w.minY) + (2 : Int)⟩
        (absolute w s) := by
    rintro c s ⟨s1, s2, s3, s4⟩
    have := mul_le_mul_of_nonneg_right s1 h1.le
    have := mul_le_mul_of_nonneg_right s2 h1.le
    have := mul_le_mul_of_nonneg_right s3 h2.le
    have := mul_le_mul_of_nonneg_right s4 h2.le
    refine ⟨?_, ?_, ?_, ?_⟩ <;> unfold absolute <;> push_cast <;> linarith
  obtain ⟨p0, p1, p2⟩ := C91_points lib.lens d w q
  unfold Tde4Deformer.box at hb
  simp only [remap_into, remap_out, ofInt_eq] at hb
  by_cases h0 : d.direction = 0
  · rw [if_pos h0] at hb
    cases hb
    rw [(p0 h0).1] at hr
    cases hr
    exact habs _ _ (hg.undistort d _ _ _ hrel)
  · by_cases h1 : d.direction = 1
    · rw [if_neg h0, if_pos h1] at hb
      cases hb
      rw [(p1 h1).1] at hr
      cases hr
      exact habs _ _ (hg.distort d _ _ _ hrel)
    · rw [p2 h0 h1] at hr
      cases hr

/-- All the deformers that are switched on are lens deformers. -/
def OnlyLenses (ds : List (Deformer F)) : Prop :=
  ∀ d ∈ ds, d.enable = 1 → ∃ t, d = .tde4 t

omit [FloorLaws F] in
theorem boxes_cover (lib : DeformLib F) (hg : GoodBoxes lib.lens) (w : BBoxF F)
    (hx : w.minX < w.maxX) (hy : w.minY < w.maxY) :
    ∀ (ds : List (Deformer F)), OnlyLenses ds → ∀ {b b' : BBoxF F},
      deformedBox lib (enabledDeformers ds) w b = .ok b' →
      ∀ q r : F × F, Within b q → Carried lib w false ds q r → Within b' r := by
  intro ds
  induction ds with
  | nil =>
    intro _ b b' hb q r hq hc
    cases hb
    cases hc
    exact hq
  | cons d ds ih =>
    intro hl b b' hb q r hq hc
    have hl' : OnlyLenses ds := fun d hd => hl d (List.mem_cons_of_mem _ hd)
    cases hc with
    | off h hc =>
      refine ih hl' ?_ q r hq hc
      unfold enabledDeformers at hb ⊢
      rwa [List.filter_cons_of_neg (by simpa using h)] at hb
    | @on _ _ _ q' _ h e hc =>
      unfold enabledDeformers at hb
      rw [List.filter_cons_of_pos (by simpa using h)] at hb
      change (do let b ← d.box lib b w; deformedBox lib (enabledDeformers ds) w b) = _ at hb
      obtain ⟨b1, e1, hb1⟩ := Res.bind_ok.mp hb
      obtain ⟨t, rfl⟩ := hl d List.mem_cons_self h
      exact ih hl' hb1 q' r (box_covers lib hg t w hx hy e1 hq e) hc

omit [FloorLaws F] [IsStrictOrderedRing F] in
/-- The window that a run ends with is the rounded box. -/
theorem pixels_window {H : Type} [HalfLike F H] {p : Profile} {lib : DeformLib F}
    {ds : List (Deformer F)} (hon : ∃ d ∈ ds, d.enable = 1) {display window win : BBox}
    {src dst out : PixelBlock F H}
    (h : applyDeformersToPixels p lib ds display src window dst = .ok (out, win)) :
    ∃ b, deformedBox lib (enabledDeformers ds) (BBoxF.ofBBox display) (BBoxF.ofBBox window) =
      .ok b ∧ win = outerBox b := by
  have hne : (enabledDeformers ds).length ≠ 0 := by
    obtain ⟨d, hd, he⟩ := hon
    have : d ∈ enabledDeformers ds := by
      unfold enabledDeformers
      rw [List.mem_filter]
      exact ⟨hd, by simpa using he⟩
    intro h0
    rw [List.length_eq_zero_iff.mp h0] at this
    cases this
  have hne' : ds.length ≠ 0 := by
    obtain ⟨d, hd, -⟩ := hon
    intro h0
    rw [List.length_eq_zero_iff.mp h0] at hd
    cases hd
  unfold applyDeformersToPixels at h
  rw [if_neg hne'] at h
  dsimp only at h
  rw [if_neg hne] at h
  obtain ⟨tmp, e1, h⟩ := Res.bind_ok.mp h
  obtain ⟨_, -, h⟩ := Res.bind_ok.mp h
  obtain ⟨_, -, h⟩ := Res.bind_ok.mp h
  obtain ⟨_, -, h⟩ := Res.bind_ok.mp h
  obtain ⟨_, -, h⟩ := Res.bind_ok.mp h
  obtain ⟨_, -, h⟩ := Res.bind_ok.mp h
  obtain ⟨_, -, h⟩ := Res.bind_ok.mp h
  obtain ⟨_, -, h⟩ := Res.bind_ok.mp h
  obtain ⟨_, -, h⟩ := Res.bind_ok.mp h
  cases h
  exact ⟨tmp, e1, rfl⟩

/-- C92 (partial): the window of an image deformed by lens deformers covers the deformed image:
wherever the deformers carry a point of the data window, it lies in the new window.  What is
missing: transform deformers, for which it is false, see `C92_counterexample`.  Exact arithmetic;
the plug-in's boxes are trusted to contain the deformed points. -/
theorem C92_covers_partial {H : Type} [HalfLike F H] (p : Profile) (lib : DeformLib F)
    (hg : GoodBoxes lib.lens) (ds : List (Deformer F)) (hl : OnlyLenses ds)
    (hon : ∃ d ∈ ds, d.enable = 1) (display window win : BBox)
    (hx : display.minX < display.maxX) (hy : display.minY < display.maxY)
    (src dst out : PixelBlock F H)
    (h : applyDeformersToPixels p lib ds display src window dst = .ok (out, win))
    (hn : NotClipped win) (q r : F × F) (hq : InWindow window q)
    (hc : Carried lib (BBoxF.ofBBox display) false ds q r) : InWindow win r := by
  obtain ⟨tmp, e1, rfl⟩ := pixels_window hon h
  refine (C92_smallest tmp hn).1 r (boxes_cover lib hg (BBoxF.ofBBox display) ?_ ?_ ds hl e1 q r hq hc)
  · show ((display.minX : Int) : F) < (display.maxX : F)
    exact_mod_cast hx
  · show ((display.minY : Int) : F) < (display.maxY : F)
    exact_mod_cast hy

/-- All the deformers that are switched on are transforms. -/
def OnlyTransforms (ds : List (Deformer F)) : Prop :=
  ∀ d ∈ ds, d.enable = 1 → ∃ t, d = .transform t

omit [IsStrictOrderedRing F] [FloorLaws F] in
theorem transform_boxes (lib : DeformLib F) (w : BBoxF F) :
    ∀ (ds : List (Deformer F)), OnlyTransforms ds → ∀ {b b' : BBoxF F},
      deformedBox lib (enabledDeformers ds) w b = .ok b' → b' = b := by
  intro ds
  induction ds with
  | nil => intro _ b b' hb; cases hb; rfl
  | cons d ds ih =>
    intro hl b b' hb
    have hl' : OnlyTransforms ds := fun d hd => hl d (List.mem_cons_of_mem _ hd)
    unfold enabledDeformers at hb
    by_cases h : d.enable = 1
    · rw [List.filter_cons_of_pos (by simpa using h)] at hb
      change (do let b ← d.box lib b w; deformedBox lib (enabledDeformers ds) w b) = _ at hb
      obtain ⟨b1, e1, hb1⟩ := Res.bind_ok.mp hb
      obtain ⟨t, rfl⟩ := hl d List.mem_cons_self h
      cases e1
      exact ih hl' hb1
    · rw [List.filter_cons_of_neg (by simpa using h)] at hb
      exact ih hl' hb

/-- C92: transform deformers never move the window of an image.  Exact arithmetic. -/
theorem C92_transforms {H : Type} [HalfLike F H] (p : Profile) (lib : DeformLib F)
    (ds : List (Deformer F)) (hl : OnlyTransforms ds) (hon : ∃ d ∈ ds, d.enable = 1)
    (display window win : BBox) (src dst out : PixelBlock F H)
    (h : applyDeformersToPixels p lib ds display src window dst = .ok (out, win))
    (hn : NotClipped win) : win = window := by
  obtain ⟨tmp, e1, rfl⟩ := pixels_window hon h
  have := transform_boxes lib _ ds hl e1
  subst this
  obtain ⟨⟨a1, a2⟩, ⟨a3, a4⟩, ⟨a5, a6⟩, ⟨a7, a8⟩⟩ := hn
  have fl : ∀ n : Int, -2147483648 < (FloatOps.toI32 (FloatOps.floor (n : F)) : Int) →
      (FloatOps.toI32 (FloatOps.floor (n : F)) : Int) < 2147483647 →
      FloatOps.toI32 (FloatOps.floor (n : F)) = n := by
    intro n h1 h2
    have b1 : FloatOps.toI32 (FloatOps.floor (n : F)) ≤ n := by
      exact_mod_cast FloorLaws.floor_le (n : F) h1
    have b2 : n < FloatOps.toI32 (FloatOps.floor (n : F)) + 1 := by
      exact_mod_cast FloorLaws.lt_floor (n : F) h2
    omega
  have ce : ∀ n : Int, -2147483648 < (FloatOps.toI32 (FloatOps.ceil (n : F)) : Int) →
      (FloatOps.toI32 (FloatOps.ceil (n : F)) : Int) < 2147483647 →
      FloatOps.toI32 (FloatOps.ceil (n : F)) = n := by
    intro n h1 h2
    have b1 : n ≤ FloatOps.toI32 (FloatOps.ceil (n : F)) := by
      exact_mod_cast FloorLaws.le_ceil (n : F) h2
    have b2 : FloatOps.toI32 (FloatOps.ceil (n : F)) < n + 1 := by
      exact_mod_cast FloorLaws.ceil_lt (n : F) h1
    omega
  obtain ⟨x0, y0, x1, y1⟩ := window
  have e1 := fl x0 a1 a2
  have e2 := fl y0 a3 a4
  have e3 := ce x1 a5 a6
  have e4 := ce y1 a7 a8
  exact congr (congr (congr (congrArg BBox.mk e1) e2) e3) e4

end

attribute [local instance] ratRound ratRound_laws ratPi

theorem ratFloor_laws : FloorLaws Rat where
  floor_le x h := by
    change -2147483648 < min (max ⌊((⌊x⌋ : Int) : Rat)⌋ (-2147483648)) 2147483647 at h
    change (((min (max ⌊((⌊x⌋ : Int) : Rat)⌋ (-2147483648)) 2147483647 : Int)) : Rat) ≤ x
    rw [Int.floor_intCast] at *
    have h1 : min (max ⌊x⌋ (-2147483648)) 2147483647 ≤ ⌊x⌋ := by omega
    exact le_trans (by exact_mod_cast h1) (Int.floor_le x)
  lt_floor x h := by
    change min (max ⌊((⌊x⌋ : Int) : Rat)⌋ (-2147483648)) 2147483647 < 2147483647 at h
    change x < (((min (max ⌊((⌊x⌋ : Int) : Rat)⌋ (-2147483648)) 2147483647 : Int)) : Rat) + 1
    rw [Int.floor_intCast] at *
    have h1 : ⌊x⌋ + 1 ≤ min (max ⌊x⌋ (-2147483648)) 2147483647 + 1 := by omega
    exact lt_of_lt_of_le (Int.lt_floor_add_one x) (by exact_mod_cast h1)
  le_ceil x h := by
    change min (max ⌊((⌈x⌉ : Int) : Rat)⌋ (-2147483648)) 2147483647 < 2147483647 at h
    change x ≤ (((min (max ⌊((⌈x⌉ : Int) : Rat)⌋ (-2147483648)) 2147483647 : Int)) : Rat)
    rw [Int.floor_intCast] at *
    have h1 : ⌈x⌉ ≤ min (max ⌈x⌉ (-2147483648)) 2147483647 := by omega
    exact le_trans (Int.le_ceil x) (by exact_mod_cast h1)
  ceil_lt x h := by
    change -2147483648 < min (max ⌊((⌈x⌉ : Int) : Rat)⌋ (-2147483648)) 2147483647 at h
    change (((min (max ⌊((⌈x⌉ : Int) : Rat)⌋ (-2147483648)) 2147483647 : Int)) : Rat) < x + 1
    rw [Int.floor_intCast] at *
    have h1 : min (max ⌈x⌉ (-2147483648)) 2147483647 ≤ ⌈x⌉ := by omega
    exact lt_of_le_of_lt (by exact_mod_cast h1) (Int.ceil_lt_add_one x)

attribute [local instance] ratFloor_laws

/-- A lens that moves sideways by its distortion, and its boxes. -/
def slidingLens : LensPlugin Rat where
  undistort d x y := (x + d.distortion, y)
  distort d x y := (x - d.distortion, y)
  boxUndistort d b := ⟨b.minX + d.distortion, b.minY, b.maxX + d.distortion, b.maxY⟩
  boxDistort d b := ⟨b.minX - d.distortion, b.minY, b.maxX - d.distortion, b.maxY⟩

theorem sliding_invertible : Invertible slidingLens where
  back d x y := by simp [slidingLens]
  forth d x y := by simp [slidingLens]

theorem sliding_boxes : GoodBoxes slidingLens where
  undistort d b x y h := by
    obtain ⟨h1, h2, h3, h4⟩ := h
    exact ⟨by simpa [slidingLens] using h1, by simpa [slidingLens] using h2, h3, h4⟩
  distort d b x y h := by
    obtain ⟨h1, h2, h3, h4⟩ := h
    exact ⟨by simpa [slidingLens] using h1, by simpa [slidingLens] using h2, h3, h4⟩

/-- A quarter of the window to the right. -/
def slidingDeformer : Tde4Deformer Rat := { Tde4Deformer.new with distortion := 1 / 4 }

example : slidingDeformer.direction = 0 ∧ slidingDeformer.enable = 1 ∧
    slidingDeformer.point slidingLens ⟨0, 0, 8, 1⟩ false 1 1 = .ok (3, 1) ∧
    slidingDeformer.point slidingLens ⟨0, 0, 8, 1⟩ true 3 1 = .ok (1, 1) := by
  refine ⟨rfl, rfl, ?_, ?_⟩ <;> decide +kernel

theorem sliding_box : (Deformer.tde4 slidingDeformer).box ⟨fun _ => none, slidingLens⟩
    (BBoxF.ofBBox ⟨0, 0, 8, 1⟩) (BBoxF.ofBBox ⟨0, 0, 8, 1⟩) = .ok (⟨0, -2, 12, 3⟩ : BBoxF Rat) := by
  unfold Deformer.box Tde4Deformer.box
  simp only [remap_into, remap_out, ofInt_eq, slidingLens, slidingDeformer, Tde4Deformer.new,
    BBoxF.ofBBox]
  rw [if_pos trivial]
  refine congrArg Except.ok ?_
  norm_num

/-- The hypotheses of `C92_covers_partial`: the deformed image is two pixels to the right, and its
window covers it with two pixels to spare. -/
example {H : Type} [HalfLike Rat H] (p : Profile) (sd : List Rat) (hsl : sd.length = 24)
    (dst : PixelBlock Rat H) :
    OnlyLenses [Deformer.tde4 slidingDeformer] ∧ NotClipped ⟨0, -2, 12, 3⟩ ∧
    (∃ out : List Rat, applyDeformersToPixels (H := H) p ⟨fun _ => none, slidingLens⟩
      [.tde4 slidingDeformer] ⟨0, 0, 8, 1⟩ (floatImage ⟨8, 1, 3⟩ sd) ⟨0, 0, 8, 1⟩ dst =
        .ok (floatImage ⟨12, 5, 3⟩ out, ⟨0, -2, 12, 3⟩)) ∧
    Carried ⟨fun _ => none, slidingLens⟩ (BBoxF.ofBBox ⟨0, 0, 8, 1⟩) false
      [Deformer.tde4 slidingDeformer] ((8 : Rat), 1) (10, 1) := by
  refine ⟨?_, by unfold NotClipped; decide, ?_, ?_⟩
  · intro d hd _
    rw [List.mem_singleton] at hd
    exact ⟨_, hd⟩
  · obtain ⟨out, e, -⟩ := C48_pixels_single (H := H) p ⟨fun _ => none, slidingLens⟩
      [.tde4 slidingDeformer] (.tde4 slidingDeformer) rfl (.inl rfl) ⟨0, 0, 8, 1⟩ ⟨0, 0, 8, 1⟩
      (undoes_lens _ sliding_invertible _ (.inl rfl) _ (by decide) (by decide)) ⟨8, 1, 3⟩ sd dst
      (by unfold BlockSpec.ValidSize; decide) (by rw [hsl]; decide) (.inl rfl) (by decide)
      (by decide) ⟨0, -2, 12, 3⟩ sliding_box ⟨0, -2, 12, 3⟩ (by decide +kernel) ⟨12, 5, 3⟩ rfl
      (by unfold BlockSpec.ValidSize; decide)
    exact ⟨out, e⟩
  · exact .on rfl (show _ = Except.ok ((10 : Rat), (1 : Rat)) by decide +kernel) .nil

/-- C92 counterexample: an image doubled in width and then moved keeps its window, so the right
half of the deformed image is cut off: the corner (8, 1) is carried to (17, 1), outside the
window. -/
theorem C92_counterexample {H : Type} [HalfLike Rat H] (p : Profile) (sd : List Rat)
    (hsl : sd.length = 24) (dst : PixelBlock Rat H) :
    (∃ out : List Rat, applyDeformersToPixels (H := H) p matLib [doubleX, shiftX] ⟨0, 0, 8, 1⟩
      (floatImage ⟨8, 1, 3⟩ sd) ⟨0, 0, 8, 1⟩ dst =
        .ok (floatImage ⟨8, 1, 3⟩ out, ⟨0, 0, 8, 1⟩)) ∧
    InWindow ⟨0, 0, 8, 1⟩ ((8 : Rat), (1 : Rat)) ∧
    Carried matLib (BBoxF.ofBBox ⟨0, 0, 8, 1⟩) false [doubleX, shiftX] (8, 1) (17, 1) ∧
    ¬ InWindow ⟨0, 0, 8, 1⟩ ((17 : Rat), (1 : Rat)) := by
  obtain ⟨-, out, e, -⟩ := C48_counterexample_order (H := H) p sd hsl dst
  refine ⟨⟨out, e⟩, by unfold InWindow; norm_num, ?_, by unfold InWindow; norm_num⟩
  refine .on (q' := (16, 1)) rfl ?_ (.on (q' := (17, 1)) rfl ?_ .nil)
  · refine (apply_scale_shift 0 0 2 1 8 1 _ _).trans (congrArg Except.ok ?_)
    simp [BBoxF.ofBBox, FloatLike.ofInt]; norm_num
  · refine (apply_scale_shift 8 0 1 1 16 1 _ _).trans (congrArg Except.ok ?_)
    simp [BBoxF.ofBBox, FloatLike.ofInt]; norm_num

example : OnlyTransforms [doubleX, shiftX] := by
  intro d hd _
  simp at hd
  rcases hd with rfl | rfl
  · exact ⟨_, rfl⟩
  · exact ⟨_, rfl⟩

end OCG.Props
