import Verif.Props.Premultiplied
import Verif.Spec.Field
import Mathlib.Tactic.Ring
/-
C108: pictures that are laid over each other can be grouped in any way.
-/

namespace OCG.Props

open PremultipliedSpec PictureSpec PixelSpec ColorSpec IeeeSpec ImageSpecs BBoxSpec BlockSpec
open Ieee hiding floor ceil round

section
variable {F : Type} [FloatLike F]

/-- A merged picture covers both of its inputs. -/
theorem merged_has {mode : MergeImageMode} {mix : F} {A B Q : Picture F}
    (hQ : IsMerged mode mix A B Q) {x y : Int} (h : Has A.data x y ∨ Has B.data x y) :
    Has Q.data x y := by
  rw [hQ.data]
  unfold Has at *
  dsimp only
  omega

theorem value_outside {P : Picture F} {x y c : Int} (h : ¬ Has P.data x y) : P.value x y c = 0 := by
  unfold Picture.value Picture.pixel
  rw [if_neg h]
  split
  · rw [List.getD_eq_getElem?_getD, List.getElem?_replicate]
    split <;> rfl
  · rfl

/-- The window of three pictures does not depend on how they are grouped. -/
theorem merged_data {mode : MergeImageMode} {mix : F} {A B C Q R Q' R' : Picture F}
    (h1 : IsMerged mode mix A B Q) (h2 : IsMerged mode mix Q C R)
    (h3 : IsMerged mode mix B C Q') (h4 : IsMerged mode mix A Q' R') :
    R.data = R'.data ∧ R.display = R'.display ∧ R.channels = R'.channels ∧ R.space = R'.space := by
  refine ⟨?_, ?_, ?_, ?_⟩
  · rw [h2.data, h4.data, h1.data, h3.data]
    dsimp only
    rw [min_assoc, min_assoc, max_assoc, max_assoc]
  · rw [h2.display, h4.display, h3.display]
  · rw [h2.channels, h4.channels, h3.channels]
  · rw [h2.space, h4.space]

end

/-! ### Exact arithmetic -/

section
variable {F : Type} [Field F] [LinearOrder F] [FloatOps F]

theorem exact_value {A B Q : Picture F} (hB : B.channels = 4) (hQ : IsMerged .over 1 A B Q)
    (x y : Int) {c : Int} (h0 : 0 ≤ c) (h4 : c < 4) :
    Q.value x y c = A.value x y c + B.value x y c * (1 - A.value x y 3) := by
  by_cases hxy : Has Q.data x y
  · obtain ⟨v, ⟨mid, e, hc⟩, hl, hv⟩ := hQ.pixels x y hxy
    cases hc
    have hid := C57_identity (F := F) (n := 4) (.inr (.inr rfl)) v
    rw [hB] at e hv
    have : v = Q.at_ x y := by
      have := hid.symm.trans e
      injection this
    obtain ⟨k, rfl⟩ := Int.eq_ofNat_of_zero_le h0
    have hk := hv k (by omega)
    unfold Picture.value Picture.pixel
    rw [if_pos h0, if_pos hxy, ← this, List.getD_eq_getElem?_getD]
    show (v[k]?).getD 0 = _
    rw [hk]
    show A.value x y k + B.value x y k * ((1 - A.value x y 3) * 1) = _
    rw [mul_one]
    rfl
  · have hA : ¬ Has A.data x y := fun h => hxy (merged_has hQ (.inl h))
    have hB : ¬ Has B.data x y := fun h => hxy (merged_has hQ (.inr h))
    rw [value_outside hxy, value_outside hA, value_outside hB]
    show (0 : F) = 0 + 0 * _
    ring

/-- C108: three pictures with four channels that are laid over each other: it makes no difference
which two are merged first. -/
theorem C108_over {A B C Q R Q' R' : Picture F} (hB : B.channels = 4) (hC : C.channels = 4)
    (h1 : IsMerged .over 1 A B Q) (h2 : IsMerged .over 1 Q C R)
    (h3 : IsMerged .over 1 B C Q') (h4 : IsMerged .over 1 A Q' R') :
    R.data = R'.data ∧ R.display = R'.display ∧ R.channels = R'.channels ∧ R.space = R'.space ∧
      ∀ x y c : Int, 0 ≤ c → c < 4 → R.value x y c = R'.value x y c := by
  obtain ⟨e1, e2, e3, e4⟩ := merged_data h1 h2 h3 h4
  refine ⟨e1, e2, e3, e4, fun x y c c0 c4 => ?_⟩
  have hQ' : Q'.channels = 4 := h3.channels.trans hC
  rw [exact_value hC h2 x y c0 c4, exact_value hQ' h4 x y c0 c4, exact_value hB h1 x y c0 c4,
    exact_value hB h1 x y (c := 3) (by decide) (by decide), exact_value hC h3 x y c0 c4]
  ring

end

/-! ### Single-precision floats -/

section
variable [Libm single32]

/-- Numbers from 0 to a little more than 1 are rounded by at most half of `2^-24`. -/
theorem rounds_near {q : ℚ} {x : F32} (h : Rounds q x) (hx : IsFinite x) (h0 : 0 ≤ q)
    (h1 : q ≤ 1 + 1 / 2 ^ 25) : |val x - q| ≤ 1 / 2 ^ 25 := by
  by_cases hq : q ≤ 1
  · exact rounds_unit h hx h0 hq
  · refine ((h.nearest ok_single.mant_pos hx).closest (ofInt 1) one_finite).trans ?_
    rw [one_val, abs_of_neg (by linarith [not_le.mp hq])]
    linarith

/-- The error of one over another premultiplied pixel. -/
theorem over_error {a b : Int → F32} (ha : Premultiplied a) (hb : Premultiplied b) {c : Int}
    (h0 : 0 ≤ c) (h4 : c < 4) :
    |val (blend .over (ofInt 1) a b c) - (val (a c) + val (b c) * (1 - val (a 3)))| ≤
      3 / 2 ^ 25 := by
  have d3 : (0 : Int) ≤ 3 ∧ (3 : Int) < 4 := by decide
  obtain ⟨r1, r2, r3, r4⟩ := unit_rest (ha.finite 3 d3.1 d3.2) (ha.nonneg 3 d3.1 d3.2) ha.alpha
  have hr := rounds_sub one_finite (ha.finite 3 d3.1 d3.2)
  rw [one_val] at hr
  have a0 := ha.nonneg 3 d3.1 d3.2
  have re := rounds_unit hr r1 (by linarith [ha.alpha]) (by linarith)
  rw [blend_over, mul_one' ok_single r1]
  generalize sub (ofInt 1) (a 3) = r at *
  have b0 := hb.nonneg c h0 h4
  have b1 := (hb.le_alpha c h0 h4).trans hb.alpha
  obtain ⟨m1, m2, m3, m4⟩ := unit_mul (hb.finite c h0 h4) r1 b0 r2 b1 r3
  have me := rounds_unit (rounds_mul (hb.finite c h0 h4) r1) m1 (mul_nonneg b0 r2)
    (mul_le_one₀ b1 r2 r3)
  have mr : val (mul (b c) r) ≤ val r :=
    (rounds_mul (hb.finite c h0 h4) r1).le m1 (mul_le_of_le_one_left r2 b1)
  generalize mul (b c) r = m at *
  have ac0 := ha.nonneg c h0 h4
  have ac3 := ha.le_alpha c h0 h4
  have sr := rounds_add (ha.finite c h0 h4) m1
  have sf := finite_of_le_two sr (by linarith) (by linarith [ha.alpha])
  have se := rounds_near sr sf (by linarith) (by linarith)
  generalize add (a c) m = s at *
  have br : |val (b c) * val r - val (b c) * (1 - val (a 3))| ≤ 1 / 2 ^ 25 := by
    rw [← mul_sub, abs_mul, abs_of_nonneg b0]
    exact (mul_le_of_le_one_left (abs_nonneg _) b1).trans re
  rw [abs_le] at *
  constructor <;> linarith [se.1, se.2, me.1, me.2, br.1, br.2]

/-- The channels of one premultiplied picture over another, inside and outside. -/
theorem single_value {A B Q : Picture F32} (hA : AllPremultiplied A) (hB : AllPremultiplied B)
    (hQ : IsMerged .over 1 A B Q) (x y : Int) {c : Int} (h0 : 0 ≤ c) (h4 : c < 4) :
    |val (Q.value x y c) - (val (A.value x y c) + val (B.value x y c) * (1 - val (A.value x y 3)))| ≤
      3 / 2 ^ 25 := by
  by_cases hxy : Has Q.data x y
  · have pA := premultiplied_value hA x y
    have pB := premultiplied_value hB x y
    have key := over_premultiplied pA pB one_finite (by rw [one_val]; norm_num) one_val.le
    have e : Q.value x y c = (Q.at_ x y).getD c.toNat (zero false) := by
      unfold Picture.value Picture.pixel
      rw [if_pos h0, if_pos hxy, op_zero]
    rw [op_one] at hQ
    rw [e, (merged_pixel hB.1 hQ hxy key.1.finite c h0 h4).2.2]
    exact over_error pA pB h0 h4
  · have hA : ¬ Has A.data x y := fun h => hxy (merged_has hQ (.inl h))
    have hB : ¬ Has B.data x y := fun h => hxy (merged_has hQ (.inr h))
    rw [value_outside hxy, value_outside hA, value_outside hB, op_zero, zero_val]
    norm_num

/-- C108 in single-precision floats: for premultiplied pictures, how three of them are grouped
makes a difference of less than one part in two million. -/
theorem C108_single {A B C Q R Q' R' : Picture F32} (hA : AllPremultiplied A)
    (hB : AllPremultiplied B) (hC : AllPremultiplied C)
    (h1 : IsMerged .over 1 A B Q) (h2 : IsMerged .over 1 Q C R)
    (h3 : IsMerged .over 1 B C Q') (h4 : IsMerged .over 1 A Q' R') :
    R.data = R'.data ∧ R.display = R'.display ∧ R.channels = R'.channels ∧ R.space = R'.space ∧
      ∀ x y c : Int, 0 ≤ c → c < 4 → |val (R.value x y c) - val (R'.value x y c)| ≤ 15 / 2 ^ 25 := by
  obtain ⟨e1, e2, e3, e4⟩ := merged_data h1 h2 h3 h4
  refine ⟨e1, e2, e3, e4, fun x y c c0 c4 => ?_⟩
  have hm0 : (0 : ℚ) ≤ val (1 : F32) := by rw [op_one, one_val]; norm_num
  have hm1 : val (1 : F32) ≤ 1 := by rw [op_one, one_val]
  have hmf : IsFinite (1 : F32) := by rw [op_one]; exact one_finite
  have hQ := (C107_over hmf hm0 hm1 hA hB h1).1
  have hQ' := (C107_over hmf hm0 hm1 hB hC h3).1
  have d3 : (0 : Int) ≤ 3 ∧ (3 : Int) < 4 := by decide
  have q := single_value hA hB h1 x y c0 c4
  have q3 := single_value hA hB h1 x y d3.1 d3.2
  have r := single_value hQ hC h2 x y c0 c4
  have q' := single_value hB hC h3 x y c0 c4
  have r' := single_value hA hQ' h4 x y c0 c4
  have pA := premultiplied_value hA x y
  have pC := premultiplied_value hC x y
  have a0 := pA.nonneg 3 d3.1 d3.2
  have a1 := pA.alpha
  have k0 := pC.nonneg c c0 c4
  have k1 := (pC.le_alpha c c0 c4).trans pC.alpha
  generalize val (A.value x y c) = ac at *
  generalize val (A.value x y 3) = a3 at *
  generalize val (B.value x y c) = bc at *
  generalize val (B.value x y 3) = b3 at *
  generalize val (C.value x y c) = cc at *
  generalize val (Q.value x y c) = qc at *
  generalize val (Q.value x y 3) = q3' at *
  generalize val (Q'.value x y c) = qc' at *
  generalize val (R.value x y c) = rc at *
  generalize val (R'.value x y c) = rc' at *
  have m1 : |cc * (q3' - (a3 + b3 * (1 - a3)))| ≤ 3 / 2 ^ 25 := by
    rw [abs_mul, abs_of_nonneg k0]
    exact (mul_le_of_le_one_left (abs_nonneg _) k1).trans q3
  have m2 : |(1 - a3) * (qc' - (bc + cc * (1 - b3)))| ≤ 3 / 2 ^ 25 := by
    rw [abs_mul, abs_of_nonneg (by linarith : 0 ≤ 1 - a3)]
    exact (mul_le_of_le_one_left (abs_nonneg _) (by linarith)).trans q'
  have e : rc - rc' = (rc - (qc + cc * (1 - q3'))) + (qc - (ac + bc * (1 - a3))) -
      cc * (q3' - (a3 + b3 * (1 - a3))) - (1 - a3) * (qc' - (bc + cc * (1 - b3))) -
      (rc' - (ac + qc' * (1 - a3))) := by ring
  rw [e]
  rw [abs_le] at *
  constructor <;> linarith [q.1, q.2, r.1, r.2, r'.1, r'.2, m1.1, m1.2, m2.1, m2.2]

end

/-! ### Examples -/

section
attribute [local instance] ratRound

/-- A picture of one pixel of exact numbers. -/
def exactPicture (v : List Rat) : Picture Rat :=
  ⟨⟨0, 0, 1, 1⟩, ⟨0, 0, 1, 1⟩, v.length, colorSpaceLinear, fun _ _ => v⟩

theorem exact_merged {mode : MergeImageMode} {mix : Rat} {a b v : List Rat}
    (hl : v.length = b.length) (hc : b.length = 3 ∨ b.length = 4)
    (h : v = (List.range b.length).map fun c =>
      blend mode mix ((exactPicture a).value 0 0) ((exactPicture b).value 0 0) (c : Nat)) :
    IsMerged mode mix (exactPicture a) (exactPicture b) (exactPicture v) := by
  refine ⟨rfl, rfl, hl, rfl, fun x y hxy => ?_⟩
  obtain ⟨rfl, rfl⟩ := has_one hxy
  refine ⟨v, ⟨v, C57_identity (F := Rat) (.inr hc) v, .nil _⟩, hl, fun c hc => ?_⟩
  have hc : c < b.length := hc
  rw [h, List.getElem?_map, List.getElem?_range hc]
  rfl

/-- Red, half transparent; and the same in green, and white. -/
def redHalf : List Rat := [1/2, 0, 0, 1/2]
def greenHalf : List Rat := [0, 1/2, 0, 1/2]
def allWhite : List Rat := [1, 1, 1, 1]

-- C108: red glass and green glass in front of a white wall.
example (x y : Int) : (exactPicture [3/4, 1/2, 1/4, 1]).value x y 0 =
    (exactPicture [3/4, 1/2, 1/4, 1]).value x y 0 :=
  (C108_over (A := exactPicture redHalf) (B := exactPicture greenHalf) (C := exactPicture allWhite)
    (Q := exactPicture [1/2, 1/4, 0, 3/4]) (R := exactPicture [3/4, 1/2, 1/4, 1])
    (Q' := exactPicture [1/2, 1, 1/2, 1]) (R' := exactPicture [3/4, 1/2, 1/4, 1]) rfl rfl
    (exact_merged rfl (.inr rfl) (by decide +kernel)) (exact_merged rfl (.inr rfl) (by decide +kernel))
    (exact_merged rfl (.inr rfl) (by decide +kernel)) (exact_merged rfl (.inr rfl) (by decide +kernel))
    ).2.2.2.2 x y 0 (by decide) (by decide)

/-- C108 is false for a mix of one half: the grouping shows. -/
theorem C108_counterexample_mix : ∃ A B C Q R Q' R' : Picture Rat,
    B.channels = 4 ∧ C.channels = 4 ∧ IsMerged .over (1/2) A B Q ∧ IsMerged .over (1/2) Q C R ∧
      IsMerged .over (1/2) B C Q' ∧ IsMerged .over (1/2) A Q' R' ∧
      R.value 0 0 1 ≠ R'.value 0 0 1 :=
  ⟨exactPicture redHalf, exactPicture redHalf, exactPicture allWhite,
    exactPicture [5/8, 0, 0, 5/8], exactPicture [13/16, 3/16, 3/16, 13/16],
    exactPicture [3/4, 1/4, 1/4, 3/4], exactPicture [11/16, 1/16, 1/16, 11/16], rfl, rfl,
    exact_merged rfl (.inr rfl) (by decide +kernel), exact_merged rfl (.inr rfl) (by decide +kernel),
    exact_merged rfl (.inr rfl) (by decide +kernel), exact_merged rfl (.inr rfl) (by decide +kernel),
    by decide +kernel⟩

/-- C108 is false if the picture in the middle has no alpha: merged first, the result has no alpha
either, and hides nothing any more. -/
theorem C108_counterexample_rgb : ∃ A B C Q R Q' R' : Picture Rat,
    B.channels = 3 ∧ C.channels = 4 ∧ IsMerged .over 1 A B Q ∧ IsMerged .over 1 Q C R ∧
      IsMerged .over 1 B C Q' ∧ IsMerged .over 1 A Q' R' ∧ R.value 0 0 0 ≠ R'.value 0 0 0 :=
  ⟨exactPicture allWhite, exactPicture [0, 0, 0], exactPicture allWhite,
    exactPicture [1, 1, 1], exactPicture [2, 2, 2, 1],
    exactPicture allWhite, exactPicture allWhite, rfl, rfl,
    exact_merged rfl (.inl rfl) (by decide +kernel), exact_merged rfl (.inr rfl) (by decide +kernel),
    exact_merged rfl (.inr rfl) (by decide +kernel), exact_merged rfl (.inr rfl) (by decide +kernel),
    by decide +kernel⟩

end

section
attribute [local instance] exactPowf

/-- A grey pixel whose channels all have the same value, its opacity. -/
def greyPixel (t : F32) : List F32 := [t, t, t, t]

theorem greyPixel_premultiplied {t : F32} (ht : IsFinite t) (h0 : 0 ≤ val t) (h1 : val t ≤ 1) :
    AllPremultiplied (pixelPicture (greyPixel t)) := by
  have e : ∀ c : Int, 0 ≤ c → c < 4 → (greyPixel t).getD c.toNat (zero false) = t := by
    intro c h0 h4
    rcases channel_cases h0 h4 with rfl | rfl | rfl | rfl <;> rfl
  have f := e 3 (by decide) (by decide)
  refine ⟨rfl, fun x y _ => ⟨fun c h0 h4 => ?_, fun c c0 h4 => ?_, fun c h0 h4 => ?_, ?_⟩⟩
  · show IsFinite ((greyPixel t).getD _ _); rw [e c h0 h4]; exact ht
  · show 0 ≤ val ((greyPixel t).getD _ _); rw [e c c0 h4]; exact h0
  · show val ((greyPixel t).getD _ _) ≤ val ((greyPixel t).getD (3 : Int).toNat _)
    rw [e c h0 h4, f]
  · show val ((greyPixel t).getD (3 : Int).toNat _) ≤ 1; rw [f]; exact h1

/-- 0.05 -/
def twentieth : F32 := ⟨false, 0x3d4ccccd, by decide⟩

theorem twentieth_premultiplied : AllPremultiplied (pixelPicture (greyPixel twentieth)) := by
  refine greyPixel_premultiplied (by unfold IsFinite twentieth; decide) ?_ ?_ <;>
    unfold val twentieth <;> norm_num [single32]

theorem half_premultiplied : AllPremultiplied (pixelPicture (greyPixel oneHalf)) :=
  greyPixel_premultiplied oneHalf_finite (by rw [oneHalf_val]; norm_num)
    (by rw [oneHalf_val]; norm_num)

/-- One grey over another. -/
def greyOver (a b : F32) : F32 := add a (mul b (mul (sub (ofInt 1) a) (ofInt 1)))

-- C108: two panes of thin grey glass in front of a thick one; in single-precision floats the
-- result does depend on the grouping.
example : |val (greyOver (greyOver twentieth twentieth) oneHalf) -
      val (greyOver twentieth (greyOver twentieth oneHalf))| ≤ 15 / 2 ^ 25 :=
  (C108_single (A := pixelPicture (greyPixel twentieth)) (B := pixelPicture (greyPixel twentieth))
    (C := pixelPicture (greyPixel oneHalf))
    (Q := pixelPicture (greyPixel (greyOver twentieth twentieth)))
    (R := pixelPicture (greyPixel (greyOver (greyOver twentieth twentieth) oneHalf)))
    (Q' := pixelPicture (greyPixel (greyOver twentieth oneHalf)))
    (R' := pixelPicture (greyPixel (greyOver twentieth (greyOver twentieth oneHalf))))
    twentieth_premultiplied twentieth_premultiplied half_premultiplied
    (pixel_merged (by decide +kernel)) (pixel_merged (by decide +kernel))
    (pixel_merged (by decide +kernel)) (pixel_merged (by decide +kernel))).2.2.2.2 0 0 0
    (by decide) (by decide)

/-- C108: in single-precision floats the grouping shows in the last digit, even for premultiplied
pictures. -/
theorem C108_counterexample_exact : ∃ A B C Q R Q' R' : Picture F32,
    (AllPremultiplied A ∧ AllPremultiplied B ∧ AllPremultiplied C) ∧ IsMerged .over 1 A B Q ∧
      IsMerged .over 1 Q C R ∧ IsMerged .over 1 B C Q' ∧ IsMerged .over 1 A Q' R' ∧
      R.value 0 0 0 ≠ R'.value 0 0 0 :=
  ⟨pixelPicture (greyPixel twentieth), pixelPicture (greyPixel twentieth),
    pixelPicture (greyPixel oneHalf), pixelPicture (greyPixel (greyOver twentieth twentieth)),
    pixelPicture (greyPixel (greyOver (greyOver twentieth twentieth) oneHalf)),
    pixelPicture (greyPixel (greyOver twentieth oneHalf)),
    pixelPicture (greyPixel (greyOver twentieth (greyOver twentieth oneHalf))),
    ⟨twentieth_premultiplied, twentieth_premultiplied, half_premultiplied⟩,
    pixel_merged (by decide +kernel), pixel_merged (by decide +kernel),
    pixel_merged (by decide +kernel), pixel_merged (by decide +kernel), by decide +kernel⟩

end

end OCG.Props
