import Verif.Spec.Layers
import Verif.Props.Commute
import Verif.Props.IeeeMerge
import Verif.Props.Copy
/-
C126: an opaque layer hides what is below it, empty layers change nothing, and neither does
multiplying with white.
-/

namespace OCG.Props

open PremultipliedSpec PictureSpec PixelSpec ColorSpec IeeeSpec ImageSpecs BBoxSpec BlockSpec
open LayersSpec
open CacheSpec (IsOff)
open Ieee hiding floor ceil round

theorem mul_by_one {x m : F32} (hx : IsFinite x) (hm : IsFinite m) (h1 : val m = 1) :
    Same (mul x m) x := by
  have r := rounds_mul hx hm
  rw [h1, mul_one] at r
  exact r.exact hx rfl

theorem one_by_mul {x m : F32} (hx : IsFinite x) (hm : IsFinite m) (h1 : val m = 1) :
    Same (mul m x) x := by
  have r := rounds_mul hm hx
  rw [h1, one_mul] at r
  exact r.exact hx rfl

theorem opaque_rest {a : F32} (ha : IsFinite a) (h1 : val a = 1) : (sub (ofInt 1) a).code = 0 := by
  have r := rounds_sub one_finite ha
  rw [one_val, h1, sub_self] at r
  have z0 : IsFinite (zero false : F32) := by rw [finite_iff]; decide
  have s := r.exact z0 (by rw [zero_val])
  exact val_zero_iff.mp (s.2.2.trans (zero_val false))

section
variable [Libm single32]

theorem nothing_mul {x z : F32} (hx : IsFinite x) (hz : z.code = 0) : (mul z x).code = 0 := by
  rw [mul_comm']; exact mul_nothing hx hz

theorem nothing_add {x z : F32} (hx : IsFinite x) (hz : z.code = 0) : Same (add z x) x := by
  rw [add_swap]; exact add_nothing hx hz

/-- The merged pixel is the blended one, if that is finite. -/
theorem merged_same {mode : MergeImageMode} {mix : F32} {A B Q : Picture F32}
    (hB : B.channels = 3 ∨ B.channels = 4) (hQ : IsMerged mode mix A B Q) {x y : Int}
    (hxy : Has Q.data x y)
    (hf : ∀ c : Int, 0 ≤ c → c < B.channels →
      IsFinite (blend mode mix (A.value x y) (B.value x y) c)) :
    ∀ c : Int, 0 ≤ c → c < B.channels → Same (Q.value x y c)
      (blend mode mix (A.value x y) (B.value x y) c) := by
  obtain ⟨v, hs, hl, hv⟩ := hQ.pixels x y hxy
  intro c h0 h4
  obtain ⟨k, rfl⟩ := Int.eq_ofNat_of_zero_le h0
  have hk : k < B.channels := by omega
  obtain ⟨a, b, e1, e2, e3⟩ := copy_settled (.inr hB) hl (by
    intro z hz
    obtain ⟨i, hi⟩ := List.mem_iff_getElem?.mp hz
    have h4 : i < B.channels := by
      rw [← hl]; exact (List.getElem?_eq_some_iff.mp hi).1
    have := hv i h4
    rw [hi] at this
    injection this with this
    rw [this]
    exact hf i (by omega) (by omega)) hs hk
  rw [hv k hk] at e1
  injection e1 with e1
  have : Q.value x y (k : Int) = b := by
    unfold Picture.value Picture.pixel
    rw [if_pos h0, if_pos hxy, List.getD_eq_getElem?_getD]
    show ((Q.at_ x y)[k]?).getD _ = b
    rw [e2]
    rfl
  rw [this]
  rw [← e1] at e3
  exact e3

/-- The blended value is the expected one. -/
theorem expected_blend {mode : MergeImageMode} {mix : F32} {A B : Picture F32} {x y : Int}
    {r : Int → ℚ} (hA : FinitePixel A x y) (hB : FinitePixel B x y)
    (h : Expected A B x y mode mix r) {c : Int} (h0 : 0 ≤ c) (h4 : c < 4) :
    IsFinite (blend mode mix (A.value x y) (B.value x y) c) ∧
      val (blend mode mix (A.value x y) (B.value x y) c) = r c := by
  have fa := hA c h0 h4
  have fb := hB c h0 h4
  have f3 := hA 3 (by decide) (by decide)
  have zf : ∀ {z : F32}, z.code = 0 → IsFinite z := fun h => by rw [finite_iff, h]; decide
  cases h with
  | «opaque» hm h1 =>
    rw [blend_over]
    have s := add_nothing fa (mul_nothing fb (nothing_mul hm (opaque_rest f3 h1)))
    exact ⟨s.1, s.2.2⟩
  | emptyFront hm h1 hmode hz =>
    have za := val_zero_iff.mp (hz c h0 h4)
    rcases hmode with rfl | rfl
    · rw [blend_add]
      have s := mul_by_one fb hm h1
      have t := nothing_add s.1 za
      exact ⟨t.1, t.2.2.trans s.2.2⟩
    · rw [blend_over]
      have z3 := val_zero_iff.mp (hz 3 (by decide) (by decide))
      have u : Same (sub (ofInt 1) (A.value x y 3)) (ofInt 1) := by
        have r := rounds_sub one_finite f3
        rw [hz 3 (by decide) (by decide), sub_zero] at r
        exact r.exact one_finite rfl
      have m := mul_by_one u.1 hm h1
      have s := mul_by_one fb m.1 (m.2.2.trans (u.2.2.trans one_val))
      have t := nothing_add s.1 za
      exact ⟨t.1, t.2.2.trans s.2.2⟩
  | emptyBehindAdd hm hz =>
    rw [blend_add]
    have s := add_nothing fa (nothing_mul hm (val_zero_iff.mp (hz c h0 h4)))
    exact ⟨s.1, s.2.2⟩
  | emptyBehindOver hm m0 m1 a0 a1 hz =>
    rw [blend_over]
    have hr := (rest_share ⟨f3, a0, a1⟩).1
    have k : IsFinite (mul (sub (ofInt 1) (A.value x y 3)) mix) :=
      ((rounds_mul hr.1 hm).finite one_finite (by
        rw [one_val, abs_one, abs_mul]
        exact mul_le_one₀ hr.abs (abs_nonneg _) (abs_le.mpr ⟨by linarith, m1⟩))).1
    have s := add_nothing fa (nothing_mul k (val_zero_iff.mp (hz c h0 h4)))
    exact ⟨s.1, s.2.2⟩
  | whiteFront hm h1 hz =>
    rw [blend_multiply]
    have s := mul_by_one fb hm h1
    have t := one_by_mul s.1 fa (hz c h0 h4)
    exact ⟨t.1, t.2.2.trans s.2.2⟩
  | whiteBehind hm h1 hz =>
    rw [blend_multiply]
    have s := mul_by_one fb hm h1
    have t := mul_by_one fa s.1 (s.2.2.trans (hz c h0 h4))
    exact ⟨t.1, t.2.2⟩
  | black hm h1 hz =>
    rw [blend_multiply]
    have s := mul_by_one fb hm h1
    have k : (mul (A.value x y c) (mul (B.value x y c) mix)).code = 0 := by
      rcases hz with hz | hz
      · exact nothing_mul s.1 (val_zero_iff.mp (hz c h0 h4))
      · exact mul_nothing fa (val_zero_iff.mp (s.2.2.trans (hz c h0 h4)))
    exact ⟨zf k, val_zero_iff.mpr k⟩

/-- C126: where both pictures have finite pixels, a merged pixel is exactly the one of the first
picture if that is opaque and over the other, and exactly the one of the other picture if one of the
two is empty (added or over) or white (multiplied). -/
theorem C126_layers {mode : MergeImageMode} {mix : F32} {A B Q : Picture F32}
    (hB : B.channels = 3 ∨ B.channels = 4) (hQ : IsMerged mode mix A B Q) {x y : Int}
    (hxy : Has Q.data x y) {r : Int → ℚ} (ha : FinitePixel A x y) (hb : FinitePixel B x y)
    (h : Expected A B x y mode mix r) :
    ∀ c : Int, 0 ≤ c → c < Q.channels →
      IsFinite (Q.value x y c) ∧ val (Q.value x y c) = r c := by
  intro c h0 h4
  rw [hQ.channels] at h4
  have s := merged_same hB hQ hxy (fun c h0 h4 => (expected_blend ha hb h h0 (by omega)).1) c h0 h4
  exact ⟨s.1, s.2.2.trans (expected_blend ha hb h h0 (by omega)).2⟩

/-- C126: a picture is empty where it has no pixels. -/
theorem C126_outside {P : Picture F32} {x y : Int} (h : ¬ Has P.data x y) :
    FinitePixel P x y ∧ AllAre 0 P x y := by
  have z : (0 : F32) = zero false := op_zero
  refine ⟨fun c _ _ => ?_, fun c _ _ => ?_⟩ <;> rw [value_outside h, z]
  · rw [finite_iff]; decide
  · exact zero_val false

/-- C126, the nodes: what a merge node gives, in a render with the cache switched off. -/
theorem C126_node {H : Type} [HalfLike F32 H] (p : Profile) (lib : NodeLib F32 H) (n : Node F32)
    (frame : F32) (mode : Mode) (inputA inputB : Stream F32 H) (rest : List (Stream F32 H))
    (prev : Stream F32 H) (w : World F32 H)
    (ht : n.attrs.nodeType = .mergeImage) (he : n.getI32 "enable" = 1)
    (hm : MergeImageMode.ofI32 (n.getI32 "mode") ≠ .uninitialized) (hw : IsOff w)
    {A B : Picture F32} (hA : Appears lib.bake inputA A) (hB : Appears lib.bake inputB B)
    (hBd : inputB.dataWindow = B.data)
    (ha : A.channels = 3 ∨ A.channels = 4) (hb : B.channels = 3 ∨ B.channels = 4)
    (hs : ValidSize (sizeFor ⟨min A.data.minX B.data.minX, min A.data.minY B.data.minY,
      max A.data.maxX B.data.maxX, max A.data.maxY B.data.maxY⟩ 4)) :
    ∃ out w' Q, n.run p lib frame mode (inputA :: inputB :: rest) prev w = .ok (.valid, out, w') ∧
      Shows lib.bake.color out Q ∧ Q.channels = B.channels ∧
      (∀ x y, Has A.data x y ∨ Has B.data x y → Has Q.data x y) ∧
      ∀ x y r, Has Q.data x y → FinitePixel A x y → FinitePixel B x y →
        Expected A B x y (MergeImageMode.ofI32 (n.getI32 "mode")) (n.getF32 "mix") r →
        ∀ c : Int, 0 ≤ c → c < Q.channels →
          IsFinite (Q.value x y c) ∧ val (Q.value x y c) = r c := by
  obtain ⟨out, w', e, -, -, ⟨Q, hQ⟩, k⟩ := C86_merge_partial p lib n frame mode inputA inputB rest
    prev w ht he hm hw hA hB hBd ha hb hs
  exact ⟨out, w', Q, e, k Q hQ, hQ.channels, fun x y h => merged_has hQ h,
    fun x y r hxy fa fb h => C126_layers hb hQ hxy fa fb h⟩

end

/-! ### Examples -/

section
attribute [local instance] exactPowf

theorem pixel_finite {v : List F32} (hv : ∀ z ∈ v, IsFinite z) (x y : Int) :
    FinitePixel (pixelPicture v) x y := by
  by_cases h : Has (pixelPicture v).data x y
  · intro c h0 h4
    unfold Picture.value Picture.pixel
    rw [if_pos h0, if_pos h, List.getD_eq_getElem?_getD]
    rcases hc : (((pixelPicture v).at_ x y)[c.toNat]?) with _ | z
    · show IsFinite (zero false : F32)
      rw [finite_iff]; decide
    · exact hv z (List.mem_iff_getElem?.mpr ⟨_, hc⟩)
  · exact (C126_outside h).1

theorem wall_value {c : Int} (h0 : 0 ≤ c) (h4 : c < 4) :
    (pixelPicture whiteWall).value 0 0 c = ofInt 1 := by
  rcases channel_cases h0 h4 with rfl | rfl | rfl | rfl <;> rfl

theorem glass_finite (x y : Int) : FinitePixel (pixelPicture redGlass) x y :=
  pixel_finite (by
    intro z hz
    simp only [redGlass, List.mem_cons, List.not_mem_nil, or_false] at hz
    rcases hz with rfl | rfl | rfl | rfl <;> first | exact oneHalf_finite | (rw [finite_iff]; decide)) x y

theorem wall_finite (x y : Int) : FinitePixel (pixelPicture whiteWall) x y :=
  pixel_finite (by
    intro z hz
    simp only [whiteWall, List.mem_cons, List.not_mem_nil, or_false, or_self] at hz
    rw [hz]; exact one_finite) x y

-- C126: a white wall in front of red glass.
example {Q : Picture F32} (hQ : IsMerged .over oneHalf (pixelPicture whiteWall)
    (pixelPicture redGlass) Q) : val (Q.value 0 0 1) = 1 := by
  have := (C126_layers (.inr rfl) hQ (x := 0) (y := 0) (by rw [hQ.data]; unfold Has; decide)
    (wall_finite 0 0) (glass_finite 0 0) (.opaque oneHalf_finite
      (by rw [wall_value (by decide) (by decide), one_val])) 1 (by decide)
    (by rw [hQ.channels]; decide)).2
  rwa [wall_value (by decide) (by decide), one_val] at this

-- C126: red glass multiplied with a white wall.
example {Q : Picture F32} (hQ : IsMerged .multiply (ofInt 1) (pixelPicture whiteWall)
    (pixelPicture redGlass) Q) : val (Q.value 0 0 0) = 1 / 2 := by
  have := (C126_layers (.inr rfl) hQ (x := 0) (y := 0) (by rw [hQ.data]; unfold Has; decide)
    (wall_finite 0 0) (glass_finite 0 0) (.whiteFront one_finite one_val
      (fun c h0 h4 => by rw [wall_value h0 h4, one_val])) 0 (by decide)
    (by rw [hQ.channels]; decide)).2
  exact this.trans oneHalf_val

-- C126: beside the pixel there is nothing.
example : AllAre 0 (pixelPicture redGlass) 7 0 :=
  (C126_outside (by unfold Has; decide)).2

/-- A node that puts the first picture over the second. -/
def overNode : Node F32 :=
  ⟨1, .uninitialized, .mergeImage { MergeImageAttrs.new with mode := 1 }⟩

-- C126: a node that puts a white wall in front of red glass.
example {H : Type} [HalfLike F32 H] (lib : NodeLib F32 H) (w : World F32 H) (hw : IsOff w) :
    ∃ out w' Q, overNode.run .debug lib 1 modeAll [pixelStream whiteWall, pixelStream redGlass] .new
        w = .ok (.valid, out, w') ∧ Shows lib.bake.color out Q ∧ val (Q.value 0 0 1) = 1 := by
  obtain ⟨out, w', Q, e, hs, hc, hd, h⟩ := C126_node .debug lib overNode 1 modeAll
    (pixelStream whiteWall) (pixelStream redGlass) [] .new w rfl (by decide) (by decide) hw
    (pixelStream_shows _ rfl (by decide +kernel)).appears
    (pixelStream_shows _ rfl (by decide +kernel)).appears rfl (.inr rfl) (.inr rfl)
    (by unfold ValidSize; decide)
  refine ⟨out, w', Q, e, hs, ?_⟩
  have := (h 0 0 _ (hd 0 0 (.inl (by unfold Has; decide))) (wall_finite 0 0) (glass_finite 0 0)
    (.opaque one_finite (by rw [wall_value (by decide) (by decide), one_val])) 1 (by decide)
    (by rw [hc]; decide)).2
  rwa [wall_value (by decide) (by decide), one_val] at this

/-- An infinite value. -/
def hugePixel : List F32 := [inf false, zero false, zero false, ofInt 1]

/-- C126 needs finite values: an infinite value behind an opaque wall shows as a NaN in all the
colours. -/
theorem C126_counterexample_infinite : ∃ A B Q : Picture F32, val (A.value 0 0 3) = 1 ∧
    FinitePixel A 0 0 ∧ IsMerged .over 1 A B Q ∧
    ∀ c : Int, 0 ≤ c → c < 4 → (Q.value 0 0 c).isNan = true := by
  refine ⟨pixelPicture whiteWall, pixelPicture hugePixel, pixelPicture [nan, nan, nan, nan],
    by rw [wall_value (by decide) (by decide), one_val], wall_finite 0 0,
    pixel_merged (by decide +kernel), fun c h0 h4 => ?_⟩
  rcases channel_cases h0 h4 with rfl | rfl | rfl | rfl <;> decide +kernel

end

section
attribute [local instance] ratRound

/-- A picture without an alpha channel counts as transparent: it is added to what is below it
instead of hiding it. -/
theorem C126_counterexample_rgb : ∃ A B Q : Picture Rat, A.channels = 3 ∧ B.channels = 4 ∧
    IsMerged .over 1 A B Q ∧ A.value 0 0 0 = 1 ∧ B.value 0 0 0 = 1 ∧ Q.value 0 0 0 = 2 :=
  ⟨exactPicture [1, 1, 1], exactPicture [1, 0, 0, 1], exactPicture [2, 1, 1, 1], rfl, rfl,
    exact_merged rfl (.inr rfl) (by decide +kernel), by decide +kernel, by decide +kernel,
    by decide +kernel⟩

/-- Multiplying with white leaves no alpha, if the white picture has no alpha channel. -/
theorem C126_counterexample_white : ∃ A B Q : Picture Rat, A.channels = 3 ∧ B.channels = 4 ∧
    IsMerged .multiply 1 A B Q ∧ (∀ c, 0 ≤ c → c < 3 → A.value 0 0 c = 1) ∧
    B.value 0 0 3 = 1 ∧ Q.value 0 0 3 = 0 := by
  refine ⟨exactPicture [1, 1, 1], exactPicture [1, 0, 0, 1], exactPicture [1, 0, 0, 0], rfl, rfl,
    exact_merged rfl (.inr rfl) (by decide +kernel), fun c h0 h3 => ?_, by decide +kernel,
    by decide +kernel⟩
  obtain rfl | rfl | rfl : c = 0 ∨ c = 1 ∨ c = 2 := by omega
  all_goals decide +kernel

end

end OCG.Props
