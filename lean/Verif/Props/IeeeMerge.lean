import Verif.Props.Over
import Verif.Props.IeeeColor
/-
C116: how exactly pictures are merged in single-precision floats; C52 in single floats.
-/

namespace OCG.Props

open Ieee IeeeSpec ImageSpecs BBoxSpec BlockSpec PixelSpec

/-- A number of absolute value at most `M`. -/
def Within (M : ℚ) (x : F32) : Prop := IsFinite x ∧ |val x| ≤ M

/-- A number between 0 and 1. -/
def Share (x : F32) : Prop := IsFinite x ∧ 0 ≤ val x ∧ val x ≤ 1

theorem Share.abs {x : F32} (h : Share x) : |val x| ≤ 1 := by
  rw [abs_of_nonneg h.2.1]; exact h.2.2

/-- Multiplying by a share. -/
theorem mul_share {M : ℚ} {x m : F32} (hx : Within M x) (hm : Share m) :
    Within M (mul x m) ∧ |val (mul x m) - val x * val m| ≤ M / 2 ^ 24 + 1 / 2 ^ 150 := by
  have r := rounds_mul hx.1 hm.1
  have le : |val x * val m| ≤ |val x| := by
    rw [abs_mul]; exact mul_le_of_le_one_right (abs_nonneg _) hm.abs
  obtain ⟨f, b⟩ := r.finite hx.1 le
  exact ⟨⟨f, b.trans hx.2⟩, single_error r f (le.trans hx.2)⟩

/-- Adding two bounded numbers. -/
theorem add_within {M : ℚ} (hM : M ≤ 2 ^ 126) {x y : F32} (hx : Within M x) (hy : Within M y) :
    IsFinite (add x y) ∧ |val (add x y) - (val x + val y)| ≤ 2 * (M / 2 ^ 24) + 1 / 2 ^ 150 := by
  have r := rounds_add hx.1 hy.1
  have ub : |val x + val y| ≤ 2 * M := by
    refine (abs_add_le _ _).trans ?_
    linarith [hx.2, hy.2]
  have big : IsFinite (⟨false, 0x7f000000, by decide⟩ : F32) := by rw [finite_iff]; decide +kernel
  have bigv : val (⟨false, 0x7f000000, by decide⟩ : F32) = 2 * 2 ^ 126 := by unfold val; norm_num
  obtain ⟨f, -⟩ := r.finite big (by
    rw [bigv, abs_of_pos (by positivity : (0 : ℚ) < 2 * 2 ^ 126)]
    linarith)
  refine ⟨f, ?_⟩
  have := single_error r f ub
  rwa [mul_div_assoc] at this

/-- What is left of a share. -/
theorem rest_share {x : F32} (hx : Share x) :
    Share (sub (ofInt 1) x) ∧ |val (sub (ofInt 1) x) - (1 - val x)| ≤ 1 / 2 ^ 24 + 1 / 2 ^ 150 := by
  obtain ⟨f, h0, h1, -⟩ := unit_rest hx.1 hx.2.1 hx.2.2
  have r := rounds_sub one_finite hx.1
  rw [one_val] at r
  exact ⟨⟨f, h0, h1⟩, single_error r f (by rw [abs_le]; constructor <;> linarith [hx.2.1, hx.2.2])⟩

/-- A share of a share. -/
theorem share_share {x y : F32} (hx : Share x) (hy : Share y) :
    Share (mul x y) ∧ |val (mul x y) - val x * val y| ≤ 1 / 2 ^ 24 + 1 / 2 ^ 150 := by
  obtain ⟨f, h0, -, h1⟩ := unit_mul hx.1 hy.1 hx.2.1 hy.2.1 hx.2.2 hy.2.2
  exact ⟨⟨f, h0, h1⟩, (mul_share ⟨hx.1, hx.abs⟩ hy).2⟩

section
variable [Libm single32]

theorem add_close {M : ℚ} (hM : M ≤ 2 ^ 126) {mix : F32} (hm : Share mix) {a b : Int → F32}
    {c : Int} (ha : Within M (a c)) (hb : Within M (b c)) :
    IsFinite (blend .add mix a b c) ∧
      |val (blend .add mix a b c) - (val (a c) + val (b c) * val mix)| ≤
        M / 2 ^ 22 + 1 / 2 ^ 149 := by
  rw [blend_add]
  obtain ⟨h1, e1⟩ := mul_share hb hm
  obtain ⟨f, e2⟩ := add_within hM ha h1
  refine ⟨f, ?_⟩
  have hM0 : 0 ≤ M := (abs_nonneg _).trans ha.2
  have k1 : M / 2 ^ 22 = 4 * (M / 2 ^ 24) := by ring
  have k2 : (1 : ℚ) / 2 ^ 149 = 2 * (1 / 2 ^ 150) := by norm_num
  have k3 : 0 ≤ M / 2 ^ 24 := by positivity
  rw [k1, k2]
  rw [abs_le] at *
  generalize M / 2 ^ 24 = m at *
  generalize (1 : ℚ) / 2 ^ 150 = e at *
  constructor <;> linarith [e1.1, e1.2, e2.1, e2.2]

theorem over_close {M : ℚ} (hM : M ≤ 2 ^ 126) {mix : F32} (hm : Share mix) {a b : Int → F32}
    {c : Int} (ha : Within M (a c)) (hb : Within M (b c)) (h3 : Share (a 3)) :
    IsFinite (blend .over mix a b c) ∧
      |val (blend .over mix a b c) - (val (a c) + val (b c) * ((1 - val (a 3)) * val mix))| ≤
        M / 2 ^ 21 + 1 / 2 ^ 149 := by
  rw [blend_over]
  obtain ⟨s1, e1⟩ := rest_share h3
  obtain ⟨s2, e2⟩ := share_share s1 hm
  obtain ⟨w3, e3⟩ := mul_share hb s2
  obtain ⟨f, e4⟩ := add_within hM ha w3
  refine ⟨f, ?_⟩
  have hM0 : 0 ≤ M := (abs_nonneg _).trans ha.2
  -- the share
  have e5 : |val (mul (sub (ofInt 1) (a 3)) mix) - (1 - val (a 3)) * val mix| ≤
      2 * (1 / 2 ^ 24 + 1 / 2 ^ 150) := by
    have : |val (sub (ofInt 1) (a 3)) * val mix - (1 - val (a 3)) * val mix| ≤
        1 / 2 ^ 24 + 1 / 2 ^ 150 := by
      rw [← sub_mul, abs_mul]
      exact (mul_le_of_le_one_right (abs_nonneg _) hm.abs).trans e1
    rw [abs_le] at *
    constructor <;> linarith [this.1, this.2, e2.1, e2.2]
  have e6 : |val (b c) * val (mul (sub (ofInt 1) (a 3)) mix) -
      val (b c) * ((1 - val (a 3)) * val mix)| ≤ 2 * (M / 2 ^ 24) + 2 * (M / 2 ^ 150) := by
    rw [← mul_sub, abs_mul]
    calc _ ≤ M * (2 * (1 / 2 ^ 24 + 1 / 2 ^ 150)) :=
          mul_le_mul hb.2 e5 (abs_nonneg _) hM0
      _ = _ := by ring
  have hM2 : M / 2 ^ 150 ≤ M / 2 ^ 24 := div_le_div_of_nonneg_left hM0 (by norm_num) (by norm_num)
  have k1 : M / 2 ^ 21 = 8 * (M / 2 ^ 24) := by ring
  have k2 : (1 : ℚ) / 2 ^ 149 = 2 * (1 / 2 ^ 150) := by norm_num
  have k3 : 0 ≤ M / 2 ^ 24 := by positivity
  rw [k1, k2]
  clear e1 e2 e5
  rw [abs_le] at *
  generalize M / 2 ^ 24 = m at *
  generalize M / 2 ^ 150 = m' at *
  generalize (1 : ℚ) / 2 ^ 150 = e at *
  constructor <;> linarith [e3.1, e3.2, e4.1, e4.2, e6.1, e6.2]

theorem multiply_close {M : ℚ} (hM : M ≤ 2 ^ 63) {mix : F32} (hm : Share mix) {a b : Int → F32}
    {c : Int} (ha : Within M (a c)) (hb : Within M (b c)) :
    IsFinite (blend .multiply mix a b c) ∧
      |val (blend .multiply mix a b c) - val (a c) * (val (b c) * val mix)| ≤
        M ^ 2 / 2 ^ 23 + (M + 1) / 2 ^ 150 := by
  rw [blend_multiply]
  obtain ⟨h1, e1⟩ := mul_share hb hm
  have hM0 : 0 ≤ M := (abs_nonneg _).trans ha.2
  have r := rounds_mul ha.1 h1.1
  have ub : |val (a c) * val (mul (b c) mix)| ≤ M ^ 2 := by
    rw [abs_mul, sq]; exact mul_le_mul ha.2 h1.2 (abs_nonneg _) hM0
  have hM2 : M ^ 2 ≤ 2 ^ 126 := by
    calc M ^ 2 ≤ (2 ^ 63) ^ 2 := pow_le_pow_left₀ hM0 hM 2
      _ = 2 ^ 126 := by norm_num
  have big : IsFinite (⟨false, 0x7f000000, by decide⟩ : F32) := by rw [finite_iff]; decide +kernel
  have bigv : val (⟨false, 0x7f000000, by decide⟩ : F32) = 2 * 2 ^ 126 := by unfold val; norm_num
  obtain ⟨f, -⟩ := r.finite big (by
    rw [bigv, abs_of_pos (by positivity : (0 : ℚ) < 2 * 2 ^ 126)]
    linarith)
  refine ⟨f, ?_⟩
  have e2 := single_error r f ub
  have e3 : |val (a c) * val (mul (b c) mix) - val (a c) * (val (b c) * val mix)| ≤
      M ^ 2 / 2 ^ 24 + M / 2 ^ 150 := by
    rw [← mul_sub, abs_mul]
    calc _ ≤ M * (M / 2 ^ 24 + 1 / 2 ^ 150) := mul_le_mul ha.2 e1 (abs_nonneg _) hM0
      _ = _ := by ring
  have k1 : M ^ 2 / 2 ^ 23 = 2 * (M ^ 2 / 2 ^ 24) := by ring
  have k2 : (M + 1) / 2 ^ 150 = M / 2 ^ 150 + 1 / 2 ^ 150 := by ring
  rw [k1, k2]
  clear e1
  rw [abs_le] at *
  generalize M ^ 2 / 2 ^ 24 = m at *
  generalize M / 2 ^ 150 = m' at *
  generalize (1 : ℚ) / 2 ^ 150 = e at *
  constructor <;> linarith [e2.1, e2.2, e3.1, e3.2]

/-- A value of a picture is one of the stored values or zero. -/
theorem valueAt_mem {P : F32 → Prop} (h0 : P 0) {w : BBox} {n : Int} {v : List F32}
    (h : ∀ p ∈ v, P p) (x y c : Int) : P (valueAt w n v x y c) := by
  unfold valueAt
  split
  · cases e : channelAt (sizeFor w n) v (x - w.minX) (y - w.minY) c with
    | none => exact h0
    | some p => exact h p (List.mem_of_getElem? e)
  · exact h0

theorem zero_within {M : ℚ} (h : 0 ≤ M) : Within M (0 : F32) := by
  rw [op_zero]
  refine ⟨?_, by rw [zero_val, abs_zero]; exact h⟩
  rw [finite_iff]; decide

/-- C116: merging two pictures of single floats whose values are at most `M` in absolute value,
with a mix between 0 and 1 and, for Over, alpha values of A between 0 and 1, gives finite values
everywhere, and every value is the exact blend of the two pictures up to a small multiple of the
precision of single floats. -/
theorem C116_accuracy {H : Type} [HalfLike F32 H] (p : Profile) (mode : MergeImageMode)
    (hm : mode ≠ .uninitialized) (imageA imageB out : Image F32 H) {mix : F32} (hmix : Share mix)
    {M : ℚ} (h0 : 0 ≤ M) (hM : M ≤ if mode = .multiply then 2 ^ 63 else 2 ^ 126)
    (na nb : Int) (va vb : List F32) (hA : Filled imageA na va) (hB : Filled imageB nb vb)
    (hna : na = 3 ∨ na = 4) (hnb : nb = 3 ∨ nb = 4) (ha : ∀ v ∈ va, Within M v)
    (hb : ∀ v ∈ vb, Within M v)
    (hal : mode = .over → ∀ x y, Share (valueAt imageA.dataWindow na va x y 3))
    (hv : ValidSize (sizeFor (BBox.combine imageA.dataWindow imageB.dataWindow) 4)) :
    ∃ (result : Image F32 H) (vo : List F32),
      mergeImages p mode imageA imageB mix out = .ok (true, result) ∧ Filled result nb vo ∧
      ∀ x y c, Has result.dataWindow x y → 0 ≤ c → c < nb →
        let a := fun c => val (valueAt imageA.dataWindow na va x y c)
        let b := fun c => val (valueAt imageB.dataWindow nb vb x y c)
        let r := valueAt result.dataWindow nb vo x y c
        IsFinite r ∧
        match mode with
        | .add => |val r - (a c + b c * val mix)| ≤ M / 2 ^ 22 + 1 / 2 ^ 149
        | .over => |val r - (a c + b c * ((1 - a 3) * val mix))| ≤ M / 2 ^ 21 + 1 / 2 ^ 149
        | .multiply => |val r - a c * (b c * val mix)| ≤ M ^ 2 / 2 ^ 23 + (M + 1) / 2 ^ 150
        | .uninitialized => False := by
  obtain ⟨r, vo, e, hf, -, -, -, h⟩ := C51_pixels p mode hm imageA imageB out mix na nb va vb hA hB
    hna hnb hv
  refine ⟨r, vo, e, hf, fun x y c hxy c0 c1 => ?_⟩
  dsimp only
  rw [h x y c hxy c0 c1]
  have wa := valueAt_mem (P := Within M) (zero_within h0) (w := imageA.dataWindow) (n := na) ha x y c
  have wb := valueAt_mem (P := Within M) (zero_within h0) (w := imageB.dataWindow) (n := nb) hb x y c
  cases mode with
  | uninitialized => exact absurd rfl hm
  | add => exact add_close (by rwa [if_neg (by decide)] at hM) hmix wa wb
  | over => exact over_close (by rwa [if_neg (by decide)] at hM) hmix wa wb (hal rfl x y)
  | multiply => exact multiply_close (by rwa [if_pos rfl] at hM) hmix wa wb

/-- Adding nothing. -/
theorem add_nothing {x z : F32} (hx : IsFinite x) (hz : z.code = 0) : Same (add x z) x := by
  have hf : IsFinite z := by rw [finite_iff, hz]; decide
  have r := rounds_add hx hf
  rw [val_zero_iff.mpr hz, add_zero] at r
  exact r.exact hx rfl

theorem mul_nothing {x z : F32} (hx : IsFinite x) (hz : z.code = 0) : (mul x z).code = 0 := by
  have hf : IsFinite z := by rw [finite_iff, hz]; decide
  have r := rounds_mul hx hf
  rw [val_zero_iff.mpr hz, mul_zero] at r
  have hz0 : IsFinite (zero false : F32) := by rw [finite_iff]; decide
  have f := (r.finite hz0 (by rw [zero_val])).1
  have b := (r.finite hz0 (by rw [zero_val])).2
  rw [zero_val, abs_zero] at b
  exact val_zero_iff.mp (abs_nonpos_iff.mp b)

/-- C52 in single floats: with mix 0 the merged value is A's (modes Add and Over) or zero
(Multiply), exactly, for all finite pixels (with alpha between 0 and 1 for Over); so it is B's only
if B's value is that. -/
theorem C52_single_partial {H : Type} [HalfLike F32 H] (p : Profile) (mode : MergeImageMode)
    (hm : mode ≠ .uninitialized) (imageA imageB out : Image F32 H) {mix : F32}
    (hmix : mix.code = 0) (na nb : Int) (va vb : List F32) (hA : Filled imageA na va)
    (hB : Filled imageB nb vb) (hna : na = 3 ∨ na = 4) (hnb : nb = 3 ∨ nb = 4)
    (ha : ∀ v ∈ va, IsFinite v) (hb : ∀ v ∈ vb, IsFinite v)
    (hal : mode = .over → ∀ x y, Share (valueAt imageA.dataWindow na va x y 3))
    (hv : ValidSize (sizeFor (BBox.combine imageA.dataWindow imageB.dataWindow) 4)) :
    ∃ (result : Image F32 H) (vo : List F32),
      mergeImages p mode imageA imageB mix out = .ok (true, result) ∧ Filled result nb vo ∧
      ∀ x y c, Has result.dataWindow x y → 0 ≤ c → c < nb →
        Same (valueAt result.dataWindow nb vo x y c)
          (if mode = .multiply then zero false else valueAt imageA.dataWindow na va x y c) := by
  obtain ⟨r, vo, e, hf, -, -, -, h⟩ := C51_pixels p mode hm imageA imageB out mix na nb va vb hA hB
    hna hnb hv
  refine ⟨r, vo, e, hf, fun x y c hxy c0 c1 => ?_⟩
  rw [h x y c hxy c0 c1]
  have z0 : IsFinite (0 : F32) := (zero_within le_rfl).1
  have wa := valueAt_mem (P := IsFinite) z0 (w := imageA.dataWindow) (n := na) ha x y c
  have wb := valueAt_mem (P := IsFinite) z0 (w := imageB.dataWindow) (n := nb) hb x y c
  cases mode with
  | uninitialized => exact absurd rfl hm
  | add =>
    rw [if_neg (by decide), blend_add]
    exact add_nothing wa (mul_nothing wb hmix)
  | over =>
    rw [if_neg (by decide), blend_over]
    exact add_nothing wa (mul_nothing wb (mul_nothing (rest_share (hal rfl x y)).1.1 hmix))
  | multiply =>
    rw [if_pos rfl, blend_multiply]
    have hc := mul_nothing wa (mul_nothing wb hmix)
    exact ⟨by rw [finite_iff, hc]; decide, by rw [finite_iff]; decide,
      by rw [val_zero_iff.mpr hc, zero_val]⟩

/-! ### Examples -/

/-- An image of one pixel. -/
def pixelImage {H : Type} (v : List F32) : Image F32 H :=
  ⟨floatImage ⟨1, 1, 4⟩ v, ImageSpec.new, ⟨0, 0, 1, 1⟩, ⟨0, 0, 1, 1⟩⟩

theorem pixel_valid : ValidSize ⟨1, 1, 4⟩ := by unfold ValidSize; decide

theorem pixelImage_filled {H : Type} {v : List F32} (h : v.length = 4) :
    Filled (pixelImage v : Image F32 H) 4 v :=
  ⟨rfl, pixel_valid, by rw [h]; rfl⟩

theorem half_share : Share oneHalf := ⟨oneHalf_finite, by rw [oneHalf_val]; norm_num,
  by rw [oneHalf_val]; norm_num⟩

theorem one_share : Share (ofInt 1) := ⟨one_finite, by rw [one_val]; norm_num,
  by rw [one_val]⟩

theorem zero_share : Share (0 : F32) := by
  rw [op_zero]
  exact ⟨(finite_iff _).mpr (by decide), by rw [zero_val], by rw [zero_val]; norm_num⟩

theorem Share.within {x : F32} (h : Share x) : Within 1 x := ⟨h.1, h.abs⟩

/-- `C116_accuracy` for half of a half transparent grey pixel over a white one. -/
example {H : Type} [HalfLike F32 H] (p : Profile) (out : Image F32 H) :
    ∃ (result : Image F32 H) (vo : List F32),
      mergeImages p .over (pixelImage [oneHalf, oneHalf, oneHalf, oneHalf])
        (pixelImage [ofInt 1, ofInt 1, ofInt 1, ofInt 1]) oneHalf out = .ok (true, result) ∧
      Filled result 4 vo := by
  have ha : ∀ v ∈ [oneHalf, oneHalf, oneHalf, oneHalf], Share v := by
    intro v hv
    simp only [List.mem_cons, List.not_mem_nil, or_false, or_self] at hv
    rw [hv]; exact half_share
  have hb : ∀ v ∈ [ofInt 1, ofInt 1, ofInt 1, (ofInt 1 : F32)], Share v := by
    intro v hv
    simp only [List.mem_cons, List.not_mem_nil, or_false, or_self] at hv
    rw [hv]; exact one_share
  obtain ⟨r, vo, e, hf, -⟩ := C116_accuracy p .over (by decide)
    (pixelImage [oneHalf, oneHalf, oneHalf, oneHalf] : Image F32 H)
    (pixelImage [ofInt 1, ofInt 1, ofInt 1, ofInt 1]) out half_share (M := 1) (by norm_num)
    (by rw [if_neg (by decide)]; norm_num) 4 4 _ _ (pixelImage_filled rfl) (pixelImage_filled rfl)
    (.inr rfl) (.inr rfl) (fun v hv => (ha v hv).within) (fun v hv => (hb v hv).within)
    (fun _ x y => valueAt_mem zero_share ha x y 3) pixel_valid
  exact ⟨r, vo, e, hf⟩

/-- `C52_single_partial`: with mix 0, adding a white pixel to a grey one gives the grey one. -/
example {H : Type} [HalfLike F32 H] (p : Profile) (out : Image F32 H) :
    ∃ (result : Image F32 H) (vo : List F32),
      mergeImages p .add (pixelImage [oneHalf, oneHalf, oneHalf, oneHalf])
        (pixelImage [ofInt 1, ofInt 1, ofInt 1, ofInt 1]) (zero false) out = .ok (true, result) ∧
      Filled result 4 vo := by
  obtain ⟨r, vo, e, hf, -⟩ := C52_single_partial p .add (by decide)
    (pixelImage [oneHalf, oneHalf, oneHalf, oneHalf] : Image F32 H)
    (pixelImage [ofInt 1, ofInt 1, ofInt 1, ofInt 1]) out (mix := zero false) (zero_code _) 4 4 _ _
    (pixelImage_filled rfl) (pixelImage_filled rfl) (.inr rfl) (.inr rfl)
    (by
      intro v hv
      simp only [List.mem_cons, List.not_mem_nil, or_false, or_self] at hv
      rw [hv]; exact oneHalf_finite)
    (by
      intro v hv
      simp only [List.mem_cons, List.not_mem_nil, or_false, or_self] at hv
      rw [hv]; exact one_finite)
    (fun h => by cases h) pixel_valid
  exact ⟨r, vo, e, hf⟩

end
end OCG.Props
