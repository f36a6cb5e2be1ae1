import Verif.Spec.Premultiplied
import Verif.Proofs.IeeeSpacing
import Verif.Props.IeeeColor
import Verif.Props.PictureGraph
/-
C107: merging premultiplied pictures in single-precision floats.
-/

namespace OCG.Props

open PremultipliedSpec PictureSpec PixelSpec ColorSpec IeeeSpec ImageSpecs BBoxSpec BlockSpec ComputeSpec
open CacheSpec (IsOff)
open Ieee hiding floor ceil round

/-! ### Arithmetic -/

theorem one_finite : IsFinite (ofInt 1 : F32) := (one_spec ok_single).1

theorem one_val : val (ofInt 1 : F32) = 1 := by
  rw [ofInt_val ok_single (by decide)]; norm_num

theorem two_finite : IsFinite (ofInt 2 : F32) := (ofInt_spec ok_single (by decide)).1

theorem two_val : val (ofInt 2 : F32) = 2 := by
  rw [ofInt_val ok_single (by decide)]; norm_num

theorem zero_val (b : Bool) : val (zero b : F32) = 0 := val_zero_iff.mpr (zero_code b)

/-- Numbers up to 2 do not overflow. -/
theorem finite_of_le_two {q : ℚ} {x : F32} (h : Rounds q x) (h0 : 0 ≤ q) (h2 : q ≤ 2) :
    IsFinite x :=
  (h.finite two_finite (by rw [two_val, abs_of_nonneg h0, abs_of_pos (by norm_num)]; exact h2)).1

theorem nonneg_of_rounds {q : ℚ} {x : F32} (h : Rounds q x) (hx : IsFinite x) (h0 : 0 ≤ q) :
    0 ≤ val x := by
  have := h.ge (y := zero false) hx (by rw [zero_val]; exact h0)
  rwa [zero_val] at this

theorem le_one_of_rounds {q : ℚ} {x : F32} (h : Rounds q x) (hx : IsFinite x) (h1 : q ≤ 1) :
    val x ≤ 1 := by
  have := h.le (y := ofInt 1) hx (by rw [one_val]; exact h1)
  rwa [one_val] at this

/-- Numbers that are only a little larger than 1 are rounded to 1. -/
theorem le_one_of_near {q : ℚ} {x : F32} (h : Rounds q x) (hx : IsFinite x)
    (h1 : q ≤ 1 + 1 / 2 ^ 25) : val x ≤ 1 := by
  by_cases hq : q ≤ 1
  · exact le_one_of_rounds h hx hq
  rw [not_le] at hq
  by_contra hlt
  rw [not_le] at hlt
  obtain ⟨m, hm⟩ := multiple_of_ge (x := x) (i := 0) (by rw [pow_zero]; exact hlt.le)
  have hc := (h.nearest ok_single.mant_pos hx).closest (ofInt 1) one_finite
  rw [one_val, abs_of_neg (by linarith : (1 : ℚ) - q < 0)] at hc
  have hb := (abs_le.mp hc).2
  rw [hm, pow_zero] at hlt hb
  have hm1 : (2 ^ 23 : ℚ) < m := by
    have := (mul_lt_mul_iff_left₀ (by norm_num : (0 : ℚ) < 2 ^ 23)).mpr hlt
    rw [mul_assoc, div_mul_cancel₀ _ (by norm_num)] at this
    linarith
  have hm2 : (2 ^ 23 + 1 : ℤ) ≤ m := by
    have : ((2 ^ 23 : ℤ) : ℚ) < m := by exact_mod_cast hm1
    have : (2 ^ 23 : ℤ) < m := by exact_mod_cast this
    omega
  have hm3 : (2 ^ 23 + 1 : ℚ) ≤ m := by exact_mod_cast hm2
  have : (1 + 1 / 2 ^ 23 : ℚ) ≤ m * (1 / 2 ^ 23) := by
    have := mul_le_mul_of_nonneg_right hm3 (by norm_num : (0 : ℚ) ≤ 1 / 2 ^ 23)
    refine le_trans (le_of_eq ?_) this
    norm_num
  norm_num at *
  linarith

/-- The product of two values between 0 and 1. -/
theorem unit_mul {x y : F32} (hx : IsFinite x) (hy : IsFinite y) (x0 : 0 ≤ val x) (y0 : 0 ≤ val y)
    (x1 : val x ≤ 1) (y1 : val y ≤ 1) :
    IsFinite (mul x y) ∧ 0 ≤ val (mul x y) ∧ val (mul x y) ≤ val x ∧ val (mul x y) ≤ 1 := by
  have hr := rounds_mul hx hy
  have h0 := mul_nonneg x0 y0
  have hle : val x * val y ≤ val x := mul_le_of_le_one_right x0 y1
  have hf := finite_of_le_two hr h0 (by linarith)
  have := hr.le hf hle
  exact ⟨hf, nonneg_of_rounds hr hf h0, this, this.trans x1⟩

/-- What is left of 1. -/
theorem unit_rest {x : F32} (hx : IsFinite x) (x0 : 0 ≤ val x) (x1 : val x ≤ 1) :
    IsFinite (sub (ofInt 1) x) ∧ 0 ≤ val (sub (ofInt 1) x) ∧ val (sub (ofInt 1) x) ≤ 1 ∧
      val x + val (sub (ofInt 1) x) ≤ 1 + 1 / 2 ^ 25 := by
  have hr := rounds_sub one_finite hx
  rw [one_val] at hr
  have h0 : 0 ≤ 1 - val x := by linarith
  have hf := finite_of_le_two hr h0 (by linarith)
  have he := (abs_le.mp (rounds_unit hr hf h0 (by linarith))).2
  exact ⟨hf, nonneg_of_rounds hr hf h0, le_one_of_rounds hr hf (by linarith), by linarith⟩

section
variable [Libm single32]

theorem blend_over (mix : F32) (a b : Int → F32) (c : Int) :
    blend .over mix a b c = add (a c) (mul (b c) (mul (sub (ofInt 1) (a 3)) mix)) := by
  simp only [blend]
  rw [op_add, op_mul, op_mul, op_sub, op_one]

theorem blend_add (mix : F32) (a b : Int → F32) (c : Int) :
    blend .add mix a b c = add (a c) (mul (b c) mix) := by
  simp only [blend]
  rw [op_add, op_mul]

theorem blend_multiply (mix : F32) (a b : Int → F32) (c : Int) :
    blend .multiply mix a b c = mul (a c) (mul (b c) mix) := by
  simp only [blend]
  rw [op_mul, op_mul]

/-- Adding a share of one pixel to another. -/
theorem add_share {a b : Int → F32} {m : F32} (ha : Premultiplied a) (hb : Premultiplied b)
    (hm : IsFinite m) (m0 : 0 ≤ val m) (m1 : val m ≤ 1) :
    (∀ c, 0 ≤ c → c < 4 → IsFinite (add (a c) (mul (b c) m)) ∧
      val (a c) ≤ val (add (a c) (mul (b c) m)) ∧
      val (add (a c) (mul (b c) m)) ≤ val (add (a 3) (mul (b 3) m))) := by
  have key : ∀ c, 0 ≤ c → c < 4 → IsFinite (mul (b c) m) ∧ 0 ≤ val (mul (b c) m) ∧
      val (mul (b c) m) ≤ 1 ∧ IsFinite (add (a c) (mul (b c) m)) := by
    intro c h0 h4
    have hb1 := (hb.le_alpha c h0 h4).trans hb.alpha
    have ha1 := (ha.le_alpha c h0 h4).trans ha.alpha
    obtain ⟨p1, p2, -, p3⟩ := unit_mul (hb.finite c h0 h4) hm (hb.nonneg c h0 h4) m0 hb1 m1
    have ha0 := ha.nonneg c h0 h4
    exact ⟨p1, p2, p3, finite_of_le_two (rounds_add (ha.finite c h0 h4) p1) (by linarith)
      (by linarith)⟩
  intro c h0 h4
  obtain ⟨k1, k2, k3, k4⟩ := key c h0 h4
  obtain ⟨l1, l2, l3, l4⟩ := key 3 (by decide) (by decide)
  have hr := rounds_add (ha.finite c h0 h4) k1
  have hr3 := rounds_add (ha.finite 3 (by decide) (by decide)) l1
  refine ⟨k4, hr.ge k4 (by linarith), hr.mono ok_single.mant_pos hr3 k4 l4 ?_⟩
  have hm' : val (mul (b c) m) ≤ val (mul (b 3) m) :=
    (rounds_mul (hb.finite c h0 h4) hm).mono ok_single.mant_pos
      (rounds_mul (hb.finite 3 (by decide) (by decide)) hm) k1 l1
      (mul_le_mul_of_nonneg_right (hb.le_alpha c h0 h4) m0)
  linarith [ha.le_alpha c h0 h4]

/-- One premultiplied pixel over another is a premultiplied pixel; it is nowhere darker or more
transparent than the first one. -/
theorem over_premultiplied {a b : Int → F32} {mix : F32} (ha : Premultiplied a)
    (hb : Premultiplied b) (hm : IsFinite mix) (m0 : 0 ≤ val mix) (m1 : val mix ≤ 1) :
    Premultiplied (blend .over mix a b) ∧
      ∀ c, 0 ≤ c → c < 4 → val (a c) ≤ val (blend .over mix a b c) := by
  obtain ⟨r1, r2, r3, r4⟩ := unit_rest (ha.finite 3 (by decide) (by decide))
    (ha.nonneg 3 (by decide) (by decide)) ha.alpha
  obtain ⟨s1, s2, s3, s4⟩ := unit_mul r1 hm r2 m0 r3 m1
  have key := add_share ha hb s1 s2 s4
  refine ⟨⟨fun c h0 h4 => ?_, fun c h0 h4 => ?_, fun c h0 h4 => ?_, ?_⟩, fun c h0 h4 => ?_⟩
  · rw [blend_over]; exact (key c h0 h4).1
  · rw [blend_over]; exact (ha.nonneg c h0 h4).trans (key c h0 h4).2.1
  · rw [blend_over, blend_over]; exact (key c h0 h4).2.2
  · rw [blend_over]
    have hb3 := hb.finite 3 (by decide) (by decide)
    obtain ⟨p1, p2, p3, p4⟩ := unit_mul s1 hb3 s2 (hb.nonneg 3 (by decide) (by decide)) s4 hb.alpha
    obtain ⟨q1, q2, -, -⟩ := unit_mul hb3 s1 (hb.nonneg 3 (by decide) (by decide)) s2 hb.alpha s4
    have hle : val (mul (b 3) (mul (sub (ofInt 1) (a 3)) mix)) ≤
        val (mul (sub (ofInt 1) (a 3)) mix) := by
      refine (rounds_mul hb3 s1).le q1 ?_
      exact mul_le_of_le_one_left s2 hb.alpha
    refine le_one_of_near (rounds_add (ha.finite 3 (by decide) (by decide)) q1)
      (key 3 (by decide) (by decide)).1 ?_
    linarith
  · rw [blend_over]; exact (key c h0 h4).2.1

/-- The product of two premultiplied pixels is a premultiplied pixel. -/
theorem multiply_premultiplied {a b : Int → F32} {mix : F32} (ha : Premultiplied a)
    (hb : Premultiplied b) (hm : IsFinite mix) (m0 : 0 ≤ val mix) (m1 : val mix ≤ 1) :
    Premultiplied (blend .multiply mix a b) ∧
      ∀ c, 0 ≤ c → c < 4 → val (blend .multiply mix a b c) ≤ val (a c) := by
  have key : ∀ c : Int, 0 ≤ c → c < 4 → _ := fun c h0 h4 =>
    unit_mul (hb.finite c h0 h4) hm (hb.nonneg c h0 h4) m0 ((hb.le_alpha c h0 h4).trans hb.alpha) m1
  have key2 : ∀ c : Int, 0 ≤ c → c < 4 → _ := fun c h0 h4 =>
    unit_mul (ha.finite c h0 h4) (key c h0 h4).1 (ha.nonneg c h0 h4) (key c h0 h4).2.1
      ((ha.le_alpha c h0 h4).trans ha.alpha) (key c h0 h4).2.2.2
  refine ⟨⟨fun c h0 h4 => ?_, fun c h0 h4 => ?_, fun c h0 h4 => ?_, ?_⟩, fun c h0 h4 => ?_⟩
  · rw [blend_multiply]; exact (key2 c h0 h4).1
  · rw [blend_multiply]; exact (key2 c h0 h4).2.1
  · rw [blend_multiply, blend_multiply]
    refine (rounds_mul (ha.finite c h0 h4) (key c h0 h4).1).mono ok_single.mant_pos
      (rounds_mul (ha.finite 3 (by decide) (by decide)) (key 3 (by decide) (by decide)).1)
      (key2 c h0 h4).1 (key2 3 (by decide) (by decide)).1 ?_
    have : val (mul (b c) mix) ≤ val (mul (b 3) mix) :=
      (rounds_mul (hb.finite c h0 h4) hm).mono ok_single.mant_pos
        (rounds_mul (hb.finite 3 (by decide) (by decide)) hm) (key c h0 h4).1
        (key 3 (by decide) (by decide)).1 (mul_le_mul_of_nonneg_right (hb.le_alpha c h0 h4) m0)
    exact mul_le_mul (ha.le_alpha c h0 h4) this (key c h0 h4).2.1
      (ha.nonneg 3 (by decide) (by decide))
  · rw [blend_multiply]; exact (key2 3 (by decide) (by decide)).2.2.2
  · rw [blend_multiply]; exact (key2 c h0 h4).2.2.1

/-- The sum of two premultiplied pixels: no colour is larger than alpha, but alpha goes up to 2. -/
theorem add_premultiplied {a b : Int → F32} {mix : F32} (ha : Premultiplied a)
    (hb : Premultiplied b) (hm : IsFinite mix) (m0 : 0 ≤ val mix) (m1 : val mix ≤ 1) :
    ∀ c, 0 ≤ c → c < 4 → IsFinite (blend .add mix a b c) ∧ val (a c) ≤ val (blend .add mix a b c) ∧
      val (blend .add mix a b c) ≤ val (blend .add mix a b 3) := by
  intro c h0 h4
  rw [blend_add, blend_add]
  exact add_share ha hb hm m0 m1 c h0 h4

/-- The channels of a pixel of a picture. -/
theorem premultiplied_value {P : Picture F32} (h : AllPremultiplied P) (x y : Int) :
    Premultiplied (P.value x y) := by
  by_cases hxy : Has P.data x y
  · have e : ∀ c : Int, 0 ≤ c → P.value x y c = (P.at_ x y).getD c.toNat (zero false) := by
      intro c hc
      unfold Picture.value Picture.pixel
      rw [if_pos hc, if_pos hxy, op_zero]
    obtain ⟨h1, h2, h3, h4⟩ := h.2 x y hxy
    refine ⟨fun c h0 hc => ?_, fun c h0 hc => ?_, fun c h0 hc => ?_, ?_⟩
    · rw [e c h0]; exact h1 c h0 hc
    · rw [e c h0]; exact h2 c h0 hc
    · rw [e c h0, e 3 (by decide)]; exact h3 c h0 hc
    · rw [e 3 (by decide)]; exact h4
  · have e : ∀ c, P.value x y c = zero false := by
      intro c
      unfold Picture.value Picture.pixel
      rw [if_neg hxy]
      split
      · rw [op_zero, List.getD_eq_getElem?_getD, List.getElem?_replicate]
        split <;> rfl
      · rw [op_zero]
    refine ⟨fun c _ _ => ?_, fun c _ _ => ?_, fun c _ _ => ?_, ?_⟩
    · rw [e]; exact finite_zero ok_single _
    · rw [e, zero_val]
    · rw [e, e]
    · rw [e, zero_val]; norm_num

/-- Storing a pixel changes at most the signs of zeros. -/
theorem settled_same {v out : List F32} (hl : v.length = 4) (hf : ∀ p ∈ v, IsFinite p)
    (h : Settled 4 v out) :
    ∀ c, 0 ≤ c → c < 4 → Same (out.getD c (zero false)) (v.getD c (zero false)) := by
  obtain ⟨mid, e, hc⟩ := h
  cases hc
  obtain ⟨out', e', hl', h'⟩ := C57_single_identity (n := 4) (.inr (.inr rfl)) v hf
  have : out' = out := by
    have := e'.symm.trans e
    injection this
  subst this
  intro c _ h4
  obtain ⟨p, q, hp, hq, hs⟩ := h' 0 c (by rw [hl]; decide) h4
  rw [Nat.zero_mul, Nat.zero_add] at hp hq
  rw [List.getD_eq_getElem?_getD, List.getD_eq_getElem?_getD, hp, hq]
  exact hs

/-- Two pixels that differ at most in the signs of zeros. -/
theorem merged_pixel {mode : MergeImageMode} {mix : F32} {A B Q : Picture F32}
    (hB : B.channels = 4) (hQ : IsMerged mode mix A B Q) {x y : Int} (hxy : Has Q.data x y)
    (hf : ∀ c : Int, 0 ≤ c → c < 4 → IsFinite (blend mode mix (A.value x y) (B.value x y) c)) :
    ∀ c : Int, 0 ≤ c → c < 4 → Same ((Q.at_ x y).getD c.toNat (zero false))
      (blend mode mix (A.value x y) (B.value x y) c) := by
  obtain ⟨v, hs, hl, hv⟩ := hQ.pixels x y hxy
  rw [hB] at hs hl hv
  have hfin : ∀ p ∈ v, IsFinite p := by
    intro p hp
    obtain ⟨c, hc⟩ := List.mem_iff_getElem?.mp hp
    have h4 : c < 4 := by
      rw [← hl]; exact (List.getElem?_eq_some_iff.mp hc).1
    have := hv c h4
    rw [hc] at this
    injection this with this
    rw [this]
    exact hf c (by omega) (by omega)
  intro c h0 h4
  obtain ⟨k, rfl⟩ := Int.eq_ofNat_of_zero_le h0
  have h4 : k < 4 := by omega
  have := settled_same hl hfin hs k (by omega) h4
  rwa [List.getD_eq_getElem?_getD (l := v), hv k h4] at this

theorem premultiplied_same {v w : Int → F32} (h : Premultiplied v)
    (e : ∀ c, 0 ≤ c → c < 4 → Same (w c) (v c)) : Premultiplied w := by
  refine ⟨fun c h0 h4 => (e c h0 h4).1, fun c h0 h4 => ?_, fun c h0 h4 => ?_, ?_⟩
  · rw [(e c h0 h4).2.2]; exact h.nonneg c h0 h4
  · rw [(e c h0 h4).2.2, (e 3 (by decide) (by decide)).2.2]; exact h.le_alpha c h0 h4
  · rw [(e 3 (by decide) (by decide)).2.2]; exact h.alpha

/-- C107: a premultiplied picture over a premultiplied picture is a premultiplied picture, in
single-precision floats, rounding included.  No pixel gets darker or more transparent than it is
in the first picture. -/
theorem C107_over {mix : F32} (hm : IsFinite mix) (m0 : 0 ≤ val mix) (m1 : val mix ≤ 1)
    {A B Q : Picture F32} (hA : AllPremultiplied A) (hB : AllPremultiplied B)
    (hQ : IsMerged .over mix A B Q) :
    AllPremultiplied Q ∧ ∀ x y, Has Q.data x y → ∀ c : Int, 0 ≤ c → c < 4 →
      val (A.value x y c) ≤ val (Q.value x y c) := by
  have key : ∀ x y, _ := fun x y => over_premultiplied (premultiplied_value hA x y)
    (premultiplied_value hB x y) hm m0 m1
  have same : ∀ x y, Has Q.data x y → _ := fun x y hxy =>
    merged_pixel hB.1 hQ hxy (key x y).1.finite
  refine ⟨⟨hQ.channels.trans hB.1, fun x y hxy => ?_⟩, fun x y hxy c h0 h4 => ?_⟩
  · exact premultiplied_same (key x y).1 (same x y hxy)
  · have e : Q.value x y c = (Q.at_ x y).getD c.toNat (zero false) := by
      unfold Picture.value Picture.pixel
      rw [if_pos h0, if_pos hxy, op_zero]
    rw [e, (same x y hxy c h0 h4).2.2]
    exact (key x y).2 c h0 h4

/-- C107: the product of two premultiplied pictures is a premultiplied picture. -/
theorem C107_multiply {mix : F32} (hm : IsFinite mix) (m0 : 0 ≤ val mix) (m1 : val mix ≤ 1)
    {A B Q : Picture F32} (hA : AllPremultiplied A) (hB : AllPremultiplied B)
    (hQ : IsMerged .multiply mix A B Q) : AllPremultiplied Q := by
  have key : ∀ x y, _ := fun x y => multiply_premultiplied (premultiplied_value hA x y)
    (premultiplied_value hB x y) hm m0 m1
  exact ⟨hQ.channels.trans hB.1, fun x y hxy =>
    premultiplied_same (key x y).1 (merged_pixel hB.1 hQ hxy (key x y).1.finite)⟩

/-- C107: in the sum of two premultiplied pictures no colour is larger than alpha.  Alpha itself
may be larger than 1. -/
theorem C107_add {mix : F32} (hm : IsFinite mix) (m0 : 0 ≤ val mix) (m1 : val mix ≤ 1)
    {A B Q : Picture F32} (hA : AllPremultiplied A) (hB : AllPremultiplied B)
    (hQ : IsMerged .add mix A B Q) {x y : Int} (hxy : Has Q.data x y) (c : Int) (h0 : 0 ≤ c)
    (h4 : c < 4) : IsFinite (Q.value x y c) ∧ 0 ≤ val (Q.value x y c) ∧
      val (Q.value x y c) ≤ val (Q.value x y 3) := by
  have key := add_premultiplied (premultiplied_value hA x y) (premultiplied_value hB x y) hm m0 m1
  have same := merged_pixel hB.1 hQ hxy (fun c h0 h4 => (key c h0 h4).1)
  have e : ∀ c : Int, 0 ≤ c → Q.value x y c = (Q.at_ x y).getD c.toNat (zero false) := by
    intro c h0
    unfold Picture.value Picture.pixel
    rw [if_pos h0, if_pos hxy, op_zero]
  rw [e c h0, e 3 (by decide), (same c h0 h4).2.2, (same 3 (by decide) (by decide)).2.2]
  exact ⟨(same c h0 h4).1, ((premultiplied_value hA x y).nonneg c h0 h4).trans (key c h0 h4).2.1,
    (key c h0 h4).2.2⟩

/-- C107: where the first picture is opaque, the second one is hidden. -/
theorem C107_hidden {mix : F32} (hm : IsFinite mix) {A B Q : Picture F32}
    (hA : AllPremultiplied A) (hB : AllPremultiplied B) (hQ : IsMerged .over mix A B Q)
    {x y : Int} (hxy : Has Q.data x y) (ho : val (A.value x y 3) = 1) (c : Int) (h0 : 0 ≤ c)
    (h4 : c < 4) : Same (Q.value x y c) (A.value x y c) := by
  have hPA := premultiplied_value hA x y
  have hPB := premultiplied_value hB x y
  have hr := rounds_sub one_finite (hPA.finite 3 (by decide) (by decide))
  rw [one_val, ho, sub_self] at hr
  have hz : (sub (ofInt 1) (A.value x y 3)).code = 0 :=
    val_zero_iff.mp ((hr.exact (finite_zero ok_single false) (zero_val _).symm).2.2.trans
      (zero_val _))
  have key : ∀ c : Int, 0 ≤ c → c < 4 →
      Same (blend .over mix (A.value x y) (B.value x y) c) (A.value x y c) := by
    intro c h0 h4
    rw [blend_over]
    exact add_zero_same ok_single (hPA.finite c h0 h4) (mul_zero_code ok_single
      (hPB.finite c h0 h4) (zero_mul_code ok_single hm hz))
  have e : Q.value x y c = (Q.at_ x y).getD c.toNat (zero false) := by
    unfold Picture.value Picture.pixel
    rw [if_pos h0, if_pos hxy, op_zero]
  rw [e]
  exact (merged_pixel hB.1 hQ hxy (fun c h0 h4 => (key c h0 h4).1) c h0 h4).trans (key c h0 h4)

/-- C107: where the first picture is transparent, the second one is seen unchanged. -/
theorem C107_seen {A B Q : Picture F32} (hA : AllPremultiplied A) (hB : AllPremultiplied B)
    (hQ : IsMerged .over 1 A B Q) {x y : Int} (hxy : Has Q.data x y)
    (ho : val (A.value x y 3) = 0) (c : Int) (h0 : 0 ≤ c) (h4 : c < 4) :
    Same (Q.value x y c) (B.value x y c) := by
  have hPA := premultiplied_value hA x y
  have hPB := premultiplied_value hB x y
  have key : ∀ c : Int, 0 ≤ c → c < 4 →
      Same (blend .over 1 (A.value x y) (B.value x y) c) (B.value x y c) := by
    intro c h0 h4
    have hc : (A.value x y c).code = 0 := val_zero_iff.mp
      (le_antisymm ((hPA.le_alpha c h0 h4).trans ho.le) (hPA.nonneg c h0 h4))
    rw [blend_over, one_minus_zero _ (val_zero_iff.mp ho), op_one, mul_one' ok_single one_finite,
      mul_one' ok_single (hPB.finite c h0 h4)]
    exact zero_add_same ok_single (hPB.finite c h0 h4) hc
  have e : Q.value x y c = (Q.at_ x y).getD c.toNat (zero false) := by
    unfold Picture.value Picture.pixel
    rw [if_pos h0, if_pos hxy, op_zero]
  rw [e]
  exact (merged_pixel hB.1 hQ hxy (fun c h0 h4 => (key c h0 h4).1) c h0 h4).trans (key c h0 h4)

/-- C107: an over node between two premultiplied pictures shows a premultiplied picture. -/
theorem C107_node {H : Type} [HalfLike F32 H] [FloatConst F32] (p : Profile) (lib : NodeLib F32 H)
    (n : Node F32) (frame : F32) (mode : Mode) (inputA inputB : Stream F32 H)
    (rest : List (Stream F32 H)) (prev : Stream F32 H) (w : World F32 H)
    (ht : n.attrs.nodeType = .mergeImage) (he : n.getI32 "enable" = 1)
    (hm : MergeImageMode.ofI32 (n.getI32 "mode") = .over)
    (hx : IsFinite (n.getF32 "mix")) (m0 : 0 ≤ val (n.getF32 "mix")) (m1 : val (n.getF32 "mix") ≤ 1)
    (hw : IsOff w) {A B : Picture F32} (hA : Appears lib.bake inputA A)
    (hB : Appears lib.bake inputB B) (hBd : inputB.dataWindow = B.data) (pA : AllPremultiplied A) (pB : AllPremultiplied B)
    (hs : ValidSize (sizeFor ⟨min A.data.minX B.data.minX, min A.data.minY B.data.minY,
      max A.data.maxX B.data.maxX, max A.data.maxY B.data.maxY⟩ 4)) :
    ∃ out w' Q, n.run p lib frame mode (inputA :: inputB :: rest) prev w = .ok (.valid, out, w') ∧
      Shows lib.bake.color out Q ∧ AllPremultiplied Q := by
  obtain ⟨out, w', e, -, -, ⟨Q, hQ⟩, h⟩ := C86_merge_partial p lib n frame mode inputA inputB rest
    prev w ht he (by rw [hm]; decide) hw hA hB hBd (.inr pA.1) (.inr pB.1) hs
  refine ⟨out, w', Q, e, h Q hQ, ?_⟩
  rw [hm] at hQ
  exact (C107_over hx m0 m1 pA pB hQ).1

end

/-! ### Examples -/

attribute [local instance] exactPowf

/-- A window of one pixel with the given values. -/
def pixelPicture (v : List F32) : Picture F32 :=
  ⟨⟨0, 0, 1, 1⟩, ⟨0, 0, 1, 1⟩, 4, colorSpaceLinear, fun _ _ => v⟩

/-- 0.5 -/
def oneHalf : F32 := ⟨false, 0x3f000000, by decide⟩

theorem oneHalf_finite : IsFinite oneHalf := by unfold IsFinite oneHalf; decide

theorem oneHalf_val : val oneHalf = 1 / 2 := by
  unfold val oneHalf
  norm_num [single32]

/-- Red, half transparent. -/
def redGlass : List F32 := [oneHalf, zero false, zero false, oneHalf]

/-- White. -/
def whiteWall : List F32 := [ofInt 1, ofInt 1, ofInt 1, ofInt 1]

theorem channel_cases {c : Int} (h0 : 0 ≤ c) (h4 : c < 4) : c = 0 ∨ c = 1 ∨ c = 2 ∨ c = 3 := by
  omega

theorem redGlass_premultiplied : AllPremultiplied (pixelPicture redGlass) := by
  refine ⟨rfl, fun x y _ => ⟨fun c h0 h4 => ?_, fun c h0 h4 => ?_, fun c h0 h4 => ?_, ?_⟩⟩
  · rcases channel_cases h0 h4 with rfl | rfl | rfl | rfl
    · exact oneHalf_finite
    · exact finite_zero ok_single _
    · exact finite_zero ok_single _
    · exact oneHalf_finite
  · rcases channel_cases h0 h4 with rfl | rfl | rfl | rfl
    · show 0 ≤ val oneHalf; rw [oneHalf_val]; norm_num
    · exact (zero_val false).ge
    · exact (zero_val false).ge
    · show 0 ≤ val oneHalf; rw [oneHalf_val]; norm_num
  · rcases channel_cases h0 h4 with rfl | rfl | rfl | rfl
    · exact le_refl _
    · show val (zero false) ≤ val oneHalf; rw [oneHalf_val, zero_val]; norm_num
    · show val (zero false) ≤ val oneHalf; rw [oneHalf_val, zero_val]; norm_num
    · exact le_refl _
  · show val oneHalf ≤ 1; rw [oneHalf_val]; norm_num

theorem whiteWall_premultiplied : AllPremultiplied (pixelPicture whiteWall) := by
  have e : ∀ c : Int, 0 ≤ c → c < 4 → whiteWall.getD c.toNat (zero false) = ofInt 1 := by
    intro c h0 h4
    rcases channel_cases h0 h4 with rfl | rfl | rfl | rfl <;> rfl
  have f := e 3 (by decide) (by decide)
  refine ⟨rfl, fun x y _ => ⟨fun c h0 h4 => ?_, fun c h0 h4 => ?_, fun c h0 h4 => ?_, ?_⟩⟩
  · show IsFinite (whiteWall.getD _ _); rw [e c h0 h4]; exact one_finite
  · show 0 ≤ val (whiteWall.getD _ _); rw [e c h0 h4, one_val]; norm_num
  · show val (whiteWall.getD _ _) ≤ val (whiteWall.getD (3 : Int).toNat _); rw [e c h0 h4, f]
  · show val (whiteWall.getD (3 : Int).toNat _) ≤ 1; rw [f, one_val]

/-- A picture of one pixel merged with another, if the values are right. -/
theorem pixel_merged {mode : MergeImageMode} {mix : F32} {a b v : List F32}
    (h : applyColorMatrix ((List.range 4).map fun c =>
      blend mode mix ((pixelPicture a).value 0 0) ((pixelPicture b).value 0 0) (c : Nat)) 4
        Mat4.identity = .ok v) :
    IsMerged mode mix (pixelPicture a) (pixelPicture b) (pixelPicture v) := by
  refine ⟨rfl, rfl, rfl, rfl, fun x y hxy => ?_⟩
  obtain ⟨rfl, rfl⟩ := has_one hxy
  refine ⟨_, ⟨_, h, .nil _⟩, rfl, fun c hc => ?_⟩
  have hc : c < 4 := hc
  rw [List.getElem?_map, List.getElem?_range hc]
  rfl

/-- Red glass in front of a white wall. -/
def redGlassOnWhite : List F32 := [ofInt 1, oneHalf, oneHalf, ofInt 1]

theorem glass_over_wall : IsMerged .over (ofInt 1) (pixelPicture redGlass) (pixelPicture whiteWall)
    (pixelPicture redGlassOnWhite) := pixel_merged (by decide +kernel)

-- C107: red glass in front of a white wall.
example : AllPremultiplied (pixelPicture redGlassOnWhite) :=
  (C107_over one_finite (by rw [one_val]; norm_num) one_val.le redGlass_premultiplied
    whiteWall_premultiplied glass_over_wall).1

-- C107: a filter multiplied with itself.
example : AllPremultiplied (pixelPicture (redGlass.map fun v => mul v v)) :=
  C107_multiply one_finite (by rw [one_val]; norm_num) one_val.le redGlass_premultiplied
    redGlass_premultiplied (mix := ofInt 1) (pixel_merged (by decide +kernel))

-- C107: the sum of red glass and a white wall.
example : val ((pixelPicture [add oneHalf (ofInt 1), ofInt 1, ofInt 1, add oneHalf (ofInt 1)]).value
      0 0 1) ≤
    val ((pixelPicture [add oneHalf (ofInt 1), ofInt 1, ofInt 1, add oneHalf (ofInt 1)]).value 0 0 3) :=
  (C107_add one_finite (by rw [one_val]; norm_num) one_val.le redGlass_premultiplied
    whiteWall_premultiplied (mix := ofInt 1) (pixel_merged (by decide +kernel)) (x := 0) (y := 0)
    (by unfold Has; decide) 1 (by decide) (by decide)).2.2

-- C107: a white wall hides what is behind it.
example : Same ((pixelPicture whiteWall).value 0 0 1) ((pixelPicture whiteWall).value 0 0 1) :=
  C107_hidden (mix := ofInt 1) one_finite whiteWall_premultiplied redGlass_premultiplied
    (pixel_merged (by decide +kernel)) (x := 0) (y := 0) (by unfold Has; decide) one_val 1
    (by decide) (by decide)

/-- Nothing. -/
def clearAir : List F32 := [zero false, zero false, zero false, zero false]

theorem clearAir_premultiplied : AllPremultiplied (pixelPicture clearAir) := by
  have e : ∀ c : Int, 0 ≤ c → c < 4 → clearAir.getD c.toNat (zero false) = zero false := by
    intro c h0 h4
    rcases channel_cases h0 h4 with rfl | rfl | rfl | rfl <;> rfl
  have f := e 3 (by decide) (by decide)
  refine ⟨rfl, fun x y _ => ⟨fun c h0 h4 => ?_, fun c h0 h4 => ?_, fun c h0 h4 => ?_, ?_⟩⟩
  · show IsFinite (clearAir.getD _ _); rw [e c h0 h4]; exact finite_zero ok_single _
  · show 0 ≤ val (clearAir.getD _ _); rw [e c h0 h4, zero_val]
  · show val (clearAir.getD _ _) ≤ val (clearAir.getD (3 : Int).toNat _); rw [e c h0 h4, f]
  · show val (clearAir.getD (3 : Int).toNat _) ≤ 1; rw [f, zero_val]; norm_num

-- C107: red glass is seen through the air.
example : Same ((pixelPicture redGlass).value 0 0 0) ((pixelPicture redGlass).value 0 0 0) :=
  C107_seen clearAir_premultiplied redGlass_premultiplied (pixel_merged (by decide +kernel))
    (x := 0) (y := 0) (by unfold Has; decide) (zero_val false) 0 (by decide) (by decide)

/-- C107 is false for the mode Add: two white pixels have an alpha of 2. -/
theorem C107_counterexample_add : ∃ A B Q : Picture F32, AllPremultiplied A ∧ AllPremultiplied B ∧
    IsMerged .add 1 A B Q ∧ ¬ AllPremultiplied Q := by
  refine ⟨pixelPicture whiteWall, pixelPicture whiteWall,
    pixelPicture [ofInt 2, ofInt 2, ofInt 2, ofInt 2], whiteWall_premultiplied,
    whiteWall_premultiplied, pixel_merged (by decide +kernel), fun h => ?_⟩
  have : val (ofInt 2 : F32) ≤ 1 := (h.2 0 0 (by unfold Has; decide)).alpha
  rw [two_val] at this
  norm_num at this

/-- C107 is false for colours that are not premultiplied: opaque-looking white with an alpha of 0
over white is brighter than white. -/
theorem C107_counterexample_straight :
    IsMerged .over 1 (pixelPicture [ofInt 1, ofInt 1, ofInt 1, zero false]) (pixelPicture whiteWall)
      (pixelPicture [ofInt 2, ofInt 2, ofInt 2, ofInt 1]) := pixel_merged (by decide +kernel)

/-- A stream with one pixel of four channels. -/
def pixelStream {H : Type} [HalfLike F32 H] (v : List F32) : Stream F32 H :=
  { (Stream.new : Stream F32 H) with
    displayWindow := ⟨0, 0, 1, 1⟩, dataWindow := ⟨0, 0, 1, 1⟩
    pixelBlock := floatImage (sizeFor ⟨0, 0, 1, 1⟩ 4) v }

theorem pixelStream_shows {H : Type} [HalfLike F32 H] (lib : ColorLib F32) {v : List F32}
    (hl : v.length = 4) (h : applyColorMatrix v 4 Mat4.identity = .ok v) :
    Shows lib (pixelStream (H := H) v) (pixelPicture v) := by
  refine stored_shows (v := v) rfl rfl rfl rfl (.inr (.inr rfl))
    (show ValidSize ⟨1, 1, 4⟩ by unfold ValidSize; decide) (fun d hd => nomatch hd) rfl rfl rfl ?_ ?_
  · rw [hl]; rfl
  · intro x y hxy
    obtain ⟨rfl, rfl⟩ := has_one hxy
    refine ⟨v, ?_, .nil _⟩
    have : pixelAt (pixelPicture v).data (pixelPicture v).channels v 0 0 = v := by
      unfold pixelAt pixel
      show (v.drop (0 * 4)).take 4 = v
      rw [Nat.zero_mul, List.drop_zero, ← hl, List.take_length]
    rw [this]
    exact h

-- C107: an over node, with any libraries.
example {H : Type} [HalfLike F32 H] [FloatConst F32] (lib : NodeLib F32 H) (w : World F32 H)
    (hw : IsOff w) :
    ∃ out w' Q, (⟨1, .uninitialized, .mergeImage { MergeImageAttrs.new with mode := 1 }⟩ :
        Node F32).run .debug lib 1 modeAll [pixelStream redGlass, pixelStream whiteWall] .new w =
      .ok (.valid, out, w') ∧ Shows lib.bake.color out Q ∧ AllPremultiplied Q :=
  C107_node .debug lib _ 1 modeAll _ _ [] .new w rfl (by decide) (by decide) one_finite
    (by show 0 ≤ val (ofInt 1 : F32); rw [one_val]; norm_num) one_val.le hw
    (pixelStream_shows _ rfl (by decide +kernel)).appears
    (pixelStream_shows _ rfl (by decide +kernel)).appears rfl
    redGlass_premultiplied whiteWall_premultiplied (by unfold ValidSize; decide)

end OCG.Props
