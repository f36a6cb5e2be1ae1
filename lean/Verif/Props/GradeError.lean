import Verif.Spec.GradeError
import Verif.Props.MatrixError
import Verif.Props.GradeOrder
/-
C134: how exactly grades are carried out in single floats.
-/

namespace OCG.Props

open IeeeSpec PixelSpec ColorSpec GradeErrorSpec
open Ieee hiding floor ceil round

/-- A rounded number, with the error relative to the number itself. -/
theorem rounds_close {q : ℚ} {x : F32} (r : Rounds q x) {M : ℚ} (h : |q| ≤ M) (hM : M ≤ 2 ^ 127) :
    IsFinite x ∧ |val x - q| ≤ |q| / 2 ^ 24 + 1 / 2 ^ 150 := by
  obtain ⟨y, hy, e⟩ := huge_single
  obtain ⟨f, -⟩ := r.finite hy (by rw [e]; exact h.trans hM)
  exact ⟨f, single_error r f le_rfl⟩

theorem zero_value : val (zero false : F32) = 0 := by
  rw [show (zero false : F32) = ⟨false, 0, by decide⟩ from rfl]; unfold val; norm_num

/-- The rounding of a product divided by a difference that is not too small. -/
theorem slope_algebra {m G D s n d S : ℚ} (hs : |s - G| ≤ |G| / 2 ^ 24 + 1 / 2 ^ 150)
    (hn : |n - m * s| ≤ |m * s| / 2 ^ 24 + 1 / 2 ^ 150)
    (hd : |d - D| ≤ |D| / 2 ^ 24 + 1 / 2 ^ 150) (hm : |m| ≤ 2 ^ 16) (hD : 1 / 2 ^ 16 ≤ |D|)
    (hS : |m * G / D| ≤ S) (hS' : S ≤ 2 ^ 16) :
    d ≠ 0 ∧ |n / d - m * G / D| ≤ 7 / 2 * S / 2 ^ 24 + 1 / 2 ^ 110 := by
  have S0 : 0 ≤ S := (abs_nonneg _).trans hS
  have D0 : D ≠ 0 := by
    rintro rfl
    norm_num at hD
  set σ := m * G / D with hσ
  have e1 : m * G = σ * D := by rw [hσ]; field_simp
  have X0 : 0 ≤ S * |D| := mul_nonneg S0 (abs_nonneg _)
  have b1 : |m * G| ≤ S * |D| := by
    rw [e1, abs_mul]
    exact mul_le_mul_of_nonneg_right hS (abs_nonneg _)
  have b2 : |m * s - m * G| ≤ S * |D| / 2 ^ 24 + 2 ^ 16 / 2 ^ 150 := by
    rw [← mul_sub, abs_mul]
    have h1 := mul_le_mul_of_nonneg_left hs (abs_nonneg m)
    rw [show |m| * (|G| / 2 ^ 24 + 1 / 2 ^ 150) = |m| * |G| / 2 ^ 24 + |m| / 2 ^ 150 by ring,
      ← abs_mul m G] at h1
    linarith
  have b3 : |m * s| ≤ S * |D| + (S * |D| / 2 ^ 24 + 2 ^ 16 / 2 ^ 150) := by
    have := abs_add_le (m * G) (m * s - m * G)
    rw [add_sub_cancel] at this
    linarith
  have b4 : |σ * d - σ * D| ≤ S * |D| / 2 ^ 24 + 2 ^ 16 / 2 ^ 150 := by
    rw [← mul_sub, abs_mul]
    have h1 := mul_le_mul hS hd (abs_nonneg _) S0
    rw [mul_add, ← mul_div_assoc] at h1
    have h2 : S * (1 / 2 ^ 150) ≤ 2 ^ 16 / 2 ^ 150 := by linarith
    linarith
  have b5 : |n - σ * d| ≤ 13 / 4 * (S * |D|) / 2 ^ 24 + 2 ^ 19 / 2 ^ 150 := by
    have h1 : n - σ * d = (n - m * s) + (m * s - m * G) - (σ * d - σ * D) := by rw [e1]; ring
    have h2 := abs_sub (n - m * s + (m * s - m * G)) (σ * d - σ * D)
    have h3 := abs_add_le (n - m * s) (m * s - m * G)
    rw [h1]
    linarith
  have b6 : |D| - (|D| / 2 ^ 24 + 1 / 2 ^ 150) ≤ |d| := by
    have := abs_sub_abs_le_abs_sub D d
    rw [abs_sub_comm] at this
    linarith
  have b7 : 1 / 2 ^ 17 ≤ |d| := by linarith
  have d0 : d ≠ 0 := by
    rintro rfl
    norm_num at b7
  refine ⟨d0, ?_⟩
  have b8 : S * (|D| - (|D| / 2 ^ 24 + 1 / 2 ^ 150)) ≤ S * |d| := mul_le_mul_of_nonneg_left b6 S0
  rw [mul_sub, mul_add, ← mul_div_assoc] at b8
  have b9 : S * (1 / 2 ^ 150) ≤ 2 ^ 16 / 2 ^ 150 := by linarith
  rw [show n / d - σ = (n - σ * d) / d by field_simp, abs_div,
    div_le_iff₀ (abs_pos.mpr d0)]
  rw [show (7 / 2 * S / 2 ^ 24 + 1 / 2 ^ 110) * |d| = 7 / 2 * (S * |d|) / 2 ^ 24 + |d| / 2 ^ 110 by ring]
  linarith

/-- The contrast as it is computed. -/
theorem contrast_error {black white lift gain multiply offset gamma : F32}
    (h : Ordinary (black, white, lift, gain, multiply, offset, gamma)) {S : ℚ}
    (hS : |contrast (black, white, lift, gain, multiply, offset, gamma)| ≤ S) (hS' : S ≤ 2 ^ 16) :
    IsFinite (div (mul multiply (sub gain lift)) (sub white black)) ∧
    |val (div (mul multiply (sub gain lift)) (sub white black)) -
      contrast (black, white, lift, gain, multiply, offset, gamma)| ≤ 5 * S / 2 ^ 24 + 1 / 2 ^ 100 := by
  obtain ⟨⟨fb, fw, fl, fg, fm, fo⟩, h1, h2, h3, h4⟩ := h
  simp only [contrast] at hS ⊢
  have S0 : 0 ≤ S := (abs_nonneg _).trans hS
  obtain ⟨fs, es⟩ := rounds_close (rounds_sub fg fl) h1 (by norm_num)
  obtain ⟨fd, ed⟩ := rounds_close (rounds_sub fw fb) h3 (by norm_num)
  have bs : |val (sub gain lift)| ≤ 2 ^ 18 := by
    have := abs_add_le (val gain - val lift) (val (sub gain lift) - (val gain - val lift))
    rw [add_sub_cancel] at this
    linarith
  obtain ⟨fn, en⟩ := rounds_close (rounds_mul fm fs) (M := 2 ^ 34) (by
    rw [abs_mul]
    calc _ ≤ (2 : ℚ) ^ 16 * 2 ^ 18 := mul_le_mul h2 bs (abs_nonneg _) (by norm_num)
      _ = _ := by norm_num) (by norm_num)
  obtain ⟨d0, k⟩ := slope_algebra es en ed h2 h4 hS hS'
  have bq : |val (mul multiply (sub gain lift)) / val (sub white black)| ≤
      S + (7 / 2 * S / 2 ^ 24 + 1 / 2 ^ 110) := by
    have := abs_add_le (val multiply * (val gain - val lift) / (val white - val black))
      (val (mul multiply (sub gain lift)) / val (sub white black) -
        val multiply * (val gain - val lift) / (val white - val black))
    rw [add_sub_cancel] at this
    linarith
  obtain ⟨fa, ea⟩ := rounds_close (rounds_div fn fd d0) bq (by linarith)
  refine ⟨fa, ?_⟩
  have := abs_add_le
    (val (div (mul multiply (sub gain lift)) (sub white black)) -
      val (mul multiply (sub gain lift)) / val (sub white black))
    (val (mul multiply (sub gain lift)) / val (sub white black) -
        val multiply * (val gain - val lift) / (val white - val black))
  rw [sub_add_sub_cancel] at this
  linarith

/-- A product of a computed contrast. -/
theorem times_error {a x : F32} {σ S P : ℚ} (fa : IsFinite a) (fx : IsFinite x)
    (ea : |val a - σ| ≤ 5 * S / 2 ^ 24 + 1 / 2 ^ 100) (hσ : |σ| ≤ S) (hx : |val x| ≤ P)
    (hS : S ≤ 2 ^ 16) (hP : P ≤ 2 ^ 16) :
    IsFinite (mul a x) ∧ |val (mul a x) - σ * val x| ≤ 25 / 4 * (S * P) / 2 ^ 24 + 1 / 2 ^ 83 := by
  have S0 : 0 ≤ S := (abs_nonneg _).trans hσ
  have P0 : 0 ≤ P := (abs_nonneg _).trans hx
  have X0 : 0 ≤ S * P := mul_nonneg S0 P0
  have hX : S * P ≤ 2 ^ 32 := by
    calc _ ≤ (2 : ℚ) ^ 16 * 2 ^ 16 := mul_le_mul hS hP P0 (by norm_num)
      _ = _ := by norm_num
  have k1 : |val a * val x - σ * val x| ≤ 5 * (S * P) / 2 ^ 24 + 2 ^ 16 / 2 ^ 100 := by
    rw [← sub_mul, abs_mul]
    have := mul_le_mul ea hx (abs_nonneg _) (by positivity)
    refine this.trans ?_
    rw [add_mul]
    have : 1 / 2 ^ 100 * P ≤ 2 ^ 16 / 2 ^ 100 := by linarith
    linarith
  have k2 : |σ * val x| ≤ S * P := by
    rw [abs_mul]
    exact mul_le_mul hσ hx (abs_nonneg _) S0
  have k3 : |val a * val x| ≤ S * P + (5 * (S * P) / 2 ^ 24 + 2 ^ 16 / 2 ^ 100) := by
    have := abs_add_le (σ * val x) (val a * val x - σ * val x)
    rw [add_sub_cancel] at this
    linarith
  obtain ⟨f, e⟩ := rounds_close (rounds_mul fa fx) k3 (by linarith)
  refine ⟨f, ?_⟩
  have := abs_add_le (val (mul a x) - val a * val x) (val a * val x - σ * val x)
  rw [sub_add_sub_cancel] at this
  linarith

/-- The straight line of a grade as it is computed. -/
theorem line_error {black white lift gain multiply offset gamma p : F32}
    (h : Ordinary (black, white, lift, gain, multiply, offset, gamma)) {S P T : ℚ}
    (hz : Sizes (black, white, lift, gain, multiply, offset, gamma) p S P T) :
    let a := div (mul multiply (sub gain lift)) (sub white black)
    let y := add (mul a p) (sub (add offset lift) (mul a black))
    IsFinite y ∧ |val y - line (black, white, lift, gain, multiply, offset, gamma) (val p)| ≤
      (16 * (S * P) + 7 * T) / 2 ^ 24 + 1 / 2 ^ 80 ∧
      |line (black, white, lift, gain, multiply, offset, gamma) (val p)| ≤ 2 * (S * P) + 2 * T := by
  intro a y
  obtain ⟨fp, hc, hp, hb, hl, ho, hS, hP, hT⟩ := hz
  obtain ⟨fa, ea⟩ := contrast_error h hc hS
  obtain ⟨⟨fb, fw, fl, fg, fm, fo⟩, -⟩ := h
  dsimp only at hb hl ho
  simp only [line]
  generalize contrast (black, white, lift, gain, multiply, offset, gamma) = σ at *
  have S0 : 0 ≤ S := (abs_nonneg _).trans hc
  have P0 : 0 ≤ P := (abs_nonneg _).trans hp
  have T0 : 0 ≤ T := (abs_nonneg _).trans hl
  have X0 : 0 ≤ S * P := mul_nonneg S0 P0
  have hX : S * P ≤ 2 ^ 32 := by
    calc _ ≤ (2 : ℚ) ^ 16 * 2 ^ 16 := mul_le_mul hS hP P0 (by norm_num)
      _ = _ := by norm_num
  obtain ⟨f1, e1⟩ := times_error fa fp ea hc hp hS hP
  obtain ⟨f2, e2⟩ := times_error fa fb ea hc hb hS hP
  have k1 : |σ * val p| ≤ S * P := by
    rw [abs_mul]; exact mul_le_mul hc hp (abs_nonneg _) S0
  have k2 : |σ * val black| ≤ S * P := by
    rw [abs_mul]; exact mul_le_mul hc hb (abs_nonneg _) S0
  have bol : |val offset + val lift| ≤ 2 * T := (abs_add_le _ _).trans (by linarith)
  have ub : ∀ {q r : ℚ} {x : ℚ}, |x - q| ≤ |q| / 2 ^ 24 + 1 / 2 ^ 150 → |q| ≤ r →
      |x - q| ≤ r / 2 ^ 24 + 1 / 2 ^ 150 := fun h1 h2 => by linarith
  obtain ⟨f3, e3⟩ := rounds_close (rounds_add fo fl) bol (by linarith)
  replace e3 := ub e3 bol
  have c1 : |val (add offset lift) - val (mul a black)| ≤
      2 * T + 2 * T / 2 ^ 24 + S * P + 25 / 4 * (S * P) / 2 ^ 24 + 1 / 2 ^ 82 := by
    rw [abs_le] at *
    constructor <;> linarith [e2.1, e2.2, e3.1, e3.2, k2.1, k2.2, bol.1, bol.2]
  obtain ⟨f4, e4⟩ := rounds_close (rounds_sub f3 f2) c1 (by linarith)
  replace e4 := ub e4 c1
  have c2 : |val (mul a p) + val (sub (add offset lift) (mul a black))| ≤
      (2 + 1 / 100) * T + (2 + 1 / 100) * (S * P) + 1 / 2 ^ 80 := by
    rw [abs_le] at *
    constructor <;> linarith [e1.1, e1.2, e4.1, e4.2, k1.1, k1.2, c1.1, c1.2]
  obtain ⟨f5, e5⟩ := rounds_close (rounds_add f1 f4) c2 (by linarith)
  replace e5 := ub e5 c2
  refine ⟨f5, ?_, ?_⟩
  · rw [mul_sub]
    show |val (add (mul a p) (sub (add offset lift) (mul a black))) - _| ≤ _
    rw [abs_le] at *
    constructor <;> linarith [e1.1, e1.2, e2.1, e2.2, e3.1, e3.2, e4.1, e4.2, e5.1, e5.2]
  · rw [mul_sub]
    rw [abs_le] at *
    constructor <;> linarith [k1.1, k1.2, k2.1, k2.2, bol.1, bol.2]

/-- Mixing a new value that is known up to `E` with the old one. -/
theorem mix_error {y p k : F32} {Y E R P : ℚ} (fy : IsFinite y) (fp : IsFinite p) (hk : Share k)
    (he : |val y - Y| ≤ E) (hY : |Y| ≤ R) (hp : |val p| ≤ P) (hE : E ≤ 2 ^ 40) (hR : R ≤ 2 ^ 40)
    (hP : P ≤ 2 ^ 16) :
    IsFinite (add (mul y k) (mul p (sub (ofInt 1) k))) ∧
    |val (add (mul y k) (mul p (sub (ofInt 1) k))) - (Y * val k + val p * (1 - val k))| ≤
      E + (9 / 4 * R + 4 * P + 3 * E) / 2 ^ 24 + 1 / 2 ^ 120 := by
  obtain ⟨fk, k0, k1⟩ := hk
  have E0 : 0 ≤ E := (abs_nonneg _).trans he
  have R0 : 0 ≤ R := (abs_nonneg _).trans hY
  have P0 : 0 ≤ P := (abs_nonneg _).trans hp
  have ub : ∀ {q r : ℚ} {x : ℚ}, |x - q| ≤ |q| / 2 ^ 24 + 1 / 2 ^ 150 → |q| ≤ r →
      |x - q| ≤ r / 2 ^ 24 + 1 / 2 ^ 150 := fun h1 h2 => by linarith
  have by' : |val y| ≤ R + E := by
    have := abs_add_le Y (val y - Y)
    rw [add_sub_cancel] at this
    linarith
  have c1 : |val y * val k| ≤ R + E := by
    rw [abs_mul, abs_of_nonneg k0]
    calc _ ≤ |val y| * 1 := mul_le_mul_of_nonneg_left k1 (abs_nonneg _)
      _ ≤ _ := by linarith
  have c2 : |val y * val k - Y * val k| ≤ E := by
    rw [← sub_mul, abs_mul, abs_of_nonneg k0]
    calc _ ≤ |val y - Y| * 1 := mul_le_mul_of_nonneg_left k1 (abs_nonneg _)
      _ ≤ _ := by linarith
  obtain ⟨f1, e1⟩ := rounds_close (rounds_mul fy fk) c1 (by linarith)
  replace e1 := ub e1 c1
  have f0 : IsFinite (ofInt 1 : F32) := (one_spec ok_single).1
  have v0 : val (ofInt 1 : F32) = 1 := one_val
  have c3 : |val (ofInt 1 : F32) - val k| ≤ 1 := by
    rw [v0, abs_le]
    constructor <;> linarith
  obtain ⟨f2, e2⟩ := rounds_close (rounds_sub f0 fk) c3 (by norm_num)
  replace e2 := ub e2 c3
  rw [v0] at e2
  have c4 : |val p * val (sub (ofInt 1) k) - val p * (1 - val k)| ≤
      P / 2 ^ 24 + 2 ^ 16 / 2 ^ 150 := by
    rw [← mul_sub, abs_mul]
    have := mul_le_mul hp e2 (abs_nonneg _) P0
    rw [mul_add] at this
    linarith
  have c5 : |val p * (1 - val k)| ≤ P := by
    rw [abs_mul]
    calc _ ≤ P * 1 := mul_le_mul hp (by rw [abs_le]; constructor <;> linarith) (abs_nonneg _) P0
      _ = _ := mul_one _
  have c6 : |val p * val (sub (ofInt 1) k)| ≤ P + (P / 2 ^ 24 + 2 ^ 16 / 2 ^ 150) := by
    have := abs_add_le (val p * (1 - val k))
      (val p * val (sub (ofInt 1) k) - val p * (1 - val k))
    rw [add_sub_cancel] at this
    linarith
  obtain ⟨f3, e3⟩ := rounds_close (rounds_mul fp f2) c6 (by linarith)
  replace e3 := ub e3 c6
  have c7 : |val (mul y k) + val (mul p (sub (ofInt 1) k))| ≤
      R + E + (R + E) / 2 ^ 24 + (1 + 1 / 4) * P + 1 / 2 ^ 130 := by
    rw [abs_le] at *
    constructor <;> linarith [e1.1, e1.2, e3.1, e3.2, c1.1, c1.2, c6.1, c6.2]
  obtain ⟨f4, e4⟩ := rounds_close (rounds_add f1 f3) c7 (by linarith)
  replace e4 := ub e4 c7
  refine ⟨f4, ?_⟩
  rw [abs_le] at *
  constructor <;> linarith [e1.1, e1.2, e3.1, e3.2, e4.1, e4.2, c2.1, c2.2, c4.1, c4.2]

/-- The constant part of a grade as it is computed. -/
theorem shift_error {black white lift gain multiply offset gamma p : F32}
    (h : Ordinary (black, white, lift, gain, multiply, offset, gamma)) {S P T : ℚ}
    (hz : Sizes (black, white, lift, gain, multiply, offset, gamma) p S P T) :
    let a := div (mul multiply (sub gain lift)) (sub white black)
    let b := sub (add offset lift) (mul a black)
    IsFinite b ∧ |val b| ≤ (1 + 1 / 100) * (S * P + 2 * T) + 1 / 2 ^ 80 := by
  intro a b
  obtain ⟨fp, hc, hp, hb, hl, ho, hS, hP, hT⟩ := hz
  obtain ⟨fa, ea⟩ := contrast_error h hc hS
  obtain ⟨⟨fb, fw, fl, fg, fm, fo⟩, -⟩ := h
  dsimp only at hb hl ho
  generalize contrast (black, white, lift, gain, multiply, offset, gamma) = σ at *
  have S0 : 0 ≤ S := (abs_nonneg _).trans hc
  have P0 : 0 ≤ P := (abs_nonneg _).trans hp
  have T0 : 0 ≤ T := (abs_nonneg _).trans hl
  have X0 : 0 ≤ S * P := mul_nonneg S0 P0
  have hX : S * P ≤ 2 ^ 32 := by
    calc _ ≤ (2 : ℚ) ^ 16 * 2 ^ 16 := mul_le_mul hS hP P0 (by norm_num)
      _ = _ := by norm_num
  obtain ⟨f2, e2⟩ := times_error fa fb ea hc hb hS hP
  have k2 : |σ * val black| ≤ S * P := by
    rw [abs_mul]; exact mul_le_mul hc hb (abs_nonneg _) S0
  have bol : |val offset + val lift| ≤ 2 * T := (abs_add_le _ _).trans (by linarith)
  have ub : ∀ {q r : ℚ} {x : ℚ}, |x - q| ≤ |q| / 2 ^ 24 + 1 / 2 ^ 150 → |q| ≤ r →
      |x - q| ≤ r / 2 ^ 24 + 1 / 2 ^ 150 := fun h1 h2 => by linarith
  obtain ⟨f3, e3⟩ := rounds_close (rounds_add fo fl) bol (by linarith)
  replace e3 := ub e3 bol
  have c1 : |val (add offset lift) - val (mul a black)| ≤
      2 * T + 2 * T / 2 ^ 24 + S * P + 25 / 4 * (S * P) / 2 ^ 24 + 1 / 2 ^ 82 := by
    rw [abs_le] at *
    constructor <;> linarith [e2.1, e2.2, e3.1, e3.2, k2.1, k2.2, bol.1, bol.2]
  obtain ⟨f4, e4⟩ := rounds_close (rounds_sub f3 f2) c1 (by linarith)
  replace e4 := ub e4 c1
  refine ⟨f4, ?_⟩
  show |val (sub (add offset lift) (mul a black))| ≤ _
  rw [abs_le] at *
  constructor <;> linarith [e4.1, e4.2, c1.1, c1.2]

/-- A straight line and back. -/
theorem line_back {a b p r : F32} (hr : Same r (add (mul a p) b)) (fa : IsFinite a) (fb : IsFinite b) (fp : IsFinite p) {P B : ℚ}
    (ha : |val a| ≤ 2 ^ 17) (ha' : 1 / 2 ^ 17 ≤ |val a|) (hp : |val p| ≤ P) (hP : P ≤ 2 ^ 16)
    (hb : |val b| ≤ B * |val a|) (hB : B ≤ 2 ^ 40) :
    let a' := div (ofInt 1) a
    let z := add (mul r a') (mul (opp b) a')
    IsFinite z ∧ |val z - val p| ≤ 6 * (P + B) / 2 ^ 24 + 1 / 2 ^ 90 := by
  intro a' z
  have P0 : 0 ≤ P := (abs_nonneg _).trans hp
  have a0 : val a ≠ 0 := by
    intro h
    rw [h] at ha'
    norm_num at ha'
  have ap : 0 < |val a| := abs_pos.mpr a0
  have B0 : 0 ≤ B := by
    by_contra h
    have := mul_neg_of_neg_of_pos (not_le.mp h) ap
    linarith [abs_nonneg (val b)]
  have ub : ∀ {q r : ℚ} {x : ℚ}, |x - q| ≤ |q| / 2 ^ 24 + 1 / 2 ^ 150 → |q| ≤ r →
      |x - q| ≤ r / 2 ^ 24 + 1 / 2 ^ 150 := fun h1 h2 => by linarith
  have X0 : 0 ≤ P * |val a| := mul_nonneg P0 ap.le
  have Y0 : 0 ≤ B * |val a| := mul_nonneg B0 ap.le
  have X1 : P * |val a| ≤ 2 ^ 33 := by
    calc _ ≤ (2 : ℚ) ^ 16 * 2 ^ 17 := mul_le_mul hP ha ap.le (by norm_num)
      _ = _ := by norm_num
  have Y1 : B * |val a| ≤ 2 ^ 57 := by
    calc _ ≤ (2 : ℚ) ^ 40 * 2 ^ 17 := mul_le_mul hB ha ap.le (by norm_num)
      _ = _ := by norm_num
  -- forwards
  have c1 : |val a * val p| ≤ P * |val a| := by
    rw [abs_mul, mul_comm]
    exact mul_le_mul_of_nonneg_right hp ap.le
  obtain ⟨f1, e1⟩ := rounds_close (rounds_mul fa fp) c1 (by linarith)
  replace e1 := ub e1 c1
  have c2 : |val (mul a p) + val b| ≤ P * |val a| + P * |val a| / 2 ^ 24 + 1 / 2 ^ 150 +
      B * |val a| := by
    rw [abs_le] at *
    constructor <;> linarith [e1.1, e1.2, c1.1, c1.2, hb.1, hb.2]
  obtain ⟨f2, e2⟩ := rounds_close (rounds_add f1 fb) c2 (by linarith)
  replace e2 := ub e2 c2
  have c3 : |val r - (val a * val p + val b)| ≤
      ((2 + 1 / 100) * P + B) / 2 ^ 24 * |val a| + 1 / 2 ^ 148 := by
    rw [hr.2.2]
    rw [show ((2 + 1 / 100) * P + B) / 2 ^ 24 * |val a| =
      ((2 + 1 / 100) * (P * |val a|) + B * |val a|) / 2 ^ 24 by ring]
    rw [abs_le] at *
    constructor <;> linarith [e1.1, e1.2, e2.1, e2.2]
  -- the inverse
  have f0 : IsFinite (ofInt 1 : F32) := (one_spec ok_single).1
  have v0 : val (ofInt 1 : F32) = 1 := one_val
  have c4 : |val (ofInt 1 : F32) / val a| ≤ 2 ^ 17 := by
    rw [v0, abs_div, abs_one, div_le_iff₀ ap]
    linarith
  obtain ⟨f3, e3⟩ := rounds_close (rounds_div f0 fa a0) c4 (by norm_num)
  rw [v0] at e3
  have c5 : |val a * val a' - 1| ≤ (1 + 1 / 100) / 2 ^ 24 := by
    have h1 : val a * val a' - 1 = val a * (val a' - 1 / val a) := by field_simp
    have h2 := mul_le_mul_of_nonneg_left e3 ap.le
    rw [abs_div, abs_one, show |val a| * (1 / |val a| / 2 ^ 24 + 1 / 2 ^ 150) =
      1 / 2 ^ 24 + |val a| / 2 ^ 150 by field_simp] at h2
    rw [h1, abs_mul]
    show |val a| * |val (div (ofInt 1) a) - 1 / val a| ≤ _
    linarith
  -- relative to the slope
  obtain ⟨t, ht⟩ : ∃ t, val b = val a * t := ⟨val b / val a, by field_simp⟩
  obtain ⟨h, hh⟩ : ∃ h, val r = val a * (val p + t + h) :=
    ⟨val r / val a - val p - t, by field_simp; ring⟩
  have bt : |t| ≤ B := by
    rw [ht, abs_mul, mul_comm] at hb
    exact le_of_mul_le_mul_right hb ap
  have bh : |h| ≤ ((2 + 1 / 100) * P + B) / 2 ^ 24 + 1 / 2 ^ 130 := by
    rw [hh, ht, show val a * (val p + t + h) - (val a * val p + val a * t) = h * val a by ring,
      abs_mul] at c3
    refine le_of_mul_le_mul_right (c3.trans ?_) ap
    rw [add_mul]
    linarith
  obtain ⟨w, hw⟩ : ∃ w, w = val a * val a' := ⟨_, rfl⟩
  rw [← hw] at c5
  have q1 : val r * val a' = (val p + t + h) * w := by rw [hh, hw]; ring
  have q2 : val (opp b) * val a' = -(t * w) := by rw [val_opp, ht, hw]; ring
  have d1 : |val p + t + h| ≤ (1 + 1 / 100) * (P + B) + 1 / 2 ^ 130 := by
    rw [abs_le] at *
    constructor <;> linarith [hp.1, hp.2, bt.1, bt.2, bh.1, bh.2]
  have d2 : |(val p + t + h) * w - (val p + t + h)| ≤ (1 + 1 / 20) * (P + B) / 2 ^ 24 + 1 / 2 ^ 150 := by
    rw [show (val p + t + h) * w - (val p + t + h) = (val p + t + h) * (w - 1) by ring, abs_mul]
    refine (mul_le_mul d1 c5 (abs_nonneg _) (by positivity)).trans ?_
    linarith
  have d3 : |t * w - t| ≤ (1 + 1 / 20) * B / 2 ^ 24 := by
    rw [show t * w - t = t * (w - 1) by ring, abs_mul]
    refine (mul_le_mul bt c5 (abs_nonneg _) B0).trans ?_
    linarith
  have d4 : |val r * val a'| ≤ (1 + 1 / 50) * (P + B) + 1 / 2 ^ 129 := by
    rw [q1]
    rw [abs_le] at *
    constructor <;> linarith [d1.1, d1.2, d2.1, d2.2]
  have d5 : |val (opp b) * val a'| ≤ (1 + 1 / 50) * B := by
    rw [q2, abs_neg]
    rw [abs_le] at *
    constructor <;> linarith [d3.1, d3.2, bt.1, bt.2]
  have fb' : IsFinite (opp b) := finite_opp fb
  obtain ⟨f4, e4⟩ := rounds_close (rounds_mul hr.1 f3) d4 (by linarith)
  obtain ⟨f5, e5⟩ := rounds_close (rounds_mul fb' f3) d5 (by linarith)
  replace e4 := ub e4 d4
  replace e5 := ub e5 d5
  have q1' : val r * val (div (ofInt 1) a) = (val p + t + h) * w := q1
  have q2' : val (opp b) * val (div (ofInt 1) a) = -(t * w) := q2
  rw [q1'] at e4
  rw [q2'] at e5
  have d6 : |val (mul r (div (ofInt 1) a)) + val (mul (opp b) (div (ofInt 1) a)) -
      val p| ≤ (9 / 2 * P + 21 / 4 * B) / 2 ^ 24 + 1 / 2 ^ 120 := by
    rw [abs_le] at *
    constructor <;> linarith [e4.1, e4.2, e5.1, e5.2, d2.1, d2.2, d3.1, d3.2, bh.1, bh.2]
  have d7 : |val (mul r (div (ofInt 1) a)) + val (mul (opp b) (div (ofInt 1) a))| ≤
      P + (P + B) / 2 ^ 20 + 1 / 2 ^ 120 := by
    rw [abs_le] at *
    constructor <;> linarith [d6.1, d6.2, hp.1, hp.2]
  obtain ⟨f6, e6⟩ := rounds_close (rounds_add f4 f5) d7 (by linarith)
  replace e6 := ub e6 d7
  refine ⟨f6, ?_⟩
  show |val (add (mul r (div (ofInt 1) a)) (mul (opp b) (div (ofInt 1) a))) - val p| ≤ _
  rw [abs_le] at *
  constructor <;> linarith [e6.1, e6.2, d6.1, d6.2]

section
variable [Libm single32]

/-- C134: what goes into the gamma curve of a grade is as accurate as single floats allow: it is the
straight line through the exact settings, up to a few units in the last place of the terms that are
added up. -/
theorem C134_line (d : GradeOp F32) (henable : d.getI32 "enable" = 1)
    (hforward : d.getI32 "reverse" = 0) (hmix : IsFinite (d.getF32 "mix")) {n : Nat}
    (hn : Channels n) (buf : List F32) :
    ∃ out, d.applySlice buf n = .ok out ∧ out.length = buf.length ∧
      ∀ i k, i < buf.length / n → k < n → processes d (channelOf n k) = 1 →
        ∃ p q y, buf[i * n + k]? = some p ∧ out[i * n + k]? = some q ∧
          q = mixed (d.getF32 "mix") (FloatLike.powf y (1 / gammaOf (values d (channelOf n k)))) p ∧
          ∀ S P T, Ordinary (values d (channelOf n k)) →
            Sizes (values d (channelOf n k)) p S P T →
            IsFinite y ∧ |val y - line (values d (channelOf n k)) (val p)| ≤
              (16 * (S * P) + 7 * T) / 2 ^ 24 + 1 / 2 ^ 80 := by
  by_cases hw : HasWork d
  · obtain ⟨out, h1, h2, h3⟩ := grade_values d hw hn buf
    refine ⟨out, h1, h2, fun i k hi hk hc => ?_⟩
    obtain ⟨p, h4, h5⟩ := h3 i k hi hk
    have hrev : d.reverse = 0 := hforward
    have hm : (FloatLike.ofInt 1 : F32) * d.mix = d.getF32 "mix" := by
      show mul (ofInt 1) d.mix = d.mix
      exact one_mul' ok_single hmix
    rw [hc, hm, hrev] at h5
    generalize values d (channelOf n k) = v at *
    obtain ⟨black, white, lift, gain, multiply, offset, gamma⟩ := v
    exact ⟨p, _, _, h4, h5, rfl, fun S P T ho hz => ⟨(line_error ho hz).1, (line_error ho hz).2.1⟩⟩
  · refine ⟨buf, applySlice_idle hw buf n, rfl, fun i k _ hk hc => ?_⟩
    exact (hw ⟨henable, _, channelOf_lt hn hk, by rw [hc]; decide⟩).elim

/-- C134: a grade without gamma is as accurate as single floats allow: every value of a processed
channel becomes the mix of the old value and the straight line through the exact settings, up to a
few units in the last place of the terms that are added up. -/
theorem C134_accuracy (hpow : ∀ x : F32, IsFinite x → Libm.powf x (ofInt 1) = x) (d : GradeOp F32)
    (henable : d.getI32 "enable" = 1) (hforward : d.getI32 "reverse" = 0)
    (hmix : Share (d.getF32 "mix")) {n : Nat} (hn : Channels n) (buf : List F32) :
    ∃ out, d.applySlice buf n = .ok out ∧ out.length = buf.length ∧
      ∀ i k, i < buf.length / n → k < n → processes d (channelOf n k) = 1 →
        gammaOf (values d (channelOf n k)) = 1 →
        ∃ p q, buf[i * n + k]? = some p ∧ out[i * n + k]? = some q ∧
          ∀ S P T, Ordinary (values d (channelOf n k)) →
            Sizes (values d (channelOf n k)) p S P T →
            IsFinite q ∧ |val q - (line (values d (channelOf n k)) (val p) * val (d.getF32 "mix") +
              val p * (1 - val (d.getF32 "mix")))| ≤
              (21 * (S * P) + 12 * T + 4 * P) / 2 ^ 24 + 1 / 2 ^ 78 := by
  obtain ⟨out, h1, h2, h3⟩ := C134_line d henable hforward hmix.1 hn buf
  refine ⟨out, h1, h2, fun i k hi hk hc hg => ?_⟩
  obtain ⟨p, q, y, h4, h5, h6, h7⟩ := h3 i k hi hk hc
  refine ⟨p, q, h4, h5, fun S P T ho hz => ?_⟩
  obtain ⟨fy, ey⟩ := h7 S P T ho hz
  have hl : |line (values d (channelOf n k)) (val p)| ≤ 2 * (S * P) + 2 * T :=
    (line_error (gamma := (values d (channelOf n k)).2.2.2.2.2.2) ho hz).2.2
  have e1 : FloatLike.powf y (1 / gammaOf (values d (channelOf n k))) = y := by
    rw [hg]
    show Libm.powf y (div (ofInt 1) (ofInt 1)) = y
    rw [one_over_one]
    exact hpow y fy
  rw [e1] at h6
  obtain ⟨fp, hcn, hp, hb, hlf, -, hS, hP, hT⟩ := hz
  have S0 : 0 ≤ S := (abs_nonneg _).trans hcn
  have P0 : 0 ≤ P := (abs_nonneg _).trans hp
  have T0 : 0 ≤ T := (abs_nonneg _).trans hlf
  have X0 : 0 ≤ S * P := mul_nonneg S0 P0
  have hX : S * P ≤ 2 ^ 32 := by
    calc _ ≤ (2 : ℚ) ^ 16 * 2 ^ 16 := mul_le_mul hS hP P0 (by norm_num)
      _ = _ := by norm_num
  obtain ⟨fq, eq⟩ := mix_error fy fp hmix ey hl hp (by linarith) (by linarith) hP
  subst h6
  refine ⟨fq, eq.trans ?_⟩
  linarith

/-- Reversing a grade without gamma that was computed in single floats, for one value. -/
theorem reverse_error (hpow : ∀ x : F32, IsFinite x → Libm.powf x (ofInt 1) = x) {v : Settings}
    {p : F32} (hg : gammaOf v = 1) (h : Ordinary v) {P T : ℚ}
    (hz : Sizes v p |contrast v| P (T * |contrast v|)) (hc : 1 / 2 ^ 16 ≤ |contrast v|)
    (hT : T ≤ 2 ^ 16) (r : F32)
    (hr : Same r (gradeSingle p v.1 v.2.1 v.2.2.1 v.2.2.2.1 v.2.2.2.2.1 v.2.2.2.2.2.1 v.2.2.2.2.2.2
      false)) :
    IsFinite (gradeSingle r v.1 v.2.1 v.2.2.1 v.2.2.2.1 v.2.2.2.2.1 v.2.2.2.2.2.1 v.2.2.2.2.2.2
      true) ∧
    |val (gradeSingle r v.1 v.2.1 v.2.2.1 v.2.2.2.1 v.2.2.2.2.1 v.2.2.2.2.2.1 v.2.2.2.2.2.2 true) -
      val p| ≤ (13 * P + 13 * T) / 2 ^ 24 + 1 / 2 ^ 60 := by
  obtain ⟨black, white, lift, gain, multiply, offset, gamma⟩ := v
  obtain rfl : gamma = 1 := hg
  obtain ⟨fa, ea⟩ := contrast_error h le_rfl hz.small.1
  obtain ⟨fb, eb⟩ := shift_error h hz
  obtain ⟨fy, -⟩ := line_error h hz
  have hS := hz.small.1
  have hP := hz.small.2.1
  have P0 : 0 ≤ P := (abs_nonneg _).trans hz.value
  have c0 : 0 < |contrast (black, white, lift, gain, multiply, offset, 1)| := by linarith
  have T0 : 0 ≤ T := by
    by_contra hn
    have := mul_neg_of_neg_of_pos (not_le.mp hn) c0
    linarith [hz.lift, abs_nonneg (val lift)]
  have hp := hz.value
  have fp := hz.finite
  clear hz
  generalize contrast (black, white, lift, gain, multiply, offset, 1) = σ at *
  generalize ha : div (mul multiply (sub gain lift)) (sub white black) = a at *
  generalize hb : sub (add offset lift) (mul a black) = b at *
  have ha' : multiply * (gain - lift) / (white - black) = a := ha
  have hb' : offset + lift - a * black = b := hb
  have hr' : Same r (add (mul a p) b) := by
    have : gradeSingle p black white lift gain multiply offset 1 false = add (mul a p) b := by
      unfold gradeSingle
      dsimp only
      rw [ha', hb']
      show Libm.powf (add (mul a p) b) (div (ofInt 1) (ofInt 1)) = _
      rw [one_over_one]
      exact hpow _ fy
    rw [← this]
    exact hr
  have k1 : |val a| ≤ |σ| + (5 * |σ| / 2 ^ 24 + 1 / 2 ^ 100) := by
    have := abs_add_le σ (val a - σ)
    rw [add_sub_cancel] at this
    linarith
  have k2 : |σ| - (5 * |σ| / 2 ^ 24 + 1 / 2 ^ 100) ≤ |val a| := by
    have := abs_sub_abs_le_abs_sub σ (val a)
    rw [abs_sub_comm] at this
    linarith
  have k3 : |val b| ≤ ((1 + 1 / 40) * (P + 2 * T) + 1 / 2 ^ 60) * |val a| := by
    have h1 : (1 + 1 / 100) * (P + 2 * T) * |σ| ≤
        (1 + 1 / 100) * (P + 2 * T) * ((1 + 1 / 100) * |val a|) :=
      mul_le_mul_of_nonneg_left (by linarith) (by positivity)
    have h2 : 0 ≤ (P + 2 * T) * |val a| := by positivity
    linarith
  have a0 : val a ≠ 0 := by
    intro hn
    rw [hn, abs_zero] at k2
    linarith
  obtain ⟨fz, ez⟩ := line_back hr' fa fb fp (by linarith) (by linarith) hp hP k3 (by linarith)
  have n1 : fle (1 : F32) 0 = false := by
    show (ltb (ofInt 1) (zero false) || eqb (ofInt 1) (zero false)) = false
    decide +kernel
  have n2 : FloatLike.eq (1 : F32) 1 = true := by
    show eqb (ofInt 1) (ofInt 1) = true
    decide +kernel
  have n3 : FloatLike.eq a (0 : F32) = false := by
    show eqb a (zero false) = false
    rw [Bool.eq_false_iff]
    intro hn
    exact a0 (((eqb_iff fa (finite_zero ok_single _)).mp hn).trans zero_value)
  by_cases hline : (!FloatLike.eq a (1 : F32) || !FloatLike.eq b (0 : F32)) = true
  · have : gradeSingle r black white lift gain multiply offset 1 true =
        add (mul r (div (ofInt 1) a)) (mul (opp b) (div (ofInt 1) a)) := by
      unfold gradeSingle
      dsimp only
      rw [ha', hb', if_neg (by decide), if_pos hline, n3]
      rfl
    simp only [this]
    refine ⟨fz, ez.trans ?_⟩
    linarith
  · have : gradeSingle r black white lift gain multiply offset 1 true = r := by
      unfold gradeSingle
      dsimp only
      rw [ha', hb', if_neg (by decide), if_neg hline, n1, n2]
      rfl
    simp only [this]
    refine ⟨hr'.1, ?_⟩
    simp only [Bool.or_eq_true, Bool.not_eq_true', not_or, Bool.not_eq_false] at hline
    have v1 : val a = 1 := ((eqb_iff fa (one_spec ok_single).1).mp hline.1).trans one_val
    have v2 : val b = 0 := ((eqb_iff fb (finite_zero ok_single _)).mp hline.2).trans zero_value
    have ub : ∀ {q r : ℚ} {x : ℚ}, |x - q| ≤ |q| / 2 ^ 24 + 1 / 2 ^ 150 → |q| ≤ r →
        |x - q| ≤ r / 2 ^ 24 + 1 / 2 ^ 150 := fun h1 h2 => by linarith
    obtain ⟨f1, e1⟩ := rounds_close (rounds_mul fa fp) (M := P) (by rw [v1, one_mul]; exact hp)
      (by linarith)
    replace e1 := ub e1 (r := P) (by rw [v1, one_mul]; exact hp)
    rw [v1, one_mul] at e1
    have c1 : |val (mul a p) + val b| ≤ P + P / 2 ^ 24 + 1 / 2 ^ 150 := by
      rw [v2]
      rw [abs_le] at *
      constructor <;> linarith [e1.1, e1.2, hp.1, hp.2]
    obtain ⟨-, e2⟩ := rounds_close (rounds_add f1 fb) c1 (by linarith)
    replace e2 := ub e2 c1
    rw [hr'.2.2]
    rw [v2] at e2
    rw [abs_le] at *
    constructor <;> linarith [e1.1, e1.2, e2.1, e2.2]

/-- C54 in single floats (partial): a grade without gamma and the same grade reversed give every
value back, up to a few units in the last place of the value, the black point, and lift and offset
relative to the contrast.  Missing: gamma, for which it is false, and other values of mix. -/
theorem C54_single_partial (hpow : ∀ x : F32, IsFinite x → Libm.powf x (ofInt 1) = x)
    (d : GradeOp F32) (henable : d.getI32 "enable" = 1) (hmix : d.getF32 "mix" = 1) {n : Nat}
    (hn : Channels n) (buf : List F32) :
    ∃ mid out, ({ d with reverse := 0 } : GradeOp F32).applySlice buf n = .ok mid ∧
      ({ d with reverse := 1 } : GradeOp F32).applySlice mid n = .ok out ∧
      out.length = buf.length ∧
      ∀ i k, i < buf.length / n → k < n → processes d (channelOf n k) = 1 →
        gammaOf (values d (channelOf n k)) = 1 →
        ∃ p q, buf[i * n + k]? = some p ∧ out[i * n + k]? = some q ∧
          ∀ P T : ℚ, Ordinary (values d (channelOf n k)) → T ≤ 2 ^ 16 →
            1 / 2 ^ 16 ≤ |contrast (values d (channelOf n k))| →
            Sizes (values d (channelOf n k)) p |contrast (values d (channelOf n k))| P
              (T * |contrast (values d (channelOf n k))|) →
            IsFinite q ∧ |val q - val p| ≤ (13 * P + 13 * T) / 2 ^ 24 + 1 / 2 ^ 60 := by
  by_cases hw : HasWork d
  · obtain ⟨mid, h1, h2, h3⟩ := grade_values ({ d with reverse := 0 } : GradeOp F32) hw hn buf
    obtain ⟨out, h4, h5, h6⟩ := grade_values ({ d with reverse := 1 } : GradeOp F32) hw hn mid
    refine ⟨mid, out, h1, h4, h5.trans h2, fun i k hi hk hc hg => ?_⟩
    obtain ⟨p, h7, h8⟩ := h3 i k hi hk
    obtain ⟨r, h9, h10⟩ := h6 i k (by rw [h2]; exact hi) hk
    have hm : (FloatLike.ofInt 1 : F32) * d.mix = FloatLike.ofInt 1 := by
      rw [show d.mix = 1 from hmix]; exact mask_full
    have hc' : ∀ b, processes ({ d with reverse := b } : GradeOp F32) (channelOf n k) = 1 :=
      fun _ => hc
    have hv' : ∀ b, values ({ d with reverse := b } : GradeOp F32) (channelOf n k) =
      values d (channelOf n k) := fun _ => rfl
    rw [hc', hm, hv'] at h8 h10
    rw [h8] at h9
    have e0 : decide ((0 : Int) ≠ 0) = false := by decide
    have e1 : decide ((1 : Int) ≠ 0) = true := by decide
    simp only [e0] at h9
    simp only [e1] at h10
    refine ⟨p, _, h7, h10, fun P T ho hT hs hz => ?_⟩
    generalize values d (channelOf n k) = v at *
    have fy : IsFinite (gradeSingle p v.1 v.2.1 v.2.2.1 v.2.2.2.1 v.2.2.2.2.1 v.2.2.2.2.2.1
        v.2.2.2.2.2.2 false) := by
      obtain ⟨black, white, lift, gain, multiply, offset, gamma⟩ := v
      obtain rfl : gamma = 1 := hg
      have := (line_error ho hz).1
      have h : ∀ y : F32, IsFinite y → IsFinite (Libm.powf y (div (ofInt 1) (ofInt 1))) := by
        intro y hy
        rw [one_over_one, hpow y hy]
        exact hy
      exact h _ this
    have hr : Same r (gradeSingle p v.1 v.2.1 v.2.2.1 v.2.2.2.1 v.2.2.2.2.1 v.2.2.2.2.2.1
        v.2.2.2.2.2.2 false) := by
      rw [← Option.some.inj h9]
      exact mask_one fy hz.finite
    obtain ⟨k1, k2⟩ := reverse_error hpow hg ho hz hs hT r hr
    have k3 := mask_one k1 hr.1
    unfold gradeValue
    refine ⟨k3.1, ?_⟩
    rw [k3.2.2]
    exact k2
  · refine ⟨buf, buf, applySlice_idle (d := { d with reverse := 0 }) hw buf n,
      applySlice_idle (d := { d with reverse := 1 }) hw buf n, rfl, fun i k _ hk hc => ?_⟩
    exact (hw ⟨henable, _, channelOf_lt hn hk, by rw [hc]; decide⟩).elim

end

/-! ### Examples and counterexamples -/

section Examples

attribute [local instance] exactPowf

theorem val_tenth : val tenth = 13421773 / 2 ^ 27 := by unfold tenth val; norm_num

theorem uphill_values : values uphillOp 0 =
    (tenth, ofInt 3, zero false, ofInt 7, ofInt 1, zero false, ofInt 1) := rfl

theorem uphill_vals : val (ofInt 3 : F32) = 3 ∧ val (ofInt 7 : F32) = 7 ∧
    val (ofInt 1 : F32) = 1 ∧ val (zero false : F32) = 0 := by
  refine ⟨?_, ?_, one_val, zero_value⟩
  · rw [ofInt_val ok_single (by decide)]; norm_num
  · rw [ofInt_val ok_single (by decide)]; norm_num

theorem uphill_ordinary : Ordinary (values uphillOp 0) := by
  rw [uphill_values]
  refine ⟨⟨?_, ?_, ?_, ?_, ?_, ?_⟩, ?_⟩
  all_goals try (rw [finite_iff]; decide +kernel)
  rw [uphill_vals.1, uphill_vals.2.1, uphill_vals.2.2.1, uphill_vals.2.2.2, val_tenth]
  norm_num

theorem uphill_sizes : Sizes (values uphillOp 0) (ofInt 3) 3 3 0 := by
  rw [uphill_values]
  refine ⟨by rw [finite_iff]; decide +kernel, ?_, ?_, ?_, ?_, ?_, by norm_num, by norm_num,
    by norm_num⟩ <;>
  simp only [contrast, uphill_vals.1, uphill_vals.2.1, uphill_vals.2.2.1, uphill_vals.2.2.2,
    val_tenth] <;> norm_num

-- C134: red pixels of -7 and 3 are graded, the second one to 7, of which a tenth is mixed in.
example : ∃ (out : List F32) (q : F32), uphillOp.applySlice twoPixels 3 = .ok out ∧
    out[3]? = some q ∧ IsFinite q ∧
    |val q - (7 * val tenth + 3 * (1 - val tenth))| ≤ (21 * 9 + 4 * 3) / 2 ^ 24 + 1 / 2 ^ 78 := by
  obtain ⟨out, h1, -, h3⟩ := C134_accuracy (fun _ _ => rfl) uphillOp rfl rfl (by
    refine ⟨by rw [finite_iff]; decide +kernel, ?_⟩
    show 0 ≤ val tenth ∧ val tenth ≤ 1
    rw [val_tenth]; norm_num) (n := 3) (.inr (.inl rfl)) twoPixels
  obtain ⟨p, q, h4, h5, h6⟩ := h3 1 0 (by decide) (by decide) rfl rfl
  cases h4
  obtain ⟨h7, h8⟩ := h6 3 3 0 uphill_ordinary uphill_sizes
  refine ⟨out, q, h1, h5, h7, ?_⟩
  have e1 : line (values uphillOp 0) (val (ofInt 3 : F32)) = 7 := by
    rw [uphill_values]
    simp only [line, contrast, uphill_vals.1, uphill_vals.2.1, uphill_vals.2.2.1,
      uphill_vals.2.2.2, val_tenth]
    norm_num
  have e2 : val (uphillOp.getF32 "mix") = val tenth := rfl
  rw [show channelOf 3 0 = 0 from rfl, e1, e2, uphill_vals.1] at h8
  refine h8.trans (by norm_num)

-- C54 in single floats: the red pixel of 3 comes back.
example : ∃ (mid out : List F32) (q : F32),
    ({ uphillOp with mix := 1, reverse := 0 } : GradeOp F32).applySlice twoPixels 3 = .ok mid ∧
    ({ uphillOp with mix := 1, reverse := 1 } : GradeOp F32).applySlice mid 3 = .ok out ∧
    out[3]? = some q ∧ IsFinite q ∧ |val q - 3| ≤ 13 * 3 / 2 ^ 24 + 1 / 2 ^ 60 := by
  obtain ⟨mid, out, h1, h2, -, h3⟩ := C54_single_partial (fun _ _ => rfl)
    { uphillOp with mix := 1 } rfl rfl (n := 3) (.inr (.inl rfl)) twoPixels
  obtain ⟨p, q, h4, h5, h6⟩ := h3 1 0 (by decide) (by decide) rfl rfl
  cases h4
  have hv : values ({ uphillOp with mix := 1 } : GradeOp F32) 0 = values uphillOp 0 := rfl
  rw [show channelOf 3 0 = 0 from rfl, hv] at h6
  have hc : 1 / 2 ^ 16 ≤ |contrast (values uphillOp 0)| := by
    rw [uphill_values]
    simp only [contrast, uphill_vals.1, uphill_vals.2.1, uphill_vals.2.2.1, uphill_vals.2.2.2,
      val_tenth]
    norm_num
  have hz := uphill_sizes
  obtain ⟨h7, h8⟩ := h6 3 0 uphill_ordinary (by norm_num) hc
    ⟨hz.finite, le_rfl, hz.value, hz.black, by rw [zero_mul]; exact hz.lift,
      by rw [zero_mul]; exact hz.offset, hz.contrast.trans (by norm_num), by norm_num,
      by norm_num⟩
  refine ⟨mid, out, q, h1, h2, h5, h7, ?_⟩
  rw [uphill_vals.1] at h8
  exact h8.trans (by norm_num)

/-- C134 needs black and white point to be apart: the division by their distance gives no number. -/
theorem C134_counterexample :
    ({ (GradeOp.new : GradeOp F32) with blackPointR := ofInt 1 }).applySlice
      [ofInt 1, tenth, tenth] 3 = .ok [nan, tenth, tenth] := by
  decide +kernel

end Examples

end OCG.Props
