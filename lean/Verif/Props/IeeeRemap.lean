import Verif.Proofs.IeeeSpacing
import Verif.Proofs.IeeeSame
import Verif.Props.Remap
import Verif.Props.IeeeColor
/-
C56 in IEEE arithmetic: sampling an image at its own pixel centres.
-/

namespace OCG.Props

open IeeeSpec PixelSpec BlockSpec RemapSpec
open Ieee hiding floor ceil round

/-- The operations that pick a pixel. -/
theorem pick_ieee {f : Format} [Libm f] (size a b c d : Int) (x : Ieee f) :
    pick size a b c d x =
      min (max (toRange (-2147483648) 2147483647 (Ieee.round
        (add (mul (sub (ofInt 1) (div (sub x (ofInt a)) (sub (ofInt b) (ofInt a)))) (ofInt c))
          (mul (div (sub x (ofInt a)) (sub (ofInt b) (ofInt a))) (ofInt (d - 1)))))) 0) (size - 1) := by
  unfold pick Interp.remap Interp.lerp Interp.inverseLerp
  rw [op_toI32, op_round, op_add, op_mul, op_mul, op_sub, op_div, op_one]
  rw [op_sub, op_sub, op_ofInt, op_ofInt, op_ofInt, op_ofInt]

theorem pick_lerp {f : Format} [Libm f] (size a b c d : Int) (x : Ieee f) :
    pick size a b c d x =
      min (max (toRange (-2147483648) 2147483647 (Ieee.round
        (Interp.lerp (ofInt c) (ofInt (d - 1))
          (div (sub x (ofInt a)) (sub (ofInt b) (ofInt a)))))) 0) (size - 1) := by
  unfold pick Interp.remap Interp.inverseLerp
  rw [op_toI32, op_round, op_div, op_sub, op_sub, op_ofInt, op_ofInt, op_ofInt, op_ofInt]

theorem centre_ieee {f : Format} [Libm f] (k : Int) :
    (FloatLike.ofInt k + 1 / FloatLike.ofInt 2 : Ieee f) =
      add (ofInt k) (div (ofInt 1) (ofInt 2)) := rfl

theorem int_single {n : Int} (h : n.natAbs ≤ 2 ^ 24) :
    IsFinite (ofInt n : F32) ∧ val (ofInt n : F32) = n :=
  ⟨(ofInt_spec ok_single h).1, ofInt_val ok_single h⟩

theorem half_single : IsFinite (div (ofInt 1) (ofInt 2) : F32) ∧
    val (div (ofInt 1) (ofInt 2) : F32) = 1 / 2 := by
  obtain ⟨a1, a2⟩ := int_single (n := 1) (by decide)
  obtain ⟨b1, b2⟩ := int_single (n := 2) (by decide)
  obtain ⟨y, y1, y2⟩ := exists_dyadic (n := 1) (j := 1) (by decide) (by decide)
  have := (rounds_div a1 b1 (by rw [b2]; norm_num)).exact y1 (by rw [a2, b2, y2]; norm_num)
  exact ⟨this.1, by rw [this.2.2, y2]; norm_num⟩

/-- Pixel centres are exact. -/
theorem centre_single {k : Int} (h0 : 0 ≤ k) (h1 : k < 2 ^ 22) :
    IsFinite (add (ofInt k) (div (ofInt 1) (ofInt 2)) : F32) ∧
      val (add (ofInt k) (div (ofInt 1) (ofInt 2)) : F32) = k + 1 / 2 := by
  obtain ⟨a1, a2⟩ := int_single (n := k) (by omega)
  obtain ⟨y, y1, y2⟩ := exists_dyadic (n := (2 * k + 1).toNat) (j := 1) (by omega) (by decide)
  have e : (((2 * k + 1).toNat : ℕ) : ℚ) = 2 * k + 1 := by
    have : (((2 * k + 1).toNat : ℕ) : ℤ) = 2 * k + 1 := Int.toNat_of_nonneg (by omega)
    exact_mod_cast this
  have := (rounds_add a1 half_single.1).exact y1 (by
    rw [a2, half_single.2, y2, e]; ring)
  refine ⟨this.1, ?_⟩
  rw [this.2.2, y2, e]; ring

theorem last_margin {n k B q : ℚ} (hn : n ≤ 2 ^ 22) (h0 : B * 2 ≤ n) (hB : 0 ≤ B) (hk : k ≤ B * 2)
    (hq : q * (n + 1) = k + 1 / 2) : (n - B * 2) / 2 ^ 25 < 1 - q := by
  have hn1 : 0 < n + 1 := by linarith
  have e : (1 - q) * (n + 1) = n + 1 / 2 - k := by linarith
  have h1 : (n - B * 2) * (n + 1) ≤ (n - B * 2) * 2 ^ 25 :=
    mul_le_mul_of_nonneg_left (by linarith) (by linarith)
  have h2 : (n - B * 2) * (n + 1) < (1 - q) * 2 ^ 25 * (n + 1) := by
    have : (1 - q) * 2 ^ 25 * (n + 1) = (n + 1 / 2 - k) * 2 ^ 25 := by rw [← e]; ring
    rw [this]
    linarith
  have := lt_of_mul_lt_mul_right h2 hn1.le
  rw [div_lt_iff₀ (by norm_num)]
  exact this

/-- The number whose rounding picks the pixel: twice rounded, it stays within half a pixel. -/
theorem centre_scaled {size k : ℤ} (hs : size ≤ 2 ^ 22) (h0 : 0 ≤ k) (h1 : k < size)
    {t w : F32} (ht : IsFinite t) (hw : IsFinite w)
    (rt : Rounds (((k : ℚ) + 1 / 2) / size) t) (rv : Rounds (val t * ((size - 1 : ℤ) : ℚ)) w) :
    0 ≤ val w ∧ (k : ℚ) - 1 / 2 ≤ val w ∧ val w < (k : ℚ) + 1 / 2 := by
  have hsq : (0 : ℚ) < size := by exact_mod_cast (show 0 < size by omega)
  have hk0 : (0 : ℚ) ≤ k := by exact_mod_cast h0
  have hk1 : (k : ℚ) + 1 ≤ size := by exact_mod_cast (show k + 1 ≤ size by omega)
  have hs2 : (size : ℚ) ≤ 2 ^ 22 := by exact_mod_cast hs
  push_cast at rv
  set q : ℚ := ((k : ℚ) + 1 / 2) / size with hq
  have hqs : q * size = k + 1 / 2 := div_mul_cancel₀ _ hsq.ne'
  have q0 : 0 < q := div_pos (by linarith) hsq
  have q1 : q < 1 := by rw [hq, div_lt_one hsq]; linarith
  have q2 : 1 / 2 ^ 23 ≤ q := by
    rw [hq, div_le_div_iff₀ (by norm_num) hsq]
    linarith
  have te := rounds_unit rt ht q0.le q1.le
  obtain ⟨te1, te2⟩ := abs_le.mp te
  have tr : |val t - q| ≤ q / 2 ^ 24 := by
    refine (rt.error ht).trans (max_le ?_ ?_)
    · rw [abs_of_pos q0]
      exact le_of_eq (by norm_num)
    · refine le_trans ?_ (div_le_div_of_nonneg_right q2 (by norm_num))
      norm_num
  obtain ⟨tr1, tr2⟩ := abs_le.mp tr
  have t0 : 0 ≤ val t := by
    have : q / 2 ^ 24 ≤ q := div_le_self q0.le (by norm_num)
    linarith
  have hn0 : (0 : ℚ) ≤ size - 1 := by linarith
  have w0 : 0 ≤ val w := by
    obtain ⟨z1, z2⟩ := int_single (n := 0) (by decide)
    have := rv.ge (y := (ofInt 0 : F32)) hw (by rw [z2]; push_cast; positivity)
    rwa [z2, Int.cast_zero] at this
  refine ⟨w0, ?_, ?_⟩
  · -- from below
    rcases Int.lt_or_le k 1 with hk | hk
    · have : k = 0 := by omega
      subst this
      push_cast
      linarith
    obtain ⟨y, y1, y2⟩ := exists_dyadic (n := (2 * k - 1).toNat) (j := 1) (by omega) (by decide)
    have e : (((2 * k - 1).toNat : ℕ) : ℚ) = 2 * k - 1 := by
      have : (((2 * k - 1).toNat : ℕ) : ℤ) = 2 * k - 1 := Int.toNat_of_nonneg (by omega)
      exact_mod_cast this
    have y2 : val y = (k : ℚ) - 1 / 2 := by rw [y2, e]; ring
    by_contra hlt
    rw [not_le] at hlt
    have hx : val t * (size - 1) < (k : ℚ) - 1 / 2 := by
      by_contra hge
      rw [not_lt] at hge
      have := rv.ge (y := y) hw (by rw [y2]; exact hge)
      rw [y2] at this
      linarith
    have hcl := (rv.nearest ok_single.mant_pos hw).closest y y1
    have hx2 : val t * (size - 1) ≤ (val w + ((k : ℚ) - 1 / 2)) / 2 := by
      rw [y2, abs_of_pos (by linarith : 0 < (k : ℚ) - 1 / 2 - val t * (size - 1))] at hcl
      have := le_abs_self (val t * (size - 1) - val w)
      rw [abs_sub_comm] at this
      linarith
    have hx3 : (k : ℚ) - 1 / 2 + (1 - q) - (size - 1) / 2 ^ 25 ≤ val t * (size - 1) := by
      have : (q - 1 / 2 ^ 25) * (size - 1) ≤ val t * (size - 1) :=
        mul_le_mul_of_nonneg_right (by linarith) hn0
      nlinarith
    have hq8 : 1 - q < (size - 1) / 2 ^ 25 := by linarith
    have hq7 : 7 / 8 < q := by
      have : ((size : ℚ) - 1) / 2 ^ 25 ≤ 1 / 8 := by
        rw [div_le_div_iff₀ (by norm_num) (by norm_num)]; linarith
      linarith
    generalize val t * ((size : ℚ) - 1) = X at hx hx2 hx3
    -- the binade of `size - 1`
    obtain ⟨n, hn⟩ := Int.eq_ofNat_of_zero_le (show 0 ≤ size - 1 by omega)
    have hnq : (size : ℚ) - 1 = n := by
      have : ((size - 1 : ℤ) : ℚ) = ((n : ℤ) : ℚ) := by rw [hn]
      push_cast at this
      exact this
    have hn1 : n ≠ 0 := by omega
    have i1 := Nat.pow_log_le_self 2 hn1
    have i2 := Nat.lt_pow_succ_log_self (b := 2) (by decide) n
    generalize Nat.log 2 n = i at i1 i2
    have hbig : 4 ≤ n := by
      by_contra hc
      have hc : (n : ℚ) ≤ 3 := by exact_mod_cast (show n ≤ 3 by omega)
      have : 1 / 2 ≤ (1 - q) * size := by linarith
      have h4 : (size : ℚ) ≤ 4 := by linarith
      have h5 : (1 - q) ≤ 3 / 2 ^ 25 := by
        rw [hnq] at hq8
        refine hq8.le.trans (div_le_div_of_nonneg_right hc (by norm_num))
      nlinarith
    have hi : 2 ≤ i := by
      by_contra hc
      have : 2 ^ (i + 1) ≤ 2 ^ 2 := Nat.pow_le_pow_right (by decide) (by omega)
      omega
    have hi' : i ≤ 21 := by
      by_contra hc
      have : 2 ^ 22 ≤ 2 ^ i := Nat.pow_le_pow_right (by decide) (by omega)
      omega
    have i1q : (2 : ℚ) ^ i ≤ n := by exact_mod_cast i1
    have i2q : (n : ℚ) < 2 * 2 ^ i := by
      have : ((n : ℕ) : ℚ) < ((2 ^ (i + 1) : ℕ) : ℚ) := by exact_mod_cast i2
      rw [pow_succ] at this
      push_cast at this
      linarith
    -- half numbers are multiples of the spacing
    have mult : ∀ j : ℕ, j ≤ 22 → (k : ℚ) - 1 / 2 =
        (((2 * k - 1) * 2 ^ (22 - j) : ℤ) : ℚ) * (2 ^ j / 2 ^ 23) := by
      intro j hj
      have e : (2 : ℚ) ^ 22 = 2 ^ (22 - j) * 2 ^ j := by rw [← pow_add]; congr 1; omega
      have e' : (2 : ℚ) ^ 23 = 2 ^ (22 - j) * 2 ^ j * 2 := by rw [← e]; norm_num
      rw [e']
      push_cast
      have a : (2 : ℚ) ^ (22 - j) ≠ 0 := by positivity
      have b : (2 : ℚ) ^ j ≠ 0 := by positivity
      field_simp
    rcases le_or_gt ((2 : ℤ) ^ i) (k - 1) with hki | hki
    · have hki' : (2 : ℚ) ^ i ≤ k - 1 := by exact_mod_cast hki
      have hb := below_multiple (x := w) (i := i) rfl (mult i (by omega)) (by linarith) hlt
      rw [hnq] at hx3
      generalize (2 : ℚ) ^ i = B at *
      have : (n : ℚ) / 2 ^ 25 < 2 * B / 2 ^ 25 := div_lt_div_of_pos_right i2q (by norm_num)
      have : 2 * B / 2 ^ 25 = B / 2 ^ 23 / 2 := by ring
      linarith
    · obtain ⟨j, rfl⟩ : ∃ j, i = j + 1 := ⟨i - 1, by omega⟩
      have hki : k ≤ 2 ^ (j + 1) := by omega
      have hki' : (k : ℚ) ≤ 2 ^ (j + 1) := by exact_mod_cast hki
      rw [pow_succ] at i1q i2q hki'
      have hB : (2 : ℚ) ≤ 2 ^ j := by
        have : 2 ^ 1 ≤ 2 ^ j := Nat.pow_le_pow_right (by decide) (by omega)
        exact_mod_cast this
      have h78 : 7 / 8 * (size : ℚ) ≤ q * size := mul_le_mul_of_nonneg_right hq7.le hsq.le
      have hb := below_multiple (x := w) (i := j) rfl (mult j (by omega)) (by linarith) hlt
      rw [hnq] at hx3
      generalize (2 : ℚ) ^ j = B at *
      have hd := last_margin (n := n) (k := k) (B := B) (q := q) (by linarith) i1q (by linarith) hki'
        (by rw [← hnq]; linarith)
      have : ((n : ℚ) - B * 2) / 2 ^ 25 = (n : ℚ) / 2 ^ 25 - B / 2 ^ 23 / 2 := by ring
      linarith
  · -- from above
    have h1 : val t * (size - 1) ≤ q * (size - 1) * (1 + 1 / 2 ^ 24) := by
      have : val t ≤ q * (1 + 1 / 2 ^ 24) := by linarith
      nlinarith
    have we := rv.error hw
    have h2 : val w ≤ val t * (size - 1) * (1 + 1 / 2 ^ 24) + 1 / 2 ^ 150 := by
      have hp : 0 ≤ val t * (size - 1) := mul_nonneg t0 hn0
      rw [abs_of_nonneg hp] at we
      have := (le_abs_self _).trans we
      have m : max (val t * (size - 1) / (2 * 2 ^ single32.mant)) (1 / (2 * 2 ^ single32.unit)) ≤
          val t * (size - 1) / 2 ^ 24 + 1 / 2 ^ 150 := by
        refine max_le ?_ ?_
        · refine le_trans (le_of_eq ?_) (le_add_of_nonneg_right (by norm_num))
          norm_num
        · refine le_trans (le_of_eq ?_) (le_add_of_nonneg_left (by positivity))
          norm_num
      linarith
    have h3 : q * (size - 1) ≤ q * 2 ^ 22 := mul_le_mul_of_nonneg_left (by linarith) q0.le
    have h4 : q * (size - 1) + q = k + 1 / 2 := by linarith
    generalize q * ((size : ℚ) - 1) = P at *
    generalize val t * ((size : ℚ) - 1) = X at *
    norm_num at *
    linarith

section
variable [Libm single32]

/-- The pixel picked at the centre of a pixel is that pixel. -/
theorem centre_pick {size k : Int} (hs : size ≤ 2 ^ 22) (h0 : 0 ≤ k) (h1 : k < size) :
    pick size 0 size 0 size (FloatLike.ofInt k + 1 / FloatLike.ofInt 2 : F32) = k := by
  rw [pick_ieee, centre_ieee]
  obtain ⟨c1, c2⟩ := centre_single h0 (by omega)
  obtain ⟨z1, z2⟩ := int_single (n := 0) (by decide)
  obtain ⟨s1, s2⟩ := int_single (n := size) (by omega)
  obtain ⟨n1, n2⟩ := int_single (n := size - 1) (by omega)
  obtain ⟨o1, o2⟩ := int_single (n := 1) (by decide)
  generalize (add (ofInt k) (div (ofInt 1) (ofInt 2)) : F32) = c at *
  have hsq : (0 : ℚ) < size := by exact_mod_cast (show 0 < size by omega)
  have hk0 : (0 : ℚ) ≤ k := by exact_mod_cast h0
  have hk1 : (k : ℚ) + 1 ≤ size := by exact_mod_cast (show k + 1 ≤ size by omega)
  -- subtracting zero
  have a := (rounds_sub c1 z1).exact c1 (by rw [z2]; push_cast; ring)
  have b := (rounds_sub s1 z1).exact s1 (by rw [z2]; push_cast; ring)
  -- the quotient
  have rt : Rounds (((k : ℚ) + 1 / 2) / size) (div (sub c (ofInt 0)) (sub (ofInt size) (ofInt 0))) := by
    have := rounds_div a.1 b.1 (by rw [b.2.2, s2]; exact hsq.ne')
    rwa [a.2.2, b.2.2, c2, s2] at this
  generalize (div (sub c (ofInt 0)) (sub (ofInt size) (ofInt 0)) : F32) = t at *
  have hq0 : 0 ≤ ((k : ℚ) + 1 / 2) / size := by positivity
  have hq1 : ((k : ℚ) + 1 / 2) / size ≤ 1 := by rw [div_le_one hsq]; linarith
  obtain ⟨t1, t2⟩ := rt.finite (y := (ofInt 1 : F32)) o1 (by
    rw [o2, abs_of_nonneg hq0]; push_cast; rw [abs_one]; exact hq1)
  rw [o2] at t2
  -- the product
  have rv := rounds_mul t1 n1
  rw [n2] at rv
  obtain ⟨w1, w2⟩ := rv.finite (y := (ofInt (size - 1) : F32)) n1 (by
    rw [n2, abs_mul]
    refine mul_le_of_le_one_left (abs_nonneg _) (t2.trans ?_)
    push_cast; rw [abs_one])
  -- the other product is zero
  have hsub : IsFinite (sub (ofInt 1) t : F32) := by
    obtain ⟨y1, y2⟩ := int_single (n := 2) (by decide)
    refine ((rounds_sub o1 t1).finite y1 ?_).1
    rw [o2, y2]
    refine (abs_sub _ _).trans ?_
    push_cast at t2 ⊢
    rw [abs_one] at *
    rw [abs_of_pos (by norm_num : (0 : ℚ) < 2)]
    linarith
  have hz : (mul (sub (ofInt 1) t) (ofInt 0) : F32).code = 0 := by
    refine mul_zero_code ok_single hsub ?_
    decide +kernel
  have hsame := zero_add_same ok_single w1 hz
  have hsc := centre_scaled hs h0 h1 t1 w1 rt rv
  rw [← hsame.2.2] at hsc
  generalize (add (mul (sub (ofInt 1) t) (ofInt 0)) (mul t (ofInt (size - 1))) : F32) = r at *
  obtain ⟨v0, v1, v2⟩ := hsc
  rw [toRange_round ok_single hsame.1]
  have hr : roundInt r = k := by
    rcases Int.lt_or_le k 1 with hk | hk
    · have : k = 0 := by omega
      subst this
      refine roundInt_eq ?_
      push_cast at v2 ⊢
      rw [sub_zero, abs_of_nonneg v0]
      linarith
    · have : (1 : ℚ) ≤ k := by exact_mod_cast hk
      exact roundInt_half (by linarith) (by linarith) (by linarith)
  rw [hr]
  omega

/-- C56 in IEEE arithmetic: asking for the pixel centres of an image that fills its display window
gives the image back, for all images of at most 4194304 rows and columns, although the positions
are rounded several times on the way. -/
theorem C56_single_identity {H : Type} [HalfLike F32 H] (p : Profile)
    (coords : List F32) (ss : BlockSize) (sd dd : List F32) (hs : ValidSize ss)
    (hw : ss.width ≤ 2 ^ 22) (hh : ss.height ≤ 2 ^ 22)
    (hsl : (sd.length : Int) = elements ss) (hdl : (dd.length : Int) = elements ss)
    (hc : ss.numChannels = 3 ∨ ss.numChannels = 4)
    (hcount : coords.length = 2 * (ss.width * ss.height).toNat)
    (hcenter : ∀ x y, InBlock ss x y →
      coords[2 * (y * ss.width + x).toNat]? = some (FloatLike.ofInt x + 1 / FloatLike.ofInt 2) ∧
      coords[2 * (y * ss.width + x).toNat + 1]? =
        some (FloatLike.ofInt y + 1 / FloatLike.ofInt 2)) :
    ∃ out : List F32, pixelsRemapCoords (H := H) p ⟨0, 0, ss.width, ss.height⟩ coords
        (floatImage ss sd) ⟨0, 0, ss.width, ss.height⟩ (floatImage ss dd) =
          .ok (floatImage ss out) ∧
      ∀ x y, InBlock ss x y → CopiesPixel ss out ss sd x y x y := by
  obtain ⟨s1, s2, s3, s4, s5, s6, s7, s8, s9, s10⟩ := hs.bounds
  obtain ⟨out, e, -, h⟩ := remap_pixels (H := H) p ⟨0, 0, ss.width, ss.height⟩
    ⟨0, 0, ss.width, ss.height⟩ coords ss ss sd dd hs hs hsl hdl hc rfl
    (by omega) (by unfold InI32; dsimp only; have := hs.1; omega)
    (by unfold InI32; dsimp only; have := hs.2.1; omega)
  refine ⟨out, e, fun x y hxy => ?_⟩
  obtain ⟨cx, cy, hx, hy, hcopy⟩ := h x y hxy
  obtain ⟨ex, ey⟩ := hcenter x y hxy
  rw [ex] at hx
  rw [ey] at hy
  have hx := Option.some.inj hx
  have hy := Option.some.inj hy
  subst hx hy
  rwa [centre_pick hw hxy.1 hxy.2.1, centre_pick hh hxy.2.2.1 hxy.2.2.2] at hcopy

/-- The blend factor of a coordinate. -/
theorem blend_error {a b : Int} (ha : a.natAbs ≤ 2 ^ 23) (hb : b.natAbs ≤ 2 ^ 23) (hab : a < b)
    {x : F32} (hx : IsFinite x) (h0 : (a : ℚ) ≤ val x) (h1 : val x ≤ b) :
    IsFinite (div (sub x (ofInt a)) (sub (ofInt b) (ofInt a)) : F32) ∧
      0 ≤ val (div (sub x (ofInt a)) (sub (ofInt b) (ofInt a)) : F32) ∧
      val (div (sub x (ofInt a)) (sub (ofInt b) (ofInt a)) : F32) ≤ 1 ∧
      |val (div (sub x (ofInt a)) (sub (ofInt b) (ofInt a)) : F32) - (val x - a) / (b - a)| ≤
        1 / 2 ^ 23 := by
  obtain ⟨a1, a2⟩ := int_single (n := a) (by omega)
  obtain ⟨b1, b2⟩ := int_single (n := b) (by omega)
  obtain ⟨l1, l2⟩ := int_single (n := b - a) (by omega)
  obtain ⟨o1, o2⟩ := int_single (n := 1) (by decide)
  obtain ⟨z1, z2⟩ := int_single (n := 0) (by decide)
  have hL : (1 : ℚ) ≤ b - a := by
    have : (1 : Int) ≤ b - a := by omega
    exact_mod_cast this
  have hl := (rounds_sub b1 a1).exact l1 (by rw [a2, b2, l2]; push_cast; ring)
  have ru := rounds_sub hx a1
  rw [a2] at ru
  obtain ⟨u1, -⟩ := ru.finite l1 (by
    rw [l2, abs_of_nonneg (by linarith)]; push_cast
    rw [abs_of_pos (by linarith)]; linarith)
  have ue := single_error ru u1 (M := (b : ℚ) - a) (by
    rw [abs_of_nonneg (by linarith)]; linarith)
  have u0 := ru.ge (y := (ofInt 0 : F32)) u1 (by rw [z2]; push_cast; linarith)
  have uL := ru.le (y := (ofInt (b - a) : F32)) u1 (by rw [l2]; push_cast; linarith)
  rw [z2] at u0
  rw [l2] at uL
  push_cast at u0 uL
  have lv : val (sub (ofInt b) (ofInt a) : F32) = (b : ℚ) - a := by
    rw [hl.2.2, l2]; push_cast; ring
  have rt := rounds_div u1 hl.1 (by rw [lv]; linarith)
  rw [lv] at rt
  generalize (sub x (ofInt a) : F32) = u at *
  generalize (div u (sub (ofInt b) (ofInt a)) : F32) = t at *
  have hLp : (0 : ℚ) < b - a := by linarith
  have q0 : 0 ≤ val u / (b - a) := div_nonneg u0 hLp.le
  have q1 : val u / (b - a) ≤ 1 := (div_le_one hLp).mpr uL
  obtain ⟨t1, -⟩ := rt.finite o1 (by rw [o2, abs_of_nonneg q0]; push_cast; rw [abs_one]; exact q1)
  have t0 := rt.ge (y := (ofInt 0 : F32)) t1 (by rw [z2]; push_cast; exact q0)
  have tL := rt.le (y := (ofInt 1 : F32)) t1 (by rw [o2]; push_cast; exact q1)
  rw [z2] at t0
  rw [o2] at tL
  push_cast at t0 tL
  refine ⟨t1, t0, tL, ?_⟩
  have te := rounds_unit rt t1 q0 q1
  have us : |val u / (b - a) - (val x - a) / (b - a)| ≤ 1 / 2 ^ 24 + 1 / 2 ^ 150 := by
    rw [← sub_div, abs_div, abs_of_pos hLp, div_le_iff₀ hLp]
    refine ue.trans ?_
    have : (1 : ℚ) / 2 ^ 150 ≤ 1 / 2 ^ 150 * (b - a) := le_mul_of_one_le_right (by positivity) hL
    linarith
  have := abs_sub_le (val t) (val u / (b - a)) ((val x - a) / (b - a))
  refine this.trans ((add_le_add te us).trans ?_)
  norm_num

/-- `k` is among `0 .. size - 1` and no pixel is nearer to `x` by more than `e`. -/
def NearestUpTo (e : ℚ) (size : Int) (x : ℚ) (k : Int) : Prop :=
  0 ≤ k ∧ k < size ∧ ∀ j, 0 ≤ j → j < size → |x - (k : ℚ)| ≤ |x - (j : ℚ)| + e

theorem pick_single {size a b c d : Int} (hs : 0 < size) (hs2 : size ≤ 2147483647)
    (ha : a.natAbs ≤ 2 ^ 23) (hb : b.natAbs ≤ 2 ^ 23) (hab : a < b) {x : F32} (hx : IsFinite x) (h0 : (a : ℚ) ≤ val x)
    (h1 : val x ≤ b) {M : Nat} (hM1 : 1 ≤ M) (hM : M ≤ 2 ^ 24) (hc : c.natAbs ≤ M)
    (hd : (d - 1).natAbs ≤ M) :
    NearestUpTo (M / 2 ^ 19) size (position a b c (d - 1) (val x)) (pick size a b c d x) := by
  refine ⟨(pick_range hs x).1, (pick_range hs x).2, fun j j0 j1 => ?_⟩
  obtain ⟨t1, t0, tL, te⟩ := blend_error ha hb hab hx h0 h1
  obtain ⟨c1, c2⟩ := int_single (n := c) (by omega)
  obtain ⟨d1, d2⟩ := int_single (n := d - 1) (by omega)
  rw [pick_lerp]
  generalize (div (sub x (ofInt a)) (sub (ofInt b) (ofInt a)) : F32) = t at *
  have hcM : |(c : ℚ)| ≤ M := by
    have : |c| ≤ (M : Int) := abs_le.mpr ⟨by omega, by omega⟩
    exact_mod_cast this
  have hdM : |((d - 1 : Int) : ℚ)| ≤ M := by
    have : |d - 1| ≤ (M : Int) := abs_le.mpr ⟨by omega, by omega⟩
    exact_mod_cast this
  have hMq : (M : ℚ) ≤ 2 ^ 24 := by exact_mod_cast hM
  have hMq1 : (1 : ℚ) ≤ M := by exact_mod_cast hM1
  obtain ⟨r1, re⟩ := C61_single_error_partial c1 d1 t1 t0 tL (M := M) (by
    refine hMq.trans ?_; norm_num) (by rw [c2]; exact hcM) (by rw [d2]; exact hdM)
  rw [c2, d2] at re
  generalize (Interp.lerp (ofInt c) (ofInt (d - 1)) t : F32) = r at *
  rw [toRange_round ok_single r1]
  -- distance to the exact position
  have hpos : |val r - position a b c (d - 1) (val x)| ≤ M / 2 ^ 20 := by
    have hL : (0 : ℚ) < b - a := by
      have : (0 : Int) < b - a := by omega
      exact_mod_cast this
    have e : (1 - val t) * c + val t * ((d - 1 : Int) : ℚ) - position a b c (d - 1) (val x) =
        (val t - (val x - a) / (b - a)) * (((d - 1 : Int) : ℚ) - c) := by
      unfold position
      have : (val x - a) * (((d - 1 : Int) : ℚ) - c) / (b - a) =
        (val x - a) / (b - a) * (((d - 1 : Int) : ℚ) - c) := by ring
      rw [this]
      ring
    have h2 : |(1 - val t) * c + val t * ((d - 1 : Int) : ℚ) - position a b c (d - 1) (val x)| ≤
        1 / 2 ^ 23 * (2 * M) := by
      rw [e, abs_mul]
      refine mul_le_mul te ?_ (abs_nonneg _) (by positivity)
      refine (abs_sub _ _).trans ?_
      linarith
    have := abs_sub_le (val r) ((1 - val t) * c + val t * ((d - 1 : Int) : ℚ))
      (position a b c (d - 1) (val x))
    refine this.trans ((add_le_add re h2).trans ?_)
    have e1 : (1 : ℚ) / 2 ^ 148 ≤ M / 2 ^ 22 := by
      refine le_trans ?_ (div_le_div_of_nonneg_right hMq1 (by norm_num))
      norm_num
    have e2 : (M : ℚ) / 2 ^ 20 = M / 2 ^ 21 + 1 / 2 ^ 23 * (2 * M) + M / 2 ^ 22 := by ring
    linarith
  have hclose := roundInt_close r
  generalize roundInt r = m at *
  generalize position a b c (d - 1) (val x) = P at *
  generalize val r = v at *
  -- saturation does not matter: there are fewer pixels
  have hk : |v - ((min (max (max (-2147483648) (min 2147483647 m)) 0) (size - 1) : Int) : ℚ)| ≤
      |v - j| := by
    rw [show min (max (max (-2147483648) (min 2147483647 m)) 0) (size - 1) =
      min (max m 0) (size - 1) by omega]
    refine clamp_nearest (F := ℚ) (by omega) v (fun k _ _ => ?_) j j0 (by omega)
    have := Ieee.clamp_nearest (lo := min k m) (hi := max k m) (k := k) hclose (by omega)
    rwa [show max (min k m) (min (max k m) m) = m by omega] at this
  generalize (min (max (max (-2147483648) (min 2147483647 m)) 0) (size - 1) : Int) = s at *
  have e1 := abs_sub_le P v s
  have e2 := abs_sub_le v P j
  rw [abs_sub_comm P v] at e1
  have e3 : (M : ℚ) / 2 ^ 19 = M / 2 ^ 20 + M / 2 ^ 20 := by ring
  linarith

/-- C56 in IEEE arithmetic (partial): for coordinates inside the display window every output pixel
is the source pixel nearest to the requested coordinate, up to a rounding error of at most
M / 2^19 pixels, where M bounds the pixel numbers (1/128 of a pixel for images of 4096 columns).
Missing: two pixels whose distances differ by less may be confused; coordinates outside the display
window. -/
theorem C56_single_nearest_partial {H : Type} [HalfLike F32 H] (p : Profile) (display win : BBox)
    (hdx : display.minX < display.maxX) (hdy : display.minY < display.maxY)
    (hsmall : ∀ v ∈ [display.minX, display.maxX, display.minY, display.maxY], v.natAbs ≤ 2 ^ 23)
    {M : Nat} (hM1 : 1 ≤ M) (hM : M ≤ 2 ^ 24)
    (hwin : ∀ v ∈ [win.minX, win.maxX - 1, win.minY, win.maxY - 1], v.natAbs ≤ M)
    (coords : List F32) (ss ds : BlockSize) (sd dd : List F32) (hs : ValidSize ss)
    (hd : ValidSize ds)
    (hsl : (sd.length : Int) = elements ss) (hdl : (dd.length : Int) = elements ds)
    (hc : ss.numChannels = 3 ∨ ss.numChannels = 4) (hcc : ds.numChannels = ss.numChannels)
    (hcount : coords.length / 2 = (ds.width * ds.height).toNat) :
    ∃ out : List F32, pixelsRemapCoords (H := H) p display coords (floatImage ss sd) win
        (floatImage ds dd) = .ok (floatImage ds out) ∧
      ∀ x y, InBlock ds x y → ∃ cx cy,
        coords[2 * (y * ds.width + x).toNat]? = some cx ∧
        coords[2 * (y * ds.width + x).toNat + 1]? = some cy ∧
        (IsFinite cx → IsFinite cy →
          (display.minX : ℚ) ≤ val cx → val cx ≤ display.maxX →
          (display.minY : ℚ) ≤ val cy → val cy ≤ display.maxY →
          ∃ sx sy, NearestUpTo (M / 2 ^ 19) ss.width
              (position display.minX display.maxX win.minX (win.maxX - 1) (val cx)) sx ∧
            NearestUpTo (M / 2 ^ 19) ss.height
              (position display.minY display.maxY win.minY (win.maxY - 1) (val cy)) sy ∧
            CopiesPixel ds out ss sd x y sx sy) := by
  obtain ⟨m1, m2, m3, m4⟩ : display.minX.natAbs ≤ 2 ^ 23 ∧ display.maxX.natAbs ≤ 2 ^ 23 ∧
      display.minY.natAbs ≤ 2 ^ 23 ∧ display.maxY.natAbs ≤ 2 ^ 23 :=
    ⟨hsmall _ (by simp), hsmall _ (by simp), hsmall _ (by simp), hsmall _ (by simp)⟩
  obtain ⟨n1, n2, n3, n4⟩ : win.minX.natAbs ≤ M ∧ (win.maxX - 1).natAbs ≤ M ∧
      win.minY.natAbs ≤ M ∧ (win.maxY - 1).natAbs ≤ M :=
    ⟨hwin _ (by simp), hwin _ (by simp), hwin _ (by simp), hwin _ (by simp)⟩
  obtain ⟨s1, s2, s3, s4, s5, s6, s7, s8, s9, s10⟩ := hs.bounds
  obtain ⟨out, e, hl, h⟩ := remap_pixels (H := H) p display win coords ss ds sd dd hs hd hsl hdl hc
    hcc hcount (by unfold InI32; omega) (by unfold InI32; omega)
  refine ⟨out, e, fun x y hxy => ?_⟩
  obtain ⟨cx, cy, hx, hy, h⟩ := h x y hxy
  refine ⟨cx, cy, hx, hy, fun fx fy x0 x1 y0 y1 => ⟨_, _, ?_, ?_, h⟩⟩
  · exact pick_single hs.1 (by omega) m1 m2 hdx fx x0 x1 hM1 hM n1 n2
  · exact pick_single hs.2.1 (by omega) m3 m4 hdy fy y0 y1 hM1 hM n3 n4

end

/-! ### Examples -/

section Examples

attribute [local instance] exactPowf

def centres21 : List F32 :=
  [add (ofInt 0) (div (ofInt 1) (ofInt 2)), add (ofInt 0) (div (ofInt 1) (ofInt 2)),
    add (ofInt 1) (div (ofInt 1) (ofInt 2)), add (ofInt 0) (div (ofInt 1) (ofInt 2))]

-- two pixels, red and green
example : ∃ out : List F32, pixelsRemapCoords (H := F16) .debug ⟨0, 0, 2, 1⟩ centres21
    (floatImage ⟨2, 1, 3⟩ [1, 0, 0, 0, 1, 0]) ⟨0, 0, 2, 1⟩
    (floatImage ⟨2, 1, 3⟩ (List.replicate 6 0)) = .ok (floatImage ⟨2, 1, 3⟩ out) ∧
      ∀ x y, InBlock ⟨2, 1, 3⟩ x y →
        CopiesPixel ⟨2, 1, 3⟩ out ⟨2, 1, 3⟩ [1, 0, 0, 0, 1, 0] x y x y := by
  refine C56_single_identity .debug centres21 ⟨2, 1, 3⟩ [1, 0, 0, 0, 1, 0] (List.replicate 6 0)
    ⟨by decide, by decide, by decide, by decide⟩ (by decide) (by decide) rfl rfl (.inl rfl) rfl ?_
  rintro x y ⟨x0, x1, y0, y1⟩
  dsimp only at x1 y1 ⊢
  obtain rfl : y = 0 := by omega
  obtain rfl | rfl : x = 0 ∨ x = 1 := by omega
  · exact ⟨congrArg some (centre_ieee 0).symm, congrArg some (centre_ieee 0).symm⟩
  · exact ⟨congrArg some (centre_ieee 1).symm, congrArg some (centre_ieee 0).symm⟩

example : ∃ out : List F32, pixelsRemapCoords (H := F16) .debug ⟨0, 0, 2, 1⟩ centres21
    (floatImage ⟨2, 1, 3⟩ [1, 0, 0, 0, 1, 0]) ⟨0, 0, 2, 1⟩
    (floatImage ⟨2, 1, 3⟩ (List.replicate 6 0)) = .ok (floatImage ⟨2, 1, 3⟩ out) := by
  obtain ⟨out, e, -⟩ := C56_single_nearest_partial (H := F16) .debug ⟨0, 0, 2, 1⟩ ⟨0, 0, 2, 1⟩
    (by decide) (by decide) (by decide) (M := 1) (by decide) (by decide) (by decide) centres21
    ⟨2, 1, 3⟩ ⟨2, 1, 3⟩ [1, 0, 0, 0, 1, 0] (List.replicate 6 0) ⟨by decide, by decide, by decide, by decide⟩
    ⟨by decide, by decide, by decide, by decide⟩ rfl rfl (.inl rfl) rfl rfl
  exact ⟨out, e⟩

end Examples

end OCG.Props
