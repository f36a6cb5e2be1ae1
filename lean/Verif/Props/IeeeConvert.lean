import Verif.Model.PixelBlock
import Verif.Proofs.Ieee
/-
C100: pixel values survive a conversion to a wider type and back, in the arithmetic of `f32` and
`f16` (Verif.Model.Ieee).
-/

namespace OCG.Props

open Ieee IeeeSpec

variable [Libm single32]

/-- `t` to `u` and back gives every value again. -/
def Survives (t u : DType) : Prop :=
  ∀ x : Elem F32 F16 t, convElem u t (convElem t u x) = x

theorem u8_float_u8 : ∀ x : Fin 256,
    Fin.ofNat 256 (toRange 0 255 (mul (div (ofInt x.val) (ofInt 255)) (ofInt 255) : F32)).toNat =
      x := by
  decide +kernel

/-- C100: 8-bit values survive the way to `f32` and back. -/
theorem C100_u8_float : Survives .u8 .f32 := fun x => u8_float_u8 x

/-- A quotient by 65535 times 65535, in units of `f32`. -/
theorem quotient_times {x : Nat} (h1 : 1 ≤ x) (h2 : x < 65535) :
    ∃ c, units single32 c = x * 2 ^ 149 ∧
      nearestCode single32 (units single32 (nearestCode single32 (x * 2 ^ 149) 65535) * 65535) 1
        = c := by
  obtain ⟨c, hc⟩ := exists_units (f := single32) (n := x) (by show x ≤ 2 * 2 ^ 23; omega) 149
  refine ⟨c, hc, ?_⟩
  obtain ⟨s, n, rfl, g1, g2⟩ := exists_shift single32 c
  have hu := units_shift (f := single32) s n (by omega) g2
  have hnext := units_next (f := single32) g1 g2
  have hM : (2 : Nat) ^ single32.mant = 8388608 := by decide
  rw [hM] at hu hnext g1 g2 hc ⊢
  have hX : n * 2 ^ s = x * 2 ^ 149 := hu.symm.trans hc
  -- the shift of the value
  have hbig : (2 : Nat) ^ 149 = 8388608 * 2 ^ 126 := by decide +kernel
  have hn : 8388608 ≤ n := by
    rcases g2 with rfl | h
    · rw [hbig] at hX
      have : 8388608 * 2 ^ 126 ≤ x * (8388608 * 2 ^ 126) := Nat.le_mul_of_pos_left _ h1
      have : 16777216 < 8388608 * 2 ^ 126 := by decide +kernel
      omega
    · exact h
  have hs : s ≤ 149 := by
    by_contra hlt
    obtain ⟨j, rfl⟩ := Nat.exists_eq_add_of_lt (Nat.lt_of_not_le hlt)
    have : n * 2 ^ (j + 1) * 2 ^ 149 = x * 2 ^ 149 := by rw [← hX]; ring
    have := Nat.eq_of_mul_eq_mul_right (by positivity) this
    have : n * 1 ≤ n * 2 ^ (j + 1) := Nat.mul_le_mul_left _ (Nat.one_le_two_pow)
    omega
  obtain ⟨j, hj⟩ := Nat.exists_eq_add_of_le hs
  have hxn : n = x * 2 ^ j := by
    have e : (2 : Nat) ^ 149 = 2 ^ j * 2 ^ s := by rw [hj, pow_add]; ring
    rw [e, ← Nat.mul_assoc] at hX
    exact Nat.eq_of_mul_eq_mul_right (two_pow_pos' s) hX
  have hj8 : 8 ≤ j := by
    by_contra hlt
    have : (2 : Nat) ^ j ≤ 2 ^ 7 := Nat.pow_le_pow_right (by decide) (by omega)
    have : x * 2 ^ j ≤ 65534 * 2 ^ 7 := Nat.mul_le_mul (by omega) this
    omega
  have hj23 : j ≤ 23 := by
    by_contra hlt
    have : (2 : Nat) ^ 24 ≤ 2 ^ j := Nat.pow_le_pow_right (by decide) (by omega)
    have : 1 * 2 ^ 24 ≤ x * 2 ^ j := Nat.mul_le_mul h1 this
    omega
  have hs100 : 126 ≤ s := by omega
  obtain ⟨t, rfl⟩ : ∃ t, s = t + 16 := ⟨s - 16, by omega⟩
  -- the quotient
  obtain ⟨sy, ny, ey, k1, k2, k3, k4, k5⟩ :=
    nearest_form (f := single32) (x * 2 ^ 149) 65535 (by decide)
  have hy := units_shift (f := single32) sy ny k1 k2
  rw [hM] at ey k1 k2 k3 hy
  rw [← hX] at k3 k4 k5
  have hsy : sy ≤ t := by
    rcases k3 with rfl | k3
    · omega
    · by_contra hlt
      have e : 2 ^ (t + 1) ≤ 2 ^ sy := Nat.pow_le_pow_right (by decide) (by omega)
      have : 8388608 * 2 ^ (t + 1) * 65535 ≤ n * 2 ^ (t + 16) :=
        le_trans (Nat.mul_le_mul_right _ (Nat.mul_le_mul_left _ e)) k3
      rw [pow_add, pow_add] at this
      have : 2 ^ t * (8388608 * 2 * 65535) ≤ 2 ^ t * (n * 65536) := by
        calc _ = 8388608 * (2 ^ t * 2 ^ 1) * 65535 := by ring
          _ ≤ _ := this
          _ = _ := by ring
      have hge := Nat.le_of_mul_le_mul_left this (two_pow_pos' t)
      -- then `n` is at least 2^24 - 256, but it is a multiple of a power of two
      rw [hxn] at hge g1
      by_cases h9 : j = 8
      · subst h9; omega
      · obtain ⟨i, rfl⟩ : ∃ i, j = i + 9 := ⟨j - 9, by omega⟩
        rw [pow_add] at hge g1
        have e3 : x * (2 ^ i * 2 ^ 9) = 512 * (x * 2 ^ i) := by ring
        rw [e3] at hge g1
        omega
  have hty : 2 ^ sy ≤ 2 ^ t := Nat.pow_le_pow_right (by decide) hsy
  have ht : (2 : Nat) ^ (t + 16) = 65536 * 2 ^ t := by rw [pow_add]; ring
  rw [ey, hy]
  -- above: less than half a step
  have hup : nearestCode single32 (ny * 2 ^ sy * 65535) 1 ≤ (t + 16) * 8388608 + n := by
    refine nearest_le_of_mid (by decide) ?_
    rw [hnext, hu, Nat.mul_one, ht]
    rw [ht] at k4
    have := two_pow_pos' t
    generalize n * (65536 * 2 ^ t) = a at *
    generalize ny * 2 ^ sy = b at *
    omega
  have hlo : (t + 16) * 8388608 + n ≤ nearestCode single32 (ny * 2 ^ sy * 65535) 1 := by
    by_cases hpow : n = 8388608
    · -- a power of two: compare with the truncated quotient
      have e : (t + 16) * 8388608 + n = (t + 15) * 8388608 + 16777215 + 1 := by
        rw [hpow]; ring
      have hprev := units_shift (f := single32) (t + 15) 16777215 (by rw [hM]; decide)
        (.inr (by rw [hM]; decide))
      rw [hM] at hprev
      rw [e]
      refine le_nearest_of_mid (by decide) ?_
      rw [← e, hprev, hu, Nat.mul_one, hpow, ht, show (2 : Nat) ^ (t + 15) = 32768 * 2 ^ t by
        rw [pow_add]; ring]
      -- 2^k / 65535 is at least 2^(k-16) (1 + 2^-16)
      have hz := units_shift (f := single32) t (8388608 + 128) (by rw [hM]; decide)
        (.inr (by rw [hM]; decide))
      have hle := le_nearest (f := single32) (num := x * 2 ^ 149) (den := 65535)
        (c := t * 2 ^ single32.mant + (8388608 + 128)) (by decide) (by
          rw [hz, ← hX, hpow, ht]
          have := two_pow_pos' t
          omega)
      rw [← units_le (f := single32), hz, ey, hy] at hle
      have := two_pow_pos' t
      omega
    · have e : (t + 16) * 8388608 + n = (t + 16) * 8388608 + (n - 1) + 1 := by omega
      have hprev := units_shift (f := single32) (t + 16) (n - 1) (by rw [hM]; omega)
        (.inr (by rw [hM]; omega))
      rw [hM] at hprev
      rw [e]
      refine le_nearest_of_mid (by decide) ?_
      rw [← e, hprev, hu, Nat.mul_one, ht]
      obtain ⟨m, rfl⟩ : ∃ m, n = m + 1 := ⟨n - 1, by omega⟩
      rw [ht, Nat.add_mul] at k5
      have := two_pow_pos' t
      rw [Nat.add_sub_cancel, Nat.add_mul]
      generalize m * (65536 * 2 ^ t) = a at *
      generalize ny * 2 ^ sy = b at *
      omega
  exact le_antisymm hup hlo

theorem u16_float_u16 (x : Fin 65536) :
    Fin.ofNat 65536
      (toRange 0 65535 (mul (div (ofInt x.val) (ofInt 65535)) (ofInt 65535) : F32)).toNat = x := by
  by_cases h0 : x.val = 0
  · obtain rfl : x = 0 := Fin.ext h0
    decide +kernel
  by_cases hw : x.val = 65535
  · obtain rfl : x = 65535 := Fin.ext hw
    decide +kernel
  have hx1 : 1 ≤ x.val := by omega
  have hx2 : x.val < 65535 := by omega
  obtain ⟨n1, n2, n3⟩ := ofInt_spec ok_single (n := (x.val : Int)) (by
    show x.val ≤ 2 * 2 ^ 23; omega)
  obtain ⟨w1, w2, w3⟩ := ofInt_spec ok_single (n := 65535) (by decide)
  change (ofInt 65535 : F32).mag = 65535 * 2 ^ 149 at w2
  change (ofInt (x.val : Int) : F32).mag = x.val * 2 ^ 149 at n2
  have w0 : (ofInt 65535 : F32).code ≠ 0 := code_ne_zero (by rw [w2]; positivity)
  have n4 : (ofInt (x.val : Int) : F32).neg = false := by rw [n3]; simp
  have w4 : (ofInt 65535 : F32).neg = false := by rw [w3]; simp
  obtain ⟨c, hc, hq⟩ := quotient_times hx1 hx2
  -- the quotient
  obtain ⟨o1, o2, o3⟩ := one_spec ok_single
  have hlt1 : nearestCode single32 (x.val * 2 ^ 149) 65535 ≤ (ofInt 1 : F32).code := by
    refine nearest_le (by decide) ?_
    change _ ≤ (ofInt 1 : F32).mag * 65535
    rw [o2, Nat.mul_comm]
    exact Nat.mul_le_mul_left _ (by omega)
  have hlt : nearestCode single32 (x.val * 2 ^ 149) 65535 < infCode single32 :=
    lt_of_le_of_lt hlt1 ((finite_iff _).mp o1)
  have hdiv : (div (ofInt x.val) (ofInt 65535) : F32) =
      rounded false (x.val * 2 ^ 149) 65535 := by
    rw [div_finite n1 w1 w0, n2, w2, n4, w4]
    unfold rounded
    rw [nearest_scale _ _ (two_pow_pos' _)]; rfl
  have hcode := rounded_code (f := single32) (neg := false) hlt.le
  have hfin : IsFinite (rounded false (x.val * 2 ^ 149) 65535 : F32) := by
    rw [finite_iff, hcode]; exact hlt
  have hmul : (mul (rounded false (x.val * 2 ^ 149) 65535) (ofInt 65535) : F32) =
      pack false c := by
    rw [mul_finite hfin w1, w2, w4]
    unfold rounded
    have hsc := nearest_scale (f := single32)
      ((pack false (nearestCode single32 (x.val * 2 ^ 149) 65535) : F32).mag * 65535) 1
      (two_pow_pos' 149)
    rw [Nat.one_mul] at hsc
    rw [← Nat.mul_assoc, hsc]
    have : (pack false (nearestCode single32 (x.val * 2 ^ 149) 65535) : F32).mag =
        units single32 (nearestCode single32 (x.val * 2 ^ 149) 65535) := by
      unfold mag; exact congrArg _ hcode
    rw [this, hq]; rfl
  rw [hdiv, hmul]
  have hcl : c < infCode single32 := by
    rw [← units_lt (f := single32), hc]
    refine lt_of_lt_of_le ?_ (Nat.le_of_lt ok_single.big)
    exact Nat.mul_lt_mul_of_pos_right (by show x.val < 2 * 2 ^ 23; omega) (two_pow_pos' _)
  have hpc : (pack false c : F32).code = c := Nat.min_eq_left hcl.le
  have hnan : (pack false c : F32).isNan = false := by
    unfold isNan; rw [hpc]; simp; omega
  have htr : (pack false c : F32).trunc = x.val := by
    unfold trunc mag
    rw [hpc, hc]
    show ((x.val * 2 ^ 149 / 2 ^ 149 : Nat) : Int) = _
    rw [Nat.mul_div_cancel _ (two_pow_pos' _)]
  unfold toRange
  rw [hnan, htr]
  have : max 0 (min 65535 (x.val : Int)) = x.val := by omega
  simp only [Bool.false_eq_true, if_false, this, Int.toNat_natCast]
  exact Fin.ext (Nat.mod_eq_of_lt x.isLt)

/-- C100: 16-bit values survive the way to `f32` and back. -/
theorem C100_u16_float : Survives .u16 .f32 := fun x => u16_float_u16 x

theorem u8_u16 : ∀ x : Fin 256,
    Fin.ofNat 65536
      (toRange 0 65535 (mul (div (ofInt x.val) (ofInt 255)) (ofInt 65535) : F32)).toNat =
      Fin.ofNat 65536 (257 * x.val) := by
  decide +kernel

/-- C100: an 8-bit value becomes the 16-bit value of the same brightness, 257 times as large. -/
theorem C100_u8_to_u16 (x : Fin 256) :
    (Fin.val (n := 65536) (convElem (F := F32) (H := F16) .u8 .u16 x)) = 257 * x.val := by
  have h := congrArg Fin.val (u8_u16 x)
  rw [show (Fin.ofNat 65536 (257 * x.val)).val = 257 * x.val from Nat.mod_eq_of_lt (by omega)] at h
  exact h

theorem u16_u8 : ∀ x : Fin 256,
    Fin.ofNat 256 (toRange 0 255
      (mul (div (ofInt (Fin.ofNat 65536 (257 * x.val)).val) (ofInt 65535)) (ofInt 255) :
        F32)).toNat = x := by
  decide +kernel

/-- C100: 8-bit values survive the way to 16 bits and back. -/
theorem C100_u8_u16 : Survives .u8 .u16 := by
  intro x
  have h : convElem (F := F32) (H := F16) .u8 .u16 x = Fin.ofNat 65536 (257 * Fin.val (n := 256) x) :=
    u8_u16 x
  rw [h]
  exact u16_u8 x

/-- A half float as a single float stands for the same number. -/
theorem half_to_single {x : F16} (hx : IsFinite x) :
    IsFinite (x.convert : F32) ∧ (x.convert : F32).mag = x.mag * 2 ^ 125 ∧
      (x.convert : F32).neg = x.neg := by
  have hconv : (x.convert : F32) = rounded x.neg (x.mag * 2 ^ 149) (2 ^ 24) := by
    unfold Ieee.convert
    rw [not_nan hx, not_inf hx]; rfl
  obtain ⟨s, n, e, h1, h2⟩ := exists_shift half16 x.code
  have hmag : x.mag = n * 2 ^ s := by
    unfold mag; rw [e, units_shift s n (by omega) h2]
  obtain ⟨c, hc⟩ := exists_units (f := single32) (n := n) (by
    have : n < 2 * 2 ^ 10 := h1
    show n ≤ 2 * 2 ^ 23
    omega) (s + 125)
  have hlt : c < infCode single32 := by
    have hs : s ≤ 31 := by
      rw [finite_iff, e] at hx
      change s * 2 ^ 10 + n < 31 * 2 ^ 10 at hx
      omega
    rw [← units_lt (f := single32), hc]
    have g1 : n * 2 ^ (s + 125) ≤ 2048 * 2 ^ 156 :=
      Nat.mul_le_mul (by have : n < 2 * 2 ^ 10 := h1; omega)
        (Nat.pow_le_pow_right (by decide) (by omega))
    have g2 : 2048 * 2 ^ 156 < units single32 (infCode single32) := by decide +kernel
    omega
  have hn : nearestCode single32 (x.mag * 2 ^ 149) (2 ^ 24) = c := by
    have := nearest_exact (f := single32) c (two_pow_pos' 24)
    rw [hc] at this
    have e2 : n * 2 ^ s * 2 ^ 149 = n * 2 ^ (s + 125) * 2 ^ 24 := by
      rw [Nat.mul_assoc, Nat.mul_assoc, ← pow_add, ← pow_add]
    rw [hmag, e2, this]
  have hcode : (x.convert : F32).code = c := by
    rw [hconv, rounded_code (by rw [hn]; exact hlt.le), hn]
  refine ⟨?_, ?_, by rw [hconv]; rfl⟩
  · rw [finite_iff, hcode]; exact hlt
  · have : (x.convert : F32).mag = units single32 c := congrArg _ hcode
    rw [this, hc, hmag, Nat.mul_assoc, ← pow_add]

/-- C100: half floats survive the way to `f32` and back (infinities too). -/
theorem C100_half_float (x : F16) (hx : x.isNan = false) :
    convElem (F := F32) (H := F16) .f32 .f16 (convElem .f16 .f32 x) = x := by
  show (x.convert : F32).convert = x
  by_cases hi : x.isInf = true
  · have h : x.code = infCode half16 := by unfold isInf at hi; simpa using hi
    have hb : x = inf x.neg := ext' rfl (by rw [h]; exact (Nat.min_self _).symm)
    rw [hb]
    generalize x.neg = b
    cases b <;> decide +kernel
  · have hfin : IsFinite x := by
      rw [finite_iff]
      unfold isNan at hx
      unfold isInf at hi
      simp at hx hi
      omega
    obtain ⟨h1, h2, h3⟩ := half_to_single hfin
    generalize hy : (x.convert : F32) = y at *
    have hback : (y.convert : F16) = rounded y.neg (y.mag * 2 ^ half16.unit) (2 ^ single32.unit) := by
      unfold Ieee.convert
      rw [not_nan h1, not_inf h1]; rfl
    rw [hback, h2, h3, Nat.mul_assoc, ← pow_add]
    exact rounded_exact (code_le hfin) (two_pow_pos' 149)

/-- C100 is false for 8-bit values and half floats, although half floats have more digits: the
quotient is rounded to a half float and then cut off. -/
theorem C100_counterexample : ¬ Survives .u8 .f16 := by
  intro h
  have h1 : Fin.ofNat 256 (toRange 0 255 (mul
      (Ieee.convert (Ieee.convert (div (ofInt 1) (ofInt 255) : F32) : F16)) (ofInt 255) : F32)).toNat
        = 1 := h (1 : Fin 256)
  revert h1
  decide +kernel

/-- C100: a conversion that every value survives, every image survives. -/
theorem C100_image {t u : DType} (h : Survives t u) (size : BlockSize)
    (data : List (Elem F32 F16 t)) :
    (PixelBlock.convert ⟨size, ⟨t, data⟩⟩ (.known u) >>= fun b => b.convert (.known t)) =
      .ok ⟨size, ⟨t, data⟩⟩ := by
  by_cases e : t = u
  · subst e
    simp [PixelBlock.convert, DataBlock.convert, bind, Except.bind]
  · have e' : ¬ u = t := fun h => e h.symm
    simp only [PixelBlock.convert, DataBlock.convert, bind, Except.bind, if_neg e, if_neg e',
      List.map_map]
    congr 3
    conv_rhs => rw [← List.map_id data]
    exact List.map_congr_left fun x _ => h x

/-- C100, C71: the float of an 8-bit or 16-bit value is the float nearest to its brightness. -/
theorem C100_nearest_u8 (x : Fin 256) :
    Nearest (((x.val : Nat) : ℚ) / 255) (convElem (F := F32) (H := F16) .u8 .f32 x : F32) := by
  obtain ⟨a1, a2, a3⟩ := ofInt_spec ok_single (n := (x.val : Int)) (by show x.val ≤ 2 * 2 ^ 23; omega)
  obtain ⟨b1, b2, b3⟩ := ofInt_spec ok_single (n := 255) (by decide)
  have va := ofInt_val ok_single (n := (x.val : Int)) (by show x.val ≤ 2 * 2 ^ 23; omega)
  have vb := ofInt_val ok_single (n := 255) (by decide)
  have hfin : ∀ y : Fin 256, (div (ofInt y.val) (ofInt 255) : F32).isFinite = true := by
    decide +kernel
  have := div_nearest (by decide) a1 b1 (by rw [vb]; norm_num) (by
    rw [finite_iff]; have := hfin x; unfold isFinite at this; simpa using this)
  rw [va, vb] at this
  push_cast at this
  exact this

omit [Libm single32] in
theorem quotient_finite {x : Nat} (h : x ≤ 65535) :
    IsFinite (div (ofInt x) (ofInt 65535) : F32) := by
  obtain ⟨n1, n2, n3⟩ := ofInt_spec ok_single (n := (x : Int)) (by show x ≤ 2 * 2 ^ 23; omega)
  obtain ⟨w1, w2, w3⟩ := ofInt_spec ok_single (n := 65535) (by decide)
  change (ofInt 65535 : F32).mag = 65535 * 2 ^ 149 at w2
  change (ofInt (x : Int) : F32).mag = x * 2 ^ 149 at n2
  have w0 : (ofInt 65535 : F32).code ≠ 0 := code_ne_zero (by rw [w2]; positivity)
  obtain ⟨o1, o2, o3⟩ := one_spec ok_single
  have hlt1 : nearestCode single32 (x * 2 ^ 149) 65535 ≤ (ofInt 1 : F32).code := by
    refine nearest_le (by decide) ?_
    change _ ≤ (ofInt 1 : F32).mag * 65535
    rw [o2, Nat.mul_comm]
    exact Nat.mul_le_mul_left _ (by omega)
  have hlt := lt_of_le_of_lt hlt1 ((finite_iff _).mp o1)
  rw [div_finite n1 w1 w0, n2, w2, finite_iff]
  unfold rounded
  rw [nearest_scale _ _ (two_pow_pos' _)]
  exact lt_of_le_of_lt (Nat.min_le_left _ _) hlt

theorem C100_nearest_u16 (x : Fin 65536) :
    Nearest (((x.val : Nat) : ℚ) / 65535) (convElem (F := F32) (H := F16) .u16 .f32 x : F32) := by
  obtain ⟨a1, a2, a3⟩ := ofInt_spec ok_single (n := (x.val : Int)) (by show x.val ≤ 2 * 2 ^ 23; omega)
  obtain ⟨b1, b2, b3⟩ := ofInt_spec ok_single (n := 65535) (by decide)
  have va := ofInt_val ok_single (n := (x.val : Int)) (by show x.val ≤ 2 * 2 ^ 23; omega)
  have vb := ofInt_val ok_single (n := 65535) (by decide)
  have := div_nearest (by decide) a1 b1 (by rw [vb]; norm_num) (quotient_finite (by omega))
  rw [va, vb] at this
  push_cast at this
  exact this

end OCG.Props

namespace OCG.Props.IeeeConvertExamples

open Ieee IeeeSpec

/-- Some library of mathematical functions, for the examples. -/
@[instance_reducible] def someLibm : Libm single32 := ⟨fun x _ => x, fun x => x, fun x => x⟩

attribute [local instance] someLibm

/-- The half float nearest to 1/3 is not NaN and survives. -/
example : convElem (F := F32) (H := F16) .f32 .f16
    (convElem .f16 .f32 (⟨false, 0x3555, by decide⟩ : F16)) = (⟨false, 0x3555, by decide⟩ : F16) :=
  C100_half_float _ (by decide)

/-- An RGB pixel of 8 bits per channel survives the way to `f32` and back. -/
example : (PixelBlock.convert (F := F32) (H := F16)
    ⟨⟨1, 1, 3⟩, ⟨.u8, ([1, 128, 255] : List (Fin 256))⟩⟩ (.known .f32) >>=
      fun b => b.convert (.known .u8)) =
    .ok ⟨⟨1, 1, 3⟩, ⟨.u8, ([1, 128, 255] : List (Fin 256))⟩⟩ :=
  C100_image C100_u8_float _ _

/-- 1/3 in single precision is 0x3eaaaaab (21845 is a third of 65535). -/
example : (convElem (F := F32) (H := F16) .u16 .f32 (21845 : Fin 65536) : F32) =
    ⟨false, 0x3eaaaaab, by decide⟩ := by
  show div (ofInt 21845) (ofInt 65535) = (_ : F32)
  decide +kernel

end OCG.Props.IeeeConvertExamples
