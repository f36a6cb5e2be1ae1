import Verif.Model.ColorUtils
import Verif.Model.FastPow
import Verif.Proofs.Block
import Verif.Proofs.Srgb
import Verif.Props.IeeeConvert
import Verif.Props.IeeeConfig
import Verif.Spec.Field
import Verif.Spec.Srgb
/-
C113: the sRGB conversions follow the standard and undo each other.
-/

namespace OCG.Props

open SrgbSpec

section
variable [FloatOps ℝ]

theorem lit_real (a b : Int) : (ratio a b : ℝ) = (a : ℝ) / b := rfl

theorem fle_real (a b : ℝ) : fle a b = true ↔ a ≤ b := by
  show (decide (a < b) || decide (a = b)) = true ↔ _
  simp [le_iff_lt_or_eq]

/-- C113: with an exact power function, decoding is the standard one. -/
theorem C113_decode (x : ℝ) : srgbToLinear Real.rpow x = decode x := by
  unfold srgbToLinear decode
  simp only [fle_real, lit_real]
  have h1 : (((4045 : Int) : ℝ) / ((100000 : Int) : ℝ)) = 0.04045 := by norm_num
  rw [h1]
  split
  · push_cast; ring
  · show ((x + _) * (1 / (1 + _))) ^ (_ : ℝ) = _
    congr 1
    · push_cast; ring
    · norm_num

/-- C113: with an exact power function, encoding is the standard one. -/
theorem C113_encode (x : ℝ) : linearToSrgb Real.rpow x = encode x := by
  unfold linearToSrgb encode
  simp only [fle_real, lit_real]
  have h1 : (((31308 : Int) : ℝ) / ((10000000 : Int) : ℝ)) = 0.0031308 := by norm_num
  rw [h1]
  split
  · push_cast; ring
  · have e : (1 / (((24 : Int) : ℝ) / ((10 : Int) : ℝ))) = 1 / 2.4 := by norm_num
    rw [e]
    show (1 + _) * x ^ (1 / 2.4 : ℝ) - _ = _
    push_cast; ring

end

/-- Comparing a power with exponent 2.4. -/
theorem pow24_lt {a b : ℝ} (ha : 0 ≤ a) (hb : 0 ≤ b) (h : b ^ 5 < a ^ 12) : b < a ^ (2.4 : ℝ) := by
  have e : (a ^ (2.4 : ℝ)) ^ 5 = a ^ 12 := by
    rw [← Real.rpow_natCast, ← Real.rpow_mul ha, ← Real.rpow_natCast]
    norm_num
  have hp : 0 ≤ a ^ (2.4 : ℝ) := Real.rpow_nonneg ha _
  by_contra hc
  have := pow_le_pow_left₀ hp (not_lt.mp hc) 5
  linarith

theorem lt_pow24 {a b : ℝ} (ha : 0 ≤ a) (hb : 0 ≤ b) (h : a ^ 12 < b ^ 5) : a ^ (2.4 : ℝ) < b := by
  have e : (a ^ (2.4 : ℝ)) ^ 5 = a ^ 12 := by
    rw [← Real.rpow_natCast, ← Real.rpow_mul ha, ← Real.rpow_natCast]
    norm_num
  by_contra hc
  have := pow_le_pow_left₀ hb (not_lt.mp hc) 5
  linarith

/-- C113: decoding keeps the order strictly. -/
theorem C113_order {x y : ℝ} (h : x < y) : decode x < decode y := by
  unfold decode
  have mid : (0.04045 : ℝ) / 12.92 < ((0.04045 + 0.055) / 1.055) ^ (2.4 : ℝ) :=
    pow24_lt (by norm_num) (by norm_num) (by norm_num)
  have up : ∀ {a b : ℝ}, 0.04045 ≤ a → a < b →
      ((a + 0.055) / 1.055) ^ (2.4 : ℝ) < ((b + 0.055) / 1.055) ^ (2.4 : ℝ) := by
    intro a b ha hab
    refine Real.rpow_lt_rpow ?_ ?_ (by norm_num)
    · have : (0 : ℝ) < 0.04045 := by norm_num
      apply div_nonneg <;> linarith
    · gcongr
  split <;> split
  · gcongr
  · rename_i hx hy
    calc x / 12.92 ≤ 0.04045 / 12.92 := by gcongr
      _ < _ := mid
      _ < _ := up le_rfl (not_le.mp hy)
  · rename_i hx hy
    linarith
  · rename_i hx hy
    exact up (not_le.mp hx).le h

/-- C113 (partial): encoding what was decoded gives the value back.  Missing: the values between
12.92 times 0.0031308 and 0.04045, where the two thresholds of the standard do not meet. -/
theorem C113_round_trip_partial {x : ℝ} (h : x ≤ 12.92 * 0.0031308 ∨ 0.04045 < x) :
    encode (decode x) = x := by
  rcases h with h | h
  · have h1 : x ≤ 0.04045 := h.trans (by norm_num)
    have h2 : x / 12.92 ≤ 0.0031308 := by rw [div_le_iff₀ (by norm_num)]; linarith
    unfold encode decode
    rw [if_pos h1, if_pos h2]
    ring
  · have hb : (0 : ℝ) ≤ (x + 0.055) / 1.055 := by
      have : (0 : ℝ) < 0.04045 := by norm_num
      apply div_nonneg <;> linarith
    have h2 : (0.0031308 : ℝ) < decode x := by
      refine lt_trans ?_ (C113_order h)
      unfold decode
      rw [if_pos le_rfl]
      norm_num
    have h3 : decode x = ((x + 0.055) / 1.055) ^ (2.4 : ℝ) := by
      unfold decode
      rw [if_neg (not_le.mpr h)]
    unfold encode
    rw [if_neg (not_le.mpr h2), h3, ← Real.rpow_mul hb]
    norm_num
    ring

/-- C113: decoding what was encoded gives the value back, up to 0.0031308 and from 0.003131. -/
theorem C113_round_trip_linear_partial {l : ℝ} (h : l ≤ 0.0031308 ∨ 0.003131 ≤ l) :
    decode (encode l) = l := by
  rcases h with h | h
  · have h2 : 12.92 * l ≤ 0.04045 := by
      have : 12.92 * l ≤ 12.92 * 0.0031308 := by gcongr
      refine this.trans (by norm_num)
    unfold encode decode
    rw [if_pos h, if_pos h2]
    ring
  · have hl : (0 : ℝ) ≤ l := le_trans (by norm_num) h
    have h1 : ¬ l ≤ 0.0031308 := not_le.mpr (lt_of_lt_of_le (by norm_num) h)
    have hp : (0 : ℝ) ≤ l ^ (1 / 2.4 : ℝ) := Real.rpow_nonneg hl _
    have e : (l ^ (1 / 2.4 : ℝ)) ^ (2.4 : ℝ) = l := by
      rw [← Real.rpow_mul hl]
      norm_num
    have h3 : (0.04045 : ℝ) < 1.055 * l ^ (1 / 2.4 : ℝ) - 0.055 := by
      have key : (0.09545 / 1.055 : ℝ) < l ^ (1 / 2.4 : ℝ) := by
        by_contra hc
        have h4 := Real.rpow_le_rpow hp (not_lt.mp hc) (by norm_num : (0 : ℝ) ≤ 2.4)
        rw [e] at h4
        have h5 : (0.09545 / 1.055 : ℝ) ^ (2.4 : ℝ) < 0.003131 :=
          lt_pow24 (by norm_num) (by norm_num) (by norm_num)
        linarith
      rw [div_lt_iff₀ (by norm_num)] at key
      linarith
    unfold encode
    rw [if_neg h1]
    unfold decode
    rw [if_neg (not_le.mpr h3)]
    have e2 : (1.055 * l ^ (1 / 2.4 : ℝ) - 0.055 + 0.055) / 1.055 = l ^ (1 / 2.4 : ℝ) := by
      field_simp
      ring
    rw [e2, e]

/-- C113: black and white are kept, and what is between them stays there. -/
theorem C113_range : decode 0 = 0 ∧ decode 1 = 1 ∧ encode 0 = 0 ∧ encode 1 = 1 ∧
    ∀ x : ℝ, 0 ≤ x → x ≤ 1 → 0 ≤ decode x ∧ decode x ≤ 1 := by
  have h0 : decode 0 = 0 := by unfold decode; norm_num
  have h1 : decode 1 = 1 := by unfold decode; norm_num
  refine ⟨h0, h1, by unfold encode; norm_num, by unfold encode; norm_num, fun x h2 h3 => ?_⟩
  constructor
  · rcases h2.eq_or_lt with rfl | h
    · rw [h0]
    · rw [← h0]; exact (C113_order h).le
  · rcases h3.eq_or_lt with rfl | h
    · rw [h1]
    · rw [← h1]; exact (C113_order h).le

/-- Encoding does not keep the order where its two parts meet: the curve steps down there. -/
theorem C113_counterexample_order : ∃ x y : ℝ, x < y ∧ encode y < encode x := by
  refine ⟨0.0031308, 0.003130801, by norm_num, ?_⟩
  unfold encode
  rw [if_neg (by norm_num), if_pos le_rfl]
  have hl : (0 : ℝ) ≤ 0.003130801 := by norm_num
  have hp : (0 : ℝ) ≤ 0.003130801 ^ (1 / 2.4 : ℝ) := Real.rpow_nonneg hl _
  have e : ((0.003130801 : ℝ) ^ (1 / 2.4 : ℝ)) ^ (2.4 : ℝ) = 0.003130801 := by
    rw [← Real.rpow_mul hl]
    norm_num
  have key : (0.003130801 : ℝ) ^ (1 / 2.4 : ℝ) < (12.92 * 0.0031308 + 0.055) / 1.055 := by
    by_contra hc
    have h4 := Real.rpow_le_rpow (by norm_num) (not_lt.mp hc) (by norm_num : (0 : ℝ) ≤ 2.4)
    rw [e] at h4
    have h5 : (0.003130801 : ℝ) < ((12.92 * 0.0031308 + 0.055) / 1.055 : ℝ) ^ (2.4 : ℝ) :=
      pow24_lt (by norm_num) (by norm_num) (by norm_num)
    linarith
  rw [lt_div_iff₀ (by norm_num)] at key
  linarith

/-! ### In `f32`, with the power function of `fastapprox` -/

open Ieee IeeeSpec BlockSpec

variable [Libm single32]

/-- C113: in `f32`, brighter samples are read as brighter light. -/
theorem C113_levels {x y : Fin 256} (h : x < y) :
    IsFinite (lightOf x) ∧ IsFinite (lightOf y) ∧ val (lightOf x) < val (lightOf y) := by
  have fin : ∀ z : Fin 256, IsFinite (lightOf z) := by
    intro z
    have := checkSample_all z
    unfold checkSample at this
    simp only [Bool.and_eq_true] at this
    exact (finite_iff (lightOf z)).mpr (of_decide_eq_true this.1.1.1)
  have step : ∀ n : Nat, ∀ (a b : Nat) (ha : a < 256) (hb : b < 256), b = a + n + 1 →
      val (lightOf ⟨a, ha⟩) < val (lightOf ⟨b, hb⟩) := by
    intro n
    induction n with
    | zero =>
      rintro a b ha hb rfl
      exact (ltb_iff (fin _) (fin _)).mp (lightOf_step ⟨a, by omega⟩)
    | succ n ih =>
      rintro a b ha hb rfl
      exact (ih a (a + n + 1) ha (by omega) rfl).trans
        ((ltb_iff (fin _) (fin _)).mp (lightOf_step ⟨a + n + 1, by omega⟩))
  exact ⟨fin x, fin y, step (y.val - x.val - 1) x.val y.val x.2 y.2 (by omega)⟩

omit [Libm single32] in
theorem nearLight_spec {u i m : Nat} (hu : 0 < u) (h : nearLight u i m = true) :
    0.919 * decode (i / 255) ≤ (m : ℝ) / u ∧ (m : ℝ) / u ≤ 1.11 * decode (i / 255) := by
  have hu' : (0 : ℝ) < u := by exact_mod_cast hu
  unfold nearLight at h
  split at h
  · rename_i hle
    simp only [Bool.and_eq_true, decide_eq_true_eq] at h
    obtain ⟨a1, a2⟩ := h
    have b1 : (919 * (i * 100) * u : ℝ) ≤ 1000 * m * (255 * 1292) := by exact_mod_cast a1
    have b2 : (100 * m * (255 * 1292) : ℝ) ≤ 111 * (i * 100) * u := by exact_mod_cast a2
    have hi' : (i : ℝ) ≤ 10 := by exact_mod_cast hle
    unfold decode
    rw [if_pos (by
      rw [div_le_iff₀ (by norm_num)]
      exact hi'.trans (by norm_num))]
    have e1 : (0.919 * (i / 255 / 12.92) * u : ℝ) = 919 * (i * 100) * u / (1000 * (255 * 1292)) := by
      ring
    have e2 : (1.11 * (i / 255 / 12.92) * u : ℝ) = 111 * (i * 100) * u / (100 * (255 * 1292)) := by
      ring
    constructor
    · rw [le_div_iff₀ hu', e1, div_le_iff₀ (by norm_num)]
      linarith
    · rw [div_le_iff₀ hu', e2, le_div_iff₀ (by norm_num)]
      linarith
  · rename_i hle
    simp only [Bool.and_eq_true, decide_eq_true_eq] at h
    obtain ⟨a1, a2⟩ := h
    have hi' : (11 : ℝ) ≤ i := by exact_mod_cast (by omega : 11 ≤ i)
    have hgt : ¬ (i : ℝ) / 255 ≤ 0.04045 := by
      rw [not_le, lt_div_iff₀ (by norm_num)]
      refine lt_of_lt_of_le ?_ hi'
      norm_num
    have ht : ((i : ℝ) / 255 + 0.055) / 1.055 = (200 * i + 2805) / 53805 := by ring
    have t0 : (0 : ℝ) ≤ (200 * i + 2805) / 53805 := by positivity
    have e : (((200 * i + 2805) / 53805 : ℝ) ^ (2.4 : ℝ)) ^ 5 = ((200 * i + 2805) / 53805) ^ 12 := by
      rw [← Real.rpow_natCast, ← Real.rpow_mul t0, ← Real.rpow_natCast]
      norm_num
    have p0 := Real.rpow_nonneg t0 2.4
    have b1 : (919 ^ 5 * (200 * i + 2805) ^ 12 * u ^ 5 : ℝ) ≤ 1000 ^ 5 * 53805 ^ 12 * m ^ 5 := by
      exact_mod_cast a1
    have b2 : (100 ^ 5 * 53805 ^ 12 * m ^ 5 : ℝ) ≤ 111 ^ 5 * (200 * i + 2805) ^ 12 * u ^ 5 := by
      exact_mod_cast a2
    unfold decode
    rw [if_neg hgt, ht]
    generalize (((200 * i + 2805) / 53805 : ℝ) ^ (2.4 : ℝ)) = d at e p0
    rw [div_pow, eq_div_iff (by norm_num)] at e
    rw [← e] at b1 b2
    constructor
    · refine le_of_pow_le_pow_left₀ (n := 5) (by norm_num) (by positivity) ?_
      rw [mul_pow, div_pow, le_div_iff₀ (by positivity)]
      have : (0 : ℝ) < 53805 ^ 12 := by norm_num
      refine le_of_mul_le_mul_right ?_ this
      linarith
    · refine le_of_pow_le_pow_left₀ (n := 5) (by norm_num) (by positivity) ?_
      rw [mul_pow, div_pow, div_le_iff₀ (by positivity)]
      have : (0 : ℝ) < 53805 ^ 12 := by norm_num
      refine le_of_mul_le_mul_right ?_ this
      linarith

/-- C113: in `f32`, the light of a sample is that of the standard, up to -8.1 % and +11 %. -/
theorem C113_error (x : Fin 256) :
    0.919 * decode (x.val / 255) ≤ (val (lightOf x) : ℝ) ∧
      (val (lightOf x) : ℝ) ≤ 1.11 * decode (x.val / 255) := by
  have h := checkSample_all x
  unfold checkSample at h
  simp only [Bool.and_eq_true, Bool.not_eq_true'] at h
  obtain ⟨⟨⟨-, h1⟩, h2⟩, -⟩ := h
  have hv : (val (lightOf x) : ℝ) = ((lightOf x).mag : ℝ) / 2 ^ 149 := by
    rw [val_eq, int_of_nonneg h1]
    push_cast
    rfl
  rw [hv]
  have hu : 0 < 2 ^ 149 := Nat.pow_pos (by decide)
  have := nearLight_spec hu h2
  rw [Nat.cast_pow] at this
  exact this

/-- C113 (partial): an image of 8 bits that is read and written again has the same size, and every
sample is the same or one level darker.  Missing: that it is the same; see the counterexamples. -/
theorem C113_image_partial (p : Profile) (img : DynImage) (hc : img.color ≠ .other)
    (hw : 0 < img.width) (hh : 0 < img.height)
    (hn : img.samples.length = img.width * img.height * img.color.channels.toNat)
    (hm : img.samples.length ≤ 2147483647) :
    ∃ block : PixelBlock F32 F16, fromDynamicImage FastPow.pow p img = .ok block ∧
      block.size = ⟨img.width, img.height, img.color.channels⟩ ∧
      ∃ out, createImageBuffer FastPow.pow img.color block = .ok out ∧
        out.width = img.width ∧ out.height = img.height ∧ out.color = img.color ∧
        OneLevel img.samples out.samples := by
  obtain ⟨w, h, color, samples⟩ := img
  dsimp only at *
  obtain ⟨c, e1, e2⟩ : ∃ c : Nat, color.channels = c ∧ 0 < c := by
    cases color
    · exact ⟨3, rfl, by decide⟩
    · exact ⟨4, rfl, by decide⟩
    · exact absurd rfl hc
  rw [e1, Int.toNat_natCast] at hn
  have hwh : w * h ≤ 2147483647 := (Nat.le_mul_of_pos_right _ e2).trans (hn ▸ hm)
  have hw' : w < 2147483648 := by
    have := Nat.le_mul_of_pos_right w hh
    omega
  have hh' : h < 2147483648 := by
    have := Nat.le_mul_of_pos_left h hw
    omega
  have hv : ValidSize ⟨(w : Int), (h : Int), (c : Int)⟩ := by
    refine ⟨Int.natCast_pos.mpr hw, Int.natCast_pos.mpr hh, Int.natCast_pos.mpr e2, ?_⟩
    show (w : Int) * h * c ≤ 2147483647
    exact_mod_cast hn ▸ hm
  have hel : (elements ⟨(w : Int), (h : Int), (c : Int)⟩).toNat = samples.length := by
    rw [hn]
    show ((w : Int) * h * c).toNat = _
    exact_mod_cast Int.toNat_natCast (w * h * c)
  refine ⟨⟨⟨w, h, c⟩, ⟨.f32, samples.map lightOf⟩⟩, ?_, by rw [e1], ?_⟩
  · unfold fromDynamicImage
    simp only [if_neg hc, e1]
    rw [show u32AsI32 w = w from if_pos hw', show u32AsI32 h = h from if_pos hh']
    unfold PixelBlock.fromDataBlock
    rw [size_eq p _ hv, hel]
    dsimp only [bind, Except.bind]
    rw [if_pos]
    · rfl
    · show samples.length = (samples.map lightOf).length
      rw [List.length_map]
  · have a1 : asU32 (w : Int) = w := by unfold asU32; omega
    have a2 : asU32 (h : Int) = h := by unfold asU32; omega
    refine ⟨⟨w, h, color, (samples.map lightOf).map sampleOf⟩, ?_, rfl, rfl, rfl, ?_, ?_⟩
    · unfold createImageBuffer PixelBlock.asSliceF32
      dsimp only [bind, Except.bind]
      rw [a1, a2, e1, Int.toNat_natCast, if_pos]
      · rfl
      · show w * h * c ≤ ((samples.map lightOf).map sampleOf).length
        rw [List.length_map, List.length_map, hn]
    · simp
    · intro i x y h1 h2
      rw [List.map_map, List.getElem?_map, h1] at h2
      have h3 : sampleOf (lightOf x) = y := by simpa using h2
      have h4 := checkSample_all x
      unfold checkSample at h4
      simp only [Bool.and_eq_true, Bool.or_eq_true, beq_iff_eq] at h4
      rw [← h3]
      exact h4.2

omit [Libm single32] in
theorem val_mag {x : F32} (h : x.neg = false) : val x = (x.mag : ℚ) / 2 ^ 149 := by
  rw [val_eq, int_of_nonneg h]
  rfl

/-- C113: the size of an image, taken as `i32`, is the same number modulo 2^32. -/
theorem C113_size {n : Nat} (h : n < 4294967296) :
    InI32 (u32AsI32 n) ∧ u32AsI32 n % 4294967296 = n ∧ asU32 (u32AsI32 n) = n := by
  unfold u32AsI32 InI32 asU32
  split <;> omega

omit [Libm single32] in
/-- C113, the power function: a power that would be below 2^-126 is the same number, close to
2^-126, whatever its basis and its exponent are. -/
theorem C113_power_small {x e : F32} (h : ltb (mul e (FastPow.log2 x)) (ofInt (-126)) = true) :
    FastPow.pow x e = FastPow.ofBits 7907904 := by
  unfold FastPow.pow FastPow.pow2
  rw [h, if_pos rfl]
  decide +kernel

omit [Libm single32] in
/-- C113, the power function: two to the power of nothing is not one, the logarithm of one is not
nothing, and four squared is not sixteen. -/
theorem C113_counterexample_power :
    val (FastPow.pow2 (zero false)) = 254633 / 262144 ∧
    val (FastPow.log2 (ofInt 1)) = 7511 / 131072 ∧
    val (FastPow.pow (ofInt 4) (ofInt 2)) = 17323 / 1024 := by
  have key : ∀ (x : F32) (a k : Nat), x.neg = false ∧ x.mag * 2 ^ k = a * 2 ^ 149 →
      val x = (a : ℚ) / 2 ^ k := by
    intro x a k h
    rw [val_mag h.1, div_eq_div_iff (by positivity) (by positivity)]
    exact_mod_cast h.2
  have h1 := key (FastPow.pow2 (zero false)) 254633 18 (by decide +kernel)
  have h2 := key (FastPow.log2 (ofInt 1)) 7511 17 (by decide +kernel)
  have h3 := key (FastPow.pow (ofInt 4) (ofInt 2)) 17323 10 (by decide +kernel)
  rw [h1, h2, h3]
  norm_num

/-- White is read as more than 1.08, and an image of white pixels comes back darker. -/
theorem C113_counterexample_white : 1.08 < val (lightOf 255) ∧ sampleOf (lightOf 255) = 254 := by
  obtain ⟨h1, h2, h3⟩ := white_facts
  refine ⟨?_, h3⟩
  rw [val_mag h1]
  generalize (lightOf 255).mag = m at h2
  generalize hu : (2 : Nat) ^ 149 = u at h2
  have : ((2 : ℚ) ^ 149) = u := by rw [← hu]; norm_num
  have hp : (0 : ℚ) < u := by rw [← this]; positivity
  rw [this, lt_div_iff₀ hp]
  have : (108 * u : ℚ) < m * 100 := by exact_mod_cast h2
  linarith

/-- Alpha is no colour, but is converted as well: half transparent becomes less than 0.24. -/
theorem C113_counterexample_alpha (p : Profile) :
    fromDynamicImage (F := F32) (H := F16) FastPow.pow p ⟨1, 1, .rgba8, [0, 0, 0, 128]⟩ =
      .ok ⟨⟨1, 1, 4⟩, ⟨.f32, [lightOf 0, lightOf 0, lightOf 0, lightOf 128]⟩⟩ ∧
    val (lightOf 128) < 0.24 := by
  constructor
  · cases p <;> rfl
  · obtain ⟨h1, h2⟩ := half_facts
    rw [val_mag h1]
    generalize (lightOf 128).mag = m at h2
    generalize hu : (2 : Nat) ^ 149 = u at h2
    have : ((2 : ℚ) ^ 149) = u := by rw [← hu]; norm_num
    have hp : (0 : ℚ) < u := by rw [← this]; positivity
    rw [this, div_lt_iff₀ hp]
    have : (m * 100 : ℚ) < 24 * u := by exact_mod_cast h2
    linarith

/-- Images of other types, such as grey or 16 bits, stop the program. -/
theorem C113_counterexample_type (p : Profile) (w h : Nat) (samples : List (Fin 256)) :
    fromDynamicImage (F := F32) (H := F16) FastPow.pow p ⟨w, h, .other, samples⟩ =
      .error .explicit := rfl

/-! ### Examples -/

/-- Half of the signal. -/
example : encode (decode 0.5) = 0.5 := C113_round_trip_partial (.inr (by norm_num))
example : encode (decode 0.01) = 0.01 := C113_round_trip_partial (.inl (by norm_num))
example : decode (encode 0.18) = 0.18 := C113_round_trip_linear_partial (.inr (by norm_num))
example : decode 0.2 < decode 0.3 := C113_order (by norm_num)
/-- The square of 10^-30. -/
example : FastPow.pow (div (ofInt 1) (ofInt (10 ^ 30))) (ofInt 2) = FastPow.ofBits 7907904 :=
  C113_power_small (by decide +kernel)
/-- A width of three milliards. -/
example : u32AsI32 3000000000 = -1294967296 ∧ asU32 (u32AsI32 3000000000) = 3000000000 :=
  ⟨by decide, (C113_size (by decide)).2.2⟩
example : val (lightOf 10) < val (lightOf 200) := (C113_levels (by decide)).2.2

/-- An image of two RGB pixels. -/
example (p : Profile) : ∃ block : PixelBlock F32 F16,
    fromDynamicImage FastPow.pow p ⟨2, 1, .rgb8, [0, 128, 255, 10, 20, 30]⟩ = .ok block ∧
      block.size = ⟨2, 1, 3⟩ := by
  obtain ⟨block, h1, h2, -⟩ := C113_image_partial p ⟨2, 1, .rgb8, [0, 128, 255, 10, 20, 30]⟩
    (by decide) (by decide) (by decide) (by decide) (by decide)
  exact ⟨block, h1, h2⟩

end OCG.Props
