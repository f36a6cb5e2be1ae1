import Verif.Model.Memory
import Verif.Props.Config
import Verif.Props.IeeeTypes
import Verif.Proofs.IeeeOrder
/-
C62 in IEEE arithmetic.  C101: the capacity of the cache and the memory of the machine.
-/

namespace OCG.Props

open IeeeSpec LevelSpec
open Ieee hiding floor ceil round

section
variable {f : Format} [Libm f]

theorem isNan_ieee (x : Ieee f) : OCG.isNan x = Ieee.isNan x := by
  show (!eqb x x) = _
  unfold eqb
  cases x.isNan <;> simp

theorem op_lt (x y : Ieee f) : FloatLike.lt x y = ltb x y := rfl

theorem ltb_true {x y : Ieee f} :
    ltb x y = true ↔ x.isNan = false ∧ y.isNan = false ∧ x.key < y.key := by
  unfold ltb; simp [and_assoc]

/-- IEEE floats satisfy the laws of ordering. -/
theorem ieeeOrderLaws (hf : Ok f) : OrderLaws (Ieee f) where
  lt_num a b h := by
    rw [op_lt, ltb_true] at h
    rw [isNan_ieee, isNan_ieee]
    exact ⟨h.1, h.2.1⟩
  lt_trans a b c h1 h2 := by
    rw [op_lt, ltb_true] at *
    exact ⟨h1.1, h2.2.1, h1.2.2.trans h2.2.2⟩
  lt_irrefl a := by
    rw [op_lt, ← Bool.not_eq_true, ltb_true]
    exact fun h => lt_irrefl _ h.2.2
  lt_of_not_lt a b c ha hb h1 h2 := by
    rw [isNan_ieee] at ha hb
    rw [op_lt, ← Bool.not_eq_true, ltb_true] at h1
    rw [op_lt, ltb_true] at h2 ⊢
    refine ⟨ha, h2.2.1, ?_⟩
    have : ¬ b.key < a.key := fun h => h1 ⟨hb, ha, h⟩
    exact lt_of_le_of_lt (not_lt.mp this) h2.2.2
  zero_lt_one := by
    rw [op_lt, op_zero, op_one, ltb_iff (finite_zero hf _) (one_spec hf).1,
      val_zero_iff.mpr (zero_code _), ofInt_val hf (by
        show 1 ≤ 2 * 2 ^ f.mant
        have := two_pow_pos' f.mant
        omega)]
    norm_num

end

/-- Integers with few significant bits are exact, also large ones. -/
theorem ofInt_big {m k : Nat} (hm : m ≤ 2 ^ 24) (hk : k ≤ 100) :
    IsFinite (ofInt ((m * 2 ^ k : Nat) : Int) : F32) ∧
      (ofInt ((m * 2 ^ k : Nat) : Int) : F32).mag = m * 2 ^ k * 2 ^ 149 ∧
      (ofInt ((m * 2 ^ k : Nat) : Int) : F32).neg = false := by
  obtain ⟨c, hc⟩ := exists_units (f := single32) (n := m) (by show m ≤ 2 * 2 ^ 23; omega) (k + 149)
  rw [pow_add, ← Nat.mul_assoc] at hc
  have hlt : c < infCode single32 := by
    rw [← units_lt (f := single32), hc]
    have h1 : m * 2 ^ k ≤ 2 ^ 24 * 2 ^ 100 :=
      Nat.mul_le_mul hm (Nat.pow_le_pow_right (by decide) hk)
    exact lt_of_le_of_lt (Nat.mul_le_mul_right _ h1) (by decide +kernel)
  have hn : nearestCode single32 (((m * 2 ^ k : Nat) : Int).natAbs * 2 ^ single32.unit) 1 = c := by
    have := nearest_exact (f := single32) c (by decide : 0 < 1)
    rw [Nat.mul_one, hc] at this
    exact this
  have hcode : (ofInt ((m * 2 ^ k : Nat) : Int) : F32).code = c := by
    unfold ofInt; rw [rounded_code (by rw [hn]; exact hlt.le), hn]
  refine ⟨?_, ?_, ?_⟩
  · rw [finite_iff, hcode]; exact hlt
  · unfold mag; rw [hcode, hc]
  · show decide (((m * 2 ^ k : Nat) : Int) < 0) = false
    simp

/-- Floats from 2^24 on are whole numbers. -/
theorem whole_large {x : F32} (h : 2 ^ 24 * 2 ^ 149 ≤ x.mag) : 2 ^ 149 ∣ x.mag := by
  obtain ⟨s, n, h3, h1, h2⟩ := exists_shift single32 x.code
  have hu : x.mag = n * 2 ^ s := by
    unfold mag; rw [h3, units_shift s n h1.le h2]
  have hn : n < 2 ^ 24 := h1
  have hs : 149 ≤ s := by
    by_contra hlt
    have : 2 ^ s ≤ 2 ^ 149 := Nat.pow_le_pow_right (by decide) (by omega)
    have : n * 2 ^ s < 2 ^ 24 * 2 ^ 149 :=
      lt_of_le_of_lt (Nat.mul_le_mul_left _ this) (Nat.mul_lt_mul_of_pos_right hn (two_pow_pos' _))
    omega
  rw [hu]
  exact Dvd.dvd.mul_left (pow_dvd_pow 2 hs) _

section
variable [Libm single32]

/-- C62, the functions of std that the factor is made of: the smaller and the larger of two
numbers, and the other one where one is not a number. -/
theorem C62_std (a b : F32) :
    (IsNotNumber a → fmin a b = b ∧ fmax a b = b) ∧
    (¬ IsNotNumber a → IsNotNumber b → fmin a b = a ∧ fmax a b = a) ∧
    (NotAbove a b → NotAbove (fmin a b) a ∧ NotAbove (fmin a b) b ∧ NotAbove a (fmax a b) ∧
      NotAbove b (fmax a b) ∧ (fmin a b = a ∨ fmin a b = b) ∧ (fmax a b = a ∨ fmax a b = b)) ∧
    (NotAbove b a → NotAbove (fmin a b) a ∧ NotAbove (fmin a b) b ∧ NotAbove a (fmax a b) ∧
      NotAbove b (fmax a b) ∧ (fmin a b = a ∨ fmin a b = b) ∧ (fmax a b = a ∨ fmax a b = b)) := by
  have hn : ∀ x : F32, OCG.isNan x = Ieee.isNan x := isNan_ieee
  have hlt : ∀ x y : F32, FloatLike.lt x y = (!x.isNan && !y.isNan && decide (x.key < y.key)) :=
    fun _ _ => rfl
  have hna : ∀ {x y : F32}, _ := fun {x y} => notAbove_iff (x := x) (y := y) inf_pos_single
  refine ⟨fun h => ?_, fun h h' => ?_, fun h => ?_, fun h => ?_⟩
  · rw [notNumber_iff] at h
    unfold fmin fmax
    rw [hn, h]
    exact ⟨rfl, rfl⟩
  · rw [notNumber_iff] at h h'
    unfold fmin fmax
    rw [hn, hn, h', Bool.eq_false_iff.mpr h]
    exact ⟨rfl, rfl⟩
  all_goals
    rw [hna] at h
    obtain ⟨h1, h2, h3⟩ := h
    unfold fmin fmax
    simp only [hna]
    rw [hn, hn, hlt, hlt, h1, h2]
    simp only [Bool.not_false, Bool.true_and, Bool.false_eq_true, if_false, decide_eq_true_eq]
    refine ⟨?_, ?_, ?_, ?_, ?_, ?_⟩
    all_goals split
    all_goals first
      | exact .inl rfl
      | exact .inr rfl
      | (simp only [h1, h2, true_and, le_refl]; done)
      | (simp only [h1, h2, true_and]; omega)

/-- C62 in IEEE arithmetic: the factor is 1 whatever is configured, NaN and infinity included. -/
theorem C62_single_always_one (c : Config F32) : c.ramFactor = 1 :=
  haveI := ieeeOrderLaws (f := single32) ok_single
  C62_always_one c

/-- The capacity is the amount of memory, rounded to a float. -/
theorem capacity_eq (totalBytes : Nat) (c : Config F32)
    (h : IsFinite (ofInt (totalBytes : Int) : F32)) :
    c.capacityBytes totalBytes = toUsize (ofInt (totalBytes : Int) : F32) := by
  unfold Config.capacityBytes Config.ramCapacityBytes
  rw [C62_single_always_one, op_mul, op_ofInt, op_one, mul_one' ok_single h]

/-- C101: with a whole number of 4096-byte pages and at most 64 GiB, the capacity is the memory of
the machine, byte by byte. -/
theorem C101_pages (pages : Nat) (h : pages ≤ 2 ^ 24) (c : Config F32) :
    c.capacityBytes (pages * 4096) = pages * 4096 := by
  obtain ⟨a, b, d⟩ := ofInt_big (k := 12) h (by decide)
  have e : pages * 2 ^ 12 = pages * 4096 := rfl
  rw [e] at a b d
  rw [capacity_eq _ _ a]
  unfold toUsize toRange
  rw [not_nan a]
  have ht : (ofInt ((pages * 4096 : Nat) : Int) : F32).trunc = ((pages * 4096 : Nat) : Int) := by
    unfold trunc
    rw [d, b, Nat.mul_div_cancel _ (two_pow_pos' _)]
    rfl
  rw [ht]
  simp only [Bool.false_eq_true, if_false]
  have : pages * 4096 ≤ 2 ^ 36 := by omega
  omega

/-- C101 for every amount of memory: the capacity differs from it by at most one part in 2^24. -/
theorem C101_close_partial (totalBytes : Nat) (h : totalBytes < 2 ^ 63) (c : Config F32) :
    |((c.capacityBytes totalBytes : Nat) : ℚ) - totalBytes| ≤ (totalBytes : ℚ) / 2 ^ 24 := by
  have hr := rounds_ofInt (f := single32) (totalBytes : Int)
  obtain ⟨y1, y2, y3⟩ := ofInt_big (m := 1) (k := 63) (by decide) (by decide)
  rw [one_mul] at y1 y2 y3
  have yv : val (ofInt ((2 ^ 63 : Nat) : Int) : F32) = 2 ^ 63 := by
    rw [val_mag, y3, y2]
    have hs : sgn false = 1 := rfl
    rw [hs]; push_cast; norm_num
  have hle : ((totalBytes : Int) : ℚ) ≤ 2 ^ 63 := by exact_mod_cast h.le
  have h0 : (0 : ℚ) ≤ ((totalBytes : Int) : ℚ) := by positivity
  obtain ⟨hf, hb⟩ := hr.finite y1 (by
    rw [yv, abs_of_nonneg h0, abs_of_nonneg (by positivity)]; exact hle)
  rw [yv, abs_of_nonneg (by positivity : (0 : ℚ) ≤ 2 ^ 63)] at hb
  rw [capacity_eq _ _ hf]
  -- the float is the capacity
  have hneg : (ofInt (totalBytes : Int) : F32).neg = false := by
    show decide ((totalBytes : Int) < 0) = false
    simp
  have hv : val (ofInt (totalBytes : Int) : F32) =
      ((ofInt (totalBytes : Int) : F32).mag : ℚ) / 2 ^ 149 := by
    rw [val_mag, hneg]
    have hs : sgn false = 1 := rfl
    rw [hs, one_mul]
  have hdvd : 2 ^ 149 ∣ (ofInt (totalBytes : Int) : F32).mag := by
    by_cases hc : totalBytes ≤ 2 ^ 24
    · obtain ⟨_, b, _⟩ := ofInt_spec ok_single (n := (totalBytes : Int))
        (by show totalBytes ≤ 2 * 2 ^ 23; omega)
      rw [b]; exact Dvd.intro_left _ rfl
    · refine whole_large ?_
      obtain ⟨z1, z2, z3⟩ := ofInt_big (m := 1) (k := 24) (by decide) (by decide)
      rw [one_mul] at z1 z2 z3
      have zv : val (ofInt ((2 ^ 24 : Nat) : Int) : F32) = 2 ^ 24 := by
        rw [val_mag, z3, z2]
        have hs : sgn false = 1 := rfl
        rw [hs]; push_cast; norm_num
      have := hr.ge (y := ofInt ((2 ^ 24 : Nat) : Int)) hf (by
        rw [zv]; exact_mod_cast (by omega : 2 ^ 24 ≤ totalBytes))
      rw [zv, hv, le_div_iff₀ (by positivity)] at this
      exact_mod_cast this
  obtain ⟨q, hq⟩ := hdvd
  have ht : (ofInt (totalBytes : Int) : F32).trunc = (q : Int) := by
    unfold trunc
    rw [hneg, hq, Nat.mul_div_cancel_left _ (two_pow_pos' _)]
    rfl
  have hvq : val (ofInt (totalBytes : Int) : F32) = q := by
    rw [hv, hq, Nat.cast_mul, Nat.cast_pow, Nat.cast_ofNat, mul_div_assoc, mul_div_cancel₀ _ (by positivity)]
  have hq63 : q ≤ 2 ^ 63 := by
    have := le_trans (le_abs_self _) hb
    rw [hvq] at this
    exact_mod_cast this
  have hcap : toUsize (ofInt (totalBytes : Int) : F32) = q := by
    unfold toUsize toRange
    rw [not_nan hf, ht]
    simp only [Bool.false_eq_true, if_false]
    omega
  rw [hcap, ← hvq]
  have he := hr.error hf
  rw [abs_of_nonneg h0] at he
  by_cases hz : totalBytes = 0
  · have : val (ofInt (totalBytes : Int) : F32) = 0 := by
      rw [hz, ofInt_val ok_single (by decide)]; norm_num
    rw [this, hz]; norm_num
  · refine he.trans (max_le ?_ ?_)
    · push_cast; norm_num
    · have : (1 : ℚ) ≤ totalBytes := by exact_mod_cast Nat.one_le_iff_ne_zero.mpr hz
      have h2 : (1 : ℚ) / (2 * 2 ^ single32.unit) ≤ 1 / 2 ^ 24 := by norm_num
      refine h2.trans ?_
      gcongr

end

section Examples
attribute [local instance] exactPowf

/-- C101 is false for larger machines: with 64 GiB and three pages the capacity is one page more
than the memory. -/
theorem C101_counterexample (c : Config F32) :
    c.capacityBytes (2 ^ 36 + 3 * 4096) = (2 ^ 36 + 3 * 4096) + 4096 := by
  rw [capacity_eq]
  · decide +kernel
  · rw [finite_iff]; decide +kernel

-- the larger of a number and something that is no number
example : fmax (nan : F32) tenth = tenth :=
  ((C62_std (nan : F32) tenth).1 (by rw [notNumber_iff]; decide +kernel)).2

-- 16 GiB and a page
example : Config.capacityBytes (4194305 * 4096) (Config.default : Config F32) = 4194305 * 4096 :=
  C101_pages 4194305 (by decide) _
example : Config.capacityBytes (4194305 * 4096) (⟨tenth, 0⟩ : Config F32) = 4194305 * 4096 :=
  C101_pages 4194305 (by decide) _
example : |((Config.capacityBytes 1000000000000 (⟨tenth, 0⟩ : Config F32) : Nat) : ℚ) -
    (1000000000000 : Nat)| ≤ ((1000000000000 : Nat) : ℚ) / 2 ^ 24 :=
  C101_close_partial 1000000000000 (by decide) _

end Examples

end OCG.Props
