import Verif.Proofs.Ieee
/-
Algebra of IEEE arithmetic up to the sign of zero, and what becomes of infinities and NaNs.
-/

namespace OCG.Ieee

open IeeeSpec

variable {f : Format}

theorem same_iff {x y : Ieee f} : Same x y ↔ IsFinite x ∧ IsFinite y ∧ x.int = y.int := by
  unfold Same
  rw [val_eq, val_eq, div_left_inj' (by positivity), Int.cast_inj]

theorem same_cases {x y : Ieee f} (h : Same x y) : x = y ∨ (x.code = 0 ∧ y.code = 0) := by
  obtain ⟨-, -, h⟩ := same_iff.mp h
  have h0 : ∀ c, units f c = 0 ↔ c = 0 := fun c => units_eq_zero
  have e := units_inj (f := f) (c := x.code) (d := y.code)
  have a := h0 x.code
  have b := h0 y.code
  unfold int mag at h
  by_cases hx : x.code = 0
  · right
    refine ⟨hx, ?_⟩
    have := a.mpr hx
    split at h <;> split at h <;> omega
  · left
    have hp : units f x.code ≠ 0 := fun h => hx (a.mp h)
    cases hn : x.neg <;> cases hm : y.neg <;> simp only [hn, hm, if_true, if_false, Bool.false_eq_true] at h
    · exact ext' (by rw [hn, hm]) (e.mp (by omega))
    · omega
    · omega
    · exact ext' (by rw [hn, hm]) (e.mp (by omega))

theorem same_eq {x y : Ieee f} (h : Same x y) (h0 : val y ≠ 0) : x = y := by
  rcases same_cases h with h | ⟨-, h⟩
  · exact h
  · exact absurd (by rw [val_mag]; simp [mag, h]) h0

theorem _root_.OCG.IeeeSpec.Same.refl {x : Ieee f} (h : IsFinite x) : Same x x := ⟨h, h, rfl⟩
theorem _root_.OCG.IeeeSpec.Same.symm {x y : Ieee f} (h : Same x y) : Same y x := ⟨h.2.1, h.1, h.2.2.symm⟩
theorem _root_.OCG.IeeeSpec.Same.trans {x y z : Ieee f} (h : Same x y) (h' : Same y z) : Same x z :=
  ⟨h.1, h'.2.1, h.2.2.trans h'.2.2⟩

theorem finite_of_code {x y : Ieee f} (h : IsFinite x) (e : y.code = x.code) : IsFinite y := by
  rw [finite_iff] at h ⊢; rw [e]; exact h

theorem finite_of_code_zero (hf : Ok f) {z : Ieee f} (hz : z.code = 0) : IsFinite z :=
  finite_of_code (finite_zero hf false) (by rw [hz, zero_code])

theorem int_code_zero {z : Ieee f} (hz : z.code = 0) : z.int = 0 := by
  rw [eq_zero_of_code hz, zero_int]

theorem val_zero_iff {x : Ieee f} : val x = 0 ↔ x.code = 0 := by
  rw [val_eq, div_eq_zero_iff, Int.cast_eq_zero]
  have hp : (2 : ℚ) ^ f.unit ≠ 0 := by positivity
  constructor
  · rintro (h | h)
    · by_contra hc; exact int_ne_zero hc h
    · exact absurd h hp
  · exact fun h => .inl (int_code_zero h)

theorem same_zero (hf : Ok f) {x y : Ieee f} (hx : x.code = 0) (hy : y.code = 0) : Same x y :=
  same_iff.mpr ⟨finite_of_code_zero hf hx, finite_of_code_zero hf hy,
    by rw [int_code_zero hx, int_code_zero hy]⟩

/-- `x + 0` and `0 + x` are `x`, up to the sign of zero. -/
theorem add_zero_same (hf : Ok f) {x z : Ieee f} (hx : IsFinite x) (hz : z.code = 0) :
    Same (add x z) x := by
  rw [eq_zero_of_code hz, add_zero' hf _ hx]
  split
  · exact same_zero hf (zero_code _) (by assumption)
  · exact .refl hx

theorem zero_add_same (hf : Ok f) {x z : Ieee f} (hx : IsFinite x) (hz : z.code = 0) :
    Same (add z x) x := by
  rw [eq_zero_of_code hz, zero_add' hf _ hx]
  split
  · exact same_zero hf (zero_code _) (by assumption)
  · exact .refl hx

theorem mul_zero_code (hf : Ok f) {x z : Ieee f} (hx : IsFinite x) (hz : z.code = 0) :
    (mul x z).code = 0 := by rw [mul_zero' hf hx hz, zero_code]

theorem zero_mul_code (hf : Ok f) {x z : Ieee f} (hx : IsFinite x) (hz : z.code = 0) :
    (mul z x).code = 0 := by rw [zero_mul' hf hx hz, zero_code]

/-- Addition and multiplication do not tell the zeros apart, up to the sign of zero. -/
theorem _root_.OCG.IeeeSpec.Same.mul (hf : Ok f) {x x' y y' : Ieee f} (hx : Same x x') (hy : Same y y')
    (h : IsFinite (mul x y)) : Same (Ieee.mul x y) (Ieee.mul x' y') := by
  rcases same_cases hx with rfl | ⟨a, b⟩
  · rcases same_cases hy with rfl | ⟨c, d⟩
    · exact .refl h
    · exact same_zero hf (mul_zero_code hf hx.1 c) (mul_zero_code hf hx.1 d)
  · exact same_zero hf (zero_mul_code hf hy.1 a) (zero_mul_code hf hy.2.1 b)

theorem _root_.OCG.IeeeSpec.Same.add (hf : Ok f) {x x' y y' : Ieee f} (hx : Same x x') (hy : Same y y')
    (h : IsFinite (add x y)) : Same (Ieee.add x y) (Ieee.add x' y') := by
  rcases same_cases hx with rfl | ⟨a, b⟩
  · rcases same_cases hy with rfl | ⟨c, d⟩
    · exact .refl h
    · exact (add_zero_same hf hx.1 c).trans (add_zero_same hf hx.1 d).symm
  · exact ((zero_add_same hf hy.1 a).trans hy).trans (zero_add_same hf hy.2.1 b).symm

/-! ### Infinities and NaNs -/

theorem not_finite_iff {x : Ieee f} : ¬ IsFinite x ↔ x.isInf = true ∨ x.isNan = true := by
  rw [finite_iff]; unfold isInf isNan
  simp only [decide_eq_true_eq]; omega

theorem inf_not_nan {x : Ieee f} (h : x.isInf = true) : x.isNan = false := by
  unfold isInf at h; unfold isNan
  simp only [decide_eq_true_eq] at h
  simp [h]

@[simp] theorem nan_isNan (hm : 1 ≤ f.mant) : (nan : Ieee f).isNan = true := by
  unfold isNan nan infCode
  simp only [decide_eq_true_eq]
  have : 2 ^ 1 ≤ 2 ^ f.mant := Nat.pow_le_pow_right (by decide) hm
  rw [Nat.add_mul]
  omega

theorem add_nan_left {x y : Ieee f} (h : x.isNan = true) : add x y = nan := by
  unfold add; rw [h]; rfl

theorem add_nan_right {x y : Ieee f} (h : y.isNan = true) : add x y = nan := by
  unfold add; rw [h, Bool.or_true]; rfl

/-- Infinity or NaN times zero is NaN. -/
theorem mul_zero_nan {x z : Ieee f} (h : ¬ IsFinite x) (hz : z.code = 0) : mul x z = nan := by
  unfold mul
  rcases not_finite_iff.mp h with h | h
  · by_cases hn : z.isNan = true
    · rw [hn, Bool.or_true]; rfl
    · rw [inf_not_nan h, Bool.eq_false_iff.mpr hn, h]
      simp [hz]
  · rw [h]; rfl

theorem inf_mul_one (hf : Ok f) {x : Ieee f} (h : x.isInf = true) : mul x (ofInt 1) = x := by
  obtain ⟨h1, h2, h3⟩ := one_spec hf
  have hc : x.code = infCode f := by unfold isInf at h; simpa using h
  have hi : infCode f ≠ 0 := by
    have := (finite_iff _).mp h1
    omega
  unfold mul
  rw [inf_not_nan h, not_nan h1, h]
  simp only [Bool.or_false, Bool.false_eq_true, if_false, Bool.true_or, if_true]
  rw [if_neg (by rw [hc]; exact fun h => h.elim hi (one_code hf)), h3]
  exact ext' (by unfold inf pack; simp) (by unfold inf pack; simp [hc])

theorem zero_add_inf {x z : Ieee f} (h : x.isInf = true) (hz : IsFinite z) : add z x = x := by
  unfold add
  rw [inf_not_nan h, not_nan hz, not_inf hz, h]
  simp

end OCG.Ieee
