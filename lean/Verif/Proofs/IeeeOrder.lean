import Verif.Spec.Levels
import Verif.Proofs.IeeeError
/-
The order of floating point numbers, infinities included, and operations that keep it.
-/

namespace OCG.Ieee

open IeeeSpec LevelSpec

variable {f g : Format}

theorem nearest_mono {num num' den : Nat} (hd : 0 < den) (h : num ≤ num') :
    nearestCode f num den ≤ nearestCode f num' den := by
  by_contra hlt
  rw [not_le] at hlt
  have h1 := nearest_closest (f := f) num hd (nearestCode f num' den)
  have h2 := nearest_closest (f := f) num' hd (nearestCode f num den)
  have h3 : units f (nearestCode f num' den) * den < units f (nearestCode f num den) * den :=
    Nat.mul_lt_mul_of_pos_right (units_lt.mpr hlt) hd
  have e : num = num' := by
    generalize units f (nearestCode f num' den) * den = a at *
    generalize units f (nearestCode f num den) * den = b at *
    rcases abs_cases ((b : Int) - num) with ⟨e1, _⟩ | ⟨e1, _⟩ <;>
    rcases abs_cases ((a : Int) - num) with ⟨e2, _⟩ | ⟨e2, _⟩ <;>
    rcases abs_cases ((b : Int) - num') with ⟨e3, _⟩ | ⟨e3, _⟩ <;>
    rcases abs_cases ((a : Int) - num') with ⟨e4, _⟩ | ⟨e4, _⟩ <;>
    rw [e1, e2] at h1 <;> rw [e3, e4] at h2 <;> omega
  subst e
  exact absurd hlt (lt_irrefl _)

/-- A signed number. -/
def signed (neg : Bool) (n : Nat) : Int := if neg then -(n : Int) else n

theorem key_signed (x : Ieee f) : x.key = signed x.neg x.code := rfl

theorem int_signed (x : Ieee f) : x.int = signed x.neg x.mag := rfl

/-- A monotone function of the magnitude that keeps zero is monotone on signed numbers. -/
theorem signed_mono {F : Nat → Nat} (h : Monotone F) (h0 : F 0 = 0) {a b : Bool} {m n : Nat}
    (hle : signed a m ≤ signed b n) : signed a (F m) ≤ signed b (F n) := by
  cases a <;> cases b <;> simp only [signed, if_true, if_false, Bool.false_eq_true] at hle ⊢
  · have := h (show m ≤ n by omega); omega
  · have hm : m = 0 := by omega
    have hn : n = 0 := by omega
    rw [hm, hn, h0]; simp
  · omega
  · have := h (show n ≤ m by omega); omega

theorem int_le_iff {x y : Ieee f} : x.int ≤ y.int ↔ x.key ≤ y.key := by
  rw [int_signed, int_signed, key_signed, key_signed]
  unfold mag
  constructor
  · intro h
    by_contra hlt
    have h1 := signed_mono (units_strictMono f).monotone units_zero (not_le.mp hlt).le
    have h2 := le_antisymm h h1
    cases ha : x.neg <;> cases hb : y.neg <;> rw [ha, hb] at hlt h2 <;>
      simp only [signed, if_true, if_false, Bool.false_eq_true] at hlt h2
    · have : units f x.code = units f y.code := by omega
      rw [units_inj] at this; omega
    · have e1 : units f x.code = 0 := by omega
      have e2 : units f y.code = 0 := by omega
      rw [units_eq_zero] at e1 e2; omega
    · omega
    · have : units f x.code = units f y.code := by omega
      rw [units_inj] at this; omega
  · exact signed_mono (units_strictMono f).monotone units_zero

theorem val_le_iff {x y : Ieee f} : val x ≤ val y ↔ x.key ≤ y.key := by
  rw [val_eq, val_eq, div_le_div_iff_of_pos_right (by positivity), Int.cast_le, int_le_iff]

theorem notNumber_iff {x : Ieee f} : IsNotNumber x ↔ x.isNan = true := by
  unfold IsNotNumber isNan infCode; simp

theorem inf_pos_half : 0 < infCode half16 := by decide
theorem inf_pos_single : 0 < infCode single32 := by decide

/-- The order by positions. -/
theorem notAbove_iff (hI : 0 < infCode f) {x y : Ieee f} :
    NotAbove x y ↔ x.isNan = false ∧ y.isNan = false ∧ x.key ≤ y.key := by
  have hn : ∀ z : Ieee f, z.isNan = false ↔ z.code ≤ infCode f := by
    intro z; unfold isNan; simp
  unfold NotAbove IsInfinity
  rw [notNumber_iff, notNumber_iff, Bool.not_eq_true, Bool.not_eq_true, hn, hn, finite_iff,
    finite_iff, val_le_iff]
  change _ ∨ ((_ ∧ x.code = infCode f) ∧ _) ∨ (_ ∧ _ ∧ y.code = infCode f) ↔ _
  rw [key_signed, key_signed]
  generalize infCode f = I at *
  constructor
  · rintro (⟨h1, h2, h3⟩ | ⟨⟨h1, h2⟩, h3⟩ | ⟨h1, h2, h3⟩)
    · exact ⟨h1.le, h2.le, h3⟩
    · refine ⟨h2.le, h3, ?_⟩
      rw [h1, h2]
      cases y.neg <;> simp only [signed, if_true, if_false, Bool.false_eq_true] <;> omega
    · refine ⟨h1, h3.le, ?_⟩
      rw [h2, h3]
      cases x.neg <;> simp only [signed, if_true, if_false, Bool.false_eq_true] <;> omega
  · rintro ⟨h1, h2, h3⟩
    cases hx : x.neg <;> cases hy : y.neg <;> rw [hx, hy] at h3 <;>
      simp only [signed, if_true, if_false, Bool.false_eq_true, true_and, false_and, false_or,
        Bool.true_eq_false] at h3 ⊢ <;> omega

theorem rounded_not_nan (neg : Bool) (num den : Nat) :
    (rounded neg num den : Ieee f).isNan = false := by
  unfold isNan rounded pack
  simp

/-- Rounding with a fixed denominator is monotone, overflow included. -/
theorem rounded_mono {a b : Bool} {m n den : Nat} (hd : 0 < den) (h : signed a m ≤ signed b n) :
    (rounded a m den : Ieee f).key ≤ (rounded b n den : Ieee f).key := by
  refine signed_mono (F := fun m => min (nearestCode f m den) (infCode f)) ?_ ?_ h
  · intro m n h
    exact min_le_min_right _ (nearest_mono hd h)
  · show min (nearestCode f 0 den) _ = 0
    rw [nearest_code_zero hd]; simp

/-- Multiplying by a number that is at least 1, infinities included. -/
theorem mul_large {x c : Ieee f} (hx : x.isNan = false) (hc : IsFinite c) (hn : c.neg = false)
    (h1 : 2 ^ f.unit ≤ c.mag) : mul x c = rounded x.neg (x.mag * c.mag) (2 ^ f.unit) := by
  have c0 : c.code ≠ 0 := code_ne_zero (lt_of_lt_of_le (two_pow_pos' _) h1)
  unfold mul
  rw [hx, not_nan hc, not_inf hc, hn]
  simp only [Bool.or_false, Bool.false_eq_true, if_false, Bool.bne_false]
  by_cases hi : x.isInf = true
  · have e : x.code = infCode f := by unfold isInf at hi; simpa using hi
    rw [if_pos hi]
    by_cases h0 : x.code = 0
    · -- not a format: the code of infinity is 0
      exfalso
      have := (finite_iff c).mp hc
      omega
    · rw [if_neg (by tauto)]
      refine ext' rfl ?_
      have : infCode f ≤ nearestCode f (x.mag * c.mag) (2 ^ f.unit) := by
        refine le_nearest (two_pow_pos' _) ?_
        unfold mag at h1 ⊢
        rw [e]
        exact Nat.mul_le_mul_left _ h1
      show min (infCode f) (infCode f) = min _ (infCode f)
      rw [min_self, min_eq_right this]
  · rw [if_neg hi]

theorem mul_large_mono (hI : 0 < infCode f) {x y c : Ieee f} (h : NotAbove x y) (hc : IsFinite c) (hn : c.neg = false)
    (h1 : 2 ^ f.unit ≤ c.mag) : NotAbove (mul x c) (mul y c) := by
  obtain ⟨hx, hy, hk⟩ := (notAbove_iff hI).mp h
  rw [mul_large hx hc hn h1, mul_large hy hc hn h1]
  refine (notAbove_iff hI).mpr ⟨rounded_not_nan _ _ _, rounded_not_nan _ _ _,
    rounded_mono (two_pow_pos' _) ?_⟩
  refine signed_mono (F := (· * c.mag)) (fun a b h => Nat.mul_le_mul_right _ h) (Nat.zero_mul _) ?_
  exact int_le_iff.mpr hk

theorem trunc_mono {x y : Ieee f} (h : x.key ≤ y.key) : x.trunc ≤ y.trunc := by
  refine signed_mono (F := (· / 2 ^ f.unit)) (fun a b h => Nat.div_le_div_right h)
    (Nat.zero_div _) ?_
  exact int_le_iff.mpr h

theorem toRange_mono (hI : 0 < infCode f) {x y : Ieee f} (h : NotAbove x y) (lo hi : Int) :
    toRange lo hi x ≤ toRange lo hi y := by
  obtain ⟨hx, hy, hk⟩ := (notAbove_iff hI).mp h
  have := trunc_mono hk
  unfold toRange
  rw [hx, hy]
  simp only [Bool.false_eq_true, if_false]
  omega

/-- Changing the format keeps the order. -/
theorem convert_mono (hI : 0 < infCode f) (hJ : 0 < infCode g) {x y : Ieee f} (h : NotAbove x y) :
    NotAbove (x.convert : Ieee g) (y.convert : Ieee g) := by
  obtain ⟨hx, hy, hk⟩ := (notAbove_iff hI).mp h
  have hinf : ∀ b, (inf b : Ieee g).isNan = false := by intro b; unfold isNan inf pack; simp
  have hnan : ∀ z : Ieee f, z.isNan = false → (z.convert : Ieee g).isNan = false := by
    intro z hz
    unfold convert
    rw [hz]
    by_cases hi : z.isInf = true
    · rw [if_pos hi]; exact hinf _
    · rw [if_neg hi]; exact rounded_not_nan _ _ _
  have hcode : ∀ z : Ieee f, z.isNan = false → (z.convert : Ieee g).code ≤ infCode g := by
    intro z hz
    have := hnan z hz
    unfold isNan at this; simpa using this
  refine (notAbove_iff hJ).mpr ⟨hnan x hx, hnan y hy, ?_⟩
  have hcx := hcode x hx
  have hcy := hcode y hy
  have top : ∀ z : Ieee f, z.isInf = true → (z.convert : Ieee g) = inf z.neg := by
    intro z hz
    unfold convert
    rw [inf_not_nan hz, hz]; rfl
  have mid : ∀ z : Ieee f, z.isNan = false → z.isInf = false →
      (z.convert : Ieee g) = rounded z.neg (z.mag * 2 ^ g.unit) (2 ^ f.unit) := by
    intro z h1 h2
    unfold convert
    rw [h1, h2]; rfl
  have sx : (x.convert : Ieee g).neg = x.neg := by
    cases hi : x.isInf
    · rw [mid x hx hi]; rfl
    · rw [top x hi]; rfl
  have sy : (y.convert : Ieee g).neg = y.neg := by
    cases hi : y.isInf
    · rw [mid y hy hi]; rfl
    · rw [top y hi]; rfl
  have big : ∀ b, (inf b : Ieee g).code = infCode g := fun b => min_self _
  cases hix : x.isInf
  · cases hiy : y.isInf
    · rw [mid x hx hix, mid y hy hiy]
      refine rounded_mono (two_pow_pos' _) ?_
      exact signed_mono (F := (· * 2 ^ g.unit)) (fun a b h => Nat.mul_le_mul_right _ h)
        (Nat.zero_mul _) (int_le_iff.mpr hk)
    · have e : y.code = infCode f := by unfold isInf at hiy; simpa using hiy
      have e' : (y.convert : Ieee g).code = infCode g := by rw [top y hiy]; exact big _
      have hl : x.code < infCode f := by
        unfold isNan at hx; unfold isInf at hix; simp at hx hix; omega
      rw [key_signed, key_signed] at hk ⊢
      rw [sx, sy, e']
      rw [e] at hk
      cases hxn : x.neg <;> cases hyn : y.neg <;> rw [hxn, hyn] at hk <;>
        simp only [signed, if_true, if_false, Bool.false_eq_true] at hk ⊢ <;> omega
  · have e : x.code = infCode f := by unfold isInf at hix; simpa using hix
    have e' : (x.convert : Ieee g).code = infCode g := by rw [top x hix]; exact big _
    rw [key_signed, key_signed] at hk ⊢
    rw [sx, sy, e']
    rw [e] at hk
    have hly : y.code ≤ infCode f := by unfold isNan at hy; simpa using hy
    cases hxn : x.neg <;> cases hyn : y.neg <;> rw [hxn, hyn] at hk <;>
      simp only [signed, if_true, if_false, Bool.false_eq_true] at hk ⊢
    · -- both positive infinities
      have hey : y.code = infCode f := by omega
      have : y.isInf = true := by unfold isInf; simpa using hey
      have : (y.convert : Ieee g).code = infCode g := by rw [top y this]; exact big _
      omega
    · omega
    · omega
    · omega

end OCG.Ieee
