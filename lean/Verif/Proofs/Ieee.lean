import Verif.Spec.Ieee
import Mathlib.Tactic.Ring
import Mathlib.Tactic.Linarith
import Mathlib.Tactic.NormNum
import Mathlib.Tactic.FieldSimp
import Mathlib.Tactic.Positivity
/-
The arithmetic of `Verif.Model.Ieee`: codes are ordered as the values they stand for, rounding
gives a nearest value, and it is exact on representable values.
-/

namespace OCG.Ieee

variable {f : Format}

theorem two_pow_pos' (n : Nat) : 0 < 2 ^ n := Nat.pow_pos (by decide)

/-- The value of a code given by a shift and a significand. -/
theorem units_shift (s n : Nat) (h : n ≤ 2 * 2 ^ f.mant) (h' : s = 0 ∨ 2 ^ f.mant ≤ n) :
    units f (s * 2 ^ f.mant + n) = n * 2 ^ s := by
  have hM := two_pow_pos' f.mant
  unfold units
  generalize 2 ^ f.mant = M at *
  by_cases hn : n < M
  · obtain rfl : s = 0 := by omega
    rw [if_pos (by omega)]; simp
  · rw [if_neg (by nlinarith [Nat.zero_le (s * M)])]
    by_cases h2 : n < 2 * M
    · obtain ⟨k, rfl⟩ : ∃ k, n = M + k := ⟨n - M, by omega⟩
      have e : s * M + (M + k) = k + (s + 1) * M := by ring
      rw [e, Nat.add_mul_mod_self_right, Nat.add_mul_div_right _ _ hM,
        Nat.mod_eq_of_lt (by omega), Nat.div_eq_of_lt (by omega)]
      simp
    · obtain rfl : n = 2 * M := by omega
      have e : s * M + 2 * M = (s + 2) * M := by ring
      rw [e, Nat.mul_mod_left, Nat.mul_div_cancel _ hM]
      have : s + 2 - 1 = s + 1 := by omega
      rw [this, pow_succ]; ring

/-- Every code is given by a shift and a significand. -/
theorem exists_shift (f : Format) (c : Nat) :
    ∃ s n, c = s * 2 ^ f.mant + n ∧ n < 2 * 2 ^ f.mant ∧ (s = 0 ∨ 2 ^ f.mant ≤ n) := by
  have hM := two_pow_pos' f.mant
  generalize 2 ^ f.mant = M at *
  by_cases h : c < M
  · exact ⟨0, c, by simp, by omega, .inl rfl⟩
  · have h1 := Nat.div_add_mod c M
    have h2 := Nat.mod_lt c hM
    have h3 : 1 ≤ c / M := (Nat.one_le_div_iff hM).mpr (by omega)
    obtain ⟨k, hk⟩ : ∃ k, c / M = k + 1 := ⟨c / M - 1, by omega⟩
    refine ⟨k, M + c % M, ?_, by omega, .inr (by omega)⟩
    rw [hk] at h1
    nlinarith

theorem units_succ_lt (f : Format) (c : Nat) : units f c < units f (c + 1) := by
  obtain ⟨s, n, rfl, h1, h2⟩ := exists_shift f c
  rw [units_shift s n (by omega) h2, Nat.add_assoc, units_shift s (n + 1) (by omega) (by omega)]
  exact Nat.mul_lt_mul_of_pos_right (Nat.lt_succ_self n) (two_pow_pos' s)

/-- Larger codes stand for larger values. -/
theorem units_strictMono (f : Format) : StrictMono (units f) :=
  strictMono_nat_of_lt_succ (units_succ_lt f)

theorem units_le {c d : Nat} : units f c ≤ units f d ↔ c ≤ d := (units_strictMono f).le_iff_le
theorem units_lt {c d : Nat} : units f c < units f d ↔ c < d := (units_strictMono f).lt_iff_lt
theorem units_inj {c d : Nat} : units f c = units f d ↔ c = d := (units_strictMono f).injective.eq_iff

@[simp] theorem units_zero : units f 0 = 0 := by
  unfold units; rw [if_pos (two_pow_pos' _)]

theorem units_eq_zero {c : Nat} : units f c = 0 ↔ c = 0 := by
  have := units_inj (f := f) (c := c) (d := 0)
  rwa [units_zero] at this

/-- Distances of natural numbers. -/
theorem abs_le_abs_of {a b n : Nat} (h : (b ≤ n ∧ b ≤ a ∧ 2 * n + b ≥ a + b + b ∧ a ≤ n) ∨
    (n ≤ a ∧ a ≤ b) ∨ (b ≤ n ∧ a + b ≤ 2 * n ∧ n ≤ a) ∨ (n ≤ b ∧ a ≤ n ∧ 2 * n ≤ a + b)
    ∨ (b ≤ a ∧ a ≤ n)) :
    |((a : Nat) : Int) - n| ≤ |((b : Nat) : Int) - n| := by
  rcases abs_cases ((a : Int) - n) with ⟨e, _⟩ | ⟨e, _⟩ <;>
  rcases abs_cases ((b : Int) - n) with ⟨e', _⟩ | ⟨e', _⟩ <;> rw [e, e'] <;> omega

/-- The shift chosen by `nearestCode` and its properties. -/
theorem shift_spec (f : Format) (q : Nat) :
    q / 2 ^ (q.log2 - f.mant) < 2 * 2 ^ f.mant ∧
      (q.log2 - f.mant = 0 ∨ 2 ^ f.mant ≤ q / 2 ^ (q.log2 - f.mant)) := by
  by_cases hq : q = 0
  · subst hq
    have := two_pow_pos' f.mant
    simp
  · have h1 : 2 ^ q.log2 ≤ q := Nat.log2_self_le hq
    have h2 : q < 2 ^ (q.log2 + 1) := Nat.lt_log2_self
    by_cases hm : q.log2 ≤ f.mant
    · have e : q.log2 - f.mant = 0 := by omega
      rw [e]
      refine ⟨?_, .inl rfl⟩
      have : 2 ^ (q.log2 + 1) ≤ 2 ^ (f.mant + 1) := Nat.pow_le_pow_right (by decide) (by omega)
      rw [pow_zero, Nat.div_one]
      rw [pow_succ] at this
      omega
    · obtain ⟨s, hs⟩ : ∃ s, q.log2 = f.mant + s := ⟨q.log2 - f.mant, by omega⟩
      have e : q.log2 - f.mant = s := by omega
      rw [e]
      rw [hs] at h1 h2
      refine ⟨?_, .inr ?_⟩
      · rw [Nat.div_lt_iff_lt_mul (two_pow_pos' s)]
        calc q < 2 ^ (f.mant + s + 1) := h2
          _ = 2 * 2 ^ f.mant * 2 ^ s := by rw [pow_succ, pow_add]; ring
      · rw [Nat.le_div_iff_mul_le (two_pow_pos' s), ← pow_add]; exact h1

/-- The result of rounding as a significand and a shift. -/
theorem nearest_form (num den : Nat) (hd : 0 < den) :
    ∃ s n, nearestCode f num den = s * 2 ^ f.mant + n ∧ n ≤ 2 * 2 ^ f.mant ∧
      (s = 0 ∨ 2 ^ f.mant ≤ n) ∧ (s = 0 ∨ 2 ^ f.mant * 2 ^ s * den ≤ num) ∧
      2 * (n * 2 ^ s * den) ≤ 2 * num + den * 2 ^ s ∧
      2 * num ≤ 2 * (n * 2 ^ s * den) + den * 2 ^ s := by
  obtain ⟨h1, h2⟩ := shift_spec f (num / den)
  unfold nearestCode
  generalize (num / den).log2 - f.mant = s at *
  have hP := two_pow_pos' s
  have hdd : num / den / 2 ^ s = num / (den * 2 ^ s) := Nat.div_div_eq_div_mul _ _ _
  rw [hdd] at h1 h2
  have hD : 0 < den * 2 ^ s := Nat.mul_pos hd hP
  have h3 := Nat.div_add_mod num (den * 2 ^ s)
  have h4 := Nat.mod_lt num hD
  dsimp only
  have hlow : s = 0 ∨ 2 ^ f.mant * 2 ^ s * den ≤ num := by
    rcases h2 with h | h
    · exact .inl h
    · right
      have : den * 2 ^ s * 2 ^ f.mant ≤ den * 2 ^ s * (num / (den * 2 ^ s)) :=
        Nat.mul_le_mul_left _ h
      calc 2 ^ f.mant * 2 ^ s * den = den * 2 ^ s * 2 ^ f.mant := by ring
        _ ≤ num := by omega
  have e : ∀ n, n * 2 ^ s * den = den * 2 ^ s * n := fun n => by ring
  refine ⟨s, _, rfl, ?_, ?_, hlow, ?_, ?_⟩
  · split <;> omega
  · split <;> omega
  · rw [e]
    generalize den * 2 ^ s = D at *
    split
    · rw [Nat.mul_add]; omega
    · omega
  · rw [e]
    generalize den * 2 ^ s = D at *
    split
    · rw [Nat.mul_add]; omega
    · omega

/-- Rounding is exact on representable values. -/
theorem nearest_exact (c : Nat) {den : Nat} (hd : 0 < den) :
    nearestCode f (units f c * den) den = c := by
  obtain ⟨s, n, rfl, h1, h2⟩ := exists_shift f c
  rw [units_shift s n (by omega) h2]
  unfold nearestCode
  rw [Nat.mul_div_cancel _ hd]
  have hs : (n * 2 ^ s).log2 - f.mant = s := by
    by_cases hn : n < 2 ^ f.mant
    · obtain rfl : s = 0 := by omega
      by_cases h0 : n = 0
      · subst h0; simp
      · have : (n * 2 ^ 0).log2 < f.mant := by
          rw [pow_zero, mul_one]; exact (Nat.log2_lt h0).mpr hn
        omega
    · have hn0 : n ≠ 0 := by have := two_pow_pos' f.mant; omega
      have : (n * 2 ^ s).log2 = f.mant + s := by
        have hne : n * 2 ^ s ≠ 0 := Nat.mul_ne_zero hn0 (two_pow_pos' s).ne'
        apply (Nat.log2_eq_iff hne).mpr
        constructor
        · rw [pow_add]; exact Nat.mul_le_mul_right _ (by omega)
        · rw [show f.mant + s + 1 = (f.mant + 1) + s by omega, pow_add, pow_succ]
          exact Nat.mul_lt_mul_of_pos_right (by omega) (two_pow_pos' s)
      omega
  rw [hs]
  dsimp only
  have hD : 0 < den * 2 ^ s := Nat.mul_pos hd (two_pow_pos' s)
  have e : n * 2 ^ s * den = n * (den * 2 ^ s) := by ring
  rw [e, Nat.mul_mod_left, Nat.mul_div_cancel _ hD, if_neg (by omega)]

/-- Rounding gives a nearest value: no code is closer. -/
theorem nearest_closest (num : Nat) {den : Nat} (hd : 0 < den) (c : Nat) :
    |((units f (nearestCode f num den) * den : Nat) : Int) - num| ≤
      |((units f c * den : Nat) : Int) - num| := by
  obtain ⟨s, n, e, h1, h2, h3, h4, h5⟩ := nearest_form (f := f) num den hd
  rw [e, units_shift s n h1 h2]
  -- either the value of `c` is a multiple of the last place, or it is below the binade
  have key : (∃ k, units f c = k * 2 ^ s) ∨
      (2 ^ f.mant * 2 ^ s * den ≤ num ∧ units f c ≤ 2 ^ f.mant * 2 ^ s) := by
    rcases h3 with h3 | h3
    · exact .inl ⟨units f c, by simp [h3]⟩
    · by_cases hc : c ≤ s * 2 ^ f.mant + 2 ^ f.mant
      · right
        refine ⟨h3, ?_⟩
        rw [← units_shift (f := f) s (2 ^ f.mant) (by omega) (.inr le_rfl)]
        exact units_le.mpr hc
      · left
        obtain ⟨t, m, rfl, g1, g2⟩ := exists_shift f c
        have hts : s ≤ t := by
          by_contra hlt
          have : (t + 1) * 2 ^ f.mant ≤ s * 2 ^ f.mant := Nat.mul_le_mul_right _ (by omega)
          rw [add_mul] at this
          omega
        obtain ⟨j, rfl⟩ := Nat.exists_eq_add_of_le hts
        exact ⟨m * 2 ^ j, by rw [units_shift _ _ (by omega) g2, pow_add]; ring⟩
  have mulden : ∀ k, k * 2 ^ s * den = k * (den * 2 ^ s) := fun k => by ring
  rcases key with ⟨k, hk⟩ | ⟨g1, g2⟩
  · rw [hk, mulden, mulden]
    rw [mulden] at h4 h5
    generalize den * 2 ^ s = D at *
    rcases Nat.lt_trichotomy k n with h | h | h
    · have : (k + 1) * D ≤ n * D := Nat.mul_le_mul_right _ h
      rw [add_mul] at this
      exact abs_le_abs_of (by omega)
    · rw [h]
    · have : (n + 1) * D ≤ k * D := Nat.mul_le_mul_right _ h
      rw [add_mul] at this
      exact abs_le_abs_of (by omega)
  · have g3 : units f c * den ≤ 2 ^ f.mant * 2 ^ s * den := Nat.mul_le_mul_right _ g2
    by_cases hs : s = 0 ∧ n < 2 ^ f.mant
    · -- then `n` is at least the binade minimum after all
      exfalso
      obtain ⟨rfl, hn⟩ := hs
      have : (n + 1) * den ≤ 2 ^ f.mant * den := Nat.mul_le_mul_right _ hn
      simp only [pow_zero, mul_one] at *
      rw [add_mul] at this
      omega
    · have hn : 2 ^ f.mant ≤ n := by omega
      have g4 : 2 ^ f.mant * 2 ^ s * den ≤ n * 2 ^ s * den :=
        Nat.mul_le_mul_right _ (Nat.mul_le_mul_right _ hn)
      by_cases h6 : n = 2 ^ f.mant
      · rw [← h6] at g3 g1
        exact abs_le_abs_of (by omega)
      · have g5 : (2 ^ f.mant + 1) * 2 ^ s * den ≤ n * 2 ^ s * den :=
          Nat.mul_le_mul_right _ (Nat.mul_le_mul_right _ (by omega))
        have g6 : (2 ^ f.mant + 1) * 2 ^ s * den = 2 ^ f.mant * 2 ^ s * den + den * 2 ^ s := by ring
        exact abs_le_abs_of (by omega)

/-- What is at most a representable value is rounded to at most it. -/
theorem nearest_le {num den c : Nat} (hd : 0 < den) (h : num ≤ units f c * den) :
    nearestCode f num den ≤ c := by
  by_contra hlt
  have h1 := nearest_closest (f := f) num hd c
  have h2 : units f c * den < units f (nearestCode f num den) * den :=
    Nat.mul_lt_mul_of_pos_right (units_lt.mpr (by omega)) hd
  rw [abs_of_nonneg (by omega), abs_of_nonneg (by omega)] at h1
  omega

/-- What is at least a representable value is rounded to at least it. -/
theorem le_nearest {num den c : Nat} (hd : 0 < den) (h : units f c * den ≤ num) :
    c ≤ nearestCode f num den := by
  by_contra hlt
  have h1 := nearest_closest (f := f) num hd c
  have h2 : units f (nearestCode f num den) * den < units f c * den :=
    Nat.mul_lt_mul_of_pos_right (units_lt.mpr (by omega)) hd
  rw [abs_of_nonpos (by omega), abs_of_nonpos (by omega)] at h1
  omega

/-- What is above the middle between two neighbours is rounded to at least the upper one. -/
theorem le_nearest_of_mid {num den c : Nat} (hd : 0 < den)
    (h : (units f c + units f (c + 1)) * den < 2 * num) : c + 1 ≤ nearestCode f num den := by
  by_contra hlt
  have h1 := nearest_closest (f := f) num hd (c + 1)
  have h2 : units f (nearestCode f num den) * den ≤ units f c * den :=
    Nat.mul_le_mul_right _ (units_le.mpr (by omega))
  rw [Nat.add_mul] at h
  have h3 := Nat.mul_lt_mul_of_pos_right (units_succ_lt f c) hd
  generalize units f (nearestCode f num den) * den = a at *
  generalize units f c * den = b at *
  generalize units f (c + 1) * den = d at *
  rcases abs_cases ((a : Int) - num) with ⟨e, _⟩ | ⟨e, _⟩ <;>
  rcases abs_cases ((d : Int) - num) with ⟨e', _⟩ | ⟨e', _⟩ <;> rw [e, e'] at h1 <;> omega

/-- What is below the middle between two neighbours is rounded to at most the lower one. -/
theorem nearest_le_of_mid {num den c : Nat} (hd : 0 < den)
    (h : 2 * num < (units f c + units f (c + 1)) * den) : nearestCode f num den ≤ c := by
  by_contra hlt
  have h1 := nearest_closest (f := f) num hd c
  have h2 : units f (c + 1) * den ≤ units f (nearestCode f num den) * den :=
    Nat.mul_le_mul_right _ (units_le.mpr (by omega))
  rw [Nat.add_mul] at h
  have h3 := Nat.mul_lt_mul_of_pos_right (units_succ_lt f c) hd
  generalize units f (nearestCode f num den) * den = a at *
  generalize units f c * den = b at *
  generalize units f (c + 1) * den = d at *
  rcases abs_cases ((a : Int) - num) with ⟨e, _⟩ | ⟨e, _⟩ <;>
  rcases abs_cases ((b : Int) - num) with ⟨e', _⟩ | ⟨e', _⟩ <;> rw [e, e'] at h1 <;> omega

/-- Rounding depends on the ratio only. -/
theorem nearest_scale (num den : Nat) {k : Nat} (hk : 0 < k) :
    nearestCode f (num * k) (den * k) = nearestCode f num den := by
  unfold nearestCode
  rw [Nat.mul_div_mul_right _ _ hk]
  dsimp only
  generalize (num / den).log2 - f.mant = s
  rw [show den * k * 2 ^ s = den * 2 ^ s * k by ring, Nat.mul_div_mul_right _ _ hk,
    Nat.mul_mod_mul_right]
  have e1 : (den * 2 ^ s * k < 2 * (num % (den * 2 ^ s) * k)) ↔
      (den * 2 ^ s < 2 * (num % (den * 2 ^ s))) := by
    rw [← Nat.mul_assoc]; exact Nat.mul_lt_mul_right hk
  have e2 : (2 * (num % (den * 2 ^ s) * k) = den * 2 ^ s * k) ↔
      (2 * (num % (den * 2 ^ s)) = den * 2 ^ s) := by
    rw [← Nat.mul_assoc]; exact Nat.mul_left_inj hk.ne'
  simp only [e1, e2]

/-- The neighbours of a value. -/
theorem units_next {s n : Nat} (h1 : n < 2 * 2 ^ f.mant) (h2 : s = 0 ∨ 2 ^ f.mant ≤ n) :
    units f (s * 2 ^ f.mant + n + 1) = units f (s * 2 ^ f.mant + n) + 2 ^ s := by
  rw [Nat.add_assoc, units_shift s (n + 1) (by omega) (by omega), units_shift s n (by omega) h2]
  ring

/-- The error is at most half a unit in the last place: relative to the value for normal results,
half the smallest positive value for subnormal ones. -/
theorem nearest_error (num : Nat) {den : Nat} (hd : 0 < den) :
    2 * 2 ^ f.mant * |((units f (nearestCode f num den) * den : Nat) : Int) - num| ≤
      max (2 ^ f.mant * den : Nat) num := by
  obtain ⟨s, n, e, h1, h2, h3, h4, h5⟩ := nearest_form (f := f) num den hd
  rw [e, units_shift s n h1 h2]
  have h6 : 2 * |((n * 2 ^ s * den : Nat) : Int) - num| ≤ (den * 2 ^ s : Nat) := by
    generalize n * 2 ^ s * den = a at *
    generalize den * 2 ^ s = D at *
    rcases abs_cases ((a : Int) - num) with ⟨e, _⟩ | ⟨e, _⟩ <;> rw [e] <;> omega
  have h7 : (2 ^ f.mant * (den * 2 ^ s) : Nat) ≤ max (2 ^ f.mant * den) num := by
    rcases h3 with rfl | h3
    · simp
    · refine le_trans (le_of_eq ?_) (le_trans h3 (le_max_right _ _)); ring
  have h8 : ((2 ^ f.mant : Nat) : Int) * (2 * |((n * 2 ^ s * den : Nat) : Int) - num|) ≤
      ((2 ^ f.mant : Nat) : Int) * (den * 2 ^ s : Nat) :=
    mul_le_mul_of_nonneg_left h6 (Int.natCast_nonneg _)
  have h9 : ((2 ^ f.mant : Nat) : Int) * (den * 2 ^ s : Nat) ≤
      ((max (2 ^ f.mant * den) num : Nat) : Int) := by exact_mod_cast h7
  refine le_trans (le_of_eq ?_) (h8.trans (h9.trans (le_of_eq ?_)))
  · push_cast; ring
  · push_cast; rfl

/-- If another code is as close as the one chosen, the one chosen is even. -/
theorem nearest_even (hm : 1 ≤ f.mant) (num : Nat) {den : Nat} (hd : 0 < den) (c : Nat)
    (hc : c ≠ nearestCode f num den)
    (he : |((units f c * den : Nat) : Int) - num| =
      |((units f (nearestCode f num den) * den : Nat) : Int) - num|) :
    nearestCode f num den % 2 = 0 := by
  obtain ⟨h1, h2⟩ := shift_spec f (num / den)
  unfold nearestCode at *
  generalize (num / den).log2 - f.mant = s at *
  have hP := two_pow_pos' s
  have hdd : num / den / 2 ^ s = num / (den * 2 ^ s) := Nat.div_div_eq_div_mul _ _ _
  rw [hdd] at h1 h2
  have hD : 0 < den * 2 ^ s := Nat.mul_pos hd hP
  have h3 := Nat.div_add_mod num (den * 2 ^ s)
  have h4 := Nat.mod_lt num hD
  dsimp only at *
  have hM : 2 ^ f.mant % 2 = 0 := by
    obtain ⟨k, hk⟩ : ∃ k, f.mant = k + 1 := ⟨f.mant - 1, by omega⟩
    rw [hk, pow_succ]; omega
  have hsM : s * 2 ^ f.mant % 2 = 0 := by rw [Nat.mul_mod, hM]; simp
  have mulden : ∀ k, k * 2 ^ s * den = (den * 2 ^ s) * k := fun k => by ring
  have hform : ∀ n', n' = num / (den * 2 ^ s) ∨ n' = num / (den * 2 ^ s) + 1 →
      c ≠ s * 2 ^ f.mant + n' →
      |((units f c * den : Nat) : Int) - num| =
        |((units f (s * 2 ^ f.mant + n') * den : Nat) : Int) - num| →
      2 * |((units f (s * 2 ^ f.mant + n') * den : Nat) : Int) - num| ≤ (den * 2 ^ s : Nat) →
      2 * (num % (den * 2 ^ s)) = den * 2 ^ s := by
    intro n' hn' hne heq hhalf
    rw [units_shift s n' (by omega) (by omega), mulden] at heq hhalf
    have key : (∃ k, k ≠ n' ∧ units f c = k * 2 ^ s) ∨
        units f c < 2 ^ f.mant * 2 ^ s ∧ 2 ^ f.mant ≤ num / (den * 2 ^ s) := by
      rcases h2 with h2 | h2
      · subst h2
        left
        refine ⟨units f c, ?_, by simp⟩
        intro h
        apply hne
        rw [← units_inj (f := f), units_shift 0 n' (by omega) (by omega), h]; simp
      · by_cases hcs : c < s * 2 ^ f.mant + 2 ^ f.mant
        · right
          refine ⟨?_, h2⟩
          rw [← units_shift (f := f) s (2 ^ f.mant) (by omega) (.inr le_rfl)]
          exact units_lt.mpr hcs
        · left
          have hv : ∃ k, units f c = k * 2 ^ s := by
            obtain ⟨t, m, rfl, g1, g2⟩ := exists_shift f c
            have hts : s ≤ t := by
              by_contra hlt
              have : (t + 1) * 2 ^ f.mant ≤ s * 2 ^ f.mant := Nat.mul_le_mul_right _ (by omega)
              rw [add_mul] at this
              omega
            obtain ⟨j, rfl⟩ := Nat.exists_eq_add_of_le hts
            exact ⟨m * 2 ^ j, by rw [units_shift _ _ (by omega) g2, pow_add]; ring⟩
          obtain ⟨k, hk⟩ := hv
          refine ⟨k, ?_, hk⟩
          rintro rfl
          apply hne
          rw [← units_inj (f := f), units_shift s k (by omega) (by omega), hk]
    rcases key with ⟨k, hk, hu⟩ | ⟨hu, hb⟩
    · rw [hu, mulden] at heq
      generalize den * 2 ^ s = D at *
      generalize num / D = n at *
      generalize num % D = r at *
      rcases Nat.lt_or_gt_of_ne hk with h | h
      · have g : D * (k + 1) ≤ D * n' := Nat.mul_le_mul_left _ h
        rw [mul_add] at g
        rcases hn' with rfl | rfl
        · generalize D * n' = a at *
          generalize D * k = b at *
          rcases abs_cases (((a : Nat) : Int) - num) with ⟨e, _⟩ | ⟨e, _⟩ <;>
          rcases abs_cases (((b : Nat) : Int) - num) with ⟨e', _⟩ | ⟨e', _⟩ <;>
          rw [e] at heq hhalf <;> rw [e'] at heq <;> omega
        · rw [mul_add] at g heq hhalf
          generalize D * n = a at *
          generalize D * k = b at *
          rcases abs_cases (((a + D * 1 : Nat) : Int) - num) with ⟨e, _⟩ | ⟨e, _⟩ <;>
          rcases abs_cases (((b : Nat) : Int) - num) with ⟨e', _⟩ | ⟨e', _⟩ <;>
          rw [e] at heq hhalf <;> rw [e'] at heq <;> omega
      · have g : D * (n' + 1) ≤ D * k := Nat.mul_le_mul_left _ h
        rw [mul_add] at g
        rcases hn' with rfl | rfl
        · generalize D * n' = a at *
          generalize D * k = b at *
          rcases abs_cases (((a : Nat) : Int) - num) with ⟨e, _⟩ | ⟨e, _⟩ <;>
          rcases abs_cases (((b : Nat) : Int) - num) with ⟨e', _⟩ | ⟨e', _⟩ <;>
          rw [e] at heq hhalf <;> rw [e'] at heq <;> omega
        · rw [mul_add] at g heq hhalf
          generalize D * n = a at *
          generalize D * k = b at *
          rcases abs_cases (((a + D * 1 : Nat) : Int) - num) with ⟨e, _⟩ | ⟨e, _⟩ <;>
          rcases abs_cases (((b : Nat) : Int) - num) with ⟨e', _⟩ | ⟨e', _⟩ <;>
          rw [e] at heq hhalf <;> rw [e'] at heq <;> omega
    · have g1 : units f c * den < 2 ^ f.mant * 2 ^ s * den := Nat.mul_lt_mul_of_pos_right hu hd
      have g2 : den * 2 ^ s * 2 ^ f.mant ≤ den * 2 ^ s * (num / (den * 2 ^ s)) :=
        Nat.mul_le_mul_left _ hb
      rw [mulden] at g1
      generalize den * 2 ^ s = D at *
      generalize num / D = n at *
      generalize num % D = r at *
      generalize units f c * den = b at *
      rcases hn' with rfl | rfl
      · generalize D * n' = a at *
        rcases abs_cases (((a : Nat) : Int) - num) with ⟨e, _⟩ | ⟨e, _⟩ <;>
        rcases abs_cases (((b : Nat) : Int) - num) with ⟨e', _⟩ | ⟨e', _⟩ <;>
        rw [e] at heq hhalf <;> rw [e'] at heq <;> omega
      · rw [mul_add] at heq hhalf
        generalize D * n = a at *
        rcases abs_cases (((a + D * 1 : Nat) : Int) - num) with ⟨e, _⟩ | ⟨e, _⟩ <;>
        rcases abs_cases (((b : Nat) : Int) - num) with ⟨e', _⟩ | ⟨e', _⟩ <;>
        rw [e] at heq hhalf <;> rw [e'] at heq <;> omega
  have half : ∀ n', (n' = num / (den * 2 ^ s) ∧ 2 * (num % (den * 2 ^ s)) ≤ den * 2 ^ s ∨
      n' = num / (den * 2 ^ s) + 1 ∧ den * 2 ^ s ≤ 2 * (num % (den * 2 ^ s))) →
      2 * |((units f (s * 2 ^ f.mant + n') * den : Nat) : Int) - num| ≤ (den * 2 ^ s : Nat) := by
    intro n' hn'
    rw [units_shift s n' (by omega) (by omega), mulden]
    generalize den * 2 ^ s = D at *
    generalize num / D = n at *
    generalize num % D = r at *
    rcases hn' with ⟨rfl, g⟩ | ⟨rfl, g⟩
    · generalize D * n' = a at *
      rcases abs_cases (((a : Nat) : Int) - num) with ⟨e, _⟩ | ⟨e, _⟩ <;> rw [e] <;> omega
    · rw [mul_add]
      generalize D * n = a at *
      rcases abs_cases (((a + D * 1 : Nat) : Int) - num) with ⟨e, _⟩ | ⟨e, _⟩ <;> rw [e] <;> omega
  split at hc
  · rename_i hif
    rw [if_pos hif] at he ⊢
    have := hform _ (.inr rfl) hc he (half _ (.inr ⟨rfl, by omega⟩))
    omega
  · rename_i hif
    rw [if_neg hif] at he ⊢
    have := hform _ (.inl rfl) hc he (half _ (.inl ⟨rfl, by omega⟩))
    omega

open IeeeSpec

theorem finite_iff (x : Ieee f) : IsFinite x ↔ x.code < infCode f := by
  unfold IsFinite infCode
  rw [Nat.div_lt_iff_lt_mul (two_pow_pos' _)]

theorem mag_eq (x : Ieee f) : (x.mag : ℚ) * 2 ^ (-(f.unit : ℤ)) =
    (if x.code / 2 ^ f.mant = 0 then ((x.code % 2 ^ f.mant : Nat) : ℚ) * 2 ^ (-(f.unit : ℤ))
     else (1 + ((x.code % 2 ^ f.mant : Nat) : ℚ) / 2 ^ f.mant) *
      2 ^ ((f.mant : ℤ) + (x.code / 2 ^ f.mant : Nat) - 1 - f.unit)) := by
  unfold mag units
  have hM := two_pow_pos' f.mant
  by_cases h : x.code < 2 ^ f.mant
  · rw [if_pos h, if_pos (Nat.div_eq_of_lt h), Nat.mod_eq_of_lt h]
  · have h1 : 1 ≤ x.code / 2 ^ f.mant := (Nat.one_le_div_iff hM).mpr (by omega)
    rw [if_neg h, if_neg (by omega)]
    obtain ⟨k, hk⟩ : ∃ k, x.code / 2 ^ f.mant = k + 1 := ⟨x.code / 2 ^ f.mant - 1, by omega⟩
    rw [hk]
    have e : (f.mant : ℤ) + ((k + 1 : Nat) : ℤ) - 1 - f.unit = (f.mant : ℤ) + k + -(f.unit : ℤ) := by
      push_cast; ring
    rw [e, zpow_add₀ (by norm_num), zpow_add₀ (by norm_num), zpow_natCast, zpow_natCast]
    push_cast
    have : (2 : ℚ) ^ f.mant ≠ 0 := by positivity
    field_simp

/-- The value in terms of units. -/
theorem val_eq (x : Ieee f) : val x = (x.int : ℚ) / 2 ^ f.unit := by
  unfold val int
  rw [← mag_eq, zpow_neg, zpow_natCast]
  split <;> push_cast <;> ring

theorem int_of_nonneg {x : Ieee f} (h : x.neg = false) : x.int = x.mag := by
  unfold int; rw [h]; rfl

theorem int_of_neg {x : Ieee f} (h : x.neg = true) : x.int = -(x.mag : Int) := by
  unfold int; rw [h]; rfl

theorem natAbs_int (x : Ieee f) : x.int.natAbs = x.mag := by
  unfold int; split <;> simp

/-- The sign of a sign bit. -/
def sgn (b : Bool) : ℚ := if b then -1 else 1

theorem val_mag (x : Ieee f) : val x = sgn x.neg * (x.mag : ℚ) / 2 ^ f.unit := by
  rw [val_eq]; unfold int sgn; split <;> push_cast <;> ring

theorem abs_val (x : Ieee f) : |val x| = (x.mag : ℚ) / 2 ^ f.unit := by
  rw [val_eq, abs_div, ← Int.cast_abs, Int.abs_eq_natAbs, natAbs_int]
  rw [abs_of_pos (by positivity : (0 : ℚ) < 2 ^ f.unit)]
  push_cast; rfl

theorem rounded_code {neg : Bool} {num den : Nat}
    (h : nearestCode f num den ≤ infCode f) :
    (rounded neg num den : Ieee f).code = nearestCode f num den := by
  unfold rounded pack; exact Nat.min_eq_left h

@[simp] theorem rounded_neg {neg : Bool} {num den : Nat} :
    (rounded neg num den : Ieee f).neg = neg := rfl

theorem rounded_finite {neg : Bool} {num den : Nat}
    (h : IsFinite (rounded neg num den : Ieee f)) :
    nearestCode f num den < infCode f ∧
      (rounded neg num den : Ieee f).code = nearestCode f num den := by
  rw [finite_iff] at h
  have h' : min (nearestCode f num den) (infCode f) < infCode f := h
  have h2 : nearestCode f num den < infCode f := by omega
  exact ⟨h2, rounded_code h2.le⟩

/-- Rounding to nearest, ties to even: a finite result of `rounded` is the exact value rounded. -/
theorem rounded_nearest (hm : 1 ≤ f.mant) (neg : Bool) (num : Nat) {den : Nat} (hd : 0 < den)
    (h : IsFinite (rounded neg num den : Ieee f)) :
    Nearest (sgn neg * ((num : ℚ) / den) / 2 ^ f.unit) (rounded neg num den : Ieee f) := by
  obtain ⟨_, hcode⟩ := rounded_finite h
  have hdq : (0 : ℚ) < den := by exact_mod_cast hd
  have hU : (0 : ℚ) < 2 ^ f.unit := by positivity
  -- the distance of a value with the same sign
  have dist : ∀ y : Ieee f, y.neg = neg →
      |val y - sgn neg * ((num : ℚ) / den) / 2 ^ f.unit| =
        ((|((units f y.code * den : Nat) : Int) - num| : Int) : ℚ) / (den * 2 ^ f.unit) := by
    intro y hy
    have e : val y - sgn neg * ((num : ℚ) / den) / 2 ^ f.unit =
        sgn neg * ((((units f y.code * den : Nat) : Int) - (num : Int) : Int) : ℚ) /
          (den * 2 ^ f.unit) := by
      rw [val_mag, hy]; unfold mag; push_cast; field_simp
    rw [e, abs_div, abs_mul]
    have : |sgn neg| = 1 := by unfold sgn; split <;> simp
    rw [this, one_mul, abs_of_pos (by positivity : (0 : ℚ) < den * 2 ^ f.unit), Int.cast_abs]
  -- a value with the other sign is not closer than its opposite
  have other : ∀ y : Ieee f, y.neg ≠ neg →
      |val y.opp - sgn neg * ((num : ℚ) / den) / 2 ^ f.unit| ≤
        |val y - sgn neg * ((num : ℚ) / den) / 2 ^ f.unit| := by
    intro y hy
    have hp : 0 ≤ (num : ℚ) / den / 2 ^ f.unit := by positivity
    have hq : 0 ≤ (y.mag : ℚ) / 2 ^ f.unit := by positivity
    have e1 : val y.opp = sgn neg * ((y.mag : ℚ) / 2 ^ f.unit) := by
      rw [val_mag]
      have : y.opp.neg = neg := by
        show (!y.neg) = neg
        cases hb : y.neg <;> cases neg <;> simp_all
      rw [this]; show sgn neg * (y.mag : ℚ) / _ = _; ring
    have e2 : val y = -(sgn neg * ((y.mag : ℚ) / 2 ^ f.unit)) := by
      rw [val_mag]
      have : sgn y.neg = -sgn neg := by
        cases hb : y.neg <;> cases neg <;> simp_all [sgn]
      rw [this]; ring
    rw [e1, e2, mul_div_assoc, ← mul_sub, abs_mul,
      show -(sgn neg * ((y.mag : ℚ) / 2 ^ f.unit)) - sgn neg * ((num : ℚ) / den / 2 ^ f.unit) =
        sgn neg * -(((y.mag : ℚ) / 2 ^ f.unit) + ((num : ℚ) / den / 2 ^ f.unit)) by ring, abs_mul,
      abs_neg]
    refine mul_le_mul_of_nonneg_left ?_ (abs_nonneg _)
    rw [abs_of_nonneg (add_nonneg hq hp)]
    rw [abs_le]; constructor <;> linarith
  have hpos : (0 : ℚ) < den * 2 ^ f.unit := by positivity
  have closestSame : ∀ y : Ieee f, y.neg = neg →
      |val (rounded neg num den : Ieee f) - sgn neg * ((num : ℚ) / den) / 2 ^ f.unit| ≤
        |val y - sgn neg * ((num : ℚ) / den) / 2 ^ f.unit| := by
    intro y hy
    rw [dist y hy, dist _ rfl, hcode]
    refine div_le_div_of_nonneg_right ?_ hpos.le
    exact_mod_cast nearest_closest num hd y.code
  constructor
  · intro y _
    by_cases hy : y.neg = neg
    · exact closestSame y hy
    · refine (closestSame y.opp ?_).trans (other y hy)
      show (!y.neg) = neg
      cases hb : y.neg <;> cases neg <;> simp_all
  · intro y _ hne heq
    rw [hcode]
    have main : ∀ z : Ieee f, z.neg = neg → val z ≠ val (rounded neg num den : Ieee f) →
        |val z - sgn neg * ((num : ℚ) / den) / 2 ^ f.unit| =
          |val (rounded neg num den : Ieee f) - sgn neg * ((num : ℚ) / den) / 2 ^ f.unit| →
        nearestCode f num den % 2 = 0 := by
      intro z hz hzne hzeq
      refine nearest_even hm num hd z.code ?_ ?_
      · intro h
        apply hzne
        rw [val_mag, val_mag, hz]; unfold mag; rw [h, hcode]; rfl
      · rw [dist z hz, dist _ rfl, hcode, div_left_inj' hpos.ne'] at hzeq
        exact_mod_cast hzeq
    by_cases hy : y.neg = neg
    · exact main y hy hne heq
    · have hyo : y.opp.neg = neg := by
        show (!y.neg) = neg
        cases hb : y.neg <;> cases neg <;> simp_all
      have h1 := closestSame y.opp hyo
      have h2 := other y hy
      by_cases hv : val y.opp = val (rounded neg num den : Ieee f)
      · -- then both signs are equally close, so the exact value is 0 or the magnitude is 0
        have hp : 0 ≤ (num : ℚ) / den / 2 ^ f.unit := by positivity
        have hq : 0 ≤ (y.mag : ℚ) / 2 ^ f.unit := by positivity
        have hs : sgn y.neg = -sgn neg := by
          cases hb : y.neg <;> cases neg <;> simp_all [sgn]
        have e1 : val (rounded neg num den : Ieee f) = sgn neg * ((y.mag : ℚ) / 2 ^ f.unit) := by
          rw [← hv, val_mag, hyo]; show sgn neg * (y.mag : ℚ) / _ = _; ring
        have e2 : val y = -(sgn neg * ((y.mag : ℚ) / 2 ^ f.unit)) := by
          rw [val_mag, hs]; ring
        rw [e1, e2, mul_div_assoc, ← mul_sub, abs_mul,
          show -(sgn neg * ((y.mag : ℚ) / 2 ^ f.unit)) - sgn neg * ((num : ℚ) / den / 2 ^ f.unit) =
          sgn neg * -(((y.mag : ℚ) / 2 ^ f.unit) + ((num : ℚ) / den / 2 ^ f.unit)) by ring, abs_mul,
          abs_neg] at heq
        have hsg : |sgn neg| = 1 := by unfold sgn; split <;> simp
        rw [hsg, one_mul, one_mul, abs_of_nonneg (add_nonneg hq hp)] at heq
        have hm0 : (y.mag : ℚ) / 2 ^ f.unit ≠ 0 := by
          intro h0
          apply hne
          rw [e1, e2, h0]; simp
        have hn0 : (num : ℚ) / den / 2 ^ f.unit = 0 := by
          rcases abs_cases ((y.mag : ℚ) / 2 ^ f.unit - (num : ℚ) / den / 2 ^ f.unit) with
            ⟨e, _⟩ | ⟨e, _⟩ <;> rw [e] at heq
          · linarith
          · exact absurd (by linarith : (y.mag : ℚ) / 2 ^ f.unit = 0) hm0
        -- an exact zero is rounded to zero
        have hnum : num = 0 := by
          rw [div_div, div_eq_zero_iff] at hn0
          rcases hn0 with h | h
          · exact_mod_cast h
          · exact absurd h (by positivity)
        subst hnum
        have := nearest_exact (f := f) 0 hd
        rw [units_zero, zero_mul] at this
        rw [this]
      · exact main y.opp hyo hv (le_antisymm (by rw [← heq]; exact h2) h1)

theorem not_nan {x : Ieee f} (h : IsFinite x) : x.isNan = false := by
  rw [finite_iff] at h; unfold isNan; simp; omega

theorem not_inf {x : Ieee f} (h : IsFinite x) : x.isInf = false := by
  rw [finite_iff] at h; unfold isInf; simp; omega

theorem isFinite_true {x : Ieee f} (h : IsFinite x) : x.isFinite = true := by
  rw [finite_iff] at h; unfold isFinite; simpa using h

theorem add_finite {x y : Ieee f} (hx : IsFinite x) (hy : IsFinite y) :
    add x y = if x.int + y.int = 0 then zero (x.neg && y.neg)
      else rounded (decide (x.int + y.int < 0)) (x.int + y.int).natAbs 1 := by
  unfold add
  rw [not_nan hx, not_nan hy, not_inf hx, not_inf hy]
  simp

theorem mul_finite {x y : Ieee f} (hx : IsFinite x) (hy : IsFinite y) :
    mul x y = rounded (x.neg != y.neg) (x.mag * y.mag) (2 ^ f.unit) := by
  unfold mul
  rw [not_nan hx, not_nan hy, not_inf hx, not_inf hy]
  simp

theorem div_finite {x y : Ieee f} (hx : IsFinite x) (hy : IsFinite y) (h0 : y.code ≠ 0) :
    div x y = rounded (x.neg != y.neg) (x.mag * 2 ^ f.unit) y.mag := by
  unfold div
  rw [not_nan hx, not_nan hy, not_inf hx, not_inf hy]
  simp [h0]

theorem nearest_code_zero {den : Nat} (hd : 0 < den) : nearestCode f 0 den = 0 := by
  have := nearest_exact (f := f) 0 hd
  rwa [units_zero, zero_mul] at this

theorem zero_eq (neg : Bool) : (zero neg : Ieee f) = rounded neg 0 1 := by
  unfold zero rounded; rw [nearest_code_zero (by decide)]

theorem mag_pos {x : Ieee f} (h : x.code ≠ 0) : 0 < x.mag :=
  Nat.pos_of_ne_zero fun e => h (units_eq_zero.mp e)

/-- Addition is correctly rounded. -/
theorem add_nearest (hm : 1 ≤ f.mant) {x y : Ieee f} (hx : IsFinite x) (hy : IsFinite y)
    (h : IsFinite (add x y)) : Nearest (val x + val y) (add x y) := by
  rw [add_finite hx hy] at h ⊢
  have e : val x + val y = ((x.int + y.int : Int) : ℚ) / 2 ^ f.unit := by
    rw [val_eq, val_eq]; push_cast; ring
  rw [e]
  by_cases h0 : x.int + y.int = 0
  · rw [if_pos h0, zero_eq] at h ⊢
    have := rounded_nearest hm _ 0 (by decide : 0 < 1) h
    rw [h0]; simpa using this
  · rw [if_neg h0] at h ⊢
    have := rounded_nearest hm _ _ (by decide : 0 < 1) h
    have e2 : sgn (decide (x.int + y.int < 0)) * (((x.int + y.int).natAbs : ℚ) / ((1 : Nat) : ℚ)) =
        ((x.int + y.int : Int) : ℚ) := by
      generalize x.int + y.int = z
      unfold sgn
      by_cases hz : z < 0
      · rw [decide_eq_true hz, if_pos rfl, Nat.cast_natAbs, abs_of_neg hz]; push_cast; ring
      · rw [decide_eq_false hz, if_neg (by decide), Nat.cast_natAbs, abs_of_nonneg (by omega)]
        push_cast; ring
    rwa [e2] at this

theorem sgn_bne (a b : Bool) : sgn (a != b) = sgn a * sgn b := by
  cases a <;> cases b <;> simp [sgn]

theorem sgn_div (a b : Bool) : sgn a / sgn b = sgn a * sgn b := by
  cases a <;> cases b <;> simp [sgn]

/-- Multiplication is correctly rounded. -/
theorem mul_nearest (hm : 1 ≤ f.mant) {x y : Ieee f} (hx : IsFinite x) (hy : IsFinite y)
    (h : IsFinite (mul x y)) : Nearest (val x * val y) (mul x y) := by
  rw [mul_finite hx hy] at h ⊢
  have := rounded_nearest hm _ _ (two_pow_pos' _) h
  convert this using 1
  rw [val_mag, val_mag, sgn_bne]; push_cast; ring

/-- Division is correctly rounded. -/
theorem div_nearest (hm : 1 ≤ f.mant) {x y : Ieee f} (hx : IsFinite x) (hy : IsFinite y)
    (h0 : val y ≠ 0) (h : IsFinite (div x y)) : Nearest (val x / val y) (div x y) := by
  have hc : y.code ≠ 0 := by
    intro hc; apply h0; rw [val_mag]; unfold mag; rw [hc]; simp
  have hp : (y.mag : ℚ) ≠ 0 := by exact_mod_cast (mag_pos hc).ne'
  rw [div_finite hx hy hc] at h ⊢
  have := rounded_nearest hm _ _ (mag_pos hc) h
  convert this using 1
  rw [val_mag, val_mag, sgn_bne, ← sgn_div]
  have hs : sgn y.neg ≠ 0 := by unfold sgn; split <;> norm_num
  push_cast
  field_simp

@[simp] theorem opp_opp (x : Ieee f) : x.opp.opp = x := by cases x; simp [opp]

theorem val_opp (x : Ieee f) : val x.opp = -val x := by
  rw [val_mag, val_mag]
  show sgn (!x.neg) * (x.mag : ℚ) / _ = _
  cases x.neg <;> simp [sgn] <;> ring

theorem finite_opp {x : Ieee f} (h : IsFinite x) : IsFinite x.opp := h

/-- Subtraction is correctly rounded. -/
theorem sub_nearest (hm : 1 ≤ f.mant) {x y : Ieee f} (hx : IsFinite x) (hy : IsFinite y)
    (h : IsFinite (sub x y)) : Nearest (val x - val y) (sub x y) := by
  have := add_nearest hm hx (finite_opp hy) h
  rwa [val_opp, ← sub_eq_add_neg] at this

/-- Integers are correctly rounded. -/
theorem ofInt_nearest (hm : 1 ≤ f.mant) (n : Int) (h : IsFinite (ofInt n : Ieee f)) :
    Nearest (n : ℚ) (ofInt n : Ieee f) := by
  unfold ofInt at h ⊢
  have := rounded_nearest hm _ _ (by decide : 0 < 1) h
  convert this using 1
  have hU : (2 : ℚ) ^ f.unit ≠ 0 := by positivity
  unfold sgn
  by_cases hz : n < 0
  · rw [decide_eq_true hz, if_pos rfl]
    push_cast; rw [Nat.cast_natAbs, abs_of_neg hz]; push_cast; field_simp
  · rw [decide_eq_false hz, if_neg (by decide)]
    push_cast; rw [Nat.cast_natAbs, abs_of_nonneg (by omega)]; field_simp

/-! ### Exact results -/

theorem ext' {x y : Ieee f} (h1 : x.neg = y.neg) (h2 : x.code = y.code) : x = y := by
  cases x; cases y; simp_all

/-- A representable value is rounded to itself. -/
theorem rounded_exact {z : Ieee f} (hz : z.code ≤ infCode f) {den : Nat} (hd : 0 < den) :
    rounded z.neg (z.mag * den) den = z := by
  have h := nearest_exact (f := f) z.code hd
  refine ext' rfl ?_
  show min (nearestCode f (units f z.code * den) den) _ = _
  rw [h]; exact Nat.min_eq_left hz

theorem code_le {x : Ieee f} (h : IsFinite x) : x.code ≤ infCode f := by
  rw [finite_iff] at h; omega

theorem int_ne_zero {x : Ieee f} (h : x.code ≠ 0) : x.int ≠ 0 := by
  have := mag_pos h
  unfold int; split <;> omega

theorem int_neg_iff {x : Ieee f} (h : x.code ≠ 0) : decide (x.int < 0) = x.neg := by
  have := mag_pos h
  unfold int; cases x.neg <;> simp <;> omega

/-- A sum that is representable and not zero is exact. -/
theorem add_exact {x y z : Ieee f} (hx : IsFinite x) (hy : IsFinite y) (hz : IsFinite z)
    (h : x.int + y.int = z.int) (h0 : z.code ≠ 0) : add x y = z := by
  rw [add_finite hx hy, h, if_neg (int_ne_zero h0), int_neg_iff h0, natAbs_int]
  have := rounded_exact (code_le hz) (by decide : 0 < 1)
  rwa [Nat.mul_one] at this

/-- A product that is representable is exact. -/
theorem mul_exact {x y z : Ieee f} (hx : IsFinite x) (hy : IsFinite y) (hz : IsFinite z)
    (h : x.mag * y.mag = z.mag * 2 ^ f.unit) (hs : (x.neg != y.neg) = z.neg) : mul x y = z := by
  rw [mul_finite hx hy, h, hs]
  exact rounded_exact (code_le hz) (two_pow_pos' _)

/-- A quotient that is representable is exact. -/
theorem div_exact {x y z : Ieee f} (hx : IsFinite x) (hy : IsFinite y) (h0 : y.code ≠ 0)
    (hz : IsFinite z)
    (h : x.mag * 2 ^ f.unit = z.mag * y.mag) (hs : (x.neg != y.neg) = z.neg) : div x y = z := by
  rw [div_finite hx hy h0, h, hs]
  exact rounded_exact (code_le hz) (mag_pos h0)

theorem finite_zero (hf : Ok f) (b : Bool) : IsFinite (zero b : Ieee f) := by
  rw [finite_iff]
  have h := hf.big
  have : infCode f ≠ 0 := by
    intro e; rw [e, units_zero] at h; omega
  show min 0 _ < _
  omega

@[simp] theorem zero_code (b : Bool) : (zero b : Ieee f).code = 0 := by
  show min 0 _ = 0; simp

@[simp] theorem zero_neg (b : Bool) : (zero b : Ieee f).neg = b := rfl

@[simp] theorem zero_mag (b : Bool) : (zero b : Ieee f).mag = 0 := by
  unfold mag; rw [zero_code, units_zero]

@[simp] theorem zero_int (b : Bool) : (zero b : Ieee f).int = 0 := by
  unfold int; rw [zero_mag]; simp

/-- Doubling a representable number. -/
theorem exists_double (c : Nat) : ∃ c', units f c' = 2 * units f c := by
  obtain ⟨s, n, rfl, h1, h2⟩ := exists_shift f c
  rw [units_shift s n (by omega) h2]
  by_cases hn : 2 ^ f.mant ≤ n
  · exact ⟨(s + 1) * 2 ^ f.mant + n, by rw [units_shift _ _ (by omega) (.inr hn), pow_succ]; ring⟩
  · obtain rfl : s = 0 := by omega
    exact ⟨0 * 2 ^ f.mant + 2 * n, by rw [units_shift _ _ (by omega) (.inl rfl)]; ring⟩

/-- Small multiples of powers of two are representable. -/
theorem exists_units {n : Nat} (h : n ≤ 2 * 2 ^ f.mant) (k : Nat) : ∃ c, units f c = n * 2 ^ k := by
  induction k with
  | zero => exact ⟨0 * 2 ^ f.mant + n, by rw [units_shift 0 n h (.inl rfl)]⟩
  | succ k ih =>
    obtain ⟨c, hc⟩ := ih
    obtain ⟨c', hc'⟩ := exists_double (f := f) c
    exact ⟨c', by rw [hc', hc, pow_succ]; ring⟩

/-- Small integers are exact. -/
theorem ofInt_spec (hf : Ok f) {n : Int} (h : n.natAbs ≤ 2 * 2 ^ f.mant) :
    IsFinite (ofInt n : Ieee f) ∧ (ofInt n : Ieee f).mag = n.natAbs * 2 ^ f.unit ∧
      (ofInt n : Ieee f).neg = decide (n < 0) := by
  obtain ⟨c, hc⟩ := exists_units (f := f) h f.unit
  have hlt : c < infCode f := by
    rw [← units_lt (f := f), hc]
    exact lt_of_le_of_lt (Nat.mul_le_mul_right _ h) hf.big
  have hn : nearestCode f (n.natAbs * 2 ^ f.unit) 1 = c := by
    have := nearest_exact (f := f) c (by decide : 0 < 1)
    rwa [Nat.mul_one, hc] at this
  have hcode : (ofInt n : Ieee f).code = c := by
    unfold ofInt; rw [rounded_code (by rw [hn]; exact hlt.le), hn]
  refine ⟨?_, ?_, rfl⟩
  · rw [finite_iff, hcode]; exact hlt
  · unfold mag; rw [hcode, hc]

theorem ofInt_int (hf : Ok f) {n : Int} (h : n.natAbs ≤ 2 * 2 ^ f.mant) :
    (ofInt n : Ieee f).int = n * 2 ^ f.unit := by
  obtain ⟨_, h2, h3⟩ := ofInt_spec hf h
  unfold int; rw [h2, h3]
  by_cases hn : n < 0
  · rw [decide_eq_true hn, if_pos rfl]; push_cast; rw [abs_of_neg hn]; ring
  · rw [decide_eq_false hn, if_neg (by decide)]; push_cast; rw [abs_of_nonneg (by omega)]

theorem ofInt_val (hf : Ok f) {n : Int} (h : n.natAbs ≤ 2 * 2 ^ f.mant) :
    val (ofInt n : Ieee f) = n := by
  rw [val_eq, ofInt_int hf h]; push_cast; field_simp

theorem one_spec (hf : Ok f) : IsFinite (ofInt 1 : Ieee f) ∧ (ofInt 1 : Ieee f).mag = 2 ^ f.unit ∧
    (ofInt 1 : Ieee f).neg = false := by
  have := ofInt_spec hf (n := 1) (by have := two_pow_pos' f.mant; simp; omega)
  simpa using this

theorem code_ne_zero {x : Ieee f} (h : 0 < x.mag) : x.code ≠ 0 := by
  intro e; unfold mag at h; rw [e, units_zero] at h; omega

theorem code_zero {x : Ieee f} (h : x.mag = 0) : x.code = 0 := units_eq_zero.mp h

theorem one_code (hf : Ok f) : (ofInt 1 : Ieee f).code ≠ 0 :=
  code_ne_zero (by rw [(one_spec hf).2.1]; exact two_pow_pos' _)

/-- `x * 1 = x` -/
theorem mul_one' (hf : Ok f) {x : Ieee f} (hx : IsFinite x) : mul x (ofInt 1) = x := by
  obtain ⟨h1, h2, h3⟩ := one_spec hf
  exact mul_exact hx h1 hx (by rw [h2]) (by rw [h3]; simp)

/-- `1 * x = x` -/
theorem one_mul' (hf : Ok f) {x : Ieee f} (hx : IsFinite x) : mul (ofInt 1) x = x := by
  obtain ⟨h1, h2, h3⟩ := one_spec hf
  exact mul_exact h1 hx hx (by rw [h2, Nat.mul_comm]) (by rw [h3]; simp)

/-- `x / 1 = x` -/
theorem div_one' (hf : Ok f) {x : Ieee f} (hx : IsFinite x) : div x (ofInt 1) = x := by
  obtain ⟨h1, h2, h3⟩ := one_spec hf
  exact div_exact hx h1 (one_code hf) hx (by rw [h2]) (by rw [h3]; simp)

/-- `x * 0` is a zero. -/
theorem mul_zero' (hf : Ok f) {x z : Ieee f} (hx : IsFinite x) (hz : z.code = 0) :
    mul x z = zero (x.neg != z.neg) := by
  have hzf : IsFinite z := by
    rw [finite_iff, hz]
    have := finite_zero hf false
    rw [finite_iff, zero_code] at this
    exact this
  exact mul_exact hx hzf (finite_zero hf _) (by simp [mag, hz]) rfl

theorem zero_mul' (hf : Ok f) {x z : Ieee f} (hx : IsFinite x) (hz : z.code = 0) :
    mul z x = zero (z.neg != x.neg) := by
  have hzf : IsFinite z := by
    rw [finite_iff, hz]
    have := finite_zero hf false
    rw [finite_iff, zero_code] at this
    exact this
  exact mul_exact hzf hx (finite_zero hf _) (by simp [mag, hz]) rfl

theorem eq_zero_of_code {z : Ieee f} (h : z.code = 0) : z = zero z.neg :=
  ext' rfl (by rw [h, zero_code])

/-- `x + 0 = x`, except that -0 + 0 is 0. -/
theorem add_zero' (hf : Ok f) {x : Ieee f} (b : Bool) (hx : IsFinite x) :
    add x (zero b) = if x.code = 0 then zero (x.neg && b) else x := by
  split
  · rename_i h
    rw [add_finite hx (finite_zero hf b), zero_int, eq_zero_of_code h, zero_int]; simp
  · exact add_exact hx (finite_zero hf b) hx (by simp) (by assumption)

theorem zero_add' (hf : Ok f) {x : Ieee f} (b : Bool) (hx : IsFinite x) :
    add (zero b) x = if x.code = 0 then zero (b && x.neg) else x := by
  split
  · rename_i h
    rw [add_finite (finite_zero hf b) hx, zero_int, eq_zero_of_code h, zero_int]; simp
  · exact add_exact (finite_zero hf b) hx hx (by simp) (by assumption)

/-- `x - x = 0` -/
theorem sub_self' {x : Ieee f} (hx : IsFinite x) : sub x x = zero false := by
  unfold sub
  have : x.opp.int = -x.int := by
    unfold int opp mag; cases x.neg <;> simp
  rw [add_finite hx (finite_opp hx), this, Int.add_right_neg, if_pos rfl]
  show zero (x.neg && !x.neg) = _
  cases x.neg <;> rfl

/-- `x == y` on finite values compares the numbers. -/
theorem eqb_iff {x y : Ieee f} (hx : IsFinite x) (hy : IsFinite y) :
    eqb x y = true ↔ val x = val y := by
  unfold eqb
  rw [not_nan hx, not_nan hy]
  simp only [Bool.not_false, Bool.true_and, decide_eq_true_eq]
  rw [val_eq, val_eq, div_left_inj' (by positivity), Int.cast_inj]
  unfold key int mag
  have h0 : ∀ c, units f c = 0 ↔ c = 0 := fun c => units_eq_zero
  have := units_inj (f := f) (c := x.code) (d := y.code)
  have a := h0 x.code
  have b := h0 y.code
  split <;> split <;> omega

/-- `x < y` on finite values compares the numbers. -/
theorem ltb_iff {x y : Ieee f} (hx : IsFinite x) (hy : IsFinite y) :
    ltb x y = true ↔ val x < val y := by
  unfold ltb
  rw [not_nan hx, not_nan hy]
  simp only [Bool.not_false, Bool.true_and, decide_eq_true_eq]
  rw [val_eq, val_eq, div_lt_div_iff_of_pos_right (by positivity), Int.cast_lt]
  unfold key int mag
  have h0 : ∀ c, units f c = 0 ↔ c = 0 := fun c => units_eq_zero
  have := units_lt (f := f) (c := x.code) (d := y.code)
  have t := units_lt (f := f) (c := y.code) (d := x.code)
  have a := h0 x.code
  have b := h0 y.code
  split <;> split <;> omega

theorem ok_single : Ok single32 := ⟨by decide, by decide +kernel⟩
theorem ok_double : Ok double64 := ⟨by decide, by decide +kernel⟩
theorem ok_half : Ok half16 := ⟨by decide, by decide +kernel⟩

end OCG.Ieee
