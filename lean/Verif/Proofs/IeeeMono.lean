import Verif.Proofs.IeeeOrder
import Verif.Proofs.IeeeSame
/-
Adding a number, and multiplying by one that is not negative, keeps the order of floating point
numbers, infinities included, as long as the results are numbers.
-/

namespace OCG.Ieee

open IeeeSpec LevelSpec

variable {f : Format}

theorem add_nums {x y : Ieee f} (hm : 1 ≤ f.mant) (h : (add x y).isNan = false) :
    x.isNan = false ∧ y.isNan = false := by
  by_contra hc
  have : add x y = nan := by
    unfold add
    rw [if_pos]
    revert hc
    cases x.isNan <;> cases y.isNan <;> simp
  rw [this, nan_isNan hm] at h
  exact absurd h (by decide)

theorem mul_nums {x y : Ieee f} (hm : 1 ≤ f.mant) (h : (mul x y).isNan = false) :
    x.isNan = false ∧ y.isNan = false := by
  by_contra hc
  have : mul x y = nan := by
    unfold mul
    rw [if_pos]
    revert hc
    cases x.isNan <;> cases y.isNan <;> simp
  rw [this, nan_isNan hm] at h
  exact absurd h (by decide)

theorem div_nums {x y : Ieee f} (hm : 1 ≤ f.mant) (h : (div x y).isNan = false) :
    x.isNan = false ∧ y.isNan = false := by
  by_contra hc
  have : div x y = nan := by
    unfold div
    rw [if_pos]
    revert hc
    cases x.isNan <;> cases y.isNan <;> simp
  rw [this, nan_isNan hm] at h
  exact absurd h (by decide)

theorem sub_nums {x y : Ieee f} (hm : 1 ≤ f.mant) (h : (sub x y).isNan = false) :
    x.isNan = false ∧ y.isNan = false := add_nums (y := y.opp) hm h

theorem mul_comm' (x y : Ieee f) : mul x y = mul y x := by
  have hb : (y.neg != x.neg) = (x.neg != y.neg) := by cases x.neg <;> cases y.neg <;> rfl
  unfold mul
  rw [Bool.or_comm y.isNan, Bool.or_comm y.isInf, Nat.mul_comm y.mag, hb]
  simp only [or_comm (a := y.code = 0)]

theorem key_le {x : Ieee f} (h : x.isNan = false) :
    x.key ≤ infCode f ∧ -(infCode f : Int) ≤ x.key := by
  have : x.code ≤ infCode f := by unfold isNan at h; simpa using h
  rw [key_signed]
  cases x.neg <;> simp only [signed, if_true, if_false, Bool.false_eq_true] <;> omega

theorem key_inf (b : Bool) : (inf b : Ieee f).key = signed b (infCode f) := by
  show signed b (min (infCode f) (infCode f)) = _
  rw [min_self]

theorem key_of_inf {x : Ieee f} (h : x.isInf = true) : x.key = signed x.neg (infCode f) := by
  have : x.code = infCode f := by unfold isInf at h; simpa using h
  rw [key_signed, this]

theorem key_zero (b : Bool) : (zero b : Ieee f).key = 0 := by
  show signed b (min 0 (infCode f)) = 0
  cases b <;> simp [signed]

/-- Adding keeps the order. -/
theorem add_keeps (hm : 1 ≤ f.mant) {x y b : Ieee f} (h : x.key ≤ y.key)
    (hx : (add x b).isNan = false) (hy : (add y b).isNan = false) :
    (add x b).key ≤ (add y b).key := by
  have key : ∀ z : Ieee f, (add z b).isNan = false → add z b =
      if z.isInf then z else if b.isInf then b else if z.int + b.int = 0 then zero (z.neg && b.neg)
        else rounded (decide (z.int + b.int < 0)) (z.int + b.int).natAbs 1 := by
    intro z hz
    obtain ⟨h1, h2⟩ := add_nums hm hz
    by_cases hc : z.isInf = true ∧ (b.isInf && z.neg != b.neg) = true
    · have : add z b = nan := by
        unfold add
        rw [h1, h2, hc.1, hc.2]; rfl
      rw [this, nan_isNan hm] at hz
      exact absurd hz (by decide)
    · unfold add
      rw [h1, h2]
      simp only [Bool.or_false, Bool.false_eq_true, if_false]
      by_cases hi : z.isInf = true
      · rw [if_pos hi, if_neg (fun h => hc ⟨hi, h⟩), if_pos hi]
      · rw [if_neg hi, if_neg hi]
  have kk : ∀ z : Ieee f, z.isInf = false → b.isInf = false → (add z b).isNan = false →
      (add z b).key = (rounded (decide (z.int + b.int < 0)) (z.int + b.int).natAbs 1 : Ieee f).key := by
    intro z h1 h2 h3
    rw [key z h3, h1, h2]
    simp only [Bool.false_eq_true, if_false]
    split
    · rename_i h0
      rw [h0, key_zero]
      show (0 : Int) = (rounded false 0 1 : Ieee f).key
      rw [← zero_eq, key_zero]
    · rfl
  obtain ⟨nx, nb⟩ := add_nums hm hx
  obtain ⟨ny, -⟩ := add_nums hm hy
  by_cases hb : b.isInf = true
  · -- everything is the infinity that is added
    have : ∀ z : Ieee f, (add z b).isNan = false → (add z b).key = b.key := by
      intro z hz
      rw [key z hz]
      by_cases hi : z.isInf = true
      · rw [if_pos hi]
        obtain ⟨h1, h2⟩ := add_nums hm hz
        have hs : z.neg = b.neg := by
          by_contra hne
          have : add z b = nan := by
            unfold add
            rw [h1, h2, hi, hb]
            simp [hne]
          rw [this, nan_isNan hm] at hz
          exact absurd hz (by decide)
        rw [key_of_inf hi, key_of_inf hb, hs]
      · rw [if_neg hi, if_pos hb]
    rw [this x hx, this y hy]
  · have hb' : b.isInf = false := by simpa using hb
    by_cases hix : x.isInf = true
    · rw [show add x b = x by rw [key x hx, if_pos hix]]
      by_cases hiy : y.isInf = true
      · rw [show add y b = y by rw [key y hy, if_pos hiy]]; exact h
      · have h1 := key_le ny
        have h2 := key_le hy
        rw [key_of_inf hix] at h ⊢
        cases hn : x.neg
        · exfalso
          rw [hn] at h
          simp only [signed, if_false, Bool.false_eq_true] at h
          have h3 : y.code < infCode f := by
            unfold isInf at hiy
            unfold isNan at ny
            simp at hiy ny
            omega
          rw [key_signed] at h
          cases y.neg <;> simp only [signed, if_true, if_false, Bool.false_eq_true] at h <;> omega
        · simpa only [signed, if_true] using h2.2
    · have hix' : x.isInf = false := by simpa using hix
      by_cases hiy : y.isInf = true
      · rw [show add y b = y by rw [key y hy, if_pos hiy]]
        have h2 := key_le hx
        have h1 := key_le nx
        rw [key_of_inf hiy] at h ⊢
        cases hn : y.neg
        · simpa only [signed, if_false, Bool.false_eq_true] using h2.1
        · exfalso
          rw [hn] at h
          simp only [signed, if_true] at h
          have h3 : x.code < infCode f := by
            unfold isInf at hix
            unfold isNan at nx
            simp at hix nx
            omega
          rw [key_signed] at h
          cases x.neg <;> simp only [signed, if_true, if_false, Bool.false_eq_true] at h <;> omega
      · have hiy' : y.isInf = false := by simpa using hiy
        rw [kk x hix' hb' hx, kk y hiy' hb' hy]
        refine rounded_mono Nat.one_pos ?_
        have hi := int_le_iff.mpr h
        have : ∀ s : Int, signed (decide (s < 0)) s.natAbs = s := by
          intro s
          by_cases h0 : s < 0
          · simp only [h0, decide_true, signed, if_true]; omega
          · simp only [h0, decide_false, signed, if_false, Bool.false_eq_true]; omega
        rw [this, this]
        omega

/-- Multiplying by a number that is not negative keeps the order. -/
theorem mul_keeps (hm : 1 ≤ f.mant) (hI : 0 < infCode f) {x y c : Ieee f} (h : x.key ≤ y.key)
    (hc : 0 ≤ c.key) (hx : (mul x c).isNan = false) (hy : (mul y c).isNan = false) :
    (mul x c).key ≤ (mul y c).key := by
  obtain ⟨nx, nc⟩ := mul_nums hm hx
  obtain ⟨ny, -⟩ := mul_nums hm hy
  have hcn : c.code ≠ 0 → c.neg = false := by
    intro h0
    cases hn : c.neg
    · rfl
    · rw [key_signed, hn] at hc
      simp only [signed, if_true] at hc
      omega
  have key : ∀ z : Ieee f, z.isNan = false → (mul z c).isNan = false → mul z c =
      if z.isInf || c.isInf then inf (z.neg != c.neg)
      else rounded (z.neg != c.neg) (z.mag * c.mag) (2 ^ f.unit) := by
    intro z h1 h2
    unfold mul
    rw [h1, nc]
    simp only [Bool.or_false, Bool.false_eq_true, if_false]
    by_cases hi : (z.isInf || c.isInf) = true
    · rw [if_pos hi, if_pos hi, if_neg]
      intro h0
      have : mul z c = nan := by
        unfold mul
        rw [h1, nc, hi]
        simp [h0]
      rw [this, nan_isNan hm] at h2
      exact absurd h2 (by decide)
    · rw [if_neg hi, if_neg hi]
  have zero_inf : ∀ z : Ieee f, z.isNan = false → (mul z c).isNan = false →
      (z.isInf || c.isInf) = true → z.code ≠ 0 ∧ c.code ≠ 0 := by
    intro z h1 h2 hi
    by_contra h0
    have : mul z c = nan := by
      unfold mul
      rw [h1, nc, hi]
      have : z.code = 0 ∨ c.code = 0 := by tauto
      simp [this]
    rw [this, nan_isNan hm] at h2
    exact absurd h2 (by decide)
  by_cases hci : c.isInf = true
  · obtain ⟨hx0, hc0⟩ := zero_inf x nx hx (by rw [hci, Bool.or_true])
    obtain ⟨hy0, -⟩ := zero_inf y ny hy (by rw [hci, Bool.or_true])
    rw [key x nx hx, key y ny hy, hci, Bool.or_true, Bool.or_true, if_pos rfl, if_pos rfl,
      key_inf, key_inf, hcn hc0, Bool.bne_false, Bool.bne_false]
    rw [key_signed, key_signed] at h
    cases hxn : x.neg <;> cases hyn : y.neg <;> rw [hxn, hyn] at h <;>
      simp only [signed, if_true, if_false, Bool.false_eq_true] at h ⊢ <;> omega
  · have hci' : c.isInf = false := by simpa using hci
    by_cases hc0 : c.code = 0
    · have kz : ∀ z : Ieee f, z.isNan = false → (mul z c).isNan = false → (mul z c).key = 0 := by
        intro z h1 h2
        rw [key z h1 h2, hci', Bool.or_false]
        by_cases hi : z.isInf = true
        · exact absurd hc0 (zero_inf z h1 h2 (by rw [hi]; rfl)).2
        · rw [if_neg hi]
          have : c.mag = 0 := by unfold mag; rw [hc0]; exact units_zero
          rw [this, Nat.mul_zero]
          show signed _ (min (nearestCode f 0 _) _) = 0
          rw [nearest_code_zero (two_pow_pos' _)]
          cases (z.neg != c.neg) <;> simp [signed]
      rw [kz x nx hx, kz y ny hy]
    · have hn := hcn hc0
      by_cases hix : x.isInf = true
      · rw [key x nx hx, hix, Bool.true_or, if_pos rfl, hn, Bool.bne_false, key_inf,
          ← key_of_inf hix]
        by_cases hiy : y.isInf = true
        · rw [key y ny hy, hiy, Bool.true_or, if_pos rfl, hn, Bool.bne_false, key_inf,
            ← key_of_inf hiy]
          exact h
        · have h2 := key_le hy
          rw [key_of_inf hix] at h ⊢
          cases hxn : x.neg
          · exfalso
            rw [hxn] at h
            simp only [signed, if_false, Bool.false_eq_true] at h
            have h3 : y.code < infCode f := by
              unfold isInf at hiy
              unfold isNan at ny
              simp at hiy ny
              omega
            rw [key_signed] at h
            cases y.neg <;> simp only [signed, if_true, if_false, Bool.false_eq_true] at h <;> omega
          · simpa only [signed, if_true] using h2.2
      · have hix' : x.isInf = false := by simpa using hix
        by_cases hiy : y.isInf = true
        · have h2 := key_le hx
          rw [key y ny hy, hiy, Bool.true_or, if_pos rfl, hn, Bool.bne_false, key_inf]
          rw [key_of_inf hiy] at h
          cases hyn : y.neg
          · simpa only [signed, if_false, Bool.false_eq_true] using h2.1
          · exfalso
            rw [hyn] at h
            simp only [signed, if_true] at h
            have h3 : x.code < infCode f := by
              unfold isInf at hix
              unfold isNan at nx
              simp at hix nx
              omega
            rw [key_signed] at h
            cases x.neg <;> simp only [signed, if_true, if_false, Bool.false_eq_true] at h <;> omega
        · have hiy' : y.isInf = false := by simpa using hiy
          rw [key x nx hx, key y ny hy, hix', hiy', hci', hn]
          simp only [Bool.or_false, Bool.false_eq_true, if_false, Bool.bne_false]
          refine rounded_mono (two_pow_pos' _) ?_
          refine signed_mono (F := (· * c.mag)) (fun a b h => Nat.mul_le_mul_right _ h)
            (Nat.zero_mul _) ?_
          exact int_le_iff.mpr h

theorem signed_nonneg {b : Bool} {n : Nat} (h : b = true → n = 0) : 0 ≤ signed b n := by
  cases b
  · simp [signed]
  · simp [signed, h rfl]

/-- The product of two numbers that are not negative. -/
theorem mul_nonneg' (hm : 1 ≤ f.mant) (hI : 0 < infCode f) {x c : Ieee f} (hx : 0 ≤ x.key)
    (hc : 0 ≤ c.key) (h : (mul x c).isNan = false) : 0 ≤ (mul x c).key := by
  have h0 : (mul (zero false) c).isNan = false ∨ c.isInf = true := by
    by_cases hi : c.isInf = true
    · exact .inr hi
    · left
      unfold mul
      have hz : (zero false : Ieee f).isNan = false := by unfold isNan zero pack; simp
      have hzi : (zero false : Ieee f).isInf = false := by
        have : (zero false : Ieee f).code = 0 := by unfold zero pack; simp
        unfold isInf
        rw [this]
        simpa using Nat.ne_of_lt hI
      have hci : c.isInf = false := by simpa using hi
      rw [hz, hzi, (mul_nums hm h).2, hci]
      simp only [Bool.or_false, Bool.false_eq_true, if_false]
      exact rounded_not_nan _ _ _
  rcases h0 with h0 | h0
  · have := mul_keeps hm hI (x := zero false) (y := x) (c := c) (by rw [key_zero]; exact hx) hc h0 h
    refine le_trans ?_ this
    unfold mul at h0 ⊢
    split
    · rename_i hh; rw [if_pos hh, nan_isNan hm] at h0; exact absurd h0 (by decide)
    · rename_i hh
      rw [if_neg hh] at h0
      split
      · rename_i h1
        rw [if_pos h1] at h0
        have : (zero false : Ieee f).code = 0 := by unfold zero pack; simp
        rw [if_pos (.inl this), nan_isNan hm] at h0
        exact absurd h0 (by decide)
      · have : (zero false : Ieee f).mag = 0 := by
          unfold mag zero pack; simp [units_zero]
        rw [this, Nat.zero_mul]
        refine signed_nonneg (fun _ => ?_)
        show min (nearestCode f 0 _) _ = 0
        rw [nearest_code_zero (two_pow_pos' _)]; simp
  · obtain ⟨nx, nc⟩ := mul_nums hm h
    have hcz : c.code = infCode f := by unfold isInf at h0; simpa using h0
    have hx0 : x.code ≠ 0 := by
      intro e
      have : mul x c = nan := by
        unfold mul
        rw [nx, nc, h0]
        simp [e]
      rw [this, nan_isNan hm] at h
      exact absurd h (by decide)
    have : mul x c = inf (x.neg != c.neg) := by
      unfold mul
      rw [nx, nc, h0]
      have : c.code ≠ 0 := by omega
      simp [hx0, this]
    rw [this, key_inf]
    have e1 : x.neg = false := by
      cases hn : x.neg
      · rfl
      · rw [key_signed, hn] at hx; simp only [signed, if_true] at hx; omega
    have e2 : c.neg = false := by
      cases hn : c.neg
      · rfl
      · rw [key_signed, hn] at hc; simp only [signed, if_true] at hc; omega
    rw [e1, e2]
    simp [signed]

/-- The quotient of two numbers that are not negative; a divisor of zero must not have the
negative sign. -/
theorem div_nonneg' (hm : 1 ≤ f.mant) {x c : Ieee f} (hx : 0 ≤ x.key)
    (hc : 0 ≤ c.key) (hz : c.code = 0 → c.neg = false) (h : (div x c).isNan = false) :
    0 ≤ (div x c).key := by
  obtain ⟨nx, nc⟩ := div_nums hm h
  have hcn : c.neg = false := by
    cases hn : c.neg
    · rfl
    · rw [key_signed, hn] at hc; simp only [signed, if_true] at hc
      have := hz (by omega)
      rw [hn] at this; exact this
  have hxn : x.neg = true → x.code = 0 := by
    intro hn
    rw [key_signed, hn] at hx; simp only [signed, if_true] at hx; omega
  unfold div at h ⊢
  rw [nx, nc, hcn, Bool.bne_false] at h ⊢
  simp only [Bool.or_false, Bool.false_eq_true, if_false] at h ⊢
  by_cases h1 : x.isInf = true
  · rw [if_pos h1] at h ⊢
    by_cases h2 : c.isInf = true
    · rw [if_pos h2, nan_isNan hm] at h; exact absurd h (by decide)
    · rw [if_neg h2, key_inf, ← key_of_inf h1]; exact hx
  · rw [if_neg h1] at h ⊢
    by_cases h2 : c.isInf = true
    · rw [if_pos h2, key_zero]
    · rw [if_neg h2] at h ⊢
      by_cases h3 : c.code = 0
      · rw [if_pos h3] at h ⊢
        by_cases h4 : x.code = 0
        · rw [if_pos h4, nan_isNan hm] at h; exact absurd h (by decide)
        · rw [if_neg h4, key_inf]
          exact signed_nonneg (fun hn => absurd (hxn hn) h4)
      · rw [if_neg h3]
        refine signed_nonneg (fun hn => ?_)
        have : x.mag = 0 := by unfold mag; rw [hxn hn]; exact units_zero
        rw [this, Nat.zero_mul]
        show min (nearestCode f 0 _) _ = 0
        rw [nearest_code_zero (mag_pos h3)]; simp

theorem key_opp (x : Ieee f) : x.opp.key = -x.key := by
  show signed (!x.neg) x.code = -signed x.neg x.code
  cases x.neg <;> simp [signed]

theorem opp_nan (x : Ieee f) : x.opp.isNan = x.isNan := rfl

theorem opp_inf (x : Ieee f) : x.opp.isInf = x.isInf := rfl

/-- The difference of two numbers in order is not negative, and not a zero with the negative sign
if they differ. -/
theorem sub_nonneg' (hm : 1 ≤ f.mant) (hI : 0 < infCode f) {x y : Ieee f} (h : x.key ≤ y.key)
    (hn : (sub y x).isNan = false) :
    0 ≤ (sub y x).key ∧ (x.key < y.key → (sub y x).code = 0 → (sub y x).neg = false) := by
  obtain ⟨ny, nx⟩ := sub_nums hm hn
  unfold sub at hn ⊢
  by_cases hiy : y.isInf = true
  · have e : add y x.opp = y := by
      unfold add at hn ⊢
      rw [opp_nan, ny, nx, hiy] at hn ⊢
      simp only [Bool.or_false, Bool.false_eq_true, if_false, if_true] at hn ⊢
      split at hn
      · rw [nan_isNan hm] at hn; exact absurd hn (by decide)
      · rename_i hh; rw [if_neg hh]
    have hc : y.code ≠ 0 := by
      have : y.code = infCode f := by unfold isInf at hiy; simpa using hiy
      omega
    refine ⟨?_, fun _ h0 => absurd (e ▸ h0) hc⟩
    rw [e]
    have h2 := key_le nx
    rw [key_of_inf hiy] at h ⊢
    cases hyn : y.neg
    · simp [signed]
    · exfalso
      rw [hyn] at h
      simp only [signed, if_true] at h
      -- then `x` is the same infinity, and the difference no number
      have hxi : x.code = infCode f ∧ x.neg = true := by
        rw [key_signed] at h
        have : x.code ≤ infCode f := by unfold isNan at nx; simpa using nx
        cases hxn : x.neg <;> rw [hxn] at h <;>
          simp only [signed, if_true, if_false, Bool.false_eq_true] at h
        · omega
        · exact ⟨by omega, rfl⟩
      have hxi' : x.isInf = true := by unfold isInf; simp [hxi.1]
      have : add y x.opp = nan := by
        unfold add
        rw [opp_nan, ny, nx, hiy, opp_inf, hxi', hyn]
        show (if false = true then _ else _) = _
        simp [opp, hxi.2]
      rw [this, nan_isNan hm] at hn
      exact absurd hn (by decide)
  · have hiy' : y.isInf = false := by simpa using hiy
    by_cases hix : x.isInf = true
    · have e : add y x.opp = x.opp := by
        unfold add
        rw [opp_nan, ny, nx, hiy', opp_inf, hix]
        simp
      have hc : x.opp.code ≠ 0 := by
        have : x.code = infCode f := by unfold isInf at hix; simpa using hix
        show x.code ≠ 0
        omega
      refine ⟨?_, fun _ h0 => absurd (e ▸ h0) hc⟩
      rw [e, key_opp]
      rw [key_of_inf hix] at h ⊢
      have h2 := key_le ny
      cases hxn : x.neg
      · exfalso
        rw [hxn] at h
        simp only [signed, if_false, Bool.false_eq_true] at h
        have h3 : y.code < infCode f := by
          unfold isInf at hiy
          unfold isNan at ny
          simp at hiy ny
          omega
        rw [key_signed] at h
        cases y.neg <;> simp only [signed, if_true, if_false, Bool.false_eq_true] at h <;> omega
      · simp [signed]
    · have hix' : x.isInf = false := by simpa using hix
      have hi := int_le_iff.mpr h
      have ho : x.opp.int = -x.int := by
        show signed (!x.neg) x.mag = -signed x.neg x.mag
        cases x.neg <;> simp [signed]
      have e : add y x.opp = if y.int - x.int = 0 then zero (y.neg && !x.neg)
          else rounded false (y.int - x.int).natAbs 1 := by
        unfold add
        rw [opp_nan, ny, nx, hiy', opp_inf, hix', ho, ← sub_eq_add_neg]
        have hd : decide (y.int - x.int < 0) = false := by
          rw [decide_eq_false_iff_not]; omega
        rw [hd]
        rfl
      rw [e]
      refine ⟨?_, ?_⟩
      · split
        · rw [key_zero]
        · exact signed_nonneg (fun h => by cases h)
      · intro hlt _
        rw [if_neg]
        · rfl
        · intro h0
          have := int_le_iff.mp (show y.int ≤ x.int by omega)
          omega

theorem add_comm' (x y : Ieee f) : (add x y).key = (add y x).key := by
  unfold add
  rw [Bool.or_comm y.isNan, Int.add_comm y.int, Bool.and_comm y.neg]
  split
  · rfl
  · cases hx : x.isInf <;> cases hy : y.isInf <;>
      simp only [Bool.false_eq_true, if_false, if_true, Bool.false_and, Bool.true_and]
    cases hxn : x.neg <;> cases hyn : y.neg <;> simp [key_of_inf hx, key_of_inf hy, hxn, hyn]

theorem add_nan_comm (x y : Ieee f) : (add x y).isNan = (add y x).isNan := by
  unfold add
  rw [Bool.or_comm y.isNan, Int.add_comm y.int, Bool.and_comm y.neg]
  split
  · rfl
  · rename_i hn
    have hx' : x.isNan = false := by revert hn; cases x.isNan <;> simp
    have hy' : y.isNan = false := by revert hn; cases y.isNan <;> simp
    cases hx : x.isInf <;> cases hy : y.isInf <;>
      simp only [Bool.false_eq_true, if_false, if_true, Bool.false_and, Bool.true_and]
    cases hxn : x.neg <;> cases hyn : y.neg <;> simp [hx', hy']

/-- Adding things in order keeps the order. -/
theorem add_keeps₂ (hm : 1 ≤ f.mant) (hI : 0 < infCode f) {x x' y y' : Ieee f}
    (h : x.key ≤ x'.key) (h' : y.key ≤ y'.key) (hx : (add x y).isNan = false)
    (hy : (add x' y').isNan = false) : (add x y).key ≤ (add x' y').key := by
  by_cases hn : (add x' y).isNan = false
  · refine le_trans (add_keeps hm h hx hn) ?_
    rw [add_comm' x' y, add_comm' x' y']
    rw [add_nan_comm] at hn hy
    exact add_keeps hm h' hn hy
  · obtain ⟨nx, ny⟩ := add_nums hm hx
    obtain ⟨nx', ny'⟩ := add_nums hm hy
    have hz : ∀ b, (zero b : Ieee f).isNan = false := by intro b; unfold isNan zero pack; simp
    have hopp : x'.isInf = true ∧ y.isInf = true ∧ x'.neg ≠ y.neg := by
      by_contra hc
      apply hn
      unfold add
      rw [nx', ny]
      simp only [Bool.or_false, Bool.false_eq_true, if_false]
      by_cases h1 : x'.isInf = true
      · rw [if_pos h1, if_neg]
        · exact nx'
        · intro h2
          simp only [Bool.and_eq_true, bne_iff_ne] at h2
          exact hc ⟨h1, h2.1, h2.2⟩
      · rw [if_neg h1]
        split
        · exact ny
        · split
          · exact hz _
          · exact rounded_not_nan _ _ _
    obtain ⟨h1, h2, h3⟩ := hopp
    have e2 := key_of_inf h2
    cases hyn : y.neg
    · -- `x'` is the negative infinity, and so is `x`
      exfalso
      have hx'n : x'.neg = true := by rw [hyn] at h3; simpa using h3
      have hk := key_of_inf h1
      rw [hx'n] at hk
      simp only [signed, if_true] at hk
      rw [hk, key_signed] at h
      have hc : x.code ≤ infCode f := by unfold isNan at nx; simpa using nx
      have hxi : x.code = infCode f ∧ x.neg = true := by
        cases hxn : x.neg <;> rw [hxn] at h <;>
          simp only [signed, if_true, if_false, Bool.false_eq_true] at h
        · omega
        · exact ⟨by omega, rfl⟩
      have hxi' : x.isInf = true := by unfold isInf; simp [hxi.1]
      have : add x y = nan := by
        unfold add
        rw [nx, ny, hxi', h2, hxi.2, hyn]
        rfl
      rw [this, nan_isNan hm] at hx
      exact absurd hx (by decide)
    · -- `y` is the negative infinity, and so is the smaller sum
      have : (add x y).key = y.key := by
        rw [add_comm']
        unfold add
        rw [nx, ny, h2]
        simp only [Bool.or_false, Bool.false_eq_true, if_false, if_true]
        rw [if_neg]
        intro h4
        have : add x y = nan := by
          unfold add
          simp only [Bool.and_eq_true, bne_iff_ne] at h4
          rw [nx, ny, h4.1, h2]
          simp [Ne.symm h4.2]
        rw [this, nan_isNan hm] at hx
        exact absurd hx (by decide)
      rw [this, e2, hyn]
      simpa only [signed, if_true] using (key_le hy).2

end OCG.Ieee
