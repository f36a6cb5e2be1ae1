import Verif.Props.ColorOps
/-
Property C73 for reversed grades.
-/

namespace OCG.ColorSpec

variable {F : Type} [Field F] [LinearOrder F] [FloatOps F]

/-- What a reversed grade makes of the value `p`: if the straight line of the grade does something,
the point that the line takes to `p` (for a line without slope, `p` less its height), and otherwise
the gamma curve turned around: a step for gamma 0 and below, straight from 1 on, and nothing below
0. -/
inductive Reversed (black white lift gain multiply offset gamma p : F) : F → Prop
  | line (q a b : F) : a = multiply * (gain - lift) / (white - black) →
      b = offset + lift - a * black → (a ≠ 1 ∨ b ≠ 0) → a ≠ 0 → a * q + b = p →
      Reversed black white lift gain multiply offset gamma p q
  | flat : multiply * (gain - lift) / (white - black) = 0 →
      Reversed black white lift gain multiply offset gamma p (p - (offset + lift))
  | step : multiply * (gain - lift) / (white - black) = 1 → offset + lift = black → gamma ≤ 0 →
      Reversed black white lift gain multiply offset gamma p (if 0 < p then 1 else 0)
  | low : multiply * (gain - lift) / (white - black) = 1 → offset + lift = black → 0 < gamma →
      p ≤ 0 → Reversed black white lift gain multiply offset gamma p p
  | same : multiply * (gain - lift) / (white - black) = 1 → offset + lift = black → gamma = 1 →
      Reversed black white lift gain multiply offset gamma p p
  | curve : multiply * (gain - lift) / (white - black) = 1 → offset + lift = black → 0 < gamma →
      gamma ≠ 1 → 0 < p → p < 1 →
      Reversed black white lift gain multiply offset gamma p (FloatOps.powf p gamma)
  | straight : multiply * (gain - lift) / (white - black) = 1 → offset + lift = black → 0 < gamma →
      1 ≤ p → Reversed black white lift gain multiply offset gamma p (1 + (p - 1) * gamma)

end OCG.ColorSpec

namespace OCG.Props

open ColorSpec

section
variable {F : Type} [Field F] [LinearOrder F] [IsStrictOrderedRing F] [FloatOps F]

theorem gradeSingle_reversed (black white lift gain multiply offset gamma p : F) :
    Reversed black white lift gain multiply offset gamma p
      (gradeSingle p black white lift gain multiply offset gamma true) := by
  have hs : slope (black, white, lift, gain, multiply, offset, gamma) =
    multiply * (gain - lift) / (white - black) := rfl
  have hsh : shift (black, white, lift, gain, multiply, offset, gamma) =
    offset + lift - multiply * (gain - lift) / (white - black) * black := rfl
  by_cases ha : multiply * (gain - lift) / (white - black) = 0
  · have e : gradeSingle p black white lift gain multiply offset gamma true =
        p - (offset + lift) := by
      unfold gradeSingle
      dsimp only
      rw [ha]
      simp [eq_eq, sub_eq_add_neg]
    rw [e]
    exact .flat ha
  · by_cases h : slope (black, white, lift, gain, multiply, offset, gamma) ≠ 1 ∨
        shift (black, white, lift, gain, multiply, offset, gamma) ≠ 0
    · have e := gradeSingle_reverse_linear (black, white, lift, gain, multiply, offset, gamma) p
        (by rw [hs]; exact ha) h
      dsimp only at e
      rw [e]
      refine .line _ _ _ hs.symm.symm (by rw [hsh, hs]) h (by rw [hs]; exact ha) ?_
      rw [mul_div_cancel₀ _ (by rw [hs]; exact ha), sub_add_cancel]
    · obtain ⟨h1, h2⟩ := not_or.mp h
      rw [not_not] at h1 h2
      rw [hs] at h1
      rw [hsh, h1, one_mul, sub_eq_zero] at h2
      have e : gradeSingle p black white lift gain multiply offset gamma true =
          if gamma ≤ 0 then (if 0 < p then 1 else 0)
          else if gamma ≠ 1 then (if p ≤ 0 then p else if p < 1 then FloatOps.powf p gamma
            else 1 + (p - 1) * gamma)
          else p := by
        have hf : ∀ x : F, fle x 0 = decide (x ≤ 0) := by
          intro x
          by_cases hx : x ≤ 0
          · rcases lt_or_eq_of_le hx with h | h <;> simp [fle, lt_eq, eq_eq, h, hx]
          · have h1 : ¬ x < 0 := fun h => hx h.le
            have h2 : x ≠ 0 := fun h => hx h.le
            simp [fle, lt_eq, eq_eq, h1, h2, hx]
        unfold gradeSingle
        dsimp only
        rw [h1, one_mul, one_mul, h2, sub_self]
        simp only [hf, eq_eq, lt_eq, decide_true, Bool.not_true, Bool.or_self, Bool.false_eq_true,
          if_false, Bool.true_eq_false, decide_eq_true_eq, Bool.not_eq_true',
          decide_eq_false_iff_not, ne_eq]
        rfl
      rw [e]
      by_cases k1 : gamma ≤ 0
      · rw [if_pos k1]
        exact .step h1 h2 k1
      · rw [if_neg k1]
        split_ifs with k2 k3 k4
        · exact .low h1 h2 (not_le.mp k1) k3
        · exact .curve h1 h2 (not_le.mp k1) k2 (not_le.mp k3) k4
        · exact .straight h1 h2 (not_le.mp k1) (not_lt.mp k4)
        · exact .same h1 h2 (not_not.mp k2)

/-- C73: a reversed grade with something to do computes its formula for every channel of every
complete pixel (in exact arithmetic), and keeps the number of values. -/
theorem C73_reverse_formula (d : GradeOp F) (h : HasWork d) (hr : d.getI32 "reverse" ≠ 0) {n : Nat}
    (hn : Channels n) (buf : List F) :
    ∃ out, d.applySlice buf n = .ok out ∧ out.length = buf.length ∧
      ∀ i k, i < buf.length / n → k < n → ∃ p q, buf[i * n + k]? = some p ∧
        (match values d (channelOf n k) with
          | (black, white, lift, gain, multiply, offset, gamma) =>
            Reversed black white lift gain multiply offset gamma p q) ∧
        out[i * n + k]? = some
          (mixed (FloatLike.ofInt (processes d (channelOf n k)) * d.getF32 "mix") q p) := by
  obtain ⟨out, h1, h2, h3⟩ := grade_values d h hn buf
  refine ⟨out, h1, h2, fun i k hi hk => ?_⟩
  obtain ⟨p, h4, h5⟩ := h3 i k hi hk
  have hr' : decide (d.reverse ≠ 0) = true := decide_eq_true hr
  refine ⟨p, _, h4, gradeSingle_reversed _ _ _ _ _ _ _ p, ?_⟩
  rw [h5, hr']
  rfl

end

section
attribute [local instance] realFloat

/-- The grade of C73's example reversed: 13 becomes 5. -/
example : ∃ out, ({ gainOp with reverse := 1 } : GradeOp ℝ).applySlice [13, 6, 7, 8] 4 = .ok out ∧
    out[0]? = some 5 := by
  obtain ⟨out, h1, h2, h3⟩ := C73_reverse_formula ({ gainOp with reverse := 1 } : GradeOp ℝ)
    gainOp_work (by decide) (n := 4) (.inr (.inr rfl)) [13, 6, 7, 8]
  refine ⟨out, h1, ?_⟩
  obtain ⟨p, q, h4, h5, h6⟩ := h3 0 0 (by simp) (by decide)
  have hp : p = 13 := by simpa using h4.symm
  subst hp
  have h5 : Reversed (0 : ℝ) 1 0 2 1 3 1 13 q := h5
  rw [show 0 * 4 + 0 = 0 from rfl] at h6
  rw [h6]
  refine congrArg some ?_
  show q * (((1 : Int) : ℝ) * 1) + 13 * (1 - ((1 : Int) : ℝ) * 1) = 5
  have hq : q = 5 := by
    cases h5 with
    | line q a b ha hb _ _ hq => subst ha hb; norm_num at hq; linarith
    | flat h => norm_num at h
    | step h => norm_num at h
    | low h => norm_num at h
    | same h => norm_num at h
    | curve h => norm_num at h
    | straight h => norm_num at h
  rw [hq]
  norm_num

end
end OCG.Props
