import Verif.Spec.Stops
import Verif.Props.GradeError
/-
C139: changing the exposure by whole stops loses nothing.
-/

namespace OCG.Props

open IeeeSpec PixelSpec ColorSpec GradeErrorSpec StopsSpec
open Ieee hiding floor ceil round

/-- Some finite number of the given size. -/
theorem fits_units {c : Nat} (h : c < infCode single32) (neg : Bool) :
    Fits (sgn neg * (units single32 c : ℚ) / 2 ^ single32.unit) := by
  have hlt : c < (single32.expMax + 1) * 2 ^ single32.mant := lt_trans h (by decide +kernel)
  refine ⟨⟨neg, c, hlt⟩, (finite_iff _).mpr h, ?_⟩
  rw [val_mag]
  rfl

/-- C139: a number changed by whole stops can be stored if it does not overflow, and if it is made
darker does not become tiny. -/
theorem C139_fits {p : F32} (hp : IsFinite p) {k : ℤ} (hbig : |val p * 2 ^ k| < 2 ^ 128)
    (hsmall : 0 ≤ k ∨ 1 / 2 ^ 126 ≤ |val p * 2 ^ k|) : Fits (val p * 2 ^ k) := by
  obtain ⟨s, n, hc, h1, h2⟩ := exists_shift single32 p.code
  have hm : p.mag = n * 2 ^ s := by
    unfold mag
    rw [hc, units_shift s n (by omega) h2]
  have hv : val p = sgn p.neg * ((n : ℚ) * 2 ^ s) / 2 ^ 149 := by
    rw [val_mag, hm]; push_cast; rfl
  have habs : |val p * 2 ^ k| = (n : ℚ) * 2 ^ s / 2 ^ 149 * 2 ^ k := by
    rw [abs_mul, abs_val, hm, abs_of_pos (show (0 : ℚ) < 2 ^ k by positivity)]; push_cast; rfl
  have hn : n < 2 ^ 24 := h1
  obtain ⟨j, hj⟩ : ∃ j : Nat, (2 : ℚ) ^ s * 2 ^ k = 2 ^ j := by
    rcases hsmall with h | h
    · lift k to Nat using h
      exact ⟨s + k, by rw [pow_add]; norm_cast⟩
    · by_cases hk : 0 ≤ k
      · lift k to Nat using hk
        exact ⟨s + k, by rw [pow_add]; norm_cast⟩
      · obtain ⟨t, rfl⟩ : ∃ t : Nat, k = -(t : ℤ) := ⟨k.natAbs, by omega⟩
        have ht : t ≤ s := by
          by_contra hlt
          rw [habs, zpow_neg, zpow_natCast] at h
          have hn' : (n : ℚ) < 2 ^ 24 := by exact_mod_cast hn
          have h3 : (2 : ℚ) ^ s * 2 ≤ 2 ^ t := by
            rw [← pow_succ]
            exact pow_le_pow_right₀ (by norm_num) (by omega)
          have h4 : (0 : ℚ) < 2 ^ t := by positivity
          have h5 : (0 : ℚ) < 2 ^ s := by positivity
          rw [div_mul_eq_mul_div, le_div_iff₀ (by positivity), ← div_eq_mul_inv, le_div_iff₀ h4] at h
          have h6 : (2 : ℚ) ^ 23 * 2 ^ t ≤ n * 2 ^ s := by
            rw [show (1 : ℚ) / 2 ^ 126 * 2 ^ 149 = 2 ^ 23 by norm_num] at h
            exact h
          have h7 : (n : ℚ) * 2 ^ s < 2 ^ 24 * 2 ^ s := mul_lt_mul_of_pos_right hn' h5
          nlinarith
        refine ⟨s - t, ?_⟩
        rw [zpow_neg, zpow_natCast, ← div_eq_mul_inv, div_eq_iff (by positivity), ← pow_add,
          Nat.sub_add_cancel ht]
  obtain ⟨c, hcu⟩ := exists_units (f := single32) (n := n) (by show n ≤ 2 * 2 ^ 23; omega) j
  have hfin : c < infCode single32 := by
    rw [← units_lt (f := single32), hcu]
    have h3 : (n : ℚ) * 2 ^ j < 2 ^ 128 * 2 ^ 149 := by
      rw [← hj, ← div_lt_iff₀ (by positivity),
        show (n : ℚ) * (2 ^ s * 2 ^ k) / 2 ^ 149 = n * 2 ^ s / 2 ^ 149 * 2 ^ k by ring, ← habs]
      exact hbig
    have h4 : units single32 (infCode single32) = 2 ^ 128 * 2 ^ 149 := by decide +kernel
    rw [h4]
    exact_mod_cast h3
  obtain ⟨y, hy, e⟩ := fits_units hfin p.neg
  refine ⟨y, hy, e.trans ?_⟩
  rw [hv, hcu]
  push_cast
  rw [← hj]
  show sgn p.neg * (n * (2 ^ s * 2 ^ k)) / 2 ^ 149 = _
  ring

section
variable [Libm single32]

theorem zero_of_val {z : F32} (h : val z = 0) : z.code = 0 := val_zero_iff.mp h

/-- The exact result of an operation that can be stored. -/
theorem rounds_fits {q : ℚ} {x : F32} (r : Rounds q x) (h : Fits q) : IsFinite x ∧ val x = q := by
  obtain ⟨y, hy, e⟩ := h
  have s := r.exact hy e.symm
  exact ⟨s.1, s.2.2.trans e⟩

theorem fits_val {x : F32} (h : IsFinite x) : Fits (val x) := ⟨x, h, rfl⟩

theorem fits_zero : Fits 0 := ⟨zero false, finite_zero ok_single _, zero_value⟩

/-- The slope and the shift of a change by whole stops. -/
theorem stops_line {black lift multiply offset : F32} {k : ℤ} (hb : IsFinite black ∧ val black = 0)
    (hl : IsFinite lift ∧ val lift = 0) (hm : IsFinite multiply ∧ val multiply = 2 ^ k)
    (ho : IsFinite offset ∧ val offset = 0) :
    (IsFinite (div (mul multiply (sub (ofInt 1) lift)) (sub (ofInt 1) black)) ∧
      val (div (mul multiply (sub (ofInt 1) lift)) (sub (ofInt 1) black)) = 2 ^ k) ∧
    IsFinite (sub (add offset lift) (mul (div (mul multiply (sub (ofInt 1) lift))
      (sub (ofInt 1) black)) black)) ∧
    val (sub (add offset lift) (mul (div (mul multiply (sub (ofInt 1) lift))
      (sub (ofInt 1) black)) black)) = 0 := by
  have f1 : IsFinite (ofInt 1 : F32) := (one_spec ok_single).1
  rw [one_minus_zero _ (zero_of_val hl.2), one_minus_zero _ (zero_of_val hb.2),
    mul_one' ok_single hm.1, div_one' ok_single hm.1]
  refine ⟨hm, ?_⟩
  obtain ⟨f2, e2⟩ := rounds_fits (rounds_add ho.1 hl.1) (by rw [ho.2, hl.2, add_zero]; exact fits_zero)
  obtain ⟨f3, e3⟩ := rounds_fits (rounds_mul hm.1 hb.1) (by rw [hb.2, mul_zero]; exact fits_zero)
  obtain ⟨f4, e4⟩ := rounds_fits (rounds_sub f2 f3)
    (by rw [e2, e3, ho.2, hl.2, hb.2]; norm_num; exact fits_zero)
  refine ⟨f4, e4.trans ?_⟩
  rw [e2, e3, ho.2, hl.2, hb.2]
  ring

/-- One value, forwards. -/
theorem stops_forward (hpow : ∀ x : F32, IsFinite x → Libm.powf x (ofInt 1) = x)
    {v : Settings} {k : ℤ} (hv : IsStops k v) {p : F32} (hp : IsFinite p)
    (hf : Fits (val p * 2 ^ k)) :
    IsFinite (gradeSingle p v.1 v.2.1 v.2.2.1 v.2.2.2.1 v.2.2.2.2.1 v.2.2.2.2.2.1 v.2.2.2.2.2.2 false) ∧
    val (gradeSingle p v.1 v.2.1 v.2.2.1 v.2.2.2.1 v.2.2.2.2.1 v.2.2.2.2.2.1 v.2.2.2.2.2.2 false) =
      val p * 2 ^ k := by
  obtain ⟨black, white, lift, gain, multiply, offset, gamma⟩ := v
  obtain ⟨hb, rfl, hl, rfl, hm, ho, rfl⟩ := hv
  obtain ⟨⟨fa, ea⟩, fb, eb⟩ := stops_line hb hl hm ho
  obtain ⟨f1, e1⟩ := rounds_fits (rounds_mul fa hp) (by rw [ea, mul_comm]; exact hf)
  obtain ⟨f2, e2⟩ := rounds_fits (rounds_add f1 fb) (by
    rw [e1, ea, eb, add_zero, mul_comm]; exact hf)
  have e3 : gradeSingle p black (ofInt 1) lift (ofInt 1) multiply offset (ofInt 1) false =
      add (mul (div (mul multiply (sub (ofInt 1) lift)) (sub (ofInt 1) black)) p)
        (sub (add offset lift) (mul (div (mul multiply (sub (ofInt 1) lift))
          (sub (ofInt 1) black)) black)) := by
    show Libm.powf _ (div (ofInt 1) (ofInt 1)) = _
    rw [one_over_one]
    exact hpow _ f2
  show IsFinite (gradeSingle p black (ofInt 1) lift (ofInt 1) multiply offset (ofInt 1) false) ∧
    val (gradeSingle p black (ofInt 1) lift (ofInt 1) multiply offset (ofInt 1) false) = _
  rw [e3]
  refine ⟨f2, e2.trans ?_⟩
  rw [e1, ea, eb]
  ring

/-- One value, reversed. -/
theorem stops_reverse {v : Settings} {k : ℤ} (hv : IsStops k v) (hk : Fits (2 ^ (-k))) {p : F32}
    (hp : IsFinite p) (hf : Fits (val p * 2 ^ (-k))) :
    IsFinite (gradeSingle p v.1 v.2.1 v.2.2.1 v.2.2.2.1 v.2.2.2.2.1 v.2.2.2.2.2.1 v.2.2.2.2.2.2 true) ∧
    val (gradeSingle p v.1 v.2.1 v.2.2.1 v.2.2.2.1 v.2.2.2.2.1 v.2.2.2.2.2.1 v.2.2.2.2.2.2 true) =
      val p * 2 ^ (-k) := by
  obtain ⟨black, white, lift, gain, multiply, offset, gamma⟩ := v
  obtain ⟨hb, rfl, hl, rfl, hm, ho, rfl⟩ := hv
  obtain ⟨⟨fa, ea⟩, fb, eb⟩ := stops_line hb hl hm ho
  have f1 : IsFinite (ofInt 1 : F32) := (one_spec ok_single).1
  show IsFinite (gradeSingle p black (ofInt 1) lift (ofInt 1) multiply offset (ofInt 1) true) ∧
    val (gradeSingle p black (ofInt 1) lift (ofInt 1) multiply offset (ofInt 1) true) = _
  have ha : div (mul multiply (sub (ofInt 1) lift)) (sub (ofInt 1) black) = multiply := by
    rw [one_minus_zero _ (zero_of_val hl.2), one_minus_zero _ (zero_of_val hb.2),
      mul_one' ok_single hm.1, div_one' ok_single hm.1]
  rw [ha] at fb eb
  generalize hbdef : sub (add offset lift) (mul multiply black) = b at fb eb
  have g1 : fle (ofInt 1 : F32) (zero false) = false := by
    show (ltb (ofInt 1 : F32) (zero false) || eqb (ofInt 1 : F32) (zero false)) = false
    decide +kernel
  have g2 : eqb (ofInt 1 : F32) (ofInt 1) = true := by decide +kernel
  have e0 : gradeSingle p black (ofInt 1) lift (ofInt 1) multiply offset (ofInt 1) true =
      if (!eqb multiply (ofInt 1) || !eqb b (zero false)) = true then
        add (mul p (if (!eqb multiply (zero false)) = true then div (ofInt 1) multiply else ofInt 1))
          (mul (opp b) (if (!eqb multiply (zero false)) = true then div (ofInt 1) multiply else ofInt 1))
      else p := by
    show (fun a : F32 => if (!eqb a (ofInt 1) || !eqb (sub (add offset lift) (mul a black))
        (zero false)) = true then
      add (mul p (if (!eqb a (zero false)) = true then div (ofInt 1) a else ofInt 1))
        (mul (opp (sub (add offset lift) (mul a black)))
          (if (!eqb a (zero false)) = true then div (ofInt 1) a else ofInt 1))
      else if fle (ofInt 1 : F32) (zero false) = true then
          (if FloatLike.lt 0 p = true then 1 else 0)
        else if (!eqb (ofInt 1 : F32) (ofInt 1)) = true then
          (if fle p 0 = true then p
           else if FloatLike.lt p 1 = true then FloatLike.powf p (ofInt 1)
           else 1 + (p - 1) * ofInt 1)
        else p) (div (mul multiply (sub (ofInt 1) lift)) (sub (ofInt 1) black)) = _
    rw [ha, g1, g2]
    dsimp only
    rw [hbdef]
    rfl
  rw [e0]
  have h2 : (0 : ℚ) < 2 ^ k := by positivity
  have hne : eqb multiply (zero false) = false := by
    rw [Bool.eq_false_iff]
    intro h
    have := (eqb_iff hm.1 (finite_zero ok_single _)).mp h
    rw [zero_value, hm.2] at this
    exact h2.ne' this
  have hz : eqb b (zero false) = true := by
    rw [eqb_iff fb (finite_zero ok_single _), eb, zero_value]
  rw [hne, hz]
  by_cases h1 : eqb multiply (ofInt 1) = true
  · rw [h1]
    have := (eqb_iff hm.1 f1).mp h1
    rw [one_val, hm.2] at this
    refine ⟨hp, ?_⟩
    show val p = _
    rw [zpow_neg, this, inv_one, mul_one]
  · rw [Bool.not_eq_true] at h1
    rw [h1]
    show IsFinite (add (mul p (div (ofInt 1) multiply)) (mul (opp b) (div (ofInt 1) multiply))) ∧
      val (add (mul p (div (ofInt 1) multiply)) (mul (opp b) (div (ofInt 1) multiply))) = _
    have ei : val (ofInt 1 : F32) / val multiply = 2 ^ (-k) := by
      rw [one_val, hm.2, zpow_neg, one_div]
    obtain ⟨f2, e2⟩ := rounds_fits (rounds_div f1 hm.1 (by rw [hm.2]; exact h2.ne'))
      (by rw [ei]; exact hk)
    rw [ei] at e2
    obtain ⟨f3, e3⟩ := rounds_fits (rounds_mul hp f2) (by rw [e2]; exact hf)
    obtain ⟨f4, e4⟩ := rounds_fits (rounds_mul (finite_opp fb) f2)
      (by rw [val_opp, eb, neg_zero, zero_mul]; exact fits_zero)
    rw [val_opp, eb, neg_zero, zero_mul] at e4
    obtain ⟨f5, e5⟩ := rounds_fits (rounds_add f3 f4) (by rw [e3, e2, e4, add_zero]; exact hf)
    exact ⟨f5, by rw [e5, e3, e2, e4, add_zero]⟩

/-- C139: a change of the exposure by `k` stops multiplies every value of the processed channels by
exactly `2 ^ k`, if the result can be stored. -/
theorem C139_stops (hpow : ∀ x : F32, IsFinite x → Libm.powf x (ofInt 1) = x) (d : GradeOp F32)
    {k : ℤ} (hd : Exposes d k) (hrev : d.getI32 "reverse" = 0) {n : Nat} (hn : Channels n)
    (buf : List F32) :
    ∃ out, d.applySlice buf n = .ok out ∧ out.length = buf.length ∧
      ∀ i c, i < buf.length / n → c < n → processes d (channelOf n c) = 1 →
        ∃ p q, buf[i * n + c]? = some p ∧ out[i * n + c]? = some q ∧
          (IsFinite p → Fits (val p * 2 ^ k) → IsFinite q ∧ val q = val p * 2 ^ k) := by
  by_cases hw : HasWork d
  · obtain ⟨out, h1, h2, h3⟩ := grade_values d hw hn buf
    refine ⟨out, h1, h2, fun i c hi hc hp => ?_⟩
    obtain ⟨p, h4, h5⟩ := h3 i c hi hc
    have hm : (FloatLike.ofInt 1 : F32) * d.mix = FloatLike.ofInt 1 := by
      rw [show d.mix = ofInt 1 from hd.mix]; exact mask_full
    have hv := hd.settings _ (channelOf_lt hn hc) hp
    rw [hp, hm, show d.reverse = 0 from hrev] at h5
    refine ⟨p, _, h4, h5, fun fp hf => ?_⟩
    obtain ⟨k1, k2⟩ := stops_forward hpow hv fp hf
    have k3 := mask_one k1 fp
    exact ⟨k3.1, k3.2.2.trans k2⟩
  · refine ⟨buf, applySlice_idle hw buf n, rfl, fun i c _ hc hp => ?_⟩
    exact (hw ⟨hd.enable, _, channelOf_lt hn hc, by rw [hp]; decide⟩).elim

/-- C139: the same change reversed divides by exactly `2 ^ k`. -/
theorem C139_reverse (d : GradeOp F32) {k : ℤ} (hd : Exposes d k) (hrev : d.getI32 "reverse" = 1)
    (hk : Fits (2 ^ (-k))) {n : Nat} (hn : Channels n) (buf : List F32) :
    ∃ out, d.applySlice buf n = .ok out ∧ out.length = buf.length ∧
      ∀ i c, i < buf.length / n → c < n → processes d (channelOf n c) = 1 →
        ∃ p q, buf[i * n + c]? = some p ∧ out[i * n + c]? = some q ∧
          (IsFinite p → Fits (val p * 2 ^ (-k)) → IsFinite q ∧ val q = val p * 2 ^ (-k)) := by
  by_cases hw : HasWork d
  · obtain ⟨out, h1, h2, h3⟩ := grade_values d hw hn buf
    refine ⟨out, h1, h2, fun i c hi hc hp => ?_⟩
    obtain ⟨p, h4, h5⟩ := h3 i c hi hc
    have hm : (FloatLike.ofInt 1 : F32) * d.mix = FloatLike.ofInt 1 := by
      rw [show d.mix = ofInt 1 from hd.mix]; exact mask_full
    have hv := hd.settings _ (channelOf_lt hn hc) hp
    rw [hp, hm, show d.reverse = 1 from hrev] at h5
    refine ⟨p, _, h4, h5, fun fp hf => ?_⟩
    obtain ⟨k1, k2⟩ := stops_reverse hv hk fp hf
    have k3 := mask_one k1 fp
    exact ⟨k3.1, k3.2.2.trans k2⟩
  · refine ⟨buf, applySlice_idle hw buf n, rfl, fun i c _ hc hp => ?_⟩
    exact (hw ⟨hd.enable, _, channelOf_lt hn hc, by rw [hp]; decide⟩).elim

/-- C139: a change by `k` stops followed by one of `l` stops is one of `k + l` stops; in particular
`-k` stops undo `k` stops, with no bit lost. -/
theorem C139_steps (hpow : ∀ x : F32, IsFinite x → Libm.powf x (ofInt 1) = x) (d e : GradeOp F32)
    {k l : ℤ} (hd : Exposes d k) (he : Exposes e l) (hrev : d.getI32 "reverse" = 0)
    (hrev' : e.getI32 "reverse" = 0) {n : Nat} (hn : Channels n) (buf : List F32) :
    ∃ mid out, d.applySlice buf n = .ok mid ∧ e.applySlice mid n = .ok out ∧
      out.length = buf.length ∧
      ∀ i c, i < buf.length / n → c < n → processes d (channelOf n c) = 1 →
        processes e (channelOf n c) = 1 →
        ∃ p q, buf[i * n + c]? = some p ∧ out[i * n + c]? = some q ∧
          (IsFinite p → Fits (val p * 2 ^ k) → Fits (val p * 2 ^ (k + l)) →
            IsFinite q ∧ val q = val p * 2 ^ (k + l)) := by
  obtain ⟨mid, a1, a2, a3⟩ := C139_stops hpow d hd hrev hn buf
  obtain ⟨out, b1, b2, b3⟩ := C139_stops hpow e he hrev' hn mid
  refine ⟨mid, out, a1, b1, b2.trans a2, fun i c hi hc h1 h2 => ?_⟩
  obtain ⟨p, r, p1, p2, p3⟩ := a3 i c hi hc h1
  obtain ⟨r', q, q1, q2, q3⟩ := b3 i c (by rw [a2]; exact hi) hc h2
  obtain rfl : r = r' := Option.some.inj (p2.symm.trans q1)
  refine ⟨p, q, p1, q2, fun fp f1 f2 => ?_⟩
  obtain ⟨fr, er⟩ := p3 fp f1
  have e1 : val r * 2 ^ l = val p * 2 ^ (k + l) := by
    rw [er, zpow_add₀ (by norm_num), mul_assoc]
  rw [← e1] at f2 ⊢
  exact q3 fr f2

/-- C139: a change of the exposure by whole stops and the same grade reversed give back every value,
with no bit lost (except the sign of a zero). -/
theorem C139_undo (hpow : ∀ x : F32, IsFinite x → Libm.powf x (ofInt 1) = x) (d : GradeOp F32)
    {k : ℤ} (hd : Exposes d k) (hk : Fits (2 ^ (-k))) {n : Nat} (hn : Channels n) (buf : List F32) :
    ∃ mid out, ({ d with reverse := 0 } : GradeOp F32).applySlice buf n = .ok mid ∧
      ({ d with reverse := 1 } : GradeOp F32).applySlice mid n = .ok out ∧
      out.length = buf.length ∧
      ∀ i c, i < buf.length / n → c < n → processes d (channelOf n c) = 1 →
        ∃ p q, buf[i * n + c]? = some p ∧ out[i * n + c]? = some q ∧
          (IsFinite p → Fits (val p * 2 ^ k) → Same q p) := by
  have hd' : ∀ b, Exposes ({ d with reverse := b } : GradeOp F32) k :=
    fun b => ⟨hd.enable, hd.mix, hd.settings⟩
  obtain ⟨mid, a1, a2, a3⟩ := C139_stops hpow { d with reverse := 0 } (hd' 0) rfl hn buf
  obtain ⟨out, b1, b2, b3⟩ := C139_reverse { d with reverse := 1 } (hd' 1) rfl hk hn mid
  refine ⟨mid, out, a1, b1, b2.trans a2, fun i c hi hc h1 => ?_⟩
  obtain ⟨p, r, p1, p2, p3⟩ := a3 i c hi hc h1
  obtain ⟨r', q, q1, q2, q3⟩ := b3 i c (by rw [a2]; exact hi) hc h1
  obtain rfl : r = r' := Option.some.inj (p2.symm.trans q1)
  refine ⟨p, q, p1, q2, fun fp f1 => ?_⟩
  obtain ⟨fr, er⟩ := p3 fp f1
  have e1 : val r * 2 ^ (-k) = val p := by
    rw [er, mul_assoc, ← zpow_add₀ (by norm_num), add_neg_cancel, zpow_zero, mul_one]
  obtain ⟨k1, k2⟩ := q3 fr (by rw [e1]; exact fits_val fp)
  exact ⟨k1, fp, k2.trans e1⟩

end

/-! ### Examples -/

section
attribute [local instance] exactPowf

/-- Three stops brighter. -/
def threeStops : GradeOp F32 :=
  { (GradeOp.new : GradeOp F32) with multiplyR := ofInt 8, multiplyG := ofInt 8, multiplyB := ofInt 8,
                                     multiplyA := ofInt 8 }

theorem threeStops_exposes : Exposes threeStops 3 := by
  have h8 : val (ofInt 8 : F32) = 2 ^ (3 : ℤ) := by
    rw [ofInt_val ok_single (by decide)]; norm_num
  have f8 : IsFinite (ofInt 8 : F32) := (ofInt_spec ok_single (by decide)).1
  have f0 := finite_zero ok_single false
  refine ⟨rfl, rfl, fun c hc _ => ?_⟩
  have : c = 0 ∨ c = 1 ∨ c = 2 ∨ c = 3 := by omega
  rcases this with rfl | rfl | rfl | rfl <;>
  exact ⟨⟨f0, zero_value⟩, rfl, ⟨f0, zero_value⟩, rfl, ⟨f8, h8⟩, ⟨f0, zero_value⟩, rfl⟩

/-- A tenth, three stops brighter and back. -/
example : ∃ mid out q, ({ threeStops with reverse := 0 } : GradeOp F32).applySlice [tenth, tenth, tenth] 3 =
      .ok mid ∧ ({ threeStops with reverse := 1 } : GradeOp F32).applySlice mid 3 = .ok out ∧
    out[0]? = some q ∧ Same q tenth := by
  obtain ⟨mid, out, h1, h2, -, h3⟩ := C139_undo (fun _ _ => rfl) threeStops threeStops_exposes
    ⟨⟨false, 0x3e000000, by decide⟩, by unfold IsFinite; decide, by unfold val; norm_num⟩
    (n := 3) (.inr (.inl rfl)) [tenth, tenth, tenth]
  obtain ⟨p, q, h4, h5, h6⟩ := h3 0 0 (by decide) (by decide) rfl
  cases h4
  have ft : IsFinite tenth := by unfold IsFinite; decide
  refine ⟨mid, out, q, h1, h2, h5, h6 ft (C139_fits ft ?_ (.inl (by decide)))⟩
  rw [val_tenth, abs_of_pos (by positivity)]
  norm_num

/-- A tenth, six stops brighter in two steps. -/
example : ∃ mid out q, threeStops.applySlice [tenth, tenth, tenth] 3 = .ok mid ∧
    threeStops.applySlice mid 3 = .ok out ∧ out[1]? = some q ∧ val q = val tenth * 64 := by
  obtain ⟨mid, out, h1, h2, -, h3⟩ := C139_steps (fun _ _ => rfl) threeStops threeStops
    threeStops_exposes threeStops_exposes rfl rfl (n := 3) (.inr (.inl rfl)) [tenth, tenth, tenth]
  obtain ⟨p, q, h4, h5, h6⟩ := h3 0 1 (by decide) (by decide) rfl rfl
  cases h4
  have ft : IsFinite tenth := by unfold IsFinite; decide
  have hf : ∀ k : ℕ, k < 10 → Fits (val tenth * 2 ^ (k : ℤ)) := fun k hk => by
    refine C139_fits ft ?_ (.inl (by positivity))
    rw [val_tenth, abs_of_pos (by positivity), zpow_natCast]
    have : (2 : ℚ) ^ k ≤ 2 ^ 10 := pow_le_pow_right₀ (by norm_num) hk.le
    nlinarith
  obtain ⟨-, h7⟩ := h6 ft (hf 3 (by decide)) (hf 6 (by decide))
  exact ⟨mid, out, q, h1, h2, h5, by rw [h7]; norm_num⟩

/-- Seven times brighter is not undone exactly: three becomes 21, and 21 something other than three. -/
theorem C139_counterexample :
    ({ (GradeOp.new : GradeOp F32) with multiplyR := ofInt 7 }).applySlice
      [ofInt 3, zero false, zero false] 3 = .ok [ofInt 21, zero false, zero false] ∧
    ∃ q, ({ (GradeOp.new : GradeOp F32) with multiplyR := ofInt 7, reverse := 1 }).applySlice
        [ofInt 21, zero false, zero false] 3 = .ok [q, zero false, zero false] ∧
      q ≠ ofInt 3 := by
  refine ⟨by decide +kernel, ⟨false, 0x40400001, by decide⟩, by decide +kernel, by decide +kernel⟩

end
end OCG.Props
