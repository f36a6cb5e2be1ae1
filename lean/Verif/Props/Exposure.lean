import Verif.Spec.Exposure
import Verif.Props.Brighter
import Verif.Props.Stops
import Verif.Proofs.IeeeScale
/-
C146: exposing all sources by whole stops exposes the result, exactly.
-/

namespace OCG.Props

open GraphSpec LightSpec PictureSpec ImageSpecs ComputeSpec BBoxSpec BlockSpec ColorSpec PixelSpec
open OiioSpec ExposureSpec IeeeSpec PlainSpec
open StopsSpec (Fits)
open ChannelSpec (SameTools Proper)
open CacheSpec (IsOff)
open Ieee hiding floor ceil round

section
variable [Libm single32] {k : Nat}

/-! ### Numbers -/

theorem scaled_zero : Scaled k 0 0 := by
  have : val (0 : F32) = 0 := zero_value
  exact ⟨plain_zero.1, plain_zero.1, by rw [this, zero_mul]⟩

theorem scaled_same {p q p' q' : F32} (h : Scaled k p p') (e : Same q p) (e' : Same q' p') :
    Scaled k q q' := ⟨e.1, e'.1, by rw [e.2.2, e'.2.2, h.2.2]⟩

/-- Numbers are rounded in the same way after they are exposed, unless they were so small that the
bits lost in rounding come back. -/
theorem scaled_rounds {q : ℚ} {x x' : F32} (hx : Rounds q x) (hx' : Rounds (q * 2 ^ k) x')
    (hf : IsFinite x') (hq : (∃ z : ℤ, q = z / 2 ^ 149) ∨ 1 / 2 ^ 126 ≤ |q|) : Scaled k x x' := by
  by_cases hbig : 1 / 2 ^ 126 ≤ |q|
  · obtain ⟨a, b⟩ := scale_rounds hx hx' hf (le_trans (le_of_eq (by
      show (2 : ℚ) ^ 23 / 2 ^ 149 = _
      norm_num)) hbig)
    exact ⟨a, hf, b⟩
  · obtain ⟨z, rfl⟩ := hq.resolve_right hbig
    have hz : z.natAbs < 2 ^ 23 := by
      rw [not_le, abs_div, abs_of_pos (by positivity : (0 : ℚ) < 2 ^ 149),
        div_lt_iff₀ (by positivity)] at hbig
      have : |(z : ℚ)| < 2 ^ 23 := lt_of_lt_of_le hbig (le_of_eq (by norm_num))
      rw [← Int.cast_abs] at this
      have : |z| < 2 ^ 23 := by exact_mod_cast this
      rw [Int.abs_eq_natAbs] at this
      omega
    have hs : (z : ℚ) = sgn (decide (z < 0)) * (z.natAbs : ℚ) := by
      unfold sgn
      rw [Nat.cast_natAbs]
      by_cases h : z < 0
      · rw [decide_eq_true h, if_pos rfl, abs_of_neg h]; push_cast; ring
      · rw [decide_eq_false h, if_neg (by decide), abs_of_nonneg (by omega), one_mul]
    have hlt : z.natAbs < infCode single32 := lt_of_lt_of_le hz (by decide +kernel)
    have hu : units single32 z.natAbs = z.natAbs := by
      unfold units
      exact if_pos hz
    have fit := fits_units hlt (decide (z < 0))
    rw [hu, ← hs] at fit
    obtain ⟨fx, ex⟩ := rounds_fits hx fit
    refine ⟨fx, hf, ?_⟩
    obtain ⟨c, hc⟩ := exists_units (f := single32) (n := z.natAbs) (by
      show _ ≤ 2 * 2 ^ 23
      omega) k
    have r : Rounds ((z : ℚ) / 2 ^ 149 * 2 ^ k)
        (rounded (decide (z < 0)) (units single32 c * 1) 1 : F32) := by
      refine ⟨_, _, 1, by decide, rfl, ?_⟩
      rw [hc, hs]
      push_cast
      show _ = _ / (2 : ℚ) ^ 149
      generalize sgn (decide (z < 0)) = s
      ring
    have s := hx'.unique r hf
    obtain ⟨-, b⟩ := rounded_finite s.2.1
    rw [nearest_exact c (by decide)] at b
    rw [s.2.2, val_mag, ex]
    unfold mag
    rw [b, hc, rounded_neg]
    show _ / (2 : ℚ) ^ 149 = _
    rw [hs]
    push_cast
    generalize sgn (decide (z < 0)) = s
    ring

theorem add_scaled {p p' q q' : F32} (hp : Scaled k p p') (hq : Scaled k q q')
    (hf : IsFinite (add p' q')) : Scaled k (add p q) (add p' q') := by
  refine scaled_rounds (rounds_add hp.1 hq.1) ?_ hf (.inl ⟨p.int + q.int, ?_⟩)
  · have := rounds_add hp.2.1 hq.2.1
    rwa [hp.2.2, hq.2.2, ← add_mul] at this
  · rw [val_eq, val_eq]
    push_cast
    exact (add_div _ _ _).symm

theorem mul_scaled {p p' w : F32} (hp : Scaled k p p') (hw : IsFinite w) (h : Above 60 p)
    (h' : Above 60 w) (hf : IsFinite (mul p' w)) : Scaled k (mul p w) (mul p' w) := by
  refine scaled_rounds (rounds_mul hp.1 hw) ?_ hf ?_
  · have := rounds_mul hp.2.1 hw
    rwa [hp.2.2, mul_right_comm] at this
  · rcases h with h | h
    · exact .inl ⟨0, by rw [h]; simp⟩
    rcases h' with h' | h'
    · exact .inl ⟨0, by rw [h']; simp⟩
    right
    rw [abs_mul]
    refine le_trans ?_ (mul_le_mul h h' (by positivity) (abs_nonneg _))
    norm_num

/-- Rounding does not go below a power of two. -/
theorem rounds_above {q : ℚ} {x : F32} (h : Rounds q x) (hx : IsFinite x) {d : Nat} (hd : d ≤ 126)
    (hq : 1 / 2 ^ d ≤ |q|) : 1 / 2 ^ d ≤ |val x| := by
  have one : val (ofInt 1 : F32) = 1 := by rw [ofInt_val ok_single (by decide)]; norm_num
  have hp : (1 : ℚ) * 2 ^ (-(d : ℤ)) = 1 / 2 ^ d := by
    rw [zpow_neg, zpow_natCast, one_mul, one_div]
  have h1 : (1 : ℚ) ≤ 2 ^ d := one_le_pow₀ (by norm_num)
  have h2 : (2 : ℚ) ^ d ≤ 2 ^ 126 := pow_le_pow_right₀ (by norm_num) hd
  have fit : Fits (1 / 2 ^ d) := by
    have := C139_fits (p := ofInt 1) (one_spec ok_single).1 (k := -(d : ℤ)) (by
        rw [one, hp, abs_of_nonneg (by positivity), div_lt_iff₀ (by positivity)]
        nlinarith [show (1 : ℚ) < 2 ^ 128 by norm_num]) (.inr (by
        rw [one, hp, abs_of_nonneg (by positivity)]
        exact one_div_le_one_div_of_le (by positivity) h2))
    rwa [one, hp] at this
  obtain ⟨y, fy, ey⟩ := fit
  rcases le_abs.mp hq with a | a
  · exact le_trans (ey ▸ h.ge hx (ey ▸ a)) (le_abs_self _)
  · have := h.le (y := y.opp) hx (by rw [val_opp, ey]; linarith)
    rw [val_opp, ey] at this
    exact le_trans (by linarith) (neg_le_abs _)

/-- What one lacks to one. -/
theorem above_lack {a : F32} (ha : IsFinite a) (hf : IsFinite (sub (ofInt 1) a)) :
    Above 24 (sub (ofInt 1) a) := by
  have one : val (ofInt 1 : F32) = 1 := by rw [ofInt_val ok_single (by decide)]; norm_num
  have r := rounds_sub (one_spec ok_single).1 ha
  rw [one] at r
  rcases lt_trichotomy (val a) 1 with h | h | h
  · right
    refine rounds_above r hf (by decide) ?_
    have hk : a.key < (ofInt 1 : F32).key := by
      by_contra hn
      have := val_le_iff.mpr (not_lt.mp hn)
      rw [one] at this
      linarith
    have := val_le_iff.mpr (show a.key ≤ (⟨false, 127 * 2 ^ 23 - 1, by decide⟩ : F32).key by
      have e1 : (ofInt 1 : F32).key = 127 * 2 ^ 23 := by decide +kernel
      have e2 : (⟨false, 127 * 2 ^ 23 - 1, by decide⟩ : F32).key = 127 * 2 ^ 23 - 1 := by decide +kernel
      rw [e1] at hk
      rw [e2]
      omega)
    have e : val (⟨false, 127 * 2 ^ 23 - 1, by decide⟩ : F32) = 1 - 1 / 2 ^ 24 := by
      rw [val_eq]; decide +kernel
    rw [e] at this
    exact le_trans (by linarith) (le_abs_self _)
  · left
    have := rounds_fits r (by rw [h, sub_self]; exact fits_zero)
    rw [this.2, h, sub_self]
  · right
    refine rounds_above r hf (by decide) ?_
    have hk : (ofInt 1 : F32).key < a.key := by
      by_contra hn
      have := val_le_iff.mpr (not_lt.mp hn)
      rw [one] at this
      linarith
    have := val_le_iff.mpr (show (⟨false, 127 * 2 ^ 23 + 1, by decide⟩ : F32).key ≤ a.key by
      have e1 : (ofInt 1 : F32).key = 127 * 2 ^ 23 := by decide +kernel
      have e2 : (⟨false, 127 * 2 ^ 23 + 1, by decide⟩ : F32).key = 127 * 2 ^ 23 + 1 := by decide +kernel
      rw [e1] at hk
      rw [e2]
      omega)
    have e : val (⟨false, 127 * 2 ^ 23 + 1, by decide⟩ : F32) = 1 + 1 / 2 ^ 23 := by
      rw [val_eq]; decide +kernel
    rw [e] at this
    exact le_trans (by norm_num at this ⊢; linarith) (neg_le_abs _)

theorem above_mul {d e : Nat} (hde : d + e ≤ 126) {x y : F32} (hx : IsFinite x) (hy : IsFinite y)
    (h : Above d x) (h' : Above e y) (hf : IsFinite (mul x y)) : Above (d + e) (mul x y) := by
  have r := rounds_mul hx hy
  rcases h with h | h
  · left
    rw [(rounds_fits r (by rw [h, zero_mul]; exact fits_zero)).2, h, zero_mul]
  rcases h' with h' | h'
  · left
    rw [(rounds_fits r (by rw [h', mul_zero]; exact fits_zero)).2, h', mul_zero]
  right
  refine rounds_above r hf hde ?_
  rw [abs_mul]
  refine le_trans (le_of_eq ?_) (mul_le_mul h h' (by positivity) (abs_nonneg _))
  rw [pow_add]
  field_simp

/-- Merging exposed colours. -/
theorem blend_exposed {mode : MergeImageMode} (hmode : mode ≠ .multiply) {mix : F32}
    (hmix : Above 36 mix) {a a' b b' : Int → F32} {c : Int} (ha : Scaled k (a c) (a' c))
    (hb : Scaled k (b c) (b' c)) (h3 : a' 3 = a 3) (hd : Above 60 (b c))
    (hf' : IsFinite (blend mode mix a' b' c)) :
    Scaled k (blend mode mix a b c) (blend mode mix a' b' c) := by
  cases mode with
  | uninitialized => exact scaled_zero
  | multiply => exact absurd rfl hmode
  | add =>
    have f2 : IsFinite (add (a' c) (mul (b' c) mix)) := hf'
    obtain ⟨-, g1⟩ := finite_of_add f2
    exact add_scaled ha (mul_scaled hb (finite_of_mul g1).2 hd
      (hmix.imp id (le_trans (by norm_num))) g1) f2
  | over =>
    show Scaled k (add (a c) (mul (b c) (mul (sub (ofInt 1) (a 3)) mix)))
      (add (a' c) (mul (b' c) (mul (sub (ofInt 1) (a' 3)) mix)))
    have f2 : IsFinite (add (a' c) (mul (b' c) (mul (sub (ofInt 1) (a' 3)) mix))) := hf'
    rw [h3] at f2 ⊢
    obtain ⟨-, g1⟩ := finite_of_add f2
    obtain ⟨-, g2⟩ := finite_of_mul g1
    obtain ⟨g3, g4⟩ := finite_of_mul g2
    have g5 : IsFinite (a 3) := (finite_of_add g3).2
    exact add_scaled ha (mul_scaled hb g2 hd
      (above_mul (by decide) g3 g4 (above_lack g5 g3) hmix g2) g1) f2

/-- Multiplying exposed colours. -/
theorem graded_scaled (hpow : ∀ x : F32, Libm.powf x (ofInt 1) = x) {op : GradeOp F32}
    (hop : Multiplies op) {c : Nat} (hc : c < 3) {p p' : F32} (hp : Scaled k p p') (hd : Above 60 p)
    (hf' : IsFinite (gradedBy op c p')) (hf : IsFinite (gradedBy op c p)) :
    Scaled k (gradedBy op c p) (gradedBy op c p') := by
  unfold gradedBy at hf hf' ⊢
  split at hf
  · rename_i hw
    simp only [if_pos hw] at hf' ⊢
    have hr : op.reverse = 0 := hop.forward
    have hm : op.mix = 1 := hop.mix
    rw [hm, hr] at hf hf' ⊢
    have key : ∀ x : F32, IsFinite x → IsFinite (gradeValue (values op c) (decide ((0 : Int) ≠ 0))
        (FloatLike.ofInt (processes op c) * 1) x) →
        (processes op c = 0 → Same (gradeValue (values op c) (decide ((0 : Int) ≠ 0))
          (FloatLike.ofInt (processes op c) * 1) x) x) ∧
        (∀ m, processes op c = 1 → IsFinite m → values op c = (0, 1, 0, 1, m, 0, 1) →
          Same (gradeValue (values op c) (decide ((0 : Int) ≠ 0))
            (FloatLike.ofInt (processes op c) * 1) x) (mul x m)) := by
      intro x hx h
      constructor
      · intro e
        rw [e] at h ⊢
        unfold gradeValue at h ⊢
        generalize gradeSingle x _ _ _ _ _ _ _ _ = G at h ⊢
        have e0 : (FloatLike.ofInt 0 * 1 : F32) = zero false := by
          show (mul (ofInt 0) (ofInt 1) : F32) = zero false
          decide +kernel
        have e1 : (1 - (zero false : F32) : F32) = ofInt 1 := by
          show (sub (ofInt 1) (zero false) : F32) = ofInt 1
          decide +kernel
        rw [e0, e1] at h ⊢
        have h' : IsFinite (add (mul G (zero false)) (mul x (ofInt 1))) := h
        show Same (add (mul G (zero false)) (mul x (ofInt 1))) x
        rw [mul_one' ok_single hx] at h' ⊢
        obtain ⟨g1, -⟩ := finite_of_add h'
        exact zero_add_same ok_single hx (mul_zero_code ok_single (finite_of_mul g1).1 rfl)
      · intro m e fm ev
        rw [e, ev] at h ⊢
        unfold gradeValue at h ⊢
        dsimp only at h ⊢
        have e0 : (FloatLike.ofInt 1 * 1 : F32) = ofInt 1 := by
          show (mul (ofInt 1) (ofInt 1) : F32) = ofInt 1
          decide +kernel
        have e1 : (1 - (ofInt 1 : F32) : F32) = zero false := by
          show (sub (ofInt 1) (ofInt 1) : F32) = zero false
          decide +kernel
        rw [e0, e1] at h ⊢
        have eG : gradeSingle x 0 1 0 1 m 0 1 (decide ((0 : Int) ≠ 0)) =
            add (mul (div (mul m (sub (ofInt 1) (zero false))) (sub (ofInt 1) (zero false))) x)
              (sub (add (zero false) (zero false))
                (mul (div (mul m (sub (ofInt 1) (zero false))) (sub (ofInt 1) (zero false)))
                  (zero false))) := by
          show Libm.powf _ (div (ofInt 1) (ofInt 1)) = _
          rw [one_over_one]
          exact hpow _
        rw [eG] at h ⊢
        have e2 : (sub (ofInt 1) (zero false) : F32) = ofInt 1 := by decide +kernel
        rw [e2, mul_one' ok_single fm, div_one' ok_single fm] at h ⊢
        generalize hz : (sub (add (zero false) (zero false)) (mul m (zero false)) : F32) = z at h ⊢
        have cz : z.code = 0 := by
          have f0 := finite_zero ok_single false
          obtain ⟨f2, v2⟩ := rounds_fits (rounds_add f0 f0) (by rw [zero_value, add_zero]; exact fits_zero)
          obtain ⟨f3, v3⟩ := rounds_fits (rounds_mul fm f0) (by rw [zero_value, mul_zero]; exact fits_zero)
          obtain ⟨-, v4⟩ := rounds_fits (rounds_sub f2 f3)
            (by rw [v2, v3, zero_value, mul_zero, add_zero, sub_zero]; exact fits_zero)
          rw [← hz]
          refine val_zero_iff.mp ?_
          rw [v4, v2, v3, zero_value, mul_zero, add_zero, sub_zero]
        have h' : IsFinite (add (mul (add (mul m x) z) (ofInt 1)) (mul x (zero false))) := h
        show Same (add (mul (add (mul m x) z) (ofInt 1)) (mul x (zero false))) (mul x m)
        obtain ⟨g1, -⟩ := finite_of_add h'
        obtain ⟨g2, -⟩ := finite_of_mul g1
        obtain ⟨g3, -⟩ := finite_of_add g2
        rw [mul_one' ok_single g2]
        refine (add_zero_same ok_single g2 (mul_zero_code ok_single hx rfl)).trans ?_
        rw [mul_comm' x m]
        exact add_zero_same ok_single g3 cz
    obtain ⟨a0, a1⟩ := key p hp.1 hf
    obtain ⟨b0, b1⟩ := key p' hp.2.1 hf'
    rcases hop.colours c hc with h | ⟨h, m, fm, dm, hv⟩
    · exact scaled_same hp (a0 h) (b0 h)
    · have s := a1 m h fm hv
      have s' := b1 m h fm hv
      exact scaled_same (mul_scaled hp fm hd dm s'.2.1) s s'
  · rename_i hw
    simp only [if_neg hw]
    exact hp

/-! ### Pictures -/

/-- Storing keeps the exposure of pictures. -/
theorem settled_exposed {P Q : Picture F32} (hP : Proper P) (hQ : Proper Q) (hs : SameSheet P Q)
    (h : ∀ x y, Has P.data x y → ∃ v v' : List F32, Settled P.channels v (P.at_ x y) ∧
      Settled P.channels v' (Q.at_ x y) ∧ v.length = P.channels ∧ v'.length = P.channels ∧
      (∀ c, c < 3 → IsFinite (v.getD c 0) → IsFinite (v'.getD c 0) →
        Scaled k (v.getD c 0) (v'.getD c 0)) ∧ v'.getD 3 0 = v.getD 3 0) : Exposed k P Q := by
  have hc := hP.channels
  refine ⟨hs, fun x y c hc3 => ?_, fun x y => ?_⟩
  · by_cases hxy : Has P.data x y
    · obtain ⟨v, v', s, s', l, l', k, -⟩ := h x y hxy
      obtain ⟨-, e⟩ := stored_values hc l (hP.plain x y hxy).2 s
      obtain ⟨-, e'⟩ := stored_values hc l' (hQ.plain x y (hs.data ▸ hxy)).2 s'
      have a := e c (by omega)
      have b := e' c (by omega)
      rw [value_in hxy, value_in (hs.data ▸ hxy)]
      exact scaled_same (k c hc3 a.2.1 b.2.1) a b
    · rw [value_out hxy, value_out (hs.data ▸ hxy)]
      exact scaled_zero
  · by_cases hxy : Has P.data x y
    · obtain ⟨v, v', s, s', l, l', -, k⟩ := h x y hxy
      have p := (hP.plain x y hxy).2
      have q := (hQ.plain x y (hs.data ▸ hxy)).2
      obtain ⟨m, e⟩ := stored_values hc l p s
      obtain ⟨m', e'⟩ := stored_values hc l' q s'
      refine (value_in (hs.data ▸ hxy) 3).trans (Eq.trans ?_ (value_in hxy 3).symm)
      rcases Nat.lt_or_ge 3 P.channels with h3 | h3
      · have b := e' 3 h3
        rw [k] at b
        exact same_plain (plain_getD q 3) (plain_getD p 3) b (e 3 h3)
      · rw [List.getD_eq_getElem?_getD, List.getD_eq_getElem?_getD,
          List.getElem?_eq_none (by omega), List.getElem?_eq_none (by omega)]
    · exact (value_out (hs.data ▸ hxy) 3).trans (value_out hxy 3).symm

/-- Pixels that are taken from the same places keep their exposure. -/
theorem looks_exposed {f : Int → Int → Option (Int × Int)} {P P' Q Q' : Picture F32}
    (h : Exposed k P P') (hf : Looks f P Q) (hf' : Looks f P' Q') (hs : SameSheet Q Q') : Exposed k Q Q' := by
  refine ⟨hs, fun x y c hc => ?_, fun x y => ?_⟩
  · rw [hf x y c, hf' x y c]
    split
    · exact scaled_zero
    · exact h.colours _ _ c hc
  · refine (hf' x y 3).trans (Eq.trans ?_ (hf x y 3).symm)
    split
    · rfl
    · exact h.alpha _ _

/-- The layers have the same deformers waiting, and the second one is the first one exposed. -/
def ExposedLayer (k : Nat) (L L' : Layer F32) : Prop := Exposed k L.still L'.still ∧ L.moves = L'.moves

/-- Multiplying keeps the exposure of pictures. -/
theorem graded_exposed (hpow : ∀ x : F32, Libm.powf x (ofInt 1) = x) {op : GradeOp F32}
    (he : op.getI32 "enable" = 1) (hu : Multiplies op) {P P' Q Q' : Picture F32}
    (h : Exposed k P P') (hd : NotTooDark P) (hP : Proper P) (hP' : Proper P') (hQ : Proper Q) (hQ' : Proper Q')
    (hg : IsGraded op P Q) (hg' : IsGraded op P' Q') : Exposed k Q Q' := by
  have hs : SameSheet Q Q' := ⟨by rw [hg.data, hg'.data, h.sheet.data],
    by rw [hg.display, hg'.display, h.sheet.display],
    by rw [hg.channels, hg'.channels, h.sheet.channels], by rw [hg.space, hg'.space, h.sheet.space]⟩
  obtain ⟨-, v⟩ := graded_whole he (whole_of_proper hP) hg
  obtain ⟨-, v'⟩ := graded_whole he (whole_of_proper hP') hg'
  have hc := hP.channels
  refine ⟨hs, fun x y c hc3 => ?_, fun x y => ?_⟩
  · have f := proper_value hQ x y c
    have f' := proper_value hQ' x y c
    rw [v x y c] at f ⊢
    rw [v' x y c, h.sheet.data, h.sheet.channels] at f' ⊢
    by_cases hxy : Has P.data x y
    · rw [if_pos ⟨hxy, by omega⟩] at f f' ⊢
      rw [if_pos ⟨hxy, by omega⟩]
      exact graded_scaled hpow hu hc3 (h.colours x y c hc3) (hd x y c hc3) f'.1 f.1
    · rw [if_neg (fun k => hxy k.1), if_neg (fun k => hxy k.1)]
      exact scaled_zero
  · refine (v' x y 3).trans (Eq.trans ?_ (v x y 3).symm)
    rw [h.sheet.data, h.sheet.channels]
    have e : P'.value x y ((3 : Nat) : Int) = P.value x y ((3 : Nat) : Int) := h.alpha x y
    rw [e]

/-- Carrying out deformers keeps the exposure of pictures. -/
theorem exposed_rests {H : Type} {lib lib' : NodeLib F32 H} (hl : SameTools lib lib') {K K' : Layer F32}
    (h : ExposedLayer k K K') (hp : Proper K.still) (hp' : Proper K'.still) {R R' : Picture F32}
    (hR : Rests lib K R) (hR' : Rests lib' K' R') : Exposed k R R' ∧ Whole R ∧ Whole R' ∧
      (NotTooDark K.still → NotTooDark R) := by
  obtain ⟨h1, h2⟩ := h
  unfold Rests at hR hR'
  rw [← hl.deform, ← h2] at hR'
  have w1 := whole_of_proper hp
  obtain ⟨f, hf⟩ := looks_rests w1 hR
  obtain ⟨-, b1, c1⟩ := hf _ _ (sheet_refl _) w1 hR
  obtain ⟨a2, b2, c2⟩ := hf _ _ h1.sheet (whole_of_proper hp') hR'
  refine ⟨looks_exposed h1 c1 c2 a2, b1, b2, fun hn x y c hc => ?_⟩
  rw [c1 x y c]
  split
  · exact .inl zero_value
  · exact hn _ _ c hc

theorem makes_exposed {lib lib' : NodeLib F32 F16} {fr : F32} {n : Node F32}
    {Ls Ls' : List (Layer F32)} {L L' : Layer F32} (hl : SameTools lib lib')
    (hpow : ∀ x : F32, Libm.powf x (ofInt 1) = x) (ha : KeepsStops n) (h1 : Makes lib fr n Ls L) (h2 : Makes lib' fr n Ls' L')
    (hin : List.Forall₂ (ExposedLayer k) Ls Ls')
    (hp : ∀ K ∈ Ls, Proper K.still) (hp' : ∀ K ∈ Ls', Proper K.still) (hL : Proper L.still)
    (hL' : Proper L'.still) (hdark : ∀ K ∈ Ls, NotTooDark K.still)
    (hr : n.attrs.nodeType = .readImage → Exposed k L.still L'.still) : ExposedLayer k L L' := by
  have one : ∀ {A B : Layer F32}, List.Forall₂ (ExposedLayer k) [A] [B] → ExposedLayer k A B :=
    fun h => (List.forall₂_cons.mp h).1
  cases h1 with
  | read ht =>
    cases h2 with
    | read => exact ⟨hr ht, rfl⟩
    | _ => exfalso; simp_all; done
  | null ht =>
    cases h2 with
    | null ht' =>
        exact one hin
    | _ => exfalso; simp_all; done
  | grade ht hg ho hQ =>
    cases h2 with
    | grade ht' hg' ho' hQ' =>
        obtain ⟨h3, h4⟩ := one hin
        have pP := hp _ List.mem_cons_self
        have pP' := hp' _ List.mem_cons_self
        dsimp only at h3 h4 pP pP'
        rw [gradeOf_unique ht ho' ho] at hQ'
        exact ⟨graded_exposed hpow ho.1 (ha.grade ht _ ho) h3 (hdark _ List.mem_cons_self) pP pP' hL hL' hQ hQ', h4⟩
    | _ => exfalso; simp_all; done
  | gradeOff ht hg =>
    cases h2 with
    | gradeOff ht' hg' =>
        exact one hin
    | _ => exfalso; simp_all; done
  | transform ht he hd hdesc =>
    cases h2 with
    | transform ht' he' hd' hdesc' =>
        obtain ⟨h3, h4⟩ := one hin
        dsimp only at h3 h4
        refine ⟨h3, ?_⟩
        show _ ++ _ = _ ++ _
        rw [h4, transform_unique ht hd hdesc hd' hdesc']
    | _ => exfalso; simp_all; done
  | lens ht he hd hdesc hcam =>
    cases h2 with
    | lens ht' he' hd' hdesc' hcam' =>
        obtain ⟨h3, h4⟩ := one hin
        dsimp only at h3 h4
        refine ⟨h3, ?_⟩
        show _ ++ _ = _ ++ _
        rw [h4, lens_unique ht hd hdesc hcam hd' hdesc' hcam']
    | _ => exfalso; simp_all; done
  | off ht he =>
    cases h2 with
    | off ht' he' =>
        exact one hin
    | _ => exfalso; simp_all; done
  | resampleIdle ht he hf =>
    cases h2 with
    | resampleIdle ht' he' hf' =>
        exact one hin
    | _ => exfalso; simp_all; done
  | resample ht he hf hi hpick hs hc4 hw hh hQ =>
    cases h2 with
    | resample ht' he' hf' hi' hpick' hs' hc4' hw' hh' hQ' =>
        obtain ⟨h3, h4⟩ := one hin
        have w1 := whole_of_proper (hp _ List.mem_cons_self)
        have w2 := whole_of_proper (hp' _ List.mem_cons_self)
        obtain ⟨f, hf⟩ := looks_picked (black := zero false) (white := ofInt 1) (by decide +kernel) hpick w1
          hw hh hQ
        obtain ⟨-, -, c1⟩ := hf hpick (fun _ _ _ _ _ _ _ => rfl) (sheet_refl _) w1 hQ
        obtain ⟨a2, -, c2⟩ := hf hpick' hl.resample h3.sheet w2 hQ'
        exact ⟨looks_exposed h3 c1 c2 a2, h4⟩
    | _ => exfalso; simp_all; done
  | crop ht he hb hR hs hv hQ =>
    cases h2 with
    | crop ht' he' hb' hR' hs' hv' hQ' =>
        obtain ⟨h3, w1, w2, -⟩ := exposed_rests hl (one hin) (hp _ List.mem_cons_self)
          (hp' _ List.mem_cons_self) hR hR'
        refine ⟨settled_exposed hL hL' ⟨hQ'.data.trans hQ.data.symm, by rw [hQ.display, hQ'.display, h3.sheet.display],
          by rw [hQ.channels, hQ'.channels, h3.sheet.channels],
          by rw [hQ.space, hQ'.space, h3.sheet.space]⟩ fun x y hxy => ?_, rfl⟩
        dsimp only at hxy
        have hxy' : Has (cropWindow n) x y := hQ.data ▸ hxy
        have b := hQ'.pixels x y hxy'
        dsimp only
        rw [hQ.channels]
        rw [h3.sheet.channels] at b
        refine ⟨_, _, hQ.pixels x y hxy', b, whole_pixel w1 x y, (whole_pixel w2 x y).trans h3.sheet.channels,
          fun c hc _ _ => ?_, ?_⟩
        · exact value_getD _ x y c ▸ value_getD _ x y c ▸ h3.colours x y c hc
        · exact value_getD _ x y 3 ▸ value_getD _ x y 3 ▸ h3.alpha x y
    | _ => exfalso; simp_all; done
  | @merge K₁ K₂ A B Q ht he hm hA hB hd ca cb hv hQ =>
    cases h2 with
    | @merge K₁' K₂' A' B' Q' ht' he' hm' hA' hB' hd' ca' cb' hv' hQ' =>
        obtain ⟨a, b⟩ := List.forall₂_cons.mp hin
        obtain ⟨kA, wA, wA', -⟩ := exposed_rests hl a (hp _ List.mem_cons_self) (hp' _ List.mem_cons_self) hA hA'
        obtain ⟨kB, wB, wB', nB⟩ := exposed_rests hl (one b) (hp _ (List.mem_cons_of_mem _ List.mem_cons_self))
          (hp' _ (List.mem_cons_of_mem _ List.mem_cons_self)) hB hB'
        refine ⟨settled_exposed hL hL' ⟨by rw [hQ.data, hQ'.data, kA.sheet.data, kB.sheet.data],
          by rw [hQ.display, hQ'.display, kB.sheet.display],
          by rw [hQ.channels, hQ'.channels, kB.sheet.channels], by rw [hQ.space, hQ'.space]⟩
          fun x y hxy => ?_, rfl⟩
        have hxy' : Has _ x y := hxy
        dsimp only at hxy'
        rw [hQ.data, ← kA.sheet.data, ← kB.sheet.data, ← hQ'.data] at hxy'
        obtain ⟨v, s1, l1, e1⟩ := hQ.pixels x y hxy
        obtain ⟨v', s2, l2, e2⟩ := hQ'.pixels x y hxy'
        rw [kB.sheet.channels] at s2 l2 e2
        dsimp only
        rw [hQ.channels]
        have g : ∀ c, c < B.channels → v.getD c 0 = blend (MergeImageMode.ofI32 (n.getI32 "mode")) (n.getF32 "mix")
            (A.value x y) (B.value x y) c := by
          intro c hc
          rw [List.getD_eq_getElem?_getD, e1 c hc]; rfl
        have g' : ∀ c, c < B.channels → v'.getD c 0 = blend (MergeImageMode.ofI32 (n.getI32 "mode")) (n.getF32 "mix")
            (A'.value x y) (B'.value x y) c := by
          intro c hc
          rw [List.getD_eq_getElem?_getD, e2 c hc]; rfl
        refine ⟨v, v', s1, s2, l1, l2, fun c hc f f' => ?_, ?_⟩
        · rw [g c (by omega)] at f ⊢
          rw [g' c (by omega)] at f' ⊢
          exact blend_exposed (ha.merge ht).1 (ha.merge ht).2 (kA.colours x y c hc) (kB.colours x y c hc)
            (kA.alpha x y) (nB (hdark _ (List.mem_cons_of_mem _ List.mem_cons_self)) x y c hc) f'
        · rcases Nat.lt_or_ge 3 B.channels with h3 | h3
          · rw [g 3 h3, g' 3 h3]
            have eA : A'.value x y ((3 : Nat) : Int) = A.value x y ((3 : Nat) : Int) := kA.alpha x y
            have eB : B'.value x y ((3 : Nat) : Int) = B.value x y ((3 : Nat) : Int) := kB.alpha x y
            generalize MergeImageMode.ofI32 (n.getI32 "mode") = mode
            cases mode with
            | over =>
              show A'.value x y ((3 : Nat) : Int) + B'.value x y ((3 : Nat) : Int) *
                  ((1 - A'.value x y ((3 : Nat) : Int)) * _) =
                A.value x y ((3 : Nat) : Int) + B.value x y ((3 : Nat) : Int) *
                  ((1 - A.value x y ((3 : Nat) : Int)) * _)
              rw [eA, eB]
            | add =>
              show A'.value x y ((3 : Nat) : Int) + B'.value x y ((3 : Nat) : Int) * _ =
                A.value x y ((3 : Nat) : Int) + B.value x y ((3 : Nat) : Int) * _
              rw [eA, eB]
            | multiply =>
              show A'.value x y ((3 : Nat) : Int) * (B'.value x y ((3 : Nat) : Int) * _) =
                A.value x y ((3 : Nat) : Int) * (B.value x y ((3 : Nat) : Int) * _)
              rw [eA, eB]
            | uninitialized => rfl
          · rw [List.getD_eq_getElem?_getD, List.getD_eq_getElem?_getD,
              List.getElem?_eq_none (by omega), List.getElem?_eq_none (by omega)]
    | _ => exfalso; simp_all; done
  | @viewer P Q ds t ht he hb hc hs hty hQ =>
    cases h2 with
    | viewer ht' he' hb' hc' hs' hty' hQ' =>
        obtain ⟨h3, h4⟩ := one hin
        have pP := hp _ List.mem_cons_self
        have pP' := hp' _ List.mem_cons_self
        dsimp only at h3 h4 pP pP'
        have z := ha.viewer ht
        rw [z] at hty hty'
        have e1 := hty .f32
        have e2 := hty' .f32
        change DType.f32 = _ at e1 e2
        subst e1 e2
        refine ⟨?_, h4⟩
        refine settled_exposed hL hL' ⟨by rw [hQ.data, hQ'.data, h3.sheet.data],
          by rw [hQ.display, hQ'.display, h3.sheet.display],
          by rw [hQ.channels, hQ'.channels, h3.sheet.channels], by rw [hQ.space, hQ'.space]⟩
          fun x y hxy => ?_
        dsimp only at hxy
        rw [hQ.data] at hxy
        have hxy' := hxy
        rw [← h3.sheet.data] at hxy'
        have b := hQ'.pixels x y hxy'
        rw [h3.sheet.channels] at b
        have l1 := (pP.plain x y hxy).1
        have l2 := (pP'.plain x y hxy').1.trans h3.sheet.channels
        have c3 := pP.channels
        dsimp only
        rw [hQ.channels]
        refine ⟨_, _, hQ.pixels x y hxy, b, by rw [List.length_map, l1], by rw [List.length_map, l2],
          fun c hc _ _ => ?_, ?_⟩
        · have k := h3.colours x y c hc
          rw [value_in hxy, value_in hxy', List.getD_eq_getElem?_getD, List.getD_eq_getElem?_getD,
            List.getElem?_eq_getElem (by omega), List.getElem?_eq_getElem (by omega)] at k
          rw [List.getD_eq_getElem?_getD, List.getD_eq_getElem?_getD, List.getElem?_map,
            List.getElem?_map, List.getElem?_eq_getElem (by omega), List.getElem?_eq_getElem (by omega)]
          exact k
        · rcases Nat.lt_or_ge 3 P.channels with k3 | k3
          · have k := h3.alpha x y
            have k' := ((value_in hxy' 3).symm.trans k).trans (value_in hxy 3)
            rw [List.getD_eq_getElem?_getD, List.getD_eq_getElem?_getD,
              List.getElem?_eq_getElem (by omega), List.getElem?_eq_getElem (by omega)] at k'
            rw [List.getD_eq_getElem?_getD, List.getD_eq_getElem?_getD, List.getElem?_map,
              List.getElem?_map, List.getElem?_eq_getElem (by omega), List.getElem?_eq_getElem (by omega)]
            exact k'
          · rw [List.getD_eq_getElem?_getD, List.getD_eq_getElem?_getD,
              List.getElem?_eq_none (by rw [List.length_map]; omega),
              List.getElem?_eq_none (by rw [List.length_map]; omega)]
    | _ => exfalso; simp_all; done
  | viewerSpace ht he hb =>
    cases h2 with
    | viewerSpace ht' he' hb' =>
        exact one hin
    | _ => exfalso; simp_all; done
  | viewerOff ht he hb =>
    cases h2 with
    | viewerOff ht' he' hb' =>
        exact one hin
    | _ => exfalso; simp_all; done
  | write ht he hx =>
    cases h2 with
    | write ht' he' hx' =>
        exact one hin
    | _ => exfalso; simp_all; done
  | writeOff ht he hx =>
    cases h2 with
    | writeOff ht' he' hx' =>
        exact one hin
    | _ => exfalso; simp_all; done

/-- C146: sources that are exposed by `k` more stops make pictures that are exposed by exactly `k`
more stops, in single precision with all rounding. -/
theorem C146_pictures {lib lib' : NodeLib F32 F16} (hl : SameTools lib lib')
    (hpow : ∀ x : F32, Libm.powf x (ofInt 1) = x) {srt : EdgeSort} {g : Graph (Node F32) (Stream F32 F16)} (hg : Sound g) {start : Nat}
    (hs : g.graph.contains start = true) {order d : List Nat}
    (hi : SInv g.graph start order ⟨[], d⟩) (ht : Topo g.graph order) {frame : F32}
    {pic pic' : Nat → Layer F32} (hp : Pictures lib srt g start frame pic)
    (hp' : Pictures lib' srt g start frame pic')
    (ho : ∀ i, Upstream g.graph start i → Proper (pic i).still ∧ Proper (pic' i).still)
    (hn : ∀ i n, Upstream g.graph start i → g.nodes[i]? = some n → KeepsStops n)
    (hdark : ∀ i, Upstream g.graph start i → NotTooDark (pic i).still)
    (hr : ∀ i n, Upstream g.graph start i → g.nodes[i]? = some n → n.attrs.nodeType = .readImage →
      Exposed k (pic i).still (pic' i).still) :
    ∀ i, Upstream g.graph start i → ExposedLayer k (pic i) (pic' i) := by
  have key : ∀ l i, order.length - order.idxOf i ≤ l → Upstream g.graph start i →
      ExposedLayer k (pic i) (pic' i) := by
    intro l
    induction l with
    | zero =>
      intro i hk hu
      have := List.idxOf_lt_length_of_mem ((hi.final_mem i).mpr hu)
      omega
    | succ l ih =>
      intro i hk hu
      have hlive := hg.upstream_live hs hu
      obtain ⟨n, hni⟩ : ∃ n, g.nodes[i]? = some n := by
        exact ⟨_, List.getElem?_eq_getElem (hg.live i hlive)⟩
      have a := hp i n _ hu hni (hg.direct srt hlive)
      have b := hp' i n _ hu hni (hg.direct srt hlive)
      have up : ∀ u, u ∈ _ → Upstream g.graph start u := fun u hmem =>
        .step hu ((hg.mem_parents srt).mp hmem).1
      refine makes_exposed hl hpow (hn i n hu hni) a b ?_ ?_ ?_ (ho i hu).1 (ho i hu).2 ?_ ?_
      · rw [List.forall₂_map_left_iff, List.forall₂_map_right_iff, List.forall₂_same]
        intro u hmem
        obtain ⟨hf, hne⟩ := (hg.mem_parents srt).mp hmem
        have := ht i ((hi.final_mem i).mpr hu) u hf hne
        have h2 := List.idxOf_lt_length_of_mem ((hi.final_mem u).mpr (.step hu hf))
        exact ih u (by omega) (.step hu hf)
      · intro K hK
        obtain ⟨u, hu', rfl⟩ := List.mem_map.mp hK
        exact (ho u (up u hu')).1
      · intro K hK
        obtain ⟨u, hu', rfl⟩ := List.mem_map.mp hK
        exact (ho u (up u hu')).2
      · intro K hK
        obtain ⟨u, hu', rfl⟩ := List.mem_map.mp hK
        exact hdark u (up u hu')
      · exact hr i n hu hni
  exact fun i hu => key _ i (Nat.le_refl _) hu

/-- C146: two executions of a graph over disks of which the second one has images that are exposed by
`k` more stops put out pictures of which the second one is exposed by exactly `k` more stops, with
the same alpha and the same deformers waiting. -/
theorem C146_execution (p : Profile) (lib lib' : NodeLib F32 F16)
    (hl : SameTools lib lib') (hpow : ∀ x : F32, Libm.powf x (ofInt 1) = x) (srt : EdgeSort)
    {g : Graph (Node F32) (Stream F32 F16)} {r r' : Bool} (h : Reach (nodeSem p lib) srt r g)
    (h' : Reach (nodeSem p lib') srt r' g)
    {id start : Nat} (hid : At g id start) (hs : g.graph.contains start = true)
    {frames : List F32} {frame : F32} (hlast : frames.getLast? = some frame)
    {pic pic' : F32 → Nat → Layer F32}
    (hp : ∀ fr ∈ frames, Pictures lib srt g start fr (pic fr))
    (hp' : ∀ fr ∈ frames, Pictures lib' srt g start fr (pic' fr))
    (ho : ∀ i, Upstream g.graph start i →
      Proper (pic frame i).still ∧ Proper (pic' frame i).still)
    (hn : ∀ i n, Upstream g.graph start i → g.nodes[i]? = some n → KeepsStops n)
    (hdark : ∀ i, Upstream g.graph start i → NotTooDark (pic frame i).still)
    (hr : ∀ i n, Upstream g.graph start i → g.nodes[i]? = some n → n.attrs.nodeType = .readImage →
      Exposed k (pic frame i).still (pic' frame i).still)
    {w1 w2 w3 w4 : World F32 F16} (hw : IsOff w1) (hw' : IsOff w3) {fuel fuel' : Nat}
    {st st' : ExecuteStatus} {g1 g2 : Graph (Node F32) (Stream F32 F16)}
    (hx : g.execute (nodeSem p lib) srt fuel id frames w1 = .ok (st, g1, w2))
    (hx' : g.execute (nodeSem p lib') srt fuel' id frames w3 = .ok (st', g2, w4)) :
    ∃ P P', Still lib.bake.color g1.output P ∧ Still lib'.bake.color g2.output P' ∧
      Exposed k P P' ∧ g1.output.deformers.filter (fun d => d.enable = 1) =
        g2.output.deformers.filter (fun d => d.enable = 1) := by
  obtain ⟨order, d, e, hi⟩ := order_of_reach h hs
  have ht := execute_topo h.inv.sound hid hs (fun e => by rw [e] at hlast; cases hlast) hx e hi
  have hf : frame ∈ frames := List.mem_of_getLast? hlast
  obtain ⟨-, -, a⟩ := C87_graph_returns_partial p lib srt h hid hs hlast hp hw hx
  obtain ⟨-, -, b⟩ := C87_graph_returns_partial p lib' srt h' hid hs hlast hp' hw' hx'
  obtain ⟨c1, c2⟩ := C146_pictures hl hpow h.inv.sound hs hi ht (hp frame hf) (hp' frame hf) ho hn hdark
    hr start .refl
  exact ⟨_, _, a.1, b.1, c1, (a.2.trans c2).trans b.2.symm⟩

end

/-! ### Examples -/

attribute [local instance] IeeeConvertExamples.someLibm

/-- A white pixel in half floats, or one that is twice as bright. -/
def litPixel (b : Bool) : List F16 :=
  [if b then ⟨false, 16384, by decide⟩ else halfOne, if b then ⟨false, 16384, by decide⟩ else halfOne,
    if b then ⟨false, 16384, by decide⟩ else halfOne, halfOne]

/-- The pixel in single floats. -/
def litFloats (b : Bool) : List F32 :=
  [if b then ofInt 2 else 1, if b then ofInt 2 else 1, if b then ofInt 2 else 1, 1]

/-- The pixel, and the pixel with a black one on its left. -/
def litLayers (b : Bool) (i : Nat) : Layer F32 :=
  ⟨if i = 0 then ⟨⟨0, 0, 1, 1⟩, ⟨0, 0, 1, 1⟩, 4, colorSpaceLinear, fun _ _ => litFloats b⟩
    else ⟨⟨-1, 0, 1, 1⟩, ⟨-1, 0, 1, 1⟩, 4, colorSpaceLinear,
      fun x _ => if x = 0 then litFloats b else [0, 0, 0, 0]⟩, []⟩

theorem lit_file (b : Bool) (path : Bytes) :
    IsFile (halfFiles (litPixel b)) path (litLayers b 0).still := by
  refine ⟨halfSpec, .f16, 4, litFloats b, rfl, rfl, by constructor <;> decide, rfl, .inr rfl, rfl,
    rfl, rfl, rfl, rfl, ⟨litFloats b, ?_, ?_, ?_⟩, rfl, ?_⟩
  · obtain ⟨size, hs⟩ : ∃ size, size = sizeFor (litLayers b 0).still.data
      (litLayers b 0).still.channels := ⟨_, rfl⟩
    rw [← hs]
    cases b
    · refine congrArg (fun l : List F32 => Except.ok (floatImage (H := F16) size l)) ?_
      show List.map (fun x : F16 => (HalfLike.toF32 x : F32)) (litPixel false) = litFloats false
      decide +kernel
    · refine congrArg (fun l : List F32 => Except.ok (floatImage (H := F16) size l)) ?_
      show List.map (fun x : F16 => (HalfLike.toF32 x : F32)) (litPixel true) = litFloats true
      decide +kernel
  · intro _; rfl
  · intro h; exact absurd rfl h
  · rintro x y ⟨h1, h2, h3, h4⟩
    have hy : y = 0 := by change (0 : Int) ≤ y at h3; change y < 1 at h4; omega
    have hx : x = 0 := by change (0 : Int) ≤ x at h1; change x < 1 at h2; omega
    subst hy hx
    exact ⟨litFloats b, by revert b; decide +kernel, .nil _⟩

theorem lit_cut (b : Bool) :
    IsCropped ⟨-1, 0, 1, 1⟩ true (litLayers b 0).still (litLayers b 1).still := by
  refine ⟨rfl, rfl, rfl, rfl, ?_⟩
  rintro x y ⟨h1, h2, h3, h4⟩
  have hy : y = 0 := by change (0 : Int) ≤ y at h3; change y < 1 at h4; omega
  have hx : x = -1 ∨ x = 0 := by change (-1 : Int) ≤ x at h1; change x < 1 at h2; omega
  subst hy
  rcases hx with rfl | rfl
  · exact ⟨[0, 0, 0, 0], by revert b; decide +kernel, .nil _⟩
  · exact ⟨litFloats b, by revert b; decide +kernel, .nil _⟩

theorem lit_pictures (b : Bool) (frame : F32) :
    Pictures (halfFiles (litPixel b)) insSort readWide 1 frame (litLayers b) := by
  intro i n ins _ hn hins
  rcases i with _ | _ | i
  · cases hn
    cases hins
    exact .read rfl (by decide) (lit_file b _)
  · cases hn
    cases hins
    exact .crop rfl rfl (by decide) (rests_refl _ _) rfl
      (show ValidSize ⟨2, 1, 4⟩ by unfold ValidSize; decide) (lit_cut b)
  · cases hn

theorem litFloats_plain (b : Bool) : ∀ v ∈ litFloats b, IsPlain v := by
  intro v hv
  have two : IsPlain (ofInt 2 : F32) :=
    ⟨(ofInt_spec ok_single (by decide)).1, by
      show (ofInt 2 : F32) ≠ zero true
      decide +kernel⟩
  simp only [litFloats, List.mem_cons, List.not_mem_nil, or_false] at hv
  rcases hv with rfl | rfl | rfl | rfl
  · cases b
    exacts [plain_one, two]
  · cases b
    exacts [plain_one, two]
  · cases b
    exacts [plain_one, two]
  · exact plain_one

theorem lit_proper (b : Bool) (i : Nat) : Proper (litLayers b i).still := by
  rcases i with _ | i
  · refine ⟨.inr rfl, show ValidSize ⟨1, 1, 4⟩ by unfold ValidSize; decide, fun x y _ => ⟨rfl, ?_⟩⟩
    exact litFloats_plain b
  · refine ⟨.inr rfl, show ValidSize ⟨2, 1, 4⟩ by unfold ValidSize; decide, fun x y _ => ?_⟩
    show (if x = 0 then litFloats b else [0, 0, 0, 0] : List F32).length = 4 ∧
      ∀ v ∈ (if x = 0 then litFloats b else [0, 0, 0, 0] : List F32), IsPlain v
    split
    · exact ⟨rfl, litFloats_plain b⟩
    · refine ⟨rfl, fun v hv => ?_⟩
      simp only [List.mem_cons, List.not_mem_nil, or_false, or_self] at hv
      rw [hv]
      exact plain_zero


theorem lit_scaled : ∀ c, c < 3 → Scaled 1 ((litFloats false).getD c 0) ((litFloats true).getD c 0) := by
  intro c hc
  have one : val (ofInt 1 : F32) = 1 := by rw [ofInt_val ok_single (by decide)]; norm_num
  have two : val (ofInt 2 : F32) = 2 := by rw [ofInt_val ok_single (by decide)]; norm_num
  have : Scaled 1 (ofInt 1) (ofInt 2) :=
    ⟨(one_spec ok_single).1, (ofInt_spec ok_single (by decide)).1, by rw [one, two]; norm_num⟩
  have : c = 0 ∨ c = 1 ∨ c = 2 := by omega
  rcases this with rfl | rfl | rfl <;> assumption

/-- The second file is exposed by one more stop. -/
theorem lit_exposed : Exposed 1 (litLayers false 0).still (litLayers true 0).still := by
  refine ⟨⟨rfl, rfl, rfl, rfl⟩, fun x y c hc => ?_, fun x y => ?_⟩
  · by_cases h : Has (litLayers false 0).still.data x y
    · rw [value_in h, value_in (P := (litLayers true 0).still) h]
      exact lit_scaled c hc
    · rw [value_out h, value_out (P := (litLayers true 0).still) h]
      exact scaled_zero
  · by_cases h : Has (litLayers false 0).still.data x y
    · exact (value_in (P := (litLayers true 0).still) h 3).trans (value_in h 3).symm
    · exact (value_out (P := (litLayers true 0).still) h 3).trans (value_out h 3).symm

theorem lit_light (i : Nat) : NotTooDark (litLayers false i).still := by
  intro x y c hc
  have one : Above 60 (ofInt 1 : F32) := .inr (by
    rw [ofInt_val ok_single (by decide)]; norm_num)
  have key : Above 60 ((litFloats false).getD c 0) := by
    have : c = 0 ∨ c = 1 ∨ c = 2 := by omega
    rcases this with rfl | rfl | rfl <;> exact one
  by_cases h : Has (litLayers false i).still.data x y
  · rw [value_in h]
    rcases i with _ | i
    · exact key
    · show Above 60 ((if x = 0 then litFloats false else [0, 0, 0, 0] : List F32).getD c 0)
      split
      · exact key
      · have : c = 0 ∨ c = 1 ∨ c = 2 := by omega
        rcases this with rfl | rfl | rfl <;> exact .inl zero_value
  · rw [value_out h]
    exact .inl zero_value

/-- The hypotheses of C146 are met: reading and cropping a white pixel and one twice as bright. -/
example : ∃ g1 w1 g2 w2 P P',
    readWide.execute (nodeSem .debug (halfFiles (litPixel false))) insSort 20 2 [1] copyWorld =
      .ok (.success, g1, w1) ∧
    readWide.execute (nodeSem .debug (halfFiles (litPixel true))) insSort 20 2 [1] copyWorld =
      .ok (.success, g2, w2) ∧
    Still (halfFiles (litPixel false)).bake.color g1.output P ∧
    Still (halfFiles (litPixel true)).bake.color g2.output P' ∧ Exposed 1 P P' := by
  obtain ⟨g1, w1, e1⟩ : ∃ g1 w1, readWide.execute (nodeSem .debug (halfFiles (litPixel false))) insSort
      20 2 [1] copyWorld = .ok (.success, g1, w1) := ⟨_, _, rfl⟩
  obtain ⟨g2, w2, e2⟩ : ∃ g1 w1, readWide.execute (nodeSem .debug (halfFiles (litPixel true))) insSort
      20 2 [1] copyWorld = .ok (.success, g1, w1) := ⟨_, _, rfl⟩
  obtain ⟨P, P', h1, h2, h3, -⟩ := C146_execution (k := 1) .debug _ _ (half_tools _ _) (fun _ => rfl)
    insSort (readWide_reach (litPixel false)) (readWide_reach (litPixel true)) readWide_at rfl
    (frames := [1]) (frame := 1) rfl
    (pic := fun _ => litLayers false) (pic' := fun _ => litLayers true)
    (fun fr _ => lit_pictures false fr) (fun fr _ => lit_pictures true fr)
    (fun i _ => ⟨lit_proper false i, lit_proper true i⟩)
    (by
      intro i n _ hn
      rcases i with _ | _ | i
      · cases hn; exact ⟨by rintro ⟨⟩, by rintro ⟨⟩, by rintro ⟨⟩⟩
      · cases hn; exact ⟨by rintro ⟨⟩, by rintro ⟨⟩, by rintro ⟨⟩⟩
      · cases hn)
    (fun i _ => lit_light i)
    (by
      intro i n _ hn ht
      rcases i with _ | _ | i
      · exact lit_exposed
      · cases hn; cases ht
      · cases hn) ⟨rfl, rfl⟩ ⟨rfl, rfl⟩ e1 e2
  exact ⟨g1, w1, g2, w2, P, P', e1, e2, h1, h2, h3⟩

/-- Such grades exist: three stops. -/
example : Multiplies threeStops := by
  have h8 : Above 60 (ofInt 8 : F32) := .inr (by rw [ofInt_val ok_single (by decide)]; norm_num)
  refine ⟨rfl, rfl, fun c hc => .inr ?_⟩
  have : c = 0 ∨ c = 1 ∨ c = 2 := by omega
  rcases this with rfl | rfl | rfl <;>
    exact ⟨rfl, ofInt 8, (ofInt_spec ok_single (by decide)).1, h8, rfl⟩

/-- A dark red, the same one a stop brighter, and a small factor. -/
def darkRed (b : Bool) : F32 := if b then ⟨false, 29 * 2 ^ 23 + 2 ^ 22, by decide⟩
  else ⟨false, 28 * 2 ^ 23 + 2 ^ 22, by decide⟩

theorem darkRed_exposed : Exposed 1 (pixelPicture [darkRed false, 0, 0, 1])
    (pixelPicture [darkRed true, 0, 0, 1]) := by
  refine ⟨⟨rfl, rfl, rfl, rfl⟩, fun x y c hc => ?_, fun x y => ?_⟩
  · by_cases h : Has (pixelPicture [darkRed false, 0, 0, 1]).data x y
    · rw [value_in h, value_in (P := pixelPicture [darkRed true, 0, 0, 1]) h]
      have : c = 0 ∨ c = 1 ∨ c = 2 := by omega
      rcases this with rfl | rfl | rfl
      · show Scaled 1 (darkRed false) (darkRed true)
        refine ⟨by unfold IsFinite; decide +kernel, by unfold IsFinite; decide +kernel, ?_⟩
        rw [val_eq, val_eq]
        decide +kernel
      · exact scaled_zero
      · exact scaled_zero
    · rw [value_out h, value_out (P := pixelPicture [darkRed true, 0, 0, 1]) h]
      exact scaled_zero
  · by_cases h : Has (pixelPicture [darkRed false, 0, 0, 1]).data x y
    · exact (value_in (P := pixelPicture [darkRed true, 0, 0, 1]) h 3).trans (value_in h 3).symm
    · exact (value_out (P := pixelPicture [darkRed true, 0, 0, 1]) h 3).trans (value_out h 3).symm

/-- C146 is false for pictures that are so dark that bits are lost: one and a half times the
smallest positive number is rounded to twice it, three times it is not rounded. -/
theorem C146_counterexample_dark : ∃ (mix : F32) (A B B' Q Q' : Picture F32), Exposed 1 B B' ∧
    IsMerged .add mix A B Q ∧ IsMerged .add mix A B' Q' ∧ ¬ Exposed 1 Q Q' := by
  refine ⟨⟨false, 77 * 2 ^ 23, by decide⟩, pixelPicture [0, 0, 0, 0],
    pixelPicture [darkRed false, 0, 0, 1], pixelPicture [darkRed true, 0, 0, 1],
    pixelPicture [⟨false, 2, by decide⟩, 0, 0, ⟨false, 77 * 2 ^ 23, by decide⟩],
    pixelPicture [⟨false, 3, by decide⟩, 0, 0, ⟨false, 77 * 2 ^ 23, by decide⟩], darkRed_exposed,
    pixel_merged (by decide +kernel), pixel_merged (by decide +kernel), fun h => ?_⟩
  have := (h.colours 0 0 0 (by decide)).2.2
  revert this
  show ¬ val (⟨false, 3, by decide⟩ : F32) = val (⟨false, 2, by decide⟩ : F32) * 2 ^ 1
  rw [val_eq, val_eq]
  decide +kernel

/-- C146 is false for products of pictures: twice the light in both is four times the light. -/
theorem C146_counterexample_multiply : ∃ A A' Q Q' : Picture F32, Exposed 1 A A' ∧
    IsMerged .multiply 1 A A Q ∧ IsMerged .multiply 1 A' A' Q' ∧ ¬ Exposed 1 Q Q' := by
  refine ⟨(litLayers false 0).still, (litLayers true 0).still, pixelPicture [1, 1, 1, 1],
    pixelPicture [ofInt 4, ofInt 4, ofInt 4, 1], lit_exposed,
    pixel_merged (a := litFloats false) (b := litFloats false) (by decide +kernel),
    pixel_merged (a := litFloats true) (b := litFloats true) (by decide +kernel), fun h => ?_⟩
  have := (h.colours 0 0 0 (by decide)).2.2
  revert this
  show ¬ val (ofInt 4 : F32) = val (ofInt 1 : F32) * 2 ^ 1
  rw [ofInt_val ok_single (by decide), ofInt_val ok_single (by decide)]
  norm_num

end OCG.Props
