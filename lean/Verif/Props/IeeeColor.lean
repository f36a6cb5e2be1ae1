import Verif.Proofs.IeeeError
import Verif.Props.ColorOps
import Verif.Props.Interp
/-
C53, C55, C57 and C61 in IEEE arithmetic: what is left of the laws of exact arithmetic.
-/

namespace OCG.Props

open PixelSpec ColorSpec IeeeSpec
open Ieee hiding floor ceil round

/-! ### Closed computations -/

theorem default_slope : div (mul (ofInt 1) (sub (ofInt 1) (zero false)))
    (sub (ofInt 1) (zero false)) = (ofInt 1 : F32) := by decide +kernel

theorem default_shift : sub (add (zero false) (zero false)) (mul (ofInt 1) (zero false)) =
    (zero false : F32) := by decide +kernel

theorem one_over_one : div (ofInt 1) (ofInt 1) = (ofInt 1 : F32) := by decide +kernel

theorem one_minus_one : sub (ofInt 1) (ofInt 1) = (zero false : F32) := by decide +kernel

theorem one_minus_zero (z : F32) (hz : z.code = 0) : sub (ofInt 1) z = ofInt 1 := by
  have : ∀ b, sub (ofInt 1) (zero b) = (ofInt 1 : F32) := by decide +kernel
  rw [eq_zero_of_code hz]; exact this _

section
variable [Libm single32]

/-- The grade of a finite value with a mask of 0. -/
theorem mask_zero {g z p : F32} (hg : IsFinite g) (hz : z.code = 0) (hp : IsFinite p) :
    Same (g * z + p * (1 - z)) p := by
  show Same (add (mul g z) (mul p (sub (ofInt 1) z))) p
  rw [one_minus_zero z hz, mul_one' ok_single hp]
  exact zero_add_same ok_single hp (mul_zero_code ok_single hg hz)

/-- A mask of 0 does not keep out infinities and NaNs. -/
theorem mask_zero_nan {g z p : F32} (hg : ¬ IsFinite g) (hz : z.code = 0) :
    g * z + p * (1 - z) = nan := by
  show add (mul g z) _ = nan
  rw [mul_zero_nan hg hz, add_nan_left (nan_isNan (by decide))]

/-- The grade of a finite value with a mask of 1. -/
theorem mask_one {g p : F32} (hg : IsFinite g) (hp : IsFinite p) :
    Same (g * FloatLike.ofInt 1 + p * (1 - FloatLike.ofInt 1)) g := by
  show Same (add (mul g (ofInt 1)) (mul p (sub (ofInt 1) (ofInt 1)))) g
  rw [one_minus_one, mul_one' ok_single hg]
  exact add_zero_same ok_single hg (mul_zero_code ok_single hp (zero_code _))

/-- The mask of a channel that is not processed. -/
theorem mask_code {m : F32} (hm : IsFinite m) : ((FloatLike.ofInt 0 : F32) * m).code = 0 := by
  exact zero_mul_code ok_single hm (zero_code false)

theorem mask_full : ((FloatLike.ofInt 1 : F32) * FloatLike.ofInt 1) = FloatLike.ofInt 1 := by
  show mul (ofInt 1) (ofInt 1) = (ofInt 1 : F32)
  decide +kernel

/-! ### C55 -/

/-- The formula of a grade for one value, forwards or reversed. -/
def gradeFormula (d : GradeOp F32) (c : Nat) (p : F32) : F32 :=
  match values d c with
  | (black, white, lift, gain, multiply, offset, gamma) =>
    gradeSingle p black white lift gain multiply offset gamma (decide (d.getI32 "reverse" ≠ 0))

/-- C55 in IEEE arithmetic (partial): a finite value of a channel that is not processed stays the
same number exactly if the formula of the grade, which is not wanted there, gives a finite value;
otherwise it becomes NaN. -/
theorem C55_single_partial (d : GradeOp F32) (h : HasWork d) (hm : IsFinite (d.getF32 "mix"))
    {n : Nat} (hn : Channels n) (buf : List F32) :
    ∃ out, d.applySlice buf n = .ok out ∧ out.length = buf.length ∧
      ∀ i k, i < buf.length / n → k < n → processes d (channelOf n k) = 0 →
        ∃ p q, buf[i * n + k]? = some p ∧ out[i * n + k]? = some q ∧
          (IsFinite p → IsFinite (gradeFormula d (channelOf n k) p) → Same q p) ∧
          (¬ IsFinite (gradeFormula d (channelOf n k) p) → q = nan) := by
  obtain ⟨out, h1, h2, h3⟩ := grade_values d h hn buf
  refine ⟨out, h1, h2, fun i k hi hk hp => ?_⟩
  obtain ⟨p, h4, h5⟩ := h3 i k hi hk
  refine ⟨p, _, h4, h5, ?_, ?_⟩
  · intro hpf hg
    rw [hp]
    exact mask_zero hg (mask_code hm) hpf
  · intro hg
    rw [hp]
    exact mask_zero_nan hg (mask_code hm)

/-! ### C53 -/

/-- The default grade of a finite value, forwards and reversed. -/
theorem default_formula (hpow : ∀ x : F32, IsFinite x → Libm.powf x (ofInt 1) = x) (r : Bool)
    {p : F32} (hp : IsFinite p) : Same (gradeSingle p 0 1 0 1 1 0 1 r) p := by
  cases r with
  | false =>
    show Same (Libm.powf (add (mul (div (mul (ofInt 1) (sub (ofInt 1) (zero false)))
      (sub (ofInt 1) (zero false))) p) (sub (add (zero false) (zero false))
        (mul (div (mul (ofInt 1) (sub (ofInt 1) (zero false)))
      (sub (ofInt 1) (zero false))) (zero false)))) (div (ofInt 1) (ofInt 1))) p
    rw [default_slope, default_shift, one_over_one, one_mul' ok_single hp]
    have := add_zero_same ok_single hp (zero_code (f := single32) false)
    rw [hpow _ this.1]
    exact this
  | true =>
    have ha : ((1 : F32) * (1 - 0) / (1 - 0)) = 1 := default_slope
    have hb : ((0 : F32) + 0 - 1 * 0) = 0 := default_shift
    have h1 : fle (1 : F32) 0 = false := by
      show (ltb (ofInt 1) (zero false) || eqb (ofInt 1) (zero false)) = false
      decide +kernel
    have h2 : FloatLike.eq (1 : F32) 1 = true := by
      show eqb (ofInt 1) (ofInt 1) = true
      decide +kernel
    have h3 : FloatLike.eq (0 : F32) 0 = true := by
      show eqb (zero false) (zero false) = true
      decide +kernel
    unfold gradeSingle
    dsimp only
    rw [ha, hb, h1, h2, h3]
    exact .refl hp

/-- C53 in IEEE arithmetic (partial): a grade with default values that is mixed fully keeps the
number of every finite value (bit by bit, except for the sign of a zero), forwards or reversed,
for every choice of channels to process.  Missing: infinite values (`C53_infinite`) and partial
mixing (`C53_counterexample_mix`). -/
theorem C53_single_partial (hpow : ∀ x : F32, IsFinite x → Libm.powf x (ofInt 1) = x)
    (d : GradeOp F32) (hd : ∀ c, c < 4 → values d c = (0, 1, 0, 1, 1, 0, 1))
    (hmix : d.getF32 "mix" = 1) (hproc : ∀ c, c < 4 → processes d c = 0 ∨ processes d c = 1)
    {n : Nat} (hn : Channels n) (buf : List F32) (hbuf : ∀ p ∈ buf, IsFinite p) :
    ∃ out, d.applySlice buf n = .ok out ∧ out.length = buf.length ∧
      ∀ (j : Nat) (p : F32), buf[j]? = some p → ∃ q, out[j]? = some q ∧ Same q p ∧ (val p ≠ 0 → q = p) := by
  by_cases h : HasWork d
  · obtain ⟨out, h1, h2⟩ := pixelLoop_mapped (gradeFn d) hn buf
    obtain ⟨out', h1', h3', h3⟩ := grade_values d h hn buf
    have ho : out = out' := by
      rw [applySlice_work h, h1] at h1'
      cases h1'; rfl
    subst ho
    have hpos : 0 < n := by rcases hn with rfl | rfl | rfl <;> decide
    refine ⟨out, h1', h3', ?_⟩
    intro j p hj
    have hpf : IsFinite p := hbuf p (List.mem_of_getElem? hj)
    suffices hs : ∃ q, out[j]? = some q ∧ Same q p by
      obtain ⟨q, hq, hs⟩ := hs
      exact ⟨q, hq, hs, same_eq hs⟩
    by_cases hi : j / n < buf.length / n
    · obtain ⟨p', h4, h5⟩ := h3 (j / n) (j % n) hi (Nat.mod_lt _ hpos)
      have e : j / n * n + j % n = j := by rw [Nat.mul_comm]; exact Nat.div_add_mod j n
      rw [e] at h4 h5
      rw [hj] at h4
      cases h4
      refine ⟨_, h5, ?_⟩
      have hc := channelOf_lt hn (Nat.mod_lt j hpos)
      have hmix' : d.mix = (1 : F32) := hmix
      rw [hd _ hc, hmix']
      have hg := default_formula hpow (decide (d.reverse ≠ 0)) hpf
      rcases hproc _ hc with e | e
      · rw [e]
        exact mask_zero hg.1 (mask_code (one_spec ok_single).1) hpf
      · rw [e]
        have em : (FloatLike.ofInt 1 : F32) * 1 = FloatLike.ofInt 1 := mask_full
        unfold gradeValue
        rw [em]
        exact (mask_one hg.1 hpf).trans hg
    · refine ⟨p, ?_, .refl hpf⟩
      have hge : buf.length / n * n ≤ j := by
        have : buf.length / n ≤ j / n := by omega
        exact (Nat.mul_le_mul_right n this).trans (Nat.div_mul_le_self j n)
      have := congrArg (fun l => l[j - buf.length / n * n]?) h2.rest
      simp only [List.getElem?_drop] at this
      rw [show buf.length / n * n + (j - buf.length / n * n) = j by omega] at this
      rw [this, hj]
  · exact ⟨buf, applySlice_idle h buf n, rfl, fun j p hj =>
      ⟨p, hj, .refl (hbuf p (List.mem_of_getElem? hj)), fun _ => rfl⟩⟩

/-- C53 is false for infinite values: any grade, also a default one, that is mixed fully turns
infinite values of a processed channel into NaN. -/
theorem C53_infinite (d : GradeOp F32) (h : HasWork d) (hmix : d.getF32 "mix" = 1) {n : Nat}
    (hn : Channels n) (buf : List F32) :
    ∃ out, d.applySlice buf n = .ok out ∧
      ∀ i k p, i < buf.length / n → k < n → processes d (channelOf n k) = 1 →
        buf[i * n + k]? = some p → p.isInf = true → out[i * n + k]? = some nan := by
  obtain ⟨out, h1, h2, h3⟩ := grade_values d h hn buf
  refine ⟨out, h1, fun i k p hi hk hp hb hinf => ?_⟩
  obtain ⟨p', h4, h5⟩ := h3 i k hi hk
  rw [hb] at h4
  cases h4
  have hmix' : d.mix = (1 : F32) := hmix
  rw [h5, hp, hmix']
  refine congrArg some ?_
  show add _ (mul p (sub (ofInt 1) (mul (ofInt 1) (ofInt 1)))) = nan
  have e : mul (ofInt 1) (ofInt 1) = (ofInt 1 : F32) := mask_full
  rw [e, one_minus_one, mul_zero_nan (not_finite_iff.mpr (.inl hinf)) (zero_code _),
    add_nan_right (nan_isNan (by decide))]

/-! ### C57 -/

/-- C57 in IEEE arithmetic: the identity matrix keeps the number of every finite value. -/
theorem C57_single_identity {n : Nat} (hn : Channels n) (buf : List F32)
    (hbuf : ∀ p ∈ buf, IsFinite p) :
    ∃ out, applyColorMatrix buf n (fun i j => if i = j then (1 : F32) else 0) = .ok out ∧
      out.length = buf.length ∧
      ∀ i k, i < buf.length / n → k < n →
        ∃ p q, buf[i * n + k]? = some p ∧ out[i * n + k]? = some q ∧ Same q p := by
  obtain ⟨out, h1, h2⟩ := C57_per_pixel (fun i j => if i = j then (1 : F32) else 0) hn buf
  refine ⟨out, h1, h2.length, fun i k hi hk => ?_⟩
  have hl := pixel_length hi
  have hk' : k < (pixel n buf i).length := by rw [hl]; exact hk
  have hone : IsFinite (1 : F32) := (one_spec ok_single).1
  have hfin : ∀ p ∈ pixel n buf i, IsFinite p := fun p hp =>
    hbuf p (List.mem_of_mem_drop (List.mem_of_mem_take hp))
  have hid : ∀ v : Vec4 F32, (∀ j, IsFinite (v j)) → ∀ j,
      Same (Xform.mulVec (fun i j => if i = j then (1 : F32) else 0) v j) (v j) := by
    intro v hv j
    have m0 : ∀ j, ((0 : F32) * v j).code = 0 := fun j => zero_mul_code ok_single (hv j) (zero_code _)
    have m1 : ∀ j, (1 : F32) * v j = v j := fun j => one_mul' ok_single (hv j)
    have az : ∀ {x z : F32} {y : F32}, Same x y → z.code = 0 → Same (x + z) y := fun hx hz =>
      (add_zero_same ok_single hx.1 hz).trans hx
    have za : ∀ {x z : F32} {y : F32}, z.code = 0 → Same x y → Same (z + x) y := fun hz hx =>
      (zero_add_same ok_single hx.1 hz).trans hx
    have zz : ∀ {x z : F32}, x.code = 0 → z.code = 0 → (x + z).code = 0 := by
      intro x z hx hz
      have := add_zero_same ok_single (finite_of_code_zero ok_single hx) hz
      rcases same_cases this with e | e
      · show (add x z).code = 0
        rw [e]; exact hx
      · exact e.1
    have : j = 0 ∨ j = 1 ∨ j = 2 ∨ j = 3 := by omega
    unfold Xform.mulVec
    rcases this with rfl | rfl | rfl | rfl
    · show Same ((1 : F32) * v 0 + 0 * v 1 + 0 * v 2 + 0 * v 3) (v 0)
      rw [m1]
      exact az (az (az (.refl (hv 0)) (m0 1)) (m0 2)) (m0 3)
    · show Same ((0 : F32) * v 0 + 1 * v 1 + 0 * v 2 + 0 * v 3) (v 1)
      rw [m1]
      exact az (az (za (m0 0) (.refl (hv 1))) (m0 2)) (m0 3)
    · show Same ((0 : F32) * v 0 + 0 * v 1 + 1 * v 2 + 0 * v 3) (v 2)
      rw [m1]
      exact az (za (zz (m0 0) (m0 1)) (.refl (hv 2))) (m0 3)
    · show Same ((0 : F32) * v 0 + 0 * v 1 + 0 * v 2 + 1 * v 3) (v 3)
      rw [m1]
      exact za (zz (zz (m0 0) (m0 1)) (m0 2)) (.refl (hv 3))
  have key : ∀ v : List F32, v.length = n → (∀ p ∈ v, IsFinite p) → ∀ (k : Nat) (p : F32), v[k]? = some p →
      ∃ q, (onPixel (Xform.mulVec (fun i j => if i = j then (1 : F32) else 0)) v)[k]? = some q ∧
        Same q p := by
    intro v hv hf k p hk
    have h4 : ∀ j : Fin 4, j = 0 ∨ j = 1 ∨ j = 2 ∨ j = 3 := by omega
    rcases hn with rfl | rfl | rfl
    · obtain ⟨a, rfl⟩ := List.length_eq_one_iff.mp hv
      have hall : ∀ j, IsFinite (Xform.vec 1 1 1 a j : F32) := by
        intro j
        rcases h4 j with rfl | rfl | rfl | rfl
        exacts [hone, hone, hone, hf a (by simp)]
      match k with
      | 0 => cases hk; exact ⟨_, rfl, hid _ hall 3⟩
      | k + 1 => simp at hk
    · obtain ⟨r, g, b, rfl⟩ := list3 hv
      have hall : ∀ j, IsFinite (Xform.vec r g b 1 j : F32) := by
        intro j
        rcases h4 j with rfl | rfl | rfl | rfl
        exacts [hf r (by simp), hf g (by simp), hf b (by simp), hone]
      match k with
      | 0 => cases hk; exact ⟨_, rfl, hid _ hall 0⟩
      | 1 => cases hk; exact ⟨_, rfl, hid _ hall 1⟩
      | 2 => cases hk; exact ⟨_, rfl, hid _ hall 2⟩
      | k + 3 => simp at hk
    · obtain ⟨r, g, b, a, rfl⟩ := list4 hv
      have hall : ∀ j, IsFinite (Xform.vec r g b a j : F32) := by
        intro j
        rcases h4 j with rfl | rfl | rfl | rfl
        exacts [hf r (by simp), hf g (by simp), hf b (by simp), hf a (by simp)]
      match k with
      | 0 => cases hk; exact ⟨_, rfl, hid _ hall 0⟩
      | 1 => cases hk; exact ⟨_, rfl, hid _ hall 1⟩
      | 2 => cases hk; exact ⟨_, rfl, hid _ hall 2⟩
      | 3 => cases hk; exact ⟨_, rfl, hid _ hall 3⟩
      | k + 4 => simp at hk
  obtain ⟨q, h3, h4⟩ := key _ hl hfin k _ (List.getElem?_eq_getElem hk')
  refine ⟨_, q, ?_, ?_, h4⟩
  · rw [← getElem?_pixel hk, List.getElem?_eq_getElem hk']
  · rw [← getElem?_pixel hk, h2.pixels i hi]
    exact h3

/-! ### C61 -/

open Interp

/-- C61 in IEEE arithmetic: `lerp` hits both ends of every finite range. -/
theorem C61_single_endpoints {a b : F32} (ha : IsFinite a) (hb : IsFinite b) :
    Same (lerp a b 0) a ∧ Same (lerp a b 1) b := by
  constructor
  · show Same (add (mul (sub (ofInt 1) (zero false)) a) (mul (zero false) b)) a
    rw [one_minus_zero _ (zero_code _), one_mul' ok_single ha]
    exact add_zero_same ok_single ha (zero_mul_code ok_single hb (zero_code _))
  · show Same (add (mul (sub (ofInt 1) (ofInt 1)) a) (mul (ofInt 1) b)) b
    rw [one_minus_one, one_mul' ok_single hb]
    exact zero_add_same ok_single hb (zero_mul_code ok_single ha (zero_code _))

omit [Libm single32] in
theorem div_self' {x : F32} (hx : IsFinite x) (h0 : x.code ≠ 0) : div x x = ofInt 1 := by
  obtain ⟨h1, h2, h3⟩ := one_spec ok_single
  exact div_exact hx hx h0 h1 (by rw [h2, Nat.mul_comm]) (by rw [h3]; simp)

omit [Libm single32] in
theorem zero_div_code {x z : F32} (hx : IsFinite x) (h0 : x.code ≠ 0) (hz : z.code = 0) :
    (div z x).code = 0 := by
  have hzf := finite_of_code_zero ok_single hz
  rw [div_exact hzf hx h0 (z := zero (z.neg != x.neg)) (finite_zero ok_single _)
    (by simp [mag, hz]) rfl, zero_code]

theorem lerp_zero_code {a b z : F32} (ha : IsFinite a) (hb : IsFinite b) (hz : z.code = 0) :
    Same (lerp a b z) a := by
  show Same (add (mul (sub (ofInt 1) z) a) (mul z b)) a
  rw [one_minus_zero _ hz, one_mul' ok_single ha]
  exact add_zero_same ok_single ha (zero_mul_code ok_single hb hz)

/-- C61 in IEEE arithmetic: `remap` takes the ends of the old range to the ends of the new one,
if the width of the old range is a finite number other than 0. -/
theorem C61_single_remap {a b c d : F32} (ha : IsFinite a) (hab : IsFinite (b - a))
    (h0 : val (b - a) ≠ 0) (hc : IsFinite c) (hd : IsFinite d) :
    Same (remap a b c d a) c ∧ Same (remap a b c d b) d := by
  have hcode : (sub b a).code ≠ 0 := fun h => h0 (val_zero_iff.mpr h)
  constructor
  · refine lerp_zero_code hc hd ?_
    show (div (sub a a) (sub b a)).code = 0
    rw [sub_self' ha]
    exact zero_div_code hab hcode (zero_code _)
  · have : inverseLerp a b b = 1 := div_self' hab hcode
    unfold remap
    rw [this]
    exact (C61_single_endpoints hc hd).2

omit [Libm single32] in
/-- The error of rounding in `f32`. -/
theorem single_error {q : ℚ} {x : F32} (h : Rounds q x) (hx : IsFinite x) {M : ℚ} (hq : |q| ≤ M) :
    |val x - q| ≤ M / 2 ^ 24 + 1 / 2 ^ 150 := by
  refine (h.error hx).trans (max_le ?_ ?_)
  · have : |q| / (2 * 2 ^ single32.mant) ≤ M / 2 ^ 24 := by
      rw [show (2 : ℚ) * 2 ^ single32.mant = 2 ^ 24 by norm_num]
      exact div_le_div_of_nonneg_right hq (by positivity)
    refine this.trans (le_add_of_nonneg_right (by positivity))
  · have : (1 : ℚ) / (2 * 2 ^ single32.unit) = 1 / 2 ^ 150 := by norm_num
    rw [this]
    exact le_add_of_nonneg_left (div_nonneg ((abs_nonneg q).trans hq) (by positivity))

/-- C61 in IEEE arithmetic (partial): between 0 and 1 `lerp` is the straight line up to a rounding
error of at most M / 2^21, where M bounds the two ends.  Missing: it may leave the range by that
much, and is not undone exactly (`C61_counterexample_between`, `C61_counterexample_inverse`). -/
theorem C61_single_error_partial {a b t : F32} (ha : IsFinite a) (hb : IsFinite b)
    (ht : IsFinite t) (h0 : 0 ≤ val t) (h1 : val t ≤ 1) {M : ℚ} (hM : M ≤ 2 ^ 126)
    (haM : |val a| ≤ M) (hbM : |val b| ≤ M) :
    IsFinite (lerp a b t) ∧
      |val (lerp a b t) - ((1 - val t) * val a + val t * val b)| ≤ M / 2 ^ 21 + 1 / 2 ^ 148 := by
  have hM0 : 0 ≤ M := (abs_nonneg _).trans haM
  obtain ⟨o1, o2⟩ : IsFinite (ofInt 1 : F32) ∧ val (ofInt 1 : F32) = 1 :=
    ⟨(one_spec ok_single).1, by rw [ofInt_val ok_single (by decide)]; norm_num⟩
  have eq : lerp a b t = add (mul (sub (ofInt 1) t) a) (mul t b) := by
    unfold lerp
    rw [op_add, op_mul, op_mul, op_sub, op_one]
  rw [eq]
  -- 1 - t
  have rs := rounds_sub o1 ht
  rw [o2] at rs
  have hs1 : |1 - val t| ≤ 1 := by rw [abs_le]; constructor <;> linarith
  obtain ⟨sf, sb⟩ := rs.finite o1 (by rw [o2, abs_one]; exact hs1)
  rw [o2, abs_one] at sb
  have se := single_error rs sf hs1
  generalize sub (ofInt 1) t = s at *
  -- the products
  have rp := rounds_mul sf ha
  obtain ⟨pf, pb⟩ := rp.finite ha (by
    rw [abs_mul]; exact mul_le_of_le_one_left (abs_nonneg _) sb)
  have pe := single_error rp pf (M := M) (by
    rw [abs_mul]; exact (mul_le_of_le_one_left (abs_nonneg _) sb).trans haM)
  generalize mul s a = p at *
  have rq := rounds_mul ht hb
  have tb : |val t| ≤ 1 := by rw [abs_of_nonneg h0]; exact h1
  obtain ⟨qf, qb⟩ := rq.finite hb (by
    rw [abs_mul]; exact mul_le_of_le_one_left (abs_nonneg _) tb)
  have qe := single_error rq qf (M := M) (by
    rw [abs_mul]; exact (mul_le_of_le_one_left (abs_nonneg _) tb).trans hbM)
  generalize mul t b = r at *
  -- the sum
  have ru := rounds_add pf qf
  have ub : |val p + val r| ≤ 2 * M := by
    refine (abs_add_le _ _).trans ?_
    linarith
  have big : IsFinite (⟨false, 0x7f000000, by decide⟩ : F32) := by rw [finite_iff]; decide +kernel
  have bigv : val (⟨false, 0x7f000000, by decide⟩ : F32) = 2 * 2 ^ 126 := by unfold val; norm_num
  obtain ⟨uf, -⟩ := ru.finite big (by
    rw [bigv, abs_of_pos (by positivity : (0 : ℚ) < 2 * 2 ^ 126)]
    linarith)
  have ue := single_error ru uf ub
  refine ⟨uf, ?_⟩
  generalize add p r = u at *
  have sa : |val s * val a - (1 - val t) * val a| ≤ M / 2 ^ 24 + M / 2 ^ 150 := by
    rw [← sub_mul, abs_mul]
    calc |val s - (1 - val t)| * |val a| ≤ (1 / 2 ^ 24 + 1 / 2 ^ 150) * M := by
          exact mul_le_mul se haM (abs_nonneg _) (by positivity)
      _ = M / 2 ^ 24 + M / 2 ^ 150 := by ring
  have hM2 : M / 2 ^ 150 ≤ M / 2 ^ 24 := div_le_div_of_nonneg_left hM0 (by norm_num) (by norm_num)
  rw [abs_le] at *
  have e1 : M / 2 ^ 21 = 8 * (M / 2 ^ 24) := by ring
  have e2 : (1 : ℚ) / 2 ^ 148 = 4 * (1 / 2 ^ 150) := by norm_num
  have e3 : 2 * M / 2 ^ 24 = 2 * (M / 2 ^ 24) := by ring
  have e4 : (0 : ℚ) < 1 / 2 ^ 150 := by positivity
  have e5 : 0 ≤ M / 2 ^ 24 := by positivity
  rw [e3] at ue
  rw [e1, e2]
  generalize M / 2 ^ 24 = m at *
  generalize M / 2 ^ 150 = m' at *
  generalize (1 : ℚ) / 2 ^ 150 = e at *
  constructor <;> linarith [ue.1, ue.2, sa.1, sa.2, pe.1, pe.2, qe.1, qe.2]

end

/-! ### Examples and counterexamples -/

section Examples

open Interp

/-- Some `powf` with `x.powf(1) = x`. -/
@[instance_reducible] def exactPowf : Libm single32 := ⟨fun x _ => x, id, id⟩

attribute [local instance] exactPowf

/-- 0.1 -/
def tenth : F32 := ⟨false, 0x3dcccccd, by decide⟩
/-- 2.9999998, the largest number below 3 -/
def below3 : F32 := ⟨false, 0x403fffff, by decide⟩

/-- C53 is false for partial mixing: a default grade with mix 0.1 turns 3 into 2.9999998, although
`powf` is exact. -/
theorem C53_counterexample_mix :
    ({ (GradeOp.new : GradeOp F32) with mix := tenth }).applySlice [ofInt 3, ofInt 3, ofInt 3] 3 =
      .ok [below3, below3, below3] := by
  decide +kernel

/-- The matrix that scales colours by `s`. -/
def scaleBy (s : F32) : Mat4 F32 := fun i j => if i = j then s else zero false

/-- C57 is false in IEEE arithmetic for the product: scaling 5 by 0.1 twice is not scaling it by
the product. -/
theorem C57_counterexample_compose :
    (applyColorMatrix [ofInt 5, ofInt 5, ofInt 5, ofInt 5] 4 (scaleBy tenth) >>=
        fun b => applyColorMatrix b 4 (scaleBy tenth)) ≠
      applyColorMatrix [ofInt 5, ofInt 5, ofInt 5, ofInt 5] 4
        (Xform.mul (scaleBy tenth) (scaleBy tenth)) := by
  decide +kernel

/-- C61 is false in IEEE arithmetic inside the range: `lerp` between 3 and 3 gives less than 3. -/
theorem C61_counterexample_between : lerp (ofInt 3) (ofInt 3) tenth = below3 ∧ val below3 < 3 := by
  refine ⟨by decide +kernel, ?_⟩
  unfold val below3; norm_num

/-- C61 is false in IEEE arithmetic inside the range: `inverse_lerp` does not undo `lerp`. -/
theorem C61_counterexample_inverse :
    inverseLerp (ofInt 1) (ofInt 2) (lerp (ofInt 1) (ofInt 2) tenth) ≠ (tenth : F32) := by
  decide +kernel

-- C53: a default grade of an RGB pixel with 0.1, 3 and -0.
example : ∃ out, (GradeOp.new : GradeOp F32).applySlice [tenth, ofInt 3, zero true] 3 = .ok out ∧
    out[0]? = some tenth := by
  obtain ⟨out, h1, h2, h3⟩ := C53_single_partial (fun _ _ => rfl) GradeOp.new
    (fun c hc => by
      have : c = 0 ∨ c = 1 ∨ c = 2 ∨ c = 3 := by omega
      rcases this with rfl | rfl | rfl | rfl <;> rfl) rfl
    (fun c hc => by
      have : c = 0 ∨ c = 1 ∨ c = 2 ∨ c = 3 := by omega
      rcases this with rfl | rfl | rfl | rfl <;> decide) (n := 3) (.inr (.inl rfl))
    [tenth, ofInt 3, zero true] (by
      intro p hp
      simp only [List.mem_cons, List.not_mem_nil, or_false] at hp
      rcases hp with rfl | rfl | rfl
      · rw [finite_iff]; decide +kernel
      · rw [finite_iff]; decide +kernel
      · rw [finite_iff]; decide +kernel)
  refine ⟨out, h1, ?_⟩
  obtain ⟨q, h4, -, h5⟩ := h3 0 tenth rfl
  rw [h4, h5]
  unfold val tenth; norm_num

-- C53: infinity.
example : (GradeOp.new : GradeOp F32).applySlice [inf false, ofInt 3, zero true] 3 =
    .ok [nan, ofInt 3, zero false] := by decide +kernel

-- C55: alpha is not processed; the unwanted formula is finite, then infinite.
example : (GradeOp.new : GradeOp F32).applySlice [tenth] 1 = .ok [tenth] := by decide +kernel
example : ({ (GradeOp.new : GradeOp F32) with whitePointA := 0 }).applySlice [tenth] 1 =
    .ok [nan] := by decide +kernel

-- C57: one RGBA pixel.
example : applyColorMatrix [tenth, ofInt 3, zero true, ofInt (-7)] 4
    (fun i j => if i = j then (1 : F32) else 0) =
      .ok [tenth, ofInt 3, zero false, ofInt (-7)] := by decide +kernel

-- C61: from 1..3 to 0.1..-7.
example : Same (remap (ofInt 1) (ofInt 3) tenth (ofInt (-7)) (ofInt 3)) (ofInt (-7) : F32) := by
  refine (C61_single_remap ?_ ?_ ?_ ?_ ?_).2
  · rw [finite_iff]; decide +kernel
  · rw [finite_iff]; decide +kernel
  · rw [Ne, val_zero_iff]; decide +kernel
  · rw [finite_iff]; decide +kernel
  · rw [finite_iff]; decide +kernel

-- C61: a tenth of the way from -7 to 3.
example : |val (lerp (ofInt (-7)) (ofInt 3) tenth : F32) -
    ((1 - val tenth) * val (ofInt (-7) : F32) + val tenth * val (ofInt 3 : F32))| ≤
      7 / 2 ^ 21 + 1 / 2 ^ 148 := by
  have n7 : val (ofInt (-7) : F32) = -7 := by rw [ofInt_val ok_single (by decide)]; norm_num
  have n3 : val (ofInt 3 : F32) = 3 := by rw [ofInt_val ok_single (by decide)]; norm_num
  refine (C61_single_error_partial ?_ ?_ ?_ ?_ ?_ (M := 7) ?_ ?_ ?_).2
  · rw [finite_iff]; decide +kernel
  · rw [finite_iff]; decide +kernel
  · rw [finite_iff]; decide +kernel
  · unfold val tenth; norm_num
  · unfold val tenth; norm_num
  · norm_num
  · rw [n7]; norm_num
  · rw [n3]; norm_num

end Examples

end OCG.Props
