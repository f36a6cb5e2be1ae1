import Verif.Model.StreamApply
import Verif.Proofs.Pixels
import Verif.Spec.ColorOps
import Verif.Spec.Field
import Mathlib.Tactic.FieldSimp
import Mathlib.Tactic.NormNum
import Mathlib.Analysis.SpecialFunctions.Pow.Real
import Mathlib.Tactic.Ring
/-
C47, C53, C54, C55, C57 and C73: colour operations.
-/

namespace OCG.Props

open PixelSpec ColorSpec

/-! ### One value of a pixel -/

section
variable {F : Type} [FloatLike F]

/-- The grade of one value by one channel's values, mixed with the original. -/
def gradeValue (v : F × F × F × F × F × F × F) (reverse : Bool) (mask p : F) : F :=
  gradeSingle p v.1 v.2.1 v.2.2.1 v.2.2.2.1 v.2.2.2.2.1 v.2.2.2.2.2.1 v.2.2.2.2.2.2 reverse * mask
    + p * (1 - mask)

/-- The function that a grade applies to an RGBA value. -/
def gradeFn (d : GradeOp F) : Vec4 F → Vec4 F := fun p =>
  Xform.vec
    (gradeValue (values d 0) (decide (d.reverse ≠ 0)) (FloatLike.ofInt d.processR * d.mix) (p 0))
    (gradeValue (values d 1) (decide (d.reverse ≠ 0)) (FloatLike.ofInt d.processG * d.mix) (p 1))
    (gradeValue (values d 2) (decide (d.reverse ≠ 0)) (FloatLike.ofInt d.processB * d.mix) (p 2))
    (gradeValue (values d 3) (decide (d.reverse ≠ 0)) (FloatLike.ofInt d.processA * d.mix) (p 3))

/-- A grade has something to do. -/
def HasWork (d : GradeOp F) : Prop :=
  d.getI32 "enable" = 1 ∧ ∃ c, c < 4 ∧ processes d c ≠ 0

theorem hasWork_iff (d : GradeOp F) : HasWork d ↔ (d.enable = 1 ∧
    (d.processR ≠ 0 ∨ d.processG ≠ 0 ∨ d.processB ≠ 0 ∨ d.processA ≠ 0)) := by
  unfold HasWork
  refine and_congr Iff.rfl ?_
  constructor
  · rintro ⟨c, hc, h⟩
    have : c = 0 ∨ c = 1 ∨ c = 2 ∨ c = 3 := by omega
    rcases this with rfl | rfl | rfl | rfl
    · exact .inl h
    · exact .inr (.inl h)
    · exact .inr (.inr (.inl h))
    · exact .inr (.inr (.inr h))
  · rintro (h | h | h | h)
    · exact ⟨0, by decide, h⟩
    · exact ⟨1, by decide, h⟩
    · exact ⟨2, by decide, h⟩
    · exact ⟨3, by decide, h⟩

theorem applySlice_work {d : GradeOp F} (h : HasWork d) (buf : List F) (n : Int) :
    d.applySlice buf n = pixelLoop (gradeFn d) n buf := by
  unfold GradeOp.applySlice
  dsimp only
  rw [if_neg (not_not.mpr ((hasWork_iff d).mp h))]
  rfl

theorem applySlice_idle {d : GradeOp F} (h : ¬ HasWork d) (buf : List F) (n : Int) :
    d.applySlice buf n = .ok buf := by
  unfold GradeOp.applySlice
  dsimp only
  rw [if_pos (fun hw => h ((hasWork_iff d).mpr hw))]

/-- What a grade does to one pixel. -/
noncomputable def opPixel (d : GradeOp F) : List F → List F := by
  classical
  exact if HasWork d then onPixel (gradeFn d) else id

theorem opPixel_length (d : GradeOp F) (v : List F) : (opPixel d v).length = v.length := by
  unfold opPixel
  split
  · exact onPixel_length _ v
  · rfl

theorem applySlice_mapped (d : GradeOp F) {n : Nat} (hn : Channels n) (buf : List F) :
    ∃ out, d.applySlice buf n = .ok out ∧ Mapped n (opPixel d) buf out := by
  by_cases h : HasWork d
  · obtain ⟨out, h1, h2⟩ := pixelLoop_mapped (gradeFn d) hn buf
    refine ⟨out, by rw [applySlice_work h, h1], ?_⟩
    unfold opPixel
    rw [if_pos h]
    exact h2
  · refine ⟨buf, applySlice_idle h buf n, ?_⟩
    unfold opPixel
    rw [if_neg h]
    exact Mapped.id (fun _ _ => rfl)

/-- Value `k` of a graded pixel. -/
theorem onPixel_grade (d : GradeOp F) {n : Nat} (hn : Channels n) (v : List F) (hv : v.length = n)
    (k : Nat) (p : F) (hk : v[k]? = some p) :
    (onPixel (gradeFn d) v)[k]? = some (gradeValue (values d (channelOf n k))
      (decide (d.reverse ≠ 0)) (FloatLike.ofInt (processes d (channelOf n k)) * d.mix) p) := by
  rcases hn with rfl | rfl | rfl
  · obtain ⟨a, rfl⟩ := List.length_eq_one_iff.mp hv
    match k with
    | 0 => simp only [List.getElem?_cons_zero, Option.some.injEq] at hk; subst hk; rfl
    | k + 1 => simp at hk
  · obtain ⟨r, g, b, rfl⟩ := list3 hv
    match k with
    | 0 => simp only [List.getElem?_cons_zero, Option.some.injEq] at hk; subst hk; rfl
    | 1 =>
      simp only [List.getElem?_cons_zero, List.getElem?_cons_succ, Option.some.injEq] at hk
      subst hk; rfl
    | 2 =>
      simp only [List.getElem?_cons_zero, List.getElem?_cons_succ, Option.some.injEq] at hk
      subst hk; rfl
    | k + 3 => simp at hk
  · obtain ⟨r, g, b, a, rfl⟩ := list4 hv
    match k with
    | 0 => simp only [List.getElem?_cons_zero, Option.some.injEq] at hk; subst hk; rfl
    | 1 =>
      simp only [List.getElem?_cons_zero, List.getElem?_cons_succ, Option.some.injEq] at hk
      subst hk; rfl
    | 2 =>
      simp only [List.getElem?_cons_zero, List.getElem?_cons_succ, Option.some.injEq] at hk
      subst hk; rfl
    | 3 =>
      simp only [List.getElem?_cons_zero, List.getElem?_cons_succ, Option.some.injEq] at hk
      subst hk; rfl
    | k + 4 => simp at hk

omit [FloatLike F] in
theorem getElem?_pixel {n : Nat} {buf : List F} {i k : Nat} (hk : k < n) :
    (pixel n buf i)[k]? = buf[i * n + k]? := by
  unfold pixel
  rw [List.getElem?_take_of_lt hk, List.getElem?_drop]

/-- A grade with something to do, value by value. -/
theorem grade_values (d : GradeOp F) (h : HasWork d) {n : Nat} (hn : Channels n)
    (buf : List F) :
    ∃ out, d.applySlice buf n = .ok out ∧ out.length = buf.length ∧
      ∀ i k, i < buf.length / n → k < n → ∃ p, buf[i * n + k]? = some p ∧
        out[i * n + k]? = some (gradeValue (values d (channelOf n k)) (decide (d.reverse ≠ 0))
          (FloatLike.ofInt (processes d (channelOf n k)) * d.mix) p) := by
  obtain ⟨out, h1, h2⟩ := pixelLoop_mapped (gradeFn d) hn buf
  refine ⟨out, by rw [applySlice_work h, h1], h2.length, ?_⟩
  intro i k hi hk
  have hl := pixel_length hi
  have hk' : k < (pixel n buf i).length := by rw [hl]; exact hk
  refine ⟨(pixel n buf i)[k], ?_, ?_⟩
  · rw [← getElem?_pixel hk, List.getElem?_eq_getElem hk']
  · rw [← getElem?_pixel hk, h2.pixels i hi]
    exact onPixel_grade d hn _ hl k _ (List.getElem?_eq_getElem hk')

/-- C73: a grade with something to do, not reversed, computes its formula for every channel of
every complete pixel, from the values of that channel, and keeps the number of values. -/
theorem C73_grade_formula (d : GradeOp F) (h : HasWork d) (hr : d.getI32 "reverse" = 0) {n : Nat}
    (hn : Channels n) (buf : List F) :
    ∃ out, d.applySlice buf n = .ok out ∧ out.length = buf.length ∧
      ∀ i k, i < buf.length / n → k < n → ∃ p, buf[i * n + k]? = some p ∧
        out[i * n + k]? = some
          (mixed (FloatLike.ofInt (processes d (channelOf n k)) * d.getF32 "mix")
            (forward (values d (channelOf n k)) p) p) := by
  obtain ⟨out, h1, h2, h3⟩ := grade_values d h hn buf
  refine ⟨out, h1, h2, fun i k hi hk => ?_⟩
  obtain ⟨p, h4, h5⟩ := h3 i k hi hk
  have hr' : d.reverse = 0 := hr
  refine ⟨p, h4, ?_⟩
  rw [h5, hr']
  rfl

/-- C73: a grade that is not enabled, or processes no channel, does nothing. -/
theorem C73_no_work (d : GradeOp F) (h : ¬ HasWork d) (buf : List F) (n : Int) :
    d.applySlice buf n = .ok buf := applySlice_idle h buf n

/-- C73: a grade applied to anything but 1, 3 or 4 channels panics if it has something to do. -/
theorem C73_other_channels (d : GradeOp F) (h : HasWork d) {n : Nat} (hn : ¬ Channels n)
    (buf : List F) : d.applySlice buf n = .error .explicit := by
  rw [applySlice_work h]
  refine pixelLoop_other _ ⟨?_, ?_, ?_⟩ buf <;> intro h' <;>
    exact hn (by unfold Channels; omega)

end

/-! ### C47 -/

section
variable {F : Type} [FloatLike F]

theorem carried_iff (n : Int) (ops : List (GradeOp F)) (a c : List F) :
    Carried n ops a c ↔ forEach (fun op px => op.applySlice px n)
      (ops.filter fun x => decide (x.getI32 "enable" = 1)) a = .ok c := by
  induction ops generalizing a with
  | nil =>
    constructor
    · intro h; cases h; rfl
    · intro h; cases h; exact .nil _
  | cons op ops ih =>
    by_cases he : op.getI32 "enable" = 1
    · rw [List.filter_cons_of_pos (by simpa using he)]
      constructor
      · intro h
        cases h with
        | skip h1 => exact absurd he h1
        | step h1 h2 h3 => exact Res.bind_ok.mpr ⟨_, h2, (ih _).mp h3⟩
      · intro h
        obtain ⟨b, h1, h2⟩ := Res.bind_ok.mp h
        exact .step he h1 ((ih _).mpr h2)
    · rw [List.filter_cons_of_neg (by simpa using he)]
      constructor
      · intro h
        cases h with
        | skip h1 h2 => exact (ih _).mp h2
        | step h1 => exact absurd h1 he
      · intro h; exact .skip he ((ih _).mpr h)

theorem applyColorOps_eq (ops : List (GradeOp F)) (buf : List F) {n : Int} (hn : 0 < n) :
    applyColorOps ops buf n = forEach (fun op px => op.applySlice px n)
      (ops.filter fun x => decide (x.getI32 "enable" = 1)) buf := by
  unfold applyColorOps
  rw [if_neg (by omega)]
  split
  · rename_i h
    rw [List.length_eq_zero_iff.mp h]
    rfl
  · dsimp only
    split
    · rename_i h
      rw [List.length_eq_zero_iff.mp h]
      rfl
    · rfl

/-- C47: applying the colour operations of a stream carries out exactly the enabled ones, in
order. -/
theorem C47_in_order (ops : List (GradeOp F)) (buf out : List F) {n : Int} (hn : 0 < n) :
    applyColorOps ops buf n = .ok out ↔ Carried n ops buf out := by
  rw [applyColorOps_eq ops buf hn, carried_iff]

/-- C47 for the user of a stream: applying its colour operations to a buffer of pixels carries out
exactly the enabled ones, in the order of the stream. -/
theorem C47_stream {H : Type} (s : Stream F H) (buf out : List F) {n : Int} (hn : 0 < n) :
    s.applyColorOps buf n = .ok out ↔ Carried n s.colorOps buf out :=
  C47_in_order s.colorOps buf out hn

/-- C47: with 1, 3 or 4 channels it succeeds, and every pixel goes through the operations on its
own. -/
theorem C47_every_pixel (ops : List (GradeOp F)) (buf : List F) {n : Nat} (hn : Channels n) :
    ∃ out, applyColorOps ops buf n = .ok out ∧ out.length = buf.length ∧
      ∀ i, i < buf.length / n → ∃ q, applyColorOps ops (pixel n buf i) n = .ok q ∧
        pixel n out i = q := by
  have hpos : (0 : Int) < n := by rcases hn with rfl | rfl | rfl <;> decide
  have hposn : 0 < n := by omega
  have key : ∀ (ops : List (GradeOp F)) (b : List F), ∃ out,
      applyColorOps ops b n = .ok out ∧
      Mapped n (fun v => (ops.filter fun x => decide (x.getI32 "enable" = 1)).foldl
        (fun v op => opPixel op v) v) b out := by
    intro ops b
    rw [applyColorOps_eq ops b hpos]
    generalize (ops.filter fun x => decide (x.getI32 "enable" = 1)) = l
    induction l generalizing b with
    | nil => exact ⟨b, rfl, Mapped.id (fun _ _ => rfl)⟩
    | cons op l ih =>
      obtain ⟨b1, h1, h2⟩ := applySlice_mapped op hn b
      obtain ⟨out, h3, h4⟩ := ih b1
      exact ⟨out, Res.bind_ok.mpr ⟨b1, h1, h3⟩, h2.comp h4⟩
  obtain ⟨out, h1, h2⟩ := key ops buf
  refine ⟨out, h1, h2.length, ?_⟩
  intro i hi
  obtain ⟨q, h3, h4⟩ := key ops (pixel n buf i)
  have hl := pixel_length hi
  refine ⟨q, h3, ?_⟩
  have h5 := h4.pixels 0 (by rw [hl, Nat.div_self hposn]; exact Nat.one_pos)
  have hself : ∀ l : List F, l.length = n → pixel n l 0 = l := by
    intro l hl'
    unfold pixel
    rw [Nat.zero_mul, List.drop_zero, List.take_of_length_le (by omega)]
  rw [hself _ hl, hself q (by rw [h4.length, hl])] at h5
  rw [h2.pixels i hi, h5]

/-- C47: the operations of a downstream node come after those of the upstream nodes. -/
theorem C47_downstream_after (ops ops' : List (GradeOp F)) (buf out : List F) {n : Int}
    (hn : 0 < n) :
    applyColorOps (ops ++ ops') buf n = .ok out ↔
      ∃ mid, applyColorOps ops buf n = .ok mid ∧ applyColorOps ops' mid n = .ok out := by
  simp only [C47_in_order _ _ _ hn]
  induction ops generalizing buf with
  | nil =>
    constructor
    · intro h; exact ⟨buf, .nil _, h⟩
    · rintro ⟨mid, h1, h2⟩; cases h1; exact h2
  | cons op ops ih =>
    constructor
    · intro h
      cases h with
      | skip h1 h2 =>
        obtain ⟨mid, h3, h4⟩ := (ih _).mp h2
        exact ⟨mid, .skip h1 h3, h4⟩
      | step h1 h2 h3 =>
        obtain ⟨mid, h4, h5⟩ := (ih _).mp h3
        exact ⟨mid, .step h1 h2 h4, h5⟩
    · rintro ⟨mid, h1, h2⟩
      cases h1 with
      | skip h3 h4 => exact .skip h3 ((ih _).mpr ⟨mid, h4, h2⟩)
      | step h3 h4 h5 => exact .step h3 h4 ((ih _).mpr ⟨mid, h5, h2⟩)

end

/-! ### C53, C54, C55 in exact arithmetic -/

section
variable {F : Type} [Field F] [LinearOrder F] [IsStrictOrderedRing F] [FloatOps F]

/-- The factor of the linear part of a grade. -/
def slope (v : F × F × F × F × F × F × F) : F := v.2.2.2.2.1 * (v.2.2.2.1 - v.2.2.1) / (v.2.1 - v.1)

/-- The offset of the linear part of a grade. -/
def shift (v : F × F × F × F × F × F × F) : F := v.2.2.2.2.2.1 + v.2.2.1 - slope v * v.1

/-- The gamma of a grade. -/
def gammaOf (v : F × F × F × F × F × F × F) : F := v.2.2.2.2.2.2

omit [IsStrictOrderedRing F] in
theorem gradeSingle_forward (v : F × F × F × F × F × F × F) (p : F) :
    gradeSingle p v.1 v.2.1 v.2.2.1 v.2.2.2.1 v.2.2.2.2.1 v.2.2.2.2.2.1 v.2.2.2.2.2.2 false =
      FloatLike.powf (slope v * p + shift v) (1 / gammaOf v) := rfl

/-- The reverse of a grade with a linear part: gamma plays no role. -/
theorem gradeSingle_reverse_linear (v : F × F × F × F × F × F × F) (p : F) (ha : slope v ≠ 0)
    (h : slope v ≠ 1 ∨ shift v ≠ 0) :
    gradeSingle p v.1 v.2.1 v.2.2.1 v.2.2.2.1 v.2.2.2.2.1 v.2.2.2.2.2.1 v.2.2.2.2.2.2 true =
      (p - shift v) / slope v := by
  have e : (!FloatLike.eq (slope v) 1 || !FloatLike.eq (shift v) 0) = true := by
    simp only [eq_eq, Bool.or_eq_true, Bool.not_eq_true', decide_eq_false_iff_not]
    exact h
  unfold gradeSingle
  dsimp only
  rw [if_neg (by decide)]
  refine (if_pos e).trans ?_
  have e2 : (!FloatLike.eq (slope v) 0) = true := by
    simpa only [eq_eq, Bool.not_eq_true', decide_eq_false_iff_not] using ha
  change p * (if (!FloatLike.eq (slope v) 0) = true then 1 / slope v else 1) +
    -shift v * (if (!FloatLike.eq (slope v) 0) = true then 1 / slope v else 1) = _
  rw [if_pos e2]
  field_simp
  ring

/-- The reverse of a grade without gamma. -/
theorem gradeSingle_reverse_no_gamma (v : F × F × F × F × F × F × F) (p : F) (ha : slope v ≠ 0)
    (hg : gammaOf v = 1) :
    gradeSingle p v.1 v.2.1 v.2.2.1 v.2.2.2.1 v.2.2.2.2.1 v.2.2.2.2.2.1 v.2.2.2.2.2.2 true =
      (p - shift v) / slope v := by
  by_cases h : slope v ≠ 1 ∨ shift v ≠ 0
  · exact gradeSingle_reverse_linear v p ha h
  · obtain ⟨h1, h2⟩ := not_or.mp h
    rw [not_not] at h1 h2
    have e1 : (!FloatLike.eq (slope v) 1 || !FloatLike.eq (shift v) 0) = false := by
      simp [eq_eq, h1, h2]
    have g0 : fle (gammaOf v) 0 = false := by
      simp [fle, lt_eq, eq_eq, hg, not_lt.mpr zero_le_one]
    have g1 : (!FloatLike.eq (gammaOf v) 1) = false := by simp [eq_eq, hg]
    unfold gradeSingle
    dsimp only
    rw [if_neg (by decide)]
    change (if (!FloatLike.eq (slope v) 1 || !FloatLike.eq (shift v) 0) = true then _ else
      if fle (gammaOf v) 0 = true then _ else if (!FloatLike.eq (gammaOf v) 1) = true then _ else p)
      = _
    rw [e1, g0, g1, h1, h2]
    simp

theorem gradeValue_mask_zero (v : F × F × F × F × F × F × F) (r : Bool) (p : F) :
    gradeValue v r 0 p = p := by
  unfold gradeValue
  ring

/-- C55 (partial): a channel that is not to be processed is returned unchanged.  In exact
arithmetic; with IEEE numbers it fails if the unused formula gives an infinity or a NaN
(`C55_counterexample`). -/
theorem C55_unprocessed_unchanged_partial (d : GradeOp F) {n : Nat} (hn : Channels n)
    (buf : List F) :
    ∃ out, d.applySlice buf n = .ok out ∧ out.length = buf.length ∧
      ∀ i k, i < buf.length / n → k < n → processes d (channelOf n k) = 0 →
        out[i * n + k]? = buf[i * n + k]? := by
  by_cases h : HasWork d
  · obtain ⟨out, h1, h2, h3⟩ := grade_values d h hn buf
    refine ⟨out, h1, h2, ?_⟩
    intro i k hi hk hp
    obtain ⟨p, h4, h5⟩ := h3 i k hi hk
    rw [h4, h5, hp, ofInt_eq, Int.cast_zero, zero_mul, gradeValue_mask_zero]
  · exact ⟨buf, applySlice_idle h buf n, rfl, fun _ _ _ _ _ => rfl⟩

omit [IsStrictOrderedRing F] in
/-- C55: pixels are processed independently: equal pixels give equal results, whatever the rest
of the buffer.  (No law of arithmetic is used.) -/
theorem C55_pixels_independent {G : Type} [FloatLike G] (d : GradeOp G) {n : Nat} (hn : Channels n)
    (buf buf' out out' : List G) (h : d.applySlice buf n = .ok out)
    (h' : d.applySlice buf' n = .ok out') (i j : Nat) (hi : i < buf.length / n)
    (hj : j < buf'.length / n) (hp : pixel n buf i = pixel n buf' j) :
    pixel n out i = pixel n out' j := by
  obtain ⟨o, h1, h2⟩ := applySlice_mapped d hn buf
  obtain ⟨o', h1', h2'⟩ := applySlice_mapped d hn buf'
  rw [h] at h1
  rw [h'] at h1'
  cases h1
  cases h1'
  rw [h2.pixels i hi, h2'.pixels j hj, hp]

/-- C53 (partial): a grade with default values changes nothing, forwards or reversed, whatever is
processed and mixed.  In exact arithmetic, for 1, 3 and 4 channels (others panic), with
`x.powf(1) = x`. -/
theorem C53_default_identity_partial (hpow : ∀ x : F, FloatOps.powf x 1 = x) (d : GradeOp F)
    (hd : ∀ c, c < 4 → values d c = (0, 1, 0, 1, 1, 0, 1)) {n : Nat} (hn : Channels n)
    (buf : List F) : d.applySlice buf n = .ok buf := by
  obtain ⟨out, h1, h2⟩ := applySlice_mapped d hn buf
  have hpos : 0 < n := by rcases hn with rfl | rfl | rfl <;> decide
  rw [h1, h2.eq_self hpos ?_]
  intro v hv
  unfold opPixel
  split
  · have hval : ∀ (r : Bool) (m p : F), gradeValue (0, 1, 0, 1, 1, 0, 1) r m p = p := by
      intro r m p
      have hs : slope ((0 : F), (1 : F), (0 : F), (1 : F), (1 : F), (0 : F), (1 : F)) = 1 := by
        simp [slope]
      have hs2 : shift ((0 : F), (1 : F), (0 : F), (1 : F), (1 : F), (0 : F), (1 : F)) = 0 := by
        simp [shift]
      unfold gradeValue
      have : gradeSingle p (0 : F) 1 0 1 1 0 1 r = p := by
        cases r with
        | false =>
          have := gradeSingle_forward ((0 : F), (1 : F), (0 : F), (1 : F), (1 : F), (0 : F), (1 : F)) p
          rw [hs, hs2] at this
          refine this.trans ?_
          simp only [gammaOf, div_one, one_mul, add_zero]
          exact hpow p
        | true =>
          have := gradeSingle_reverse_no_gamma
            ((0 : F), (1 : F), (0 : F), (1 : F), (1 : F), (0 : F), (1 : F)) p
            (by rw [hs]; exact one_ne_zero) rfl
          rw [hs, hs2] at this
          refine this.trans ?_
          simp
      dsimp only
      rw [this]
      ring
    apply List.ext_getElem?
    intro k
    cases hk : v[k]? with
    | none =>
      rw [List.getElem?_eq_none_iff] at hk ⊢
      rw [onPixel_length]
      exact hk
    | some p =>
      have hkn : k < n := by
        rw [← hv]
        exact (List.getElem?_eq_some_iff.mp hk).1
      rw [onPixel_grade d hn v hv k p hk, hd _ ?_, hval]
      unfold channelOf
      rcases hn with rfl | rfl | rfl <;> split <;> omega
  · rfl

/-- Reversing a grade of one value with a linear part gives the value back exactly if gamma did
nothing to it: the reverse ignores gamma. -/
theorem C54_reverse_iff (v : F × F × F × F × F × F × F) (p : F) (ha : slope v ≠ 0)
    (h : slope v ≠ 1 ∨ shift v ≠ 0) :
    gradeValue v true 1 (gradeValue v false 1 p) = p ↔
      FloatLike.powf (slope v * p + shift v) (1 / gammaOf v) = slope v * p + shift v := by
  have e : ∀ r q, gradeValue v r 1 q =
      gradeSingle q v.1 v.2.1 v.2.2.1 v.2.2.2.1 v.2.2.2.2.1 v.2.2.2.2.2.1 v.2.2.2.2.2.2 r := by
    intro r q; unfold gradeValue; ring
  rw [e, gradeSingle_reverse_linear v _ ha h, e, gradeSingle_forward, div_eq_iff ha, sub_eq_iff_eq_add,
    mul_comm p]

theorem channelOf_lt {n k : Nat} (hn : Channels n) (hk : k < n) : channelOf n k < 4 := by
  unfold channelOf
  rcases hn with rfl | rfl | rfl <;> split <;> omega

/-- A grade and its reverse, if every processed value is given back. -/
theorem grade_then_reverse (d : GradeOp F) (hmix : d.mix = 1) {n : Nat} (hn : Channels n)
    (buf : List F)
    (hundo : ∀ i k p, i < buf.length / n → k < n → buf[i * n + k]? = some p →
      processes d (channelOf n k) = 0 ∨ (processes d (channelOf n k) = 1 ∧
        gradeValue (values d (channelOf n k)) true 1
          (gradeValue (values d (channelOf n k)) false 1 p) = p)) :
    ∃ mid, ({ d with reverse := 0 } : GradeOp F).applySlice buf n = .ok mid ∧
      ({ d with reverse := 1 } : GradeOp F).applySlice mid n = .ok buf := by
  have hpos : 0 < n := by rcases hn with rfl | rfl | rfl <;> decide
  obtain ⟨mid, h1, h2⟩ := applySlice_mapped ({ d with reverse := 0 } : GradeOp F) hn buf
  obtain ⟨out, h3, h4⟩ := applySlice_mapped ({ d with reverse := 1 } : GradeOp F) hn mid
  refine ⟨mid, h1, ?_⟩
  rw [h3]
  refine congrArg Except.ok ?_
  have h5 := h2.comp h4
  refine ext_pixels hpos h5.length ?_ (by rw [h5.length]; exact h5.rest)
  intro i hi
  rw [h5.length] at hi
  rw [h5.pixels i hi]
  have hl := pixel_length hi
  have hv : ∀ k p, k < n → (pixel n buf i)[k]? = some p → _ := fun k p hk hp =>
    hundo i k p hi hk (by rw [← getElem?_pixel hk]; exact hp)
  generalize pixel n buf i = v at hl hv
  have hw : HasWork ({ d with reverse := 1 } : GradeOp F) ↔
      HasWork ({ d with reverse := 0 } : GradeOp F) := by
    rw [hasWork_iff, hasWork_iff]
  show opPixel _ (opPixel _ v) = v
  unfold opPixel
  by_cases h : HasWork ({ d with reverse := 0 } : GradeOp F)
  · rw [if_pos h, if_pos (hw.mpr h)]
    apply List.ext_getElem?
    intro k
    cases hk : v[k]? with
    | none =>
      rw [List.getElem?_eq_none_iff] at hk ⊢
      rw [onPixel_length, onPixel_length]
      exact hk
    | some p =>
      have hkn : k < n := by
        rw [← hl]
        exact (List.getElem?_eq_some_iff.mp hk).1
      have s1 := onPixel_grade ({ d with reverse := 0 } : GradeOp F) hn v hl k p hk
      have s2 := onPixel_grade ({ d with reverse := 1 } : GradeOp F) hn _
        (by rw [onPixel_length]; exact hl) k _ s1
      rw [s2]
      refine congrArg some ?_
      change gradeValue (values d _) true (FloatLike.ofInt (processes d _) * d.mix)
          (gradeValue (values d _) false (FloatLike.ofInt (processes d _) * d.mix) p) = p
      rw [hmix]
      rcases hv k p hkn hk with hz | ⟨h1', hg⟩
      · rw [hz, ofInt_eq, Int.cast_zero, zero_mul, gradeValue_mask_zero, gradeValue_mask_zero]
      · rw [h1', ofInt_eq, Int.cast_one, one_mul, hg]
  · rw [if_neg h, if_neg (fun x => h (hw.mp x))]
    rfl

theorem gradeValue_one (v : F × F × F × F × F × F × F) (r : Bool) (q : F) :
    gradeValue v r 1 q =
      gradeSingle q v.1 v.2.1 v.2.2.1 v.2.2.2.1 v.2.2.2.2.1 v.2.2.2.2.2.1 v.2.2.2.2.2.2 r := by
  unfold gradeValue
  ring

/-- C54 (partial): applying a grade and then the same grade reversed gives the original pixels,
if every processed channel has gamma 1 and an invertible linear part.  Missing: any other gamma
(see `C54_gamma_alone_partial` for what holds and `C54_counterexample_gamma` for what does not),
partial processing (`mix` other than 1), and rounding. -/
theorem C54_reverse_undoes_partial (hpow : ∀ x : F, FloatOps.powf x 1 = x) (d : GradeOp F)
    (hmix : d.getF32 "mix" = 1)
    (hproc : ∀ c, c < 4 → processes d c = 0 ∨ (processes d c = 1 ∧ slope (values d c) ≠ 0 ∧
      gammaOf (values d c) = 1)) {n : Nat} (hn : Channels n) (buf : List F) :
    ∃ mid, ({ d with reverse := 0 } : GradeOp F).applySlice buf n = .ok mid ∧
      ({ d with reverse := 1 } : GradeOp F).applySlice mid n = .ok buf := by
  refine grade_then_reverse d hmix hn buf ?_
  intro i k p _ hk _
  rcases hproc _ (channelOf_lt hn hk) with hz | ⟨h1, ha, hg⟩
  · exact .inl hz
  · refine .inr ⟨h1, ?_⟩
    rw [gradeValue_one, gradeSingle_reverse_no_gamma _ _ ha hg, gradeValue_one,
      gradeSingle_forward, hg, div_one]
    rw [show ∀ x : F, FloatLike.powf x 1 = x from hpow]
    rw [add_sub_cancel_right, mul_div_cancel_left₀ _ ha]

/-- C54 (partial): gamma alone (no linear part) is undone for values whose image is in (0, 1),
given the law of powers. -/
theorem C54_gamma_alone_partial (d : GradeOp F) (hmix : d.getF32 "mix" = 1)
    {n : Nat} (hn : Channels n) (buf : List F)
    (hproc : ∀ i k p, i < buf.length / n → k < n → buf[i * n + k]? = some p →
      processes d (channelOf n k) = 0 ∨ (processes d (channelOf n k) = 1 ∧
        slope (values d (channelOf n k)) = 1 ∧ shift (values d (channelOf n k)) = 0 ∧
        (let g := gammaOf (values d (channelOf n k))
         0 < g ∧ g ≠ 1 ∧ 0 < FloatOps.powf p (1 / g) ∧ FloatOps.powf p (1 / g) < 1 ∧
          FloatOps.powf (FloatOps.powf p (1 / g)) g = p))) :
    ∃ mid, ({ d with reverse := 0 } : GradeOp F).applySlice buf n = .ok mid ∧
      ({ d with reverse := 1 } : GradeOp F).applySlice mid n = .ok buf := by
  refine grade_then_reverse d hmix hn buf ?_
  intro i k p hi hk hp
  rcases hproc i k p hi hk hp with hz | ⟨h1, ha, hb, hg, hg1, hx0, hx1, hx⟩
  · exact .inl hz
  · refine .inr ⟨h1, ?_⟩
    rw [gradeValue_one, gradeValue_one, gradeSingle_forward, ha, hb, one_mul, add_zero]
    generalize values d (channelOf n k) = v at *
    change gradeSingle (FloatOps.powf p (1 / gammaOf v)) v.1 v.2.1 v.2.2.1 v.2.2.2.1 v.2.2.2.2.1
      v.2.2.2.2.2.1 v.2.2.2.2.2.2 true = p
    refine Eq.trans ?_ hx
    generalize FloatOps.powf p (1 / gammaOf v) = x at *
    have e1 : (!FloatLike.eq (slope v) 1 || !FloatLike.eq (shift v) 0) = false := by
      simp [eq_eq, ha, hb]
    have g0 : fle (gammaOf v) 0 = false := by
      simp [fle, lt_eq, eq_eq, hg.ne', hg.le]
    have g1 : (!FloatLike.eq (gammaOf v) 1) = true := by simp [eq_eq, hg1]
    have g2 : fle x 0 = false := by simp [fle, lt_eq, eq_eq, hx0.ne', hx0.le]
    have g3 : FloatLike.lt x 1 = true := by simp [lt_eq, hx1]
    unfold gradeSingle
    dsimp only
    rw [if_neg (by decide)]
    change (if (!FloatLike.eq (slope v) 1 || !FloatLike.eq (shift v) 0) = true then _ else
      if fle (gammaOf v) 0 = true then _ else if (!FloatLike.eq (gammaOf v) 1) = true then
        (if fle x 0 = true then x else if FloatLike.lt x 1 = true then FloatLike.powf x (gammaOf v)
          else 1 + (x - 1) * gammaOf v) else x) = _
    rw [e1, g0, g1, g2, g3]
    simp only [Bool.false_eq_true, if_false, if_true]
    rfl

end

/-! ### C57 -/

section
variable {F : Type} [FloatLike F]

/-- C57: applying a colour matrix multiplies every pixel vector by the matrix (missing colours
count as 1) and keeps the buffer length. -/
theorem C57_per_pixel (m : Mat4 F) {n : Nat} (hn : Channels n) (buf : List F) :
    ∃ out, applyColorMatrix buf n m = .ok out ∧ Mapped n (onPixel (Xform.mulVec m)) buf out := by
  unfold applyColorMatrix
  rw [if_neg (by rcases hn with rfl | rfl | rfl <;> decide)]
  exact pixelLoop_mapped _ hn buf

end

section
variable {F : Type} [Field F] [LinearOrder F] [FloatOps F]

/-- C57: RGBA images in exact arithmetic: every pixel becomes the matrix product, the identity
matrix changes nothing, and applying `M` and then `N` is applying `N * M`. -/
theorem C57_identity {n : Nat} (hn : Channels n) (buf : List F) :
    applyColorMatrix buf n (fun i j => if i = j then (1 : F) else 0) = .ok buf := by
  obtain ⟨out, h1, h2⟩ := C57_per_pixel (fun i j => if i = j then (1 : F) else 0) hn buf
  have hpos : 0 < n := by rcases hn with rfl | rfl | rfl <;> decide
  rw [h1, h2.eq_self hpos ?_]
  intro v hv
  have hid : ∀ p : Vec4 F, Xform.mulVec (fun i j => if i = j then (1 : F) else 0) p = p := by
    intro p
    funext i
    have : i = 0 ∨ i = 1 ∨ i = 2 ∨ i = 3 := by omega
    rcases this with rfl | rfl | rfl | rfl <;> simp [Xform.mulVec]
  unfold onPixel
  split <;> simp only [hid] <;> rfl

/-- C57: on RGBA images, applying `M` and then `N` is applying `N * M`. -/
theorem C57_compose (m k : Mat4 F) (buf : List F) :
    (applyColorMatrix buf 4 m >>= fun b => applyColorMatrix b 4 k) =
      applyColorMatrix buf 4 (Xform.mul k m) := by
  have hc : Channels 4 := .inr (.inr rfl)
  obtain ⟨b, h1, h2⟩ := C57_per_pixel m hc buf
  obtain ⟨c, h3, h4⟩ := C57_per_pixel k hc b
  obtain ⟨c', h5, h6⟩ := C57_per_pixel (Xform.mul k m) hc buf
  have e : c = c' := by
    refine ((h2.comp h4).congr ?_).unique (by decide) h6
    intro v hv
    obtain ⟨x, y, z, w, rfl⟩ := list4 hv
    have hmul : ∀ p : Vec4 F, Xform.mulVec k (Xform.mulVec m p) = Xform.mulVec (Xform.mul k m) p := by
      intro p
      funext i
      simp only [Xform.mulVec, Xform.mul]
      ring
    have hvec : ∀ q : Vec4 F, Xform.vec (q 0) (q 1) (q 2) (q 3) = q := by
      intro q
      funext i
      have : i = 0 ∨ i = 1 ∨ i = 2 ∨ i = 3 := by omega
      rcases this with rfl | rfl | rfl | rfl <;> rfl
    simp only [Function.comp, onPixel, hvec, hmul]
  have h1' : applyColorMatrix buf 4 m = .ok b := h1
  have h3' : applyColorMatrix b 4 k = .ok c := h3
  have h5' : applyColorMatrix buf 4 (Xform.mul k m) = .ok c' := h5
  rw [h1', h5', ← e]
  exact h3'

end
/-! ### Examples and counterexamples -/

section Examples

/-- The real numbers with real powers. -/
@[instance_reducible] noncomputable def realFloat : FloatOps ℝ where
  toI32 _ := 0
  toU8 _ := 0
  toU16 _ := 0
  powf := Real.rpow
  round x := x
  floor x := x
  ceil x := x
  sin _ := 0
  cos _ := 1

attribute [local instance] realFloat

theorem real_powf_one (x : ℝ) : FloatOps.powf x 1 = x := Real.rpow_one x

/-- A grade of red, green and blue with gain 2 and offset 3, leaving alpha alone. -/
noncomputable def gainOp : GradeOp ℝ :=
  { (GradeOp.new : GradeOp ℝ) with
    gainR := 2, gainG := 2, gainB := 2, offsetR := 3, offsetG := 3, offsetB := 3 }

theorem gainOp_work : HasWork gainOp := (hasWork_iff _).mpr ⟨rfl, .inl (by decide)⟩

-- C73: one RGBA pixel; red becomes 2 * 5 + 3.
example : ∃ out, gainOp.applySlice [5, 6, 7, 8] 4 = .ok out ∧ out[0]? = some 13 ∧
    out[3]? = some 8 := by
  obtain ⟨out, h1, h2, h3⟩ := C73_grade_formula gainOp gainOp_work rfl (n := 4) (.inr (.inr rfl))
    [5, 6, 7, 8]
  refine ⟨out, h1, ?_, ?_⟩
  · obtain ⟨p, h4, h5⟩ := h3 0 0 (by simp) (by decide)
    have hp : p = 5 := by simpa using h4.symm
    rw [show 0 * 4 + 0 = 0 from rfl] at h5
    rw [h5, hp]
    refine congrArg some ?_
    show FloatLike.powf ((1 * (2 - 0) / (1 - 0)) * 5 + (3 + 0 - (1 * (2 - 0) / (1 - 0)) * 0)) (1 / 1)
      * (((1 : Int) : ℝ) * 1) + 5 * (1 - ((1 : Int) : ℝ) * 1) = 13
    rw [show (1 / 1 : ℝ) = 1 by norm_num, show ∀ x : ℝ, FloatLike.powf x 1 = x from real_powf_one]
    norm_num
  · obtain ⟨p, h4, h5⟩ := h3 0 3 (by simp) (by decide)
    have hp : p = 8 := by simpa using h4.symm
    rw [show 0 * 4 + 3 = 3 from rfl] at h5
    rw [h5, hp]
    refine congrArg some ?_
    show _ * (((0 : Int) : ℝ) * 1) + 8 * (1 - ((0 : Int) : ℝ) * 1) = 8
    norm_num

-- C73: a disabled grade, and a grade that processes nothing.
example : ({ gainOp with enable := 0 } : GradeOp ℝ).applySlice [5, 6] 2 = .ok [5, 6] :=
  C73_no_work _ (fun h => absurd h.1 (by show ¬ ((0 : Int) = 1); decide)) _ _

-- C73: two channels.
example : gainOp.applySlice [5, 6] 2 = .error .explicit :=
  C73_other_channels _ gainOp_work (n := 2) (by unfold Channels; omega) _

-- C47: three operations, the middle one disabled, on an RGB image.
example : ∃ out, applyColorOps [gainOp, { gainOp with enable := 0 }, gainOp] [1, 2, 3, 4, 5, 6] 3
    = .ok out ∧ ∃ mid, gainOp.applySlice [1, 2, 3, 4, 5, 6] 3 = .ok mid ∧
      gainOp.applySlice mid 3 = .ok out := by
  obtain ⟨out, h, -, -⟩ := C47_every_pixel [gainOp, { gainOp with enable := 0 }, gainOp]
    [1, 2, 3, 4, 5, 6] (n := 3) (.inr (.inl rfl))
  refine ⟨out, h, ?_⟩
  have hc := (C47_in_order _ _ _ (by decide)).mp h
  cases hc with
  | skip h1 => exact absurd rfl h1
  | step h1 h2 h3 =>
    cases h3 with
    | skip h4 h5 =>
      cases h5 with
      | skip h6 => exact absurd rfl h6
      | step h6 h7 h8 => cases h8; exact ⟨_, h2, h7⟩
    | step h4 => exact absurd h4 (by show ¬ ((0 : Int) = 1); decide)

-- C47: an upstream and a downstream node with one operation each.
example : ∃ out, applyColorOps ([gainOp] ++ [gainOp]) [1, 2, 3] 3 = .ok out ∧
    ∃ mid, applyColorOps [gainOp] [1, 2, 3] 3 = .ok mid ∧ applyColorOps [gainOp] mid 3 = .ok out := by
  obtain ⟨out, h, -, -⟩ := C47_every_pixel ([gainOp] ++ [gainOp]) [1, 2, 3] (n := 3) (.inr (.inl rfl))
  exact ⟨out, h, (C47_downstream_after _ _ _ _ (by decide)).mp h⟩

-- C47: a stream with a gain and an operation that is switched off.
example : ∃ out, ({ (Stream.new : Stream ℝ Unit) with
      colorOps := [gainOp, { gainOp with enable := 0 }] }).applyColorOps [1, 2, 3] 3 = .ok out ∧
    gainOp.applySlice [1, 2, 3] 3 = .ok out := by
  obtain ⟨out, h, -, -⟩ := C47_every_pixel [gainOp, { gainOp with enable := 0 }] [1, 2, 3]
    (n := 3) (.inr (.inl rfl))
  refine ⟨out, h, ?_⟩
  have hc := (C47_stream { (Stream.new : Stream ℝ Unit) with
      colorOps := [gainOp, { gainOp with enable := 0 }] } _ _ (by decide)).mp h
  cases hc with
  | skip h1 => exact absurd rfl h1
  | step h1 h2 h3 =>
    cases h3 with
    | skip h4 h5 => cases h5; exact h2
    | step h4 => exact absurd h4 (by show ¬ ((0 : Int) = 1); decide)

-- C53: the defaults, reversed and half mixed.
example : ({ (GradeOp.new : GradeOp ℝ) with reverse := 1, mix := 1 / 2 }).applySlice [1, -2, 3] 3 =
    .ok [1, -2, 3] := by
  refine C53_default_identity_partial real_powf_one _ ?_ (n := 3) (.inr (.inl rfl)) _
  intro c hc
  have : c = 0 ∨ c = 1 ∨ c = 2 ∨ c = 3 := by omega
  rcases this with rfl | rfl | rfl | rfl <;> rfl

-- C54: gain and offset are undone.
example : ∃ mid, ({ gainOp with reverse := 0 } : GradeOp ℝ).applySlice [1, -2, 3] 3 = .ok mid ∧
    ({ gainOp with reverse := 1 } : GradeOp ℝ).applySlice mid 3 = .ok [1, -2, 3] := by
  refine C54_reverse_undoes_partial real_powf_one gainOp rfl ?_ (n := 3) (.inr (.inl rfl)) _
  have hs : (1 * (2 - 0) / (1 - 0) : ℝ) ≠ 0 := by norm_num
  intro c hc
  have : c = 0 ∨ c = 1 ∨ c = 2 ∨ c = 3 := by omega
  rcases this with rfl | rfl | rfl | rfl
  · exact .inr ⟨rfl, hs, rfl⟩
  · exact .inr ⟨rfl, hs, rfl⟩
  · exact .inr ⟨rfl, hs, rfl⟩
  · exact .inl rfl

-- C54: one value is given back exactly if gamma does nothing to it: gain 2, gamma 2.
example : gradeValue ((0 : ℝ), (1 : ℝ), (0 : ℝ), (2 : ℝ), (1 : ℝ), (0 : ℝ), (2 : ℝ)) true 1
      (gradeValue ((0 : ℝ), (1 : ℝ), (0 : ℝ), (2 : ℝ), (1 : ℝ), (0 : ℝ), (2 : ℝ)) false 1 (1 / 2)) =
      1 / 2 := by
  have hs : slope ((0 : ℝ), (1 : ℝ), (0 : ℝ), (2 : ℝ), (1 : ℝ), (0 : ℝ), (2 : ℝ)) = 2 := by
    norm_num [slope]
  have hb : shift ((0 : ℝ), (1 : ℝ), (0 : ℝ), (2 : ℝ), (1 : ℝ), (0 : ℝ), (2 : ℝ)) = 0 := by
    norm_num [shift]
  refine (C54_reverse_iff _ _ (by rw [hs]; norm_num) (.inl (by rw [hs]; norm_num))).mpr ?_
  rw [hs, hb]
  show Real.rpow (2 * (1 / 2) + 0) _ = _
  norm_num

/-- A grade of alpha with gamma 2. -/
noncomputable def gammaOp : GradeOp ℝ :=
  { (GradeOp.new : GradeOp ℝ) with processA := 1, gammaA := 2 }

theorem sqrt_quarter : Real.rpow (1 / 4) (1 / 2) = 1 / 2 := by
  show ((1 / 4 : ℝ) ^ (1 / 2 : ℝ)) = 1 / 2
  rw [show (1 / 4 : ℝ) = (1 / 2) ^ (2 : ℝ) by norm_num, ← Real.rpow_mul (by norm_num)]
  norm_num

-- C54: gamma alone is undone for small values.
example : ∃ mid, ({ gammaOp with reverse := 0 } : GradeOp ℝ).applySlice [1 / 4] 1 = .ok mid ∧
    ({ gammaOp with reverse := 1 } : GradeOp ℝ).applySlice mid 1 = .ok [1 / 4] := by
  refine C54_gamma_alone_partial gammaOp rfl (n := 1) (.inl rfl) _ ?_
  intro i k p hi hk hp
  have hi0 : i = 0 := by simp at hi; exact hi
  have hk0 : k = 0 := by omega
  subst hi0 hk0
  have hp' : p = 1 / 4 := by simpa using hp.symm
  subst hp'
  refine .inr ⟨rfl, ?_, ?_, ?_⟩
  · show (1 * (1 - 0) / (1 - 0) : ℝ) = 1
    norm_num
  · show (0 + 0 - (1 * (1 - 0) / (1 - 0)) * 0 : ℝ) = 0
    norm_num
  · show (0 : ℝ) < 2 ∧ (2 : ℝ) ≠ 1 ∧ 0 < Real.rpow (1 / 4) (1 / 2) ∧ Real.rpow (1 / 4) (1 / 2) < 1 ∧
      Real.rpow (Real.rpow (1 / 4) (1 / 2)) 2 = 1 / 4
    rw [sqrt_quarter]
    refine ⟨by norm_num, by norm_num, by norm_num, by norm_num, ?_⟩
    show ((1 / 2 : ℝ) ^ (2 : ℝ)) = 1 / 4
    norm_num

/-- A grade of alpha with gain 2 and gamma 2. -/
noncomputable def bothOp (reverse : Int) : GradeOp ℝ :=
  { (GradeOp.new : GradeOp ℝ) with processA := 1, gainA := 2, gammaA := 2, reverse := reverse }

theorem bothOp_work (reverse : Int) : HasWork (bothOp reverse) :=
  (hasWork_iff _).mpr ⟨rfl, .inl (by show (1 : Int) ≠ 0; decide)⟩

/-- C54 is false in general, even for a grade that is invertible: with gain 2 and gamma 2 an alpha
value of 2 becomes 2, and the reverse gives 1. -/
theorem C54_counterexample_gamma :
    ∃ d : GradeOp ℝ, d.mix = 1 ∧
      ({ d with reverse := 0 } : GradeOp ℝ).applySlice [2] 1 = .ok [2] ∧
      ({ d with reverse := 1 } : GradeOp ℝ).applySlice [2] 1 = .ok [1] := by
  refine ⟨bothOp 0, rfl, ?_, ?_⟩
  · obtain ⟨out, h1, h2, h3⟩ := grade_values (bothOp 0) (bothOp_work 0) (n := 1) (.inl rfl) [2]
    refine h1.trans ?_
    obtain ⟨p, h4, h5⟩ := h3 0 0 (by simp) (by decide)
    have hp : p = 2 := by simpa using h4.symm
    subst hp
    obtain ⟨x, hx⟩ := List.length_eq_one_iff.mp (h2.trans (by rfl))
    subst hx
    have hx := Option.some.inj h5
    refine congrArg (fun y => Except.ok [y]) (hx.trans ?_)
    have hs : slope ((0 : ℝ), (1 : ℝ), (0 : ℝ), (2 : ℝ), (1 : ℝ), (0 : ℝ), (2 : ℝ)) = 2 := by
      norm_num [slope]
    have hb : shift ((0 : ℝ), (1 : ℝ), (0 : ℝ), (2 : ℝ), (1 : ℝ), (0 : ℝ), (2 : ℝ)) = 0 := by
      norm_num [shift]
    show gradeValue ((0 : ℝ), (1 : ℝ), (0 : ℝ), (2 : ℝ), (1 : ℝ), (0 : ℝ), (2 : ℝ)) false
      (((1 : Int) : ℝ) * 1) 2 = 2
    rw [Int.cast_one, one_mul, gradeValue_one, gradeSingle_forward, hs, hb]
    show ((2 * 2 + 0 : ℝ) ^ (1 / 2 : ℝ)) = 2
    rw [show (2 * 2 + 0 : ℝ) = 2 ^ (2 : ℝ) by norm_num, ← Real.rpow_mul (by norm_num)]
    norm_num
  · obtain ⟨out, h1, h2, h3⟩ := grade_values (bothOp 1) (bothOp_work 1) (n := 1) (.inl rfl) [2]
    refine h1.trans ?_
    obtain ⟨p, h4, h5⟩ := h3 0 0 (by simp) (by decide)
    have hp : p = 2 := by simpa using h4.symm
    subst hp
    obtain ⟨x, hx⟩ := List.length_eq_one_iff.mp (h2.trans (by rfl))
    subst hx
    have hx := Option.some.inj h5
    refine congrArg (fun y => Except.ok [y]) (hx.trans ?_)
    have hs : slope ((0 : ℝ), (1 : ℝ), (0 : ℝ), (2 : ℝ), (1 : ℝ), (0 : ℝ), (2 : ℝ)) = 2 := by
      norm_num [slope]
    have hb : shift ((0 : ℝ), (1 : ℝ), (0 : ℝ), (2 : ℝ), (1 : ℝ), (0 : ℝ), (2 : ℝ)) = 0 := by
      norm_num [shift]
    show gradeValue ((0 : ℝ), (1 : ℝ), (0 : ℝ), (2 : ℝ), (1 : ℝ), (0 : ℝ), (2 : ℝ)) true
      (((1 : Int) : ℝ) * 1) 2 = 1
    rw [Int.cast_one, one_mul, gradeValue_one,
      gradeSingle_reverse_linear _ _ (by rw [hs]; norm_num) (.inl (by rw [hs]; norm_num)), hs, hb]
    norm_num

-- C55: alpha is left alone, in exact arithmetic.
example : ∃ out, gainOp.applySlice [5, 6, 7, 8] 4 = .ok out ∧ out[3]? = some 8 := by
  obtain ⟨out, h1, -, h3⟩ := C55_unprocessed_unchanged_partial gainOp (n := 4) (.inr (.inr rfl))
    [5, 6, 7, 8]
  exact ⟨out, h1, h3 0 3 (by simp) (by decide) rfl⟩

-- C55: the same pixel in two images.
example (out out' : List ℝ) (h : gainOp.applySlice [1, 2, 3, 4, 5, 6] 3 = .ok out)
    (h' : gainOp.applySlice [4, 5, 6] 3 = .ok out') : pixel 3 out 1 = pixel 3 out' 0 :=
  C55_pixels_independent gainOp (n := 3) (.inr (.inl rfl)) _ _ _ _ h h' 1 0 (by simp) (by simp) rfl

-- C57: swapping red and blue.
example : ∃ out, applyColorMatrix [(1 : ℝ), 2, 3] 3 (Xform.mk 0 0 1 0 0 1 0 0 1 0 0 0 0 0 0 1) =
    .ok out ∧ pixel 3 out 0 = [3, 2, 1] := by
  obtain ⟨out, h1, h2⟩ := C57_per_pixel (F := ℝ) (Xform.mk 0 0 1 0 0 1 0 0 1 0 0 0 0 0 0 1) (n := 3)
    (.inr (.inl rfl)) [1, 2, 3]
  refine ⟨out, h1, ?_⟩
  rw [h2.pixels 0 (by simp)]
  show [_, _, _] = _
  simp [Xform.mulVec, Xform.mk, Xform.vec]

end Examples

section Nan

/-- Exact numbers with a NaN: the root of a negative number is NaN, and NaN is passed on. -/
@[instance_reducible] def nanFloat : FloatLike (Option Rat) where
  add a b := do some ((← a) + (← b))
  sub a b := do some ((← a) - (← b))
  mul a b := do some ((← a) * (← b))
  div a b := do if (← b) = 0 then none else some ((← a) / (← b))
  neg a := do some (- (← a))
  zero := some 0
  one := some 1
  lt a b := match a, b with | some a, some b => decide (a < b) | _, _ => false
  eq a b := match a, b with | some a, some b => decide (a = b) | _, _ => false
  ofInt n := some n
  toI32 _ := 0
  toU8 _ := 0
  toU16 _ := 0
  powf a b := do if (← a) < 0 ∧ (← b) ≠ 1 then none else some (← a)
  round a := a
  floor a := a
  ceil a := a
  sin _ := some 0
  cos _ := some 1

attribute [local instance] nanFloat

/-- C55 is false for numbers with NaN: the formula is evaluated for an unprocessed channel and
multiplied by 0.  A negative alpha with gamma 2, not processed, becomes NaN. -/
theorem C55_counterexample_nan :
    ∃ d : GradeOp (Option Rat), d.processA = 0 ∧ ∃ out,
      d.applySlice [some 1, some 1, some 1, some (-1)] 4 = .ok out ∧ out[3]? = some none := by
  obtain ⟨out, h1, -, h3⟩ := grade_values
    ({ (GradeOp.new : GradeOp (Option Rat)) with gammaA := some 2 })
    ((hasWork_iff _).mpr ⟨rfl, .inl (by show (1 : Int) ≠ 0; decide)⟩) (n := 4) (.inr (.inr rfl))
    [some 1, some 1, some 1, some (-1)]
  refine ⟨_, rfl, out, h1, ?_⟩
  obtain ⟨p, h4, h5⟩ := h3 0 3 (by simp) (by decide)
  have hp : p = some (-1) := by simpa using h4.symm
  rw [show 0 * 4 + 3 = 3 from rfl] at h5
  rw [h5, hp]
  decide +kernel

end Nan
end OCG.Props
