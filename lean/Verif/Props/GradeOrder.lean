import Verif.Spec.GradeOrder
import Verif.Proofs.IeeeMono
import Verif.Props.IeeeColor
/-
Property C119: grading does not swap bright and dark, in the arithmetic of the machine.
-/

namespace OCG.Props

open PixelSpec ColorSpec IeeeSpec LevelSpec OrderSpec
open Ieee hiding floor ceil round

/-- A function that keeps the order of numbers, and gives no number where there was none. -/
def Rising (g : F32 → F32) : Prop :=
  (∀ p, (g p).isNan = false → p.isNan = false) ∧
    ∀ p q, p.key ≤ q.key → (g p).isNan = false → (g q).isNan = false → (g p).key ≤ (g q).key

theorem Rising.comp {g h : F32 → F32} (hg : Rising g) (hh : Rising h) : Rising (fun p => h (g p)) :=
  ⟨fun p hp => hg.1 p (hh.1 _ hp), fun p q hpq h1 h2 =>
    hh.2 _ _ (hg.2 p q hpq (hh.1 _ h1) (hh.1 _ h2)) h1 h2⟩

theorem Rising.id : Rising (fun p => p) := ⟨fun _ h => h, fun _ _ h _ _ => h⟩

theorem mant_single : 1 ≤ single32.mant := by decide

/-- A straight line that does not fall. -/
theorem Rising.line {a b : F32} (ha : a.isNan = false → 0 ≤ a.key) :
    Rising (fun p => add (mul a p) b) := by
  constructor
  · intro p h
    exact (mul_nums mant_single (add_nums mant_single h).1).2
  · intro p q hpq h1 h2
    have n1 := (add_nums mant_single h1).1
    have n2 := (add_nums mant_single h2).1
    refine add_keeps mant_single ?_ h1 h2
    rw [mul_comm' a p, mul_comm' a q] at *
    exact mul_keeps mant_single inf_pos_single hpq (ha (mul_nums mant_single n1).2) n1 n2

theorem Rising.line' {a b : F32} (ha : a.isNan = false → 0 ≤ a.key) :
    Rising (fun p => add (mul p a) b) := by
  have := Rising.line (b := b) ha
  simpa only [mul_comm'] using this

/-- Part of the new value and the rest of the old one. -/
theorem Rising.mixed {g : F32 → F32} {m : F32} (hg : Rising g)
    (h0 : m.isNan = false → 0 ≤ m.key) (h1 : m.isNan = false → m.key ≤ (ofInt 1 : F32).key) :
    Rising (fun p => add (mul (g p) m) (mul p (sub (ofInt 1) m))) := by
  constructor
  · intro p h
    exact (mul_nums mant_single (add_nums mant_single h).2).1
  · intro p q hpq hp hq
    obtain ⟨n1, n2⟩ := add_nums mant_single hp
    obtain ⟨n3, n4⟩ := add_nums mant_single hq
    obtain ⟨n5, nm⟩ := mul_nums mant_single n1
    obtain ⟨n6, -⟩ := mul_nums mant_single n3
    obtain ⟨-, n7⟩ := mul_nums mant_single n2
    refine add_keeps₂ mant_single inf_pos_single ?_ ?_ hp hq
    · exact mul_keeps mant_single inf_pos_single (hg.2 p q hpq n5 n6) (h0 nm) n1 n3
    · exact mul_keeps mant_single inf_pos_single hpq
        (sub_nonneg' mant_single inf_pos_single (h1 nm) n7).1 n2 n4

section
variable [Libm single32]

theorem curve_rising {gamma : F32} (h : CurveRises gamma) :
    Rising (fun p => Libm.powf p (div (ofInt 1) gamma)) := by
  have hn : ∀ p : F32, (Libm.powf p (div (ofInt 1) gamma)).isNan = false → p.isNan = false := by
    intro p hp
    by_contra hc
    have := notNumber_iff.mp (h.1 p (notNumber_iff.mpr (by simpa using hc)))
    exact absurd (this.symm.trans hp) (by decide)
  refine ⟨hn, fun p q hpq h1 h2 => ?_⟩
  have hnn : ∀ x : F32, x.isNan = false → ¬ IsNotNumber x := by
    intro x hx hc
    rw [notNumber_iff, hx] at hc
    exact absurd hc (by decide)
  exact ((notAbove_iff inf_pos_single).mp (h.2 p q
    ((notAbove_iff inf_pos_single).mpr ⟨hn p h1, hn q h2, hpq⟩) (hnn _ h1) (hnn _ h2))).2.2

/-- The slope of the line of a grade is not negative. -/
theorem slope_nonneg {black white lift gain multiply : F32} (hp : Under black white)
    (hr : NotAbove lift gain) (hm : NotAbove 0 multiply)
    (hn : (div (mul multiply (sub gain lift)) (sub white black)).isNan = false) :
    0 ≤ (div (mul multiply (sub gain lift)) (sub white black)).key := by
  obtain ⟨n1, n2⟩ := div_nums mant_single hn
  obtain ⟨n3, n4⟩ := mul_nums mant_single n1
  obtain ⟨-, -, hk⟩ := (notAbove_iff inf_pos_single).mp hr
  obtain ⟨-, -, hm'⟩ := (notAbove_iff inf_pos_single).mp hm
  obtain ⟨nb, nw, hb⟩ := (notAbove_iff inf_pos_single).mp hp.1
  have hlt : black.key < white.key := by
    refine lt_of_le_of_ne hb (fun e => hp.2 ((notAbove_iff inf_pos_single).mpr ⟨nw, nb, e.ge⟩))
  have hs := sub_nonneg' mant_single inf_pos_single hb n2
  have h0 : (0 : Int) ≤ multiply.key := by
    have : (0 : F32).key = 0 := key_zero false
    rw [this] at hm'; exact hm'
  exact div_nonneg' mant_single
    (mul_nonneg' mant_single inf_pos_single h0
      (sub_nonneg' mant_single inf_pos_single hk n4).1 n1) hs.1 (hs.2 hlt) hn

/-- The formula of an uphill grade. -/
theorem gradeSingle_rising {black white lift gain multiply offset gamma : F32}
    (hp : Under black white) (hr : NotAbove lift gain) (hm : NotAbove 0 multiply) (r : Bool)
    (hc : r = false → CurveRises gamma) (hc' : r = true → gamma = 1) :
    Rising (fun p => gradeSingle p black white lift gain multiply offset gamma r) := by
  have hs := slope_nonneg hp hr hm
  cases r with
  | false =>
    exact (Rising.line (b := sub (add offset lift)
      (mul (div (mul multiply (sub gain lift)) (sub white black)) black)) hs).comp
        (curve_rising (hc rfl))
  | true =>
    obtain rfl := hc' rfl
    have h1 : fle (1 : F32) 0 = false := by
      show (ltb (ofInt 1) (zero false) || eqb (ofInt 1) (zero false)) = false
      decide +kernel
    have h2 : FloatLike.eq (1 : F32) 1 = true := by
      show eqb (ofInt 1) (ofInt 1) = true
      decide +kernel
    unfold gradeSingle
    dsimp only
    rw [h1, h2]
    simp only [Bool.true_eq_false, if_false, Bool.not_true, Bool.false_eq_true]
    have ea : multiply * (gain - lift) / (white - black) =
      div (mul multiply (sub gain lift)) (sub white black) := rfl
    rw [ea]
    generalize div (mul multiply (sub gain lift)) (sub white black) = a at *
    split
    · refine Rising.line' (fun hn => ?_)
      have hone : (0 : Int) ≤ (ofInt 1 : F32).key := by decide +kernel
      split
      · rename_i hz
        rw [if_pos hz] at hn
        have hn' : (div (ofInt 1) a).isNan = false := hn
        have na := (div_nums mant_single hn').2
        refine div_nonneg' mant_single hone (hs na) (fun h0 => ?_) hn'
        exfalso
        have : eqb a (zero false) = true := by
          unfold eqb
          have hz : (zero false : F32).isNan = false := by decide +kernel
          rw [na, hz, key_zero, key_signed, h0]
          cases a.neg <;> simp [signed]
        have he : FloatLike.eq a (0 : F32) = true := this
        rw [he] at hz
        exact absurd hz (by decide)
      · exact hone
    · exact Rising.id

/-- What an uphill grade does to one value. -/
theorem gradeValue_rising {d : GradeOp F32} {c : Nat} (h : Uphill d c) :
    Rising (gradeValue (values d c) (decide (d.getI32 "reverse" ≠ 0))
      (FloatLike.ofInt (processes d c) * d.getF32 "mix")) := by
  obtain ⟨hp, hr, hm, hg, hg', hc, hl, hh⟩ := h
  have hgr := gradeSingle_rising (offset := (values d c).2.2.2.2.2.1) hp hr hm
    (decide (d.getI32 "reverse" ≠ 0)) (fun e => hg (by simpa using e)) (fun e => hg' (by simpa using e))
  obtain ⟨-, -, hl'⟩ := (notAbove_iff inf_pos_single).mp hl
  obtain ⟨-, -, hh'⟩ := (notAbove_iff inf_pos_single).mp hh
  have hl0 : (0 : Int) ≤ (d.getF32 "mix").key := by
    have : (0 : F32).key = 0 := key_zero false
    rw [this] at hl'; exact hl'
  generalize d.getF32 "mix" = mix at *
  refine hgr.mixed (m := mul (ofInt (processes d c)) mix) (fun hn => ?_) (fun hn => ?_)
  · refine mul_nonneg' mant_single inf_pos_single ?_ hl0 hn
    rcases hc with e | e <;> rw [e] <;> decide +kernel
  · rw [mul_comm'] at hn ⊢
    have hk : mix.key ≤ (ofInt 1 : F32).key := hh'
    rcases hc with e | e <;> rw [e] at hn ⊢
    · refine le_trans (mul_keeps mant_single inf_pos_single hk (by decide +kernel) hn
        (by decide +kernel)) (by decide +kernel)
    · refine le_trans (mul_keeps mant_single inf_pos_single hk (by decide +kernel) hn
        (by decide +kernel)) (by decide +kernel)

/-- The enabled operations act on each value of a channel by one rising function. -/
theorem ops_rising {n : Nat} (hn : Channels n) {c : Nat} {ops : List (GradeOp F32)}
    (hops : ∀ d ∈ ops, d.getI32 "enable" = 1 → Uphill d c) {buf out : List F32}
    (h : Carried n ops buf out) : out.length = buf.length ∧ ∃ g, Rising g ∧
      ∀ i k, i < buf.length / n → k < n → channelOf n k = c → ∃ p, buf[i * n + k]? = some p ∧
        out[i * n + k]? = some (g p) := by
  induction h with
  | nil buf =>
    refine ⟨rfl, _, Rising.id, fun i k hi hk _ => ?_⟩
    have hpos : 0 < n := by rcases hn with rfl | rfl | rfl <;> decide
    have : i * n + k < buf.length := by
      have h1 : (i + 1) * n ≤ buf.length := (Nat.le_div_iff_mul_le hpos).mp hi
      have h2 : (i + 1) * n = i * n + n := Nat.succ_mul i n
      omega
    exact ⟨_, List.getElem?_eq_getElem this, List.getElem?_eq_getElem this⟩
  | skip _ _ ih => exact ih (fun d hd => hops d (List.mem_cons_of_mem _ hd))
  | @step op ops a b out he hs _ ih =>
    obtain ⟨hl, g, hg, hv⟩ := ih (fun d hd => hops d (List.mem_cons_of_mem _ hd))
    by_cases hw : HasWork op
    · obtain ⟨b', h1, h2, h3⟩ := grade_values op hw hn a
      rw [h1] at hs
      cases hs
      refine ⟨hl.trans h2, _, (gradeValue_rising (hops op List.mem_cons_self he)).comp hg, fun i k hi hk hc => ?_⟩
      obtain ⟨p, h4, h5⟩ := h3 i k hi hk
      obtain ⟨q, h6, h7⟩ := hv i k (by rw [h2]; exact hi) hk hc
      rw [h5] at h6
      cases h6
      refine ⟨p, h4, ?_⟩
      rw [h7, hc]
      rfl
    · rw [applySlice_idle hw] at hs
      cases hs
      exact ⟨hl, g, hg, hv⟩

/-- C119: colour operations that are all uphill for a channel never swap bright and dark there, in
single precision arithmetic with all its rounding: if one pixel is not brighter than another one
in the channel before, it is not brighter after, unless one of the results is not a number.
Reversed or not, mixed fully or not, and however many operations there are. -/
theorem C119_order (ops : List (GradeOp F32)) {n : Nat} (hn : Channels n)
    {c : Nat} (hops : ∀ d ∈ ops, d.getI32 "enable" = 1 → Uphill d c) (buf : List F32) :
    ∃ out, applyColorOps ops buf n = .ok out ∧ out.length = buf.length ∧
      ∀ i j k, i < buf.length / n → j < buf.length / n → k < n → channelOf n k = c →
        ∃ p q p' q', buf[i * n + k]? = some p ∧ buf[j * n + k]? = some q ∧
          out[i * n + k]? = some p' ∧ out[j * n + k]? = some q' ∧
          (NotAbove p q → ¬ IsNotNumber p' → ¬ IsNotNumber q' → NotAbove p' q') := by
  obtain ⟨out, h1, h2, -⟩ := C47_every_pixel ops buf hn
  have hpos : (0 : Int) < n := by rcases hn with rfl | rfl | rfl <;> decide
  obtain ⟨-, g, hg, hv⟩ := ops_rising hn hops ((C47_in_order ops buf out hpos).mp h1)
  refine ⟨out, h1, h2, fun i j k hi hj hk hc => ?_⟩
  obtain ⟨p, h3, h4⟩ := hv i k hi hk hc
  obtain ⟨q, h5, h6⟩ := hv j k hj hk hc
  refine ⟨p, q, g p, g q, h3, h5, h4, h6, fun hpq np nq => ?_⟩
  rw [notNumber_iff, Bool.not_eq_true] at np nq
  exact (notAbove_iff inf_pos_single).mpr
    ⟨np, nq, hg.2 p q ((notAbove_iff inf_pos_single).mp hpq).2.2 np nq⟩

end

/-! ### Examples and counterexamples -/

section Examples

attribute [local instance] exactPowf

/-- A grade of the red channel with a black point of 0.1, a white point of 3, a gain of 7 and a mix
of 0.1. -/
def uphillOp : GradeOp F32 :=
  { (GradeOp.new : GradeOp F32) with
    blackPointR := tenth, whitePointR := ofInt 3, gainR := ofInt 7, mix := tenth }

theorem uphill_of {d : GradeOp F32} {c : Nat}
    (h : (((values d c).1.isNan = false ∧ (values d c).2.1.isNan = false ∧
        (values d c).1.key < (values d c).2.1.key) ∧
      ((values d c).2.2.1.isNan = false ∧ (values d c).2.2.2.1.isNan = false ∧
        (values d c).2.2.1.key ≤ (values d c).2.2.2.1.key) ∧
      ((values d c).2.2.2.2.1.isNan = false ∧ (zero false : F32).key ≤ (values d c).2.2.2.2.1.key) ∧
      (values d c).2.2.2.2.2.2 = ofInt 1 ∧ (processes d c = 0 ∨ processes d c = 1) ∧
      ((d.getF32 "mix").isNan = false ∧ (zero false : F32).key ≤ (d.getF32 "mix").key ∧
        (d.getF32 "mix").key ≤ (ofInt 1 : F32).key))) : Uphill d c := by
  obtain ⟨⟨a1, a2, a3⟩, ⟨b1, b2, b3⟩, ⟨c1, c2⟩, d1, e1, f1, f2, f3⟩ := h
  have nz : (zero false : F32).isNan = false := by decide +kernel
  have no : (ofInt 1 : F32).isNan = false := by decide +kernel
  refine ⟨⟨(notAbove_iff inf_pos_single).mpr ⟨a1, a2, a3.le⟩, fun hc => ?_⟩,
    (notAbove_iff inf_pos_single).mpr ⟨b1, b2, b3⟩, (notAbove_iff inf_pos_single).mpr ⟨nz, c1, c2⟩,
    fun _ => ⟨fun _ h => h, fun _ _ h _ _ => h⟩, fun _ => d1, e1, (notAbove_iff inf_pos_single).mpr ⟨nz, f1, f2⟩,
    (notAbove_iff inf_pos_single).mpr ⟨f1, no, f3⟩⟩
  have := ((notAbove_iff inf_pos_single).mp hc).2.2
  omega

/-- Two RGB pixels, -7 and 3 in the red channel. -/
def twoPixels : List F32 := [ofInt (-7), tenth, tenth, ofInt 3, tenth, tenth]

-- C119: the two pixels go through two grades, the second one reversed.
example : ∃ (out : List F32) (p' q' : F32),
    applyColorOps [uphillOp, { uphillOp with reverse := 1 }] twoPixels 3 = .ok out ∧
      out[0]? = some p' ∧ out[3]? = some q' ∧ NotAbove p' q' := by
  obtain ⟨out, h1, h2, h3⟩ := C119_order
    [uphillOp, { uphillOp with reverse := 1 }] (n := 3) (.inr (.inl rfl)) (c := 0)
    (fun d hd _ => by
      rcases List.mem_cons.mp hd with rfl | hd
      · exact uphill_of (by decide +kernel)
      · rcases List.mem_cons.mp hd with rfl | hd
        · exact uphill_of (by decide +kernel)
        · cases hd) twoPixels
  obtain ⟨p, q, p', q', h4, h5, h6, h7, h8⟩ := h3 0 1 0 (by decide) (by decide) (by decide) rfl
  have hn : (match applyColorOps [uphillOp, { uphillOp with reverse := 1 }] twoPixels 3 with
      | .ok l => l.all (fun x => !isNan x) | .error _ => false) = true := by decide +kernel
  have hall : ∀ x ∈ out, isNan x = false := by
    have h1' : applyColorOps [uphillOp, { uphillOp with reverse := 1 }] twoPixels 3 = .ok out := h1
    rw [h1'] at hn
    simpa using hn
  cases h4
  cases h5
  refine ⟨out, p', q', h1, h6, h7, h8 ?_ ?_ ?_⟩
  · exact (notAbove_iff inf_pos_single).mpr (by decide +kernel)
  · rw [notNumber_iff, hall p' (List.mem_of_getElem? h6)]; decide
  · rw [notNumber_iff, hall q' (List.mem_of_getElem? h7)]; decide

/-- C119 needs the multiplication not to be negative: -1 swaps 0 and 1. -/
theorem C119_counterexample_negative :
    ({ (GradeOp.new : GradeOp F32) with multiplyR := ofInt (-1) }).applySlice
      [ofInt 0, tenth, tenth, ofInt 1, tenth, tenth] 3 =
        .ok [zero false, tenth, tenth, ofInt (-1), tenth, tenth] := by
  decide +kernel

/-- C119 is about "not brighter": different values may become equal.  An offset of 2^24 takes 0 and 1
to the same value. -/
theorem C119_counterexample_strict :
    ({ (GradeOp.new : GradeOp F32) with offsetR := ofInt 16777216 }).applySlice
      [ofInt 0, tenth, tenth, ofInt 1, tenth, tenth] 3 =
        .ok [ofInt 16777216, tenth, tenth, ofInt 16777216, tenth, tenth] := by
  decide +kernel

end Examples

end OCG.Props
