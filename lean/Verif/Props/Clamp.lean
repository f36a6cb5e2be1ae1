import Verif.Spec.Clamp
import Verif.Props.GradeOrder
import Verif.Props.Picture
/-
Property C129: the clamp and premultiply settings of a grade.
-/

namespace OCG.Props

open PixelSpec ColorSpec PictureSpec ComputeSpec IeeeSpec LevelSpec OrderSpec ClampSpec
open Ieee hiding floor ceil round

section
variable {F H : Type} [FloatLike F]

theorem applySlice_sameCurve {a b : GradeOp F}
    (h : SameCurve a.getI32 b.getI32 a.getF32 b.getF32) : a.applySlice = b.applySlice := by
  have h1 : ∀ name ∈ ["enable", "process_r", "process_g", "process_b", "process_a", "reverse"],
      a.getI32 name = b.getI32 name := fun name hm =>
    h.1 name (by simp [AttrSpec.names] at hm ⊢; tauto) (by
      intro hl; simp [limits] at hm hl; rcases hm with rfl | rfl | rfl | rfl | rfl | rfl <;> simp at hl)
  have h2 := h.2
  simp only [AttrSpec.names, List.forall_mem_cons, List.not_mem_nil, false_implies, implies_true,
    and_true, GradeOp.getI32, GradeOp.getF32] at h1 h2
  cases a
  cases b
  simp only at h1 h2
  obtain ⟨rfl, rfl, rfl, rfl, rfl, rfl⟩ := h1
  obtain ⟨rfl, rfl, rfl, rfl, rfl, rfl, rfl, rfl, rfl, rfl, rfl, rfl, rfl, rfl, rfl, rfl, rfl, rfl,
    rfl, rfl, rfl, rfl, rfl, rfl, rfl, rfl, rfl, rfl, rfl⟩ := h2
  rfl

/-- C129: the clamp and premultiply settings of a colour operation are ignored: operations that only
differ in them do the same to every buffer. -/
theorem C129_ignored_op {a b : GradeOp F} (h : SameCurve a.getI32 b.getI32 a.getF32 b.getF32)
    (ops ops' : List (GradeOp F)) (buf : List F) (n : Int) :
    applyColorOps (ops ++ a :: ops') buf n = applyColorOps (ops ++ b :: ops') buf n := by
  have he : a.getI32 "enable" = b.getI32 "enable" := h.1 _ (by simp [AttrSpec.names]) (by simp [limits])
  by_cases hn : 0 < n
  · rw [applyColorOps_eq _ _ hn, applyColorOps_eq _ _ hn]
    simp only [List.filter_append, List.filter_cons, he]
    split
    · generalize ops.filter (fun x => decide (x.getI32 "enable" = 1)) = l
      induction l generalizing buf with
      | nil => simp only [List.nil_append, forEach, applySlice_sameCurve h]
      | cons op l ih =>
        simp only [List.cons_append, forEach]
        cases op.applySlice buf n with
        | error e => rfl
        | ok v => exact ih v
    · rfl
  · unfold applyColorOps
    rw [if_pos hn, if_pos hn]

variable [FloatConst F] [FloatBits F] [HalfLike F H]

/-- C129: the clamp and premultiply settings of a grade node are ignored: two grade nodes that only
differ in them do the same to every picture that comes in, whatever is waiting on it. -/
theorem C129_ignored (p : Profile) (lib : NodeLib F H) (n n' : Node F) (frame : F) (mode : Mode)
    (input : Stream F H) (rest : List (Stream F H)) (prev : Stream F H) (w : World F H)
    (ht : n.attrs.nodeType = .grade) (ht' : n'.attrs.nodeType = .grade)
    (h : SameCurve n.getI32 n'.getI32 n.getF32 n'.getF32) :
    ∃ out out', n.run p lib frame mode (input :: rest) prev w = .ok (.valid, out, w) ∧
      n'.run p lib frame mode (input :: rest) prev w = .ok (.valid, out', w) ∧
      out.deformers = out'.deformers ∧
      (∀ buf m, out.applyColorOps buf m = out'.applyColorOps buf m) ∧
      ∀ P, Still lib.bake.color out P ↔ Still lib.bake.color out' P := by
  have hi : ∀ name ∈ ["enable", "process_r", "process_g", "process_b", "process_a"],
      n.getI32 name = n'.getI32 name := fun name hm =>
    h.1 name (by simp [AttrSpec.names] at hm ⊢; tauto) (by
      intro hl; simp [limits] at hm hl; rcases hm with rfl | rfl | rfl | rfl | rfl <;> simp at hl)
  simp only [List.forall_mem_cons, List.not_mem_nil, false_implies, implies_true, and_true] at hi
  have hgg : Grades n ↔ Grades n' := by
    unfold Grades
    rw [hi.1, hi.2.1, hi.2.2.1, hi.2.2.2.1, hi.2.2.2.2]
  by_cases hg : Grades n
  · obtain ⟨out, op, e, h1, h2, h3⟩ := C47_grade_appends p lib n frame mode input rest prev w ht hg
    obtain ⟨out', op', e', h1', h2', h3'⟩ :=
      C47_grade_appends p lib n' frame mode input rest prev w ht' (hgg.mp hg)
    have hs : SameCurve op.getI32 op'.getI32 op.getF32 op'.getF32 := by
      constructor
      · intro name hm hl
        by_cases hen : name = "enable"
        · rw [hen, h1, h1']
        · rw [h2.ints name (by rw [ht]; exact hm) hen, h2'.ints name (by rw [ht']; exact hm) hen]
          exact h.1 name hm hl
      · intro name hm
        rw [h2.reals name (by rw [ht]; exact hm), h2'.reals name (by rw [ht']; exact hm)]
        exact h.2 name hm
    have hop : ∀ buf m, applyColorOps out.colorOps buf m = applyColorOps out'.colorOps buf m :=
      fun buf m => by
        rw [h3.ops, h3'.ops]
        exact C129_ignored_op hs input.colorOps [] buf m
    refine ⟨out, out', e, e', h3.deformers.trans h3'.deformers.symm, hop, ?_⟩
    have key : ∀ (s t : Stream F H), SameImage s { input with colorOps := s.colorOps } →
        SameImage t { input with colorOps := t.colorOps } →
        (∀ buf m, applyColorOps s.colorOps buf m = applyColorOps t.colorOps buf m) →
        ∀ P, Still lib.bake.color s P → Still lib.bake.color t P := by
      intro s t a b hop P hP
      obtain ⟨k1, k2, k3, k4, k5, v, k6, k7, k8⟩ := hP
      have d1 : t.dataWindow = s.dataWindow := b.data.trans a.data.symm
      have d2 : t.displayWindow = s.displayWindow := b.display.trans a.display.symm
      have d3 : t.imageSpec = s.imageSpec := b.spec.trans a.spec.symm
      have d4 : t.pixelBlock = s.pixelBlock := b.pixels.trans a.pixels.symm
      have d5 : t.colorMatrix = s.colorMatrix := b.matrix.trans a.matrix.symm
      refine ⟨by rw [d1, k1], by rw [d2, k2], by rw [d3, k3], k4, k5, v, ?_, k7, fun x y hxy => ?_⟩
      · rw [d1, d3, d4]; exact k6
      · obtain ⟨mid, m1, m2⟩ := k8 x y hxy
        refine ⟨mid, by rw [d5]; exact m1, ?_⟩
        have hn : (0 : Int) < P.channels := by rcases k4 with e | e | e <;> rw [e] <;> decide
        rw [← C47_in_order _ _ _ hn, ← hop, C47_in_order _ _ _ hn]
        exact m2
    have a : SameImage out { input with colorOps := out.colorOps } :=
      ⟨h3.state, h3.display, h3.data, h3.pixels, h3.spec, h3.matrix, h3.deformers, rfl⟩
    have b : SameImage out' { input with colorOps := out'.colorOps } :=
      ⟨h3'.state, h3'.display, h3'.data, h3'.pixels, h3'.spec, h3'.matrix, h3'.deformers, rfl⟩
    exact fun P => ⟨key _ _ a b hop P, key _ _ b a (fun buf m => (hop buf m).symm) P⟩
  · exact ⟨input, input, C47_grade_idle p lib n frame mode input rest prev w ht hg,
      C47_grade_idle p lib n' frame mode input rest prev w ht' (fun h => hg (hgg.mpr h)), rfl,
      fun _ _ => rfl, fun _ => Iff.rfl⟩

end

section
variable [Libm single32]

omit [Libm single32] in
/-- A value of a pixel, found in the buffer of that pixel. -/
theorem pixel_value {n : Nat} {b : List F32} {i k : Nat} (hk : k < n) {x : F32}
    (h : b[i * n + k]? = some x) : (pixel n b i)[k]? = some x := by
  unfold pixel
  rw [List.getElem?_take, if_pos hk, List.getElem?_drop]
  exact h

/-- C129, the part that holds: colour operations that are all uphill for a channel (see C119), keep
black at or above 0 and keep white at or below 1 obey the clamp settings in that channel wherever
the picture is between 0 and 1 and the results are numbers.
Missing: all other operations and pixels; the code does not clamp. -/
theorem C129_range_partial (ops : List (GradeOp F32)) {n : Nat} (hn : Channels n) {k : Nat}
    (hk : k < n) (hops : ∀ d ∈ ops, d.getI32 "enable" = 1 → Uphill d (channelOf n k))
    {low high : List F32} (hlow : applyColorOps ops (List.replicate n 0) n = .ok low)
    (hhigh : applyColorOps ops (List.replicate n 1) n = .ok high)
    {l h : F32} (hl : low[k]? = some l) (hh : high[k]? = some h) (hl0 : NotAbove 0 l)
    (hh1 : NotAbove h 1) (buf : List F32) :
    ∃ out, applyColorOps ops buf n = .ok out ∧ out.length = buf.length ∧
      ∀ i, i < buf.length / n → ∃ p p', buf[i * n + k]? = some p ∧ out[i * n + k]? = some p' ∧
        (NotAbove 0 p → NotAbove p 1 → ¬ IsNotNumber p' → ∀ d ∈ ops, Clamped d.getI32 p') := by
  have hpos : 0 < n := hn.pos
  obtain ⟨out, h1, h2, h3⟩ := C47_every_pixel ops buf hn
  refine ⟨out, h1, h2, fun i hi => ?_⟩
  have hin : i * n + k < buf.length := by
    have := Nat.div_mul_le_self buf.length n
    have : (i + 1) * n ≤ buf.length / n * n := Nat.mul_le_mul_right n hi
    rw [Nat.add_mul] at this
    omega
  obtain ⟨p, hp⟩ : ∃ p, buf[i * n + k]? = some p := ⟨_, List.getElem?_eq_getElem hin⟩
  obtain ⟨p', hp'⟩ : ∃ p', out[i * n + k]? = some p' :=
    ⟨_, List.getElem?_eq_getElem (by rw [h2]; exact hin)⟩
  refine ⟨p, p', hp, hp', fun hp0 hp1 hnum d _ => ?_⟩
  obtain ⟨q, h4, h5⟩ := h3 i hi
  have hx : (pixel n buf i)[k]? = some p := pixel_value hk hp
  have hy : q[k]? = some p' := h5 ▸ pixel_value hk hp'
  have hlen : (pixel n buf i).length = n := by
    unfold pixel
    have := Nat.div_mul_le_self buf.length n
    have : (i + 1) * n ≤ buf.length / n * n := Nat.mul_le_mul_right n hi
    rw [Nat.add_mul] at this
    simp
    omega
  generalize pixel n buf i = x at h4 hx hlen
  have sub : ∀ (a b : List F32) {oa ob : List F32} {va vb wa wb : F32}, a.length = n →
      b.length = n → applyColorOps ops a n = .ok oa → applyColorOps ops b n = .ok ob →
      a[k]? = some va → b[k]? = some vb → oa[k]? = some wa → ob[k]? = some wb →
      NotAbove va vb → ¬ IsNotNumber wa → ¬ IsNotNumber wb → NotAbove wa wb := by
    intro a b oa ob va vb wa wb la lb ra rb ea eb fa fb hab na nb
    have two : (a ++ b).length / n = 2 := by
      rw [List.length_append, la, lb, ← Nat.two_mul, Nat.mul_div_cancel _ hpos]
    obtain ⟨o, g1, g2, g3⟩ := C119_order ops hn hops (a ++ b)
    obtain ⟨o', g1', -, g4⟩ := C47_every_pixel ops (a ++ b) hn
    rw [g1] at g1'
    cases g1'
    obtain ⟨u, v, u', v', e1, e2, e3, e4, e5⟩ := g3 0 1 k (by omega) (by omega) hk rfl
    obtain ⟨q0, r0, s0⟩ := g4 0 (by omega)
    obtain ⟨q1, r1, s1⟩ := g4 1 (by omega)
    have p0 : pixel n (a ++ b) 0 = a := by simp [pixel, ← la]
    have p1 : pixel n (a ++ b) 1 = b := by
      unfold pixel
      rw [Nat.one_mul, ← la, List.drop_left, la, ← lb, List.take_length]
    rw [p0, ra] at r0
    rw [p1, rb] at r1
    cases r0
    cases r1
    have c1 := pixel_value hk e1
    have c2 := pixel_value hk e2
    have c3 := pixel_value hk e3
    have c4 := pixel_value hk e4
    rw [p0, ea] at c1
    rw [p1, eb] at c2
    rw [s0, fa] at c3
    rw [s1, fb] at c4
    cases c1
    cases c2
    cases c3
    cases c4
    exact e5 hab na nb
  have nn : ∀ {x y : F32}, NotAbove x y → ¬ IsNotNumber x ∧ ¬ IsNotNumber y := fun {x y} h => by
    have := (notAbove_iff inf_pos_single).mp h
    rw [notNumber_iff, notNumber_iff, this.1, this.2.1]
    decide
  have tr : ∀ {x y z : F32}, NotAbove x y → NotAbove y z → NotAbove x z := fun {x y z} h h' => by
    have a := (notAbove_iff inf_pos_single).mp h
    have b := (notAbove_iff inf_pos_single).mp h'
    exact (notAbove_iff inf_pos_single).mpr ⟨a.1, b.2.1, a.2.2.trans b.2.2⟩
  have rep : ∀ x : F32, (List.replicate n x)[k]? = some x := fun x => by
    rw [List.getElem?_replicate, if_pos hk]
  exact ⟨fun _ => tr hl0 (sub _ _ (by simp) hlen hlow h4 (rep 0) hx hl hy hp0 (nn hl0).2 hnum),
    fun _ => tr (sub _ _ hlen (by simp) h4 hhigh hx (rep 1) hy hh hp1 hnum (nn hh1).1) hh1⟩

end

/-! ### Examples and counterexamples -/

section Examples

attribute [local instance] exactPowf

/-- A grade of all colours with an offset of -1.  Black is clamped, as it is for every new grade. -/
def darkOp : GradeOp F32 :=
  { (GradeOp.new : GradeOp F32) with
    offsetR := ofInt (-1), offsetG := ofInt (-1), offsetB := ofInt (-1) }

/-- A grade of red that multiplies by 7 and clamps white. -/
def whiteOp : GradeOp F32 :=
  { (GradeOp.new : GradeOp F32) with multiplyR := ofInt 7, clampWhite := 1 }

/-- C129: a grade that clamps black makes a pixel negative: 0.1 with an offset of -1. -/
theorem C129_counterexample_black :
    ∃ x, darkOp.getI32 "clamp_black" = 1 ∧
      applyColorOps [darkOp] [tenth, tenth, tenth] 3 = .ok [x, x, x] ∧
      ¬ Clamped darkOp.getI32 x := by
  refine ⟨add tenth (ofInt (-1)), rfl, by decide +kernel, fun h => ?_⟩
  have := ((notAbove_iff inf_pos_single).mp (h.1 (by decide))).2.2
  revert this
  decide +kernel

/-- C129: a grade that clamps white makes a pixel 7. -/
theorem C129_counterexample_white :
    whiteOp.getI32 "clamp_white" = 1 ∧
      applyColorOps [whiteOp] [ofInt 1, tenth, tenth] 3 = .ok [ofInt 7, tenth, tenth] ∧
      ¬ Clamped whiteOp.getI32 (ofInt 7) := by
  refine ⟨rfl, by decide +kernel, fun h => ?_⟩
  have := ((notAbove_iff inf_pos_single).mp (h.2 (by decide))).2.2
  revert this
  decide +kernel

-- C129: clamping, or premultiplying, between two other operations changes nothing.
example (buf : List F32) (n : Int) :
    applyColorOps [uphillOp, darkOp, whiteOp] buf n =
      applyColorOps [uphillOp, { darkOp with clampBlack := 0, premult := 1 }, whiteOp] buf n :=
  C129_ignored_op (a := darkOp) (b := { darkOp with clampBlack := 0, premult := 1 })
    ⟨by
      intro name hm hl
      simp only [AttrSpec.names, limits, List.mem_cons, List.not_mem_nil, or_false] at hm hl
      rcases hm with rfl | rfl | rfl | rfl | rfl | rfl | rfl | rfl | rfl <;>
        first | rfl | simp at hl, fun _ _ => rfl⟩ [uphillOp] [whiteOp] buf n

/-- A grade of red with a gain of 0.1, that clamps both ends. -/
def dimOp : GradeOp F32 :=
  { (GradeOp.new : GradeOp F32) with gainR := tenth, clampWhite := 1 }

-- C129: a picture between 0 and 1 stays there.
example : ∃ (out : List F32) (p' : F32),
    applyColorOps [dimOp] [tenth, ofInt 1, ofInt 1] 3 = .ok out ∧ out[0]? = some p' ∧
      Clamped dimOp.getI32 p' := by
  obtain ⟨low, l, e1, e2, e3⟩ : ∃ low l, applyColorOps [dimOp] (List.replicate 3 (zero false)) 3 = .ok low ∧
      low[0]? = some l ∧ (isNan l = false ∧ (zero false : F32).key ≤ key l) :=
    ⟨[zero false, zero false, zero false], zero false, by decide +kernel, rfl, by decide +kernel⟩
  obtain ⟨high, h, e4, e5, e6⟩ : ∃ high h, applyColorOps [dimOp] (List.replicate 3 (ofInt 1)) 3 = .ok high ∧
      high[0]? = some h ∧ (isNan h = false ∧ key h ≤ (ofInt 1 : F32).key) :=
    ⟨[tenth, ofInt 1, ofInt 1], tenth, by decide +kernel, rfl, by decide +kernel⟩
  obtain ⟨out, h1, -, h3⟩ := C129_range_partial [dimOp] (n := 3) (.inr (.inl rfl)) (k := 0)
    (by decide)
    (fun d hd _ => by
      rcases List.mem_cons.mp hd with rfl | hd
      · exact uphill_of (by decide +kernel)
      · cases hd) e1 e4 e2 e5
    ((notAbove_iff inf_pos_single).mpr ⟨by decide +kernel, e3⟩)
    ((notAbove_iff inf_pos_single).mpr ⟨e6.1, by decide +kernel, e6.2⟩) [tenth, ofInt 1, ofInt 1]
  obtain ⟨p, p', h4, h5, h6⟩ := h3 0 (by decide)
  cases h4
  have hout : applyColorOps [dimOp] [tenth, ofInt 1, ofInt 1] 3 =
      .ok [mul tenth tenth, ofInt 1, ofInt 1] := by decide +kernel
  have := h1.symm.trans hout
  cases this
  cases h5
  exact ⟨_, _, hout, rfl, h6 ((notAbove_iff inf_pos_single).mpr (by decide +kernel))
    ((notAbove_iff inf_pos_single).mpr (by decide +kernel))
    (by rw [notNumber_iff]; decide +kernel) _ List.mem_cons_self⟩

attribute [local instance] finFloat finBits finHalf finPi

-- C129 for nodes: a grade that clamps white and one that does not, on one pixel.
example : ∃ out out',
    doubling.run .debug finLib 1 modeAll [onePixel] .new noCache = .ok (.valid, out, noCache) ∧
    (doubling.setI32 "clamp_white" 1).run .debug finLib 1 modeAll [onePixel] .new noCache =
      .ok (.valid, out', noCache) ∧ out.deformers = out'.deformers ∧
    (∀ buf m, out.applyColorOps buf m = out'.applyColorOps buf m) ∧
    ∀ P, Still finLib.bake.color out P ↔ Still finLib.bake.color out' P :=
  C129_ignored .debug finLib doubling (doubling.setI32 "clamp_white" 1) 1 modeAll onePixel [] .new
    noCache rfl rfl (by unfold SameCurve; decide +kernel)

end Examples

end OCG.Props
