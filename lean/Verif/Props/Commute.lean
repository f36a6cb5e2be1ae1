import Verif.Props.Over
import Verif.Proofs.IeeeMono
/-
C120: sums and products of pictures do not depend on which picture is the first, nor on how they
are grouped.
-/

namespace OCG.Props

open PremultipliedSpec PictureSpec PixelSpec ColorSpec IeeeSpec ImageSpecs BBoxSpec BlockSpec
open CacheSpec (IsOff)
open Ieee hiding floor ceil round

/-! ### Single floats -/

/-- Adding does not depend on the order, down to the signs of zeros. -/
theorem add_swap {f : Format} (x y : Ieee f) : add x y = add y x := by
  unfold add
  rw [Bool.or_comm y.isNan, Int.add_comm y.int, Bool.and_comm y.neg]
  split
  · rfl
  · cases hx : x.isInf <;> cases hy : y.isInf <;>
      simp only [Bool.false_eq_true, if_false, if_true, Bool.false_and, Bool.true_and]
    have cx : x.code = infCode f := by unfold isInf at hx; simpa using hx
    have cy : y.code = infCode f := by unfold isInf at hy; simpa using hy
    obtain ⟨a, c, h⟩ := x
    obtain ⟨b, d, k⟩ := y
    dsimp only at cx cy ⊢
    subst cx cy
    cases a <;> cases b <;> simp

/-- Multiplying with 1 keeps everything but the bits of a NaN. -/
theorem mul_one_any {f : Format} (hf : Ok f) (x : Ieee f) :
    mul x (ofInt 1) = if x.isNan then nan else x := by
  obtain ⟨h1, h2, h3⟩ := one_spec hf
  cases hn : x.isNan
  · simp only [Bool.false_eq_true, if_false]
    cases hi : x.isInf
    · refine mul_one' hf ?_
      rw [finite_iff]
      unfold isNan at hn
      unfold isInf at hi
      simp only [decide_eq_false_iff_not, not_lt] at hn hi
      omega
    · have c0 : (ofInt 1 : Ieee f).code ≠ 0 := by
        intro h
        have : (ofInt 1 : Ieee f).mag = 0 := by
          unfold mag; rw [h, units_zero]
        rw [h2] at this
        have := Nat.two_pow_pos f.unit
        omega
      have cx : x.code = infCode f := by unfold isInf at hi; simpa using hi
      have hI : 0 < infCode f := by
        rw [finite_iff] at h1
        omega
      unfold mul
      rw [hn, not_nan h1, hi, not_inf h1, h3]
      simp only [Bool.or_false, Bool.false_eq_true, if_false, if_true, Bool.bne_false]
      rw [if_neg (by rw [not_or]; exact ⟨by omega, c0⟩)]
      obtain ⟨a, c, h⟩ := x
      dsimp only at cx ⊢
      subst cx
      unfold inf pack
      simp only [min_self]
  · simp only [if_true]
    unfold mul
    rw [hn]
    rfl

theorem add_one_any {f : Format} (hf : Ok f) (x y : Ieee f) :
    add x (mul y (ofInt 1)) = add x y := by
  rw [mul_one_any hf]
  split
  · rename_i h
    unfold add
    rw [h, nan_isNan hf.mant_pos]
    simp
  · rfl

theorem mul_one_mul {f : Format} (hf : Ok f) (x y : Ieee f) :
    mul x (mul y (ofInt 1)) = mul x y := by
  rw [mul_one_any hf]
  split
  · rename_i h
    unfold mul
    rw [h, nan_isNan hf.mant_pos]
    simp
  · rfl

section
variable [Libm single32]

theorem blend_swap {mode : MergeImageMode} (hm : mode = .add ∨ mode = .multiply)
    (a b : Int → F32) (c : Int) : blend mode 1 a b c = blend mode 1 b a c := by
  rcases hm with rfl | rfl
  · show a c + b c * 1 = b c + a c * 1
    rw [op_add, op_add, op_mul, op_mul, op_one, add_one_any ok_single, add_one_any ok_single,
      add_swap]
  · show a c * (b c * 1) = b c * (a c * 1)
    rw [op_mul, op_mul, op_mul, op_mul, op_one, mul_one_mul ok_single, mul_one_mul ok_single,
      mul_comm']

/-- C120: the sum and the product of two pictures with the same channels do not depend on which of
them is the first, in single floats and bit by bit.  Only the display window is that of the second
one. -/
theorem C120_swap {mode : MergeImageMode} (hm : mode = .add ∨ mode = .multiply)
    {A B Q Q' : Picture F32} (hc : A.channels = B.channels) (h : IsMerged mode 1 A B Q)
    (h' : IsMerged mode 1 B A Q') :
    Q.data = Q'.data ∧ Q.channels = Q'.channels ∧ Q.space = Q'.space ∧
      ∀ x y, Has Q.data x y → Q.at_ x y = Q'.at_ x y := by
  have hd : Q.data = Q'.data := by
    rw [h.data, h'.data, min_comm A.data.minX, min_comm A.data.minY, max_comm A.data.maxX,
      max_comm A.data.maxY]
  refine ⟨hd, by rw [h.channels, h'.channels, hc], by rw [h.space, h'.space], fun x y hxy => ?_⟩
  obtain ⟨v, ⟨mid, e, k⟩, hl, hv⟩ := h.pixels x y hxy
  obtain ⟨v', ⟨mid', e', k'⟩, hl', hv'⟩ := h'.pixels x y (hd ▸ hxy)
  have : v = v' := by
    refine List.ext_getElem? fun i => ?_
    by_cases hi : i < B.channels
    · rw [hv i hi, hv' i (by rw [hc]; exact hi), blend_swap hm]
    · rw [List.getElem?_eq_none (by omega), List.getElem?_eq_none (by omega)]
  subst this
  rw [hc, e] at e'
  injection e' with e'
  have q : ∀ {n : Int} {a b : List F32}, Carried n [] a b → a = b := by
    intro n a b h
    cases h
    rfl
  rw [← q k, ← q k', e']

/-- C120, the nodes: a merge node that adds or multiplies with a mix of 1 gives the same picture
when its two inputs are exchanged. -/
theorem C120_node {H : Type} [HalfLike F32 H] (p : Profile) (lib : NodeLib F32 H) (n : Node F32)
    (frame : F32) (mode : Mode) (inputA inputB prev : Stream F32 H) (w : World F32 H)
    (ht : n.attrs.nodeType = .mergeImage) (he : n.getI32 "enable" = 1)
    (hm : MergeImageMode.ofI32 (n.getI32 "mode") = .add ∨
      MergeImageMode.ofI32 (n.getI32 "mode") = .multiply) (hx : n.getF32 "mix" = 1) (hw : IsOff w)
    {A B : Picture F32} (hA : Appears lib.bake inputA A) (hB : Appears lib.bake inputB B)
    (hAd : inputA.dataWindow = A.data) (hBd : inputB.dataWindow = B.data)
    (hc : A.channels = B.channels) (ha : A.channels = 3 ∨ A.channels = 4)
    (hs : ValidSize (sizeFor ⟨min A.data.minX B.data.minX, min A.data.minY B.data.minY,
      max A.data.maxX B.data.maxX, max A.data.maxY B.data.maxY⟩ 4)) :
    ∃ out out' w1 w2 Q Q', n.run p lib frame mode [inputA, inputB] prev w = .ok (.valid, out, w1) ∧
      n.run p lib frame mode [inputB, inputA] prev w = .ok (.valid, out', w2) ∧
      Shows lib.bake.color out Q ∧ Shows lib.bake.color out' Q' ∧ Q.data = Q'.data ∧
      Q.channels = Q'.channels ∧ Q.space = Q'.space ∧
      (∀ x y, Has Q.data x y → Q.at_ x y = Q'.at_ x y) ∧ Q.display = B.display ∧
      Q'.display = A.display := by
  have hu : MergeImageMode.ofI32 (n.getI32 "mode") ≠ .uninitialized := by
    rcases hm with h | h <;> rw [h] <;> decide
  have hb : B.channels = 3 ∨ B.channels = 4 := hc ▸ ha
  obtain ⟨out, w1, e1, -, -, ⟨Q, hQ⟩, k1⟩ := C86_merge_partial p lib n frame mode inputA inputB []
    prev w ht he hu hw hA hB hBd ha hb hs
  obtain ⟨out', w2, e2, -, -, ⟨Q', hQ'⟩, k2⟩ := C86_merge_partial p lib n frame mode inputB inputA []
    prev w ht he hu hw hB hA hAd hb ha (by
      rwa [min_comm B.data.minX, min_comm B.data.minY, max_comm B.data.maxX, max_comm B.data.maxY])
  have k1 := k1 Q hQ
  have k2 := k2 Q' hQ'
  rw [hx] at hQ hQ'
  obtain ⟨h1, h2, h3, h4⟩ := C120_swap hm hc hQ hQ'
  exact ⟨out, out', w1, w2, Q, Q', e1, e2, k1, k2, h1, h2, h3, h4, hQ.display, hQ'.display⟩

end

/-! ### Exact arithmetic -/

section
variable {F : Type} [Field F] [LinearOrder F] [FloatOps F]

theorem exact_blend {mode : MergeImageMode} {mix : F} {A B Q : Picture F}
    (hB : B.channels = 3 ∨ B.channels = 4) (hm : mode = .add ∨ mode = .multiply)
    (hQ : IsMerged mode mix A B Q) (x y : Int) {c : Int} (h0 : 0 ≤ c) (h4 : c < B.channels) :
    Q.value x y c = blend mode mix (A.value x y) (B.value x y) c := by
  by_cases hxy : Has Q.data x y
  · obtain ⟨v, ⟨mid, e, hc⟩, hl, hv⟩ := hQ.pixels x y hxy
    cases hc
    have hid := C57_identity (F := F) (.inr hB) v
    have : v = Q.at_ x y := by
      have := hid.symm.trans e
      injection this
    obtain ⟨k, rfl⟩ := Int.eq_ofNat_of_zero_le h0
    have hk := hv k (by omega)
    unfold Picture.value Picture.pixel
    rw [if_pos h0, if_pos hxy, ← this, List.getD_eq_getElem?_getD]
    show (v[k]?).getD 0 = _
    rw [hk]
    rfl
  · have hA : ¬ Has A.data x y := fun h => hxy (merged_has hQ (.inl h))
    have hB : ¬ Has B.data x y := fun h => hxy (merged_has hQ (.inr h))
    rcases hm with rfl | rfl
    · show Q.value x y c = A.value x y c + B.value x y c * mix
      rw [value_outside hxy, value_outside hA, value_outside hB]
      show (0 : F) = 0 + 0 * _
      ring
    · show Q.value x y c = A.value x y c * (B.value x y c * mix)
      rw [value_outside hxy, value_outside hA, value_outside hB]
      show (0 : F) = 0 * (0 * _)
      ring

/-- C120: three pictures that are added or multiplied: it makes no difference which two are merged
first, in exact arithmetic. -/
theorem C120_grouping {mode : MergeImageMode} (hm : mode = .add ∨ mode = .multiply)
    {A B C Q R Q' R' : Picture F} (hB : B.channels = C.channels)
    (hC : C.channels = 3 ∨ C.channels = 4) (h1 : IsMerged mode 1 A B Q) (h2 : IsMerged mode 1 Q C R)
    (h3 : IsMerged mode 1 B C Q') (h4 : IsMerged mode 1 A Q' R') :
    R.data = R'.data ∧ R.display = R'.display ∧ R.channels = R'.channels ∧ R.space = R'.space ∧
      ∀ x y c : Int, 0 ≤ c → c < C.channels → R.value x y c = R'.value x y c := by
  obtain ⟨e1, e2, e3, e4⟩ := merged_data h1 h2 h3 h4
  refine ⟨e1, e2, e3, e4, fun x y c c0 c4 => ?_⟩
  have q' : Q'.channels = C.channels := h3.channels
  rw [exact_blend hC hm h2 x y c0 c4, exact_blend (q' ▸ hC) hm h4 x y c0 (q' ▸ c4)]
  have g1 := exact_blend (hB ▸ hC) hm h1 x y c0 (hB ▸ c4)
  have g2 := exact_blend hC hm h3 x y c0 c4
  rcases hm with rfl | rfl
  · show Q.value x y c + C.value x y c * 1 = A.value x y c + Q'.value x y c * 1
    rw [g1, g2]
    show (A.value x y c + B.value x y c * 1) + C.value x y c * 1 =
      A.value x y c + (B.value x y c + C.value x y c * 1) * 1
    rw [mul_one, mul_one, mul_one, add_assoc]
  · show Q.value x y c * (C.value x y c * 1) = A.value x y c * (Q'.value x y c * 1)
    rw [g1, g2]
    show (A.value x y c * (B.value x y c * 1)) * (C.value x y c * 1) =
      A.value x y c * ((B.value x y c * (C.value x y c * 1)) * 1)
    rw [mul_one, mul_one, mul_one, mul_assoc]

end

/-! ### Examples -/

section
attribute [local instance] ratRound

-- C120: three pictures multiplied.
example (x y : Int) : (exactPicture [1/24, 0, 1, 1/2]).value x y 0 =
    (exactPicture [1/24, 0, 1, 1/2]).value x y 0 :=
  (C120_grouping (mode := .multiply) (.inr rfl) (A := exactPicture [1/2, 0, 1, 1])
    (B := exactPicture [1/3, 1, 1, 1]) (C := exactPicture [1/4, 1, 1, 1/2])
    (Q := exactPicture [1/6, 0, 1, 1]) (R := exactPicture [1/24, 0, 1, 1/2])
    (Q' := exactPicture [1/12, 1, 1, 1/2]) (R' := exactPicture [1/24, 0, 1, 1/2]) rfl (.inr rfl)
    (exact_merged rfl (.inr rfl) (by decide +kernel)) (exact_merged rfl (.inr rfl) (by decide +kernel))
    (exact_merged rfl (.inr rfl) (by decide +kernel)) (exact_merged rfl (.inr rfl) (by decide +kernel))
    ).2.2.2.2 x y 0 (by decide) (by decide)

/-- C120 is false for a mix of one half: only the second picture is weakened. -/
theorem C120_counterexample_mix : ∃ A B Q Q' : Picture Rat, A.channels = B.channels ∧
    IsMerged .add (1/2) A B Q ∧ IsMerged .add (1/2) B A Q' ∧ Q.value 0 0 0 ≠ Q'.value 0 0 0 :=
  ⟨exactPicture redHalf, exactPicture allWhite, exactPicture [1, 1/2, 1/2, 1],
    exactPicture [5/4, 1, 1, 5/4], rfl, exact_merged rfl (.inr rfl) (by decide +kernel),
    exact_merged rfl (.inr rfl) (by decide +kernel), by decide +kernel⟩

end

section
attribute [local instance] exactPowf

-- C120: grey glasses added.
example : (pixelPicture (greyPixel (add twentieth oneHalf))).at_ 0 0 =
    (pixelPicture (greyPixel (add oneHalf twentieth))).at_ 0 0 :=
  (C120_swap (mode := .add) (.inl rfl) (A := pixelPicture (greyPixel twentieth))
    (B := pixelPicture (greyPixel oneHalf)) rfl (pixel_merged (by decide +kernel))
    (pixel_merged (by decide +kernel))).2.2.2 0 0 (by unfold Has; decide)

/-- A node that multiplies. -/
def productNode : Node F32 :=
  ⟨1, .uninitialized, .mergeImage { MergeImageAttrs.new with mode := 2 }⟩

-- C120: a node that multiplies, with any libraries.
example {H : Type} [HalfLike F32 H] (lib : NodeLib F32 H) (w : World F32 H)
    (hw : IsOff w) :
    ∃ out out' w1 w2 Q Q',
      productNode.run .debug lib 1 modeAll [pixelStream redGlass, pixelStream whiteWall] .new w =
        .ok (.valid, out, w1) ∧
      productNode.run .debug lib 1 modeAll [pixelStream whiteWall, pixelStream redGlass] .new w =
        .ok (.valid, out', w2) ∧ Shows lib.bake.color out Q ∧ Shows lib.bake.color out' Q' ∧
      Q.data = Q'.data ∧ Q.channels = Q'.channels ∧ Q.space = Q'.space ∧
      (∀ x y, Has Q.data x y → Q.at_ x y = Q'.at_ x y) ∧ Q.display = ⟨0, 0, 1, 1⟩ ∧
      Q'.display = ⟨0, 0, 1, 1⟩ :=
  C120_node .debug lib productNode 1 modeAll
    (pixelStream redGlass) (pixelStream whiteWall) .new w rfl (by decide) (by decide) rfl hw
    (pixelStream_shows _ rfl (by decide +kernel)).appears
    (pixelStream_shows _ rfl (by decide +kernel)).appears rfl rfl
    rfl (.inr rfl) (by unfold ValidSize; decide)

/-- In single floats the grouping of sums shows in the last digit. -/
theorem C120_counterexample_grouping : ∃ A B C Q R Q' R' : Picture F32,
    IsMerged .add 1 A B Q ∧ IsMerged .add 1 Q C R ∧ IsMerged .add 1 B C Q' ∧
      IsMerged .add 1 A Q' R' ∧ R.value 0 0 0 ≠ R'.value 0 0 0 :=
  ⟨pixelPicture (greyPixel tenth), pixelPicture (greyPixel twentieth),
    pixelPicture (greyPixel oneHalf), pixelPicture (greyPixel (add tenth twentieth)),
    pixelPicture (greyPixel (add (add tenth twentieth) oneHalf)),
    pixelPicture (greyPixel (add twentieth oneHalf)),
    pixelPicture (greyPixel (add tenth (add twentieth oneHalf))),
    pixel_merged (by decide +kernel), pixel_merged (by decide +kernel),
    pixel_merged (by decide +kernel), pixel_merged (by decide +kernel), by decide +kernel⟩

end

end OCG.Props
