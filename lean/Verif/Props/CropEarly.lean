import Verif.Props.Commute
import Verif.Spec.Plain
/-
C121: cutting a picture out early or late makes no difference.
-/

namespace OCG.Props

open PlainSpec PremultipliedSpec PictureSpec PixelSpec ColorSpec IeeeSpec ImageSpecs BBoxSpec BlockSpec
open ComputeSpec
open CacheSpec (IsOff)
open Ieee hiding floor ceil round

section
variable [Libm single32]

/-! ### Storing ordinary numbers -/

omit [Libm single32] in
theorem plain_add_zero {x z : F32} (hx : IsPlain x) (hz : z.code = 0) : add x z = x := by
  rw [eq_zero_of_code hz, add_zero' ok_single _ hx.1]
  split
  · rename_i h
    have := eq_zero_of_code h
    have hn : x.neg = false := by
      cases e : x.neg
      · rfl
      · rw [e] at this; exact absurd this hx.2
    rw [hn] at this ⊢
    rw [this]
    rfl
  · rfl

omit [Libm single32] in
theorem plain_zero_add {x z : F32} (hx : IsPlain x) (hz : z.code = 0) : add z x = x := by
  rw [add_swap, plain_add_zero hx hz]

theorem plain_zero : IsPlain (0 : F32) := by
  refine ⟨finite_zero ok_single false, ?_⟩
  show (zero false : F32) ≠ zero true
  decide

theorem plain_one : IsPlain (1 : F32) := by
  refine ⟨(one_spec ok_single).1, ?_⟩
  show (ofInt 1 : F32) ≠ zero true
  decide +kernel

theorem identity_plain (v : Vec4 F32) (hv : ∀ j, IsPlain (v j)) (j : Fin 4) :
    Xform.mulVec (fun i j => if i = j then (1 : F32) else 0) v j = v j := by
  have m0 : ∀ j, ((0 : F32) * v j).code = 0 := fun j =>
    zero_mul_code ok_single (hv j).1 (zero_code _)
  have m1 : ∀ j, (1 : F32) * v j = v j := fun j => one_mul' ok_single (hv j).1
  have zz : ∀ {x z : F32}, x.code = 0 → z.code = 0 → (x + z).code = 0 := by
    intro x z hx hz
    have := add_zero_same ok_single (finite_of_code_zero ok_single hx) hz
    rcases same_cases this with e | e
    · show (add x z).code = 0
      rw [e]; exact hx
    · exact e.1
  have az : ∀ j {z : F32}, z.code = 0 → v j + z = v j := fun j _ hz => plain_add_zero (hv j) hz
  have za : ∀ j {z : F32}, z.code = 0 → z + v j = v j := fun j _ hz => plain_zero_add (hv j) hz
  have : j = 0 ∨ j = 1 ∨ j = 2 ∨ j = 3 := by omega
  unfold Xform.mulVec
  rcases this with rfl | rfl | rfl | rfl
  · show (1 : F32) * v 0 + 0 * v 1 + 0 * v 2 + 0 * v 3 = v 0
    rw [m1, az 0 (m0 1), az 0 (m0 2), az 0 (m0 3)]
  · show (0 : F32) * v 0 + 1 * v 1 + 0 * v 2 + 0 * v 3 = v 1
    rw [m1, za 1 (m0 0), az 1 (m0 2), az 1 (m0 3)]
  · show (0 : F32) * v 0 + 0 * v 1 + 1 * v 2 + 0 * v 3 = v 2
    rw [m1, za 2 (zz (m0 0) (m0 1)), az 2 (m0 3)]
  · show (0 : F32) * v 0 + 0 * v 1 + 0 * v 2 + 1 * v 3 = v 3
    rw [m1, za 3 (zz (zz (m0 0) (m0 1)) (m0 2))]

/-- Storing a pixel of ordinary numbers keeps every bit. -/
theorem settled_plain {n : Nat} (hn : Channels n) {v out : List F32} (hl : v.length = n)
    (hv : ∀ p ∈ v, IsPlain p) (h : Settled n v out) : out = v := by
  obtain ⟨mid, e, k⟩ := h
  have q : ∀ {n : Int} {a b : List F32}, Carried n [] a b → a = b := by
    intro n a b h
    cases h
    rfl
  rw [← q k]
  obtain ⟨out', e', hm⟩ := C57_per_pixel (fun i j => if i = j then (1 : F32) else 0) hn v
  have : out' = mid := by
    have := e'.symm.trans e
    injection this
  subst this
  have hpos : 0 < n := by rcases hn with rfl | rfl | rfl <;> decide
  have h0 := hm.pixels 0 (by rw [hl, Nat.div_self hpos]; decide)
  have full : ∀ u : List F32, u.length = n → pixel n u 0 = u := by
    intro u hu
    unfold pixel
    rw [Nat.zero_mul, List.drop_zero, ← hu, List.take_length]
  rw [full _ hl, full _ (hm.length.trans hl)] at h0
  rw [h0]
  have h4 : ∀ j : Fin 4, j = 0 ∨ j = 1 ∨ j = 2 ∨ j = 3 := by omega
  rcases hn with rfl | rfl | rfl
  · obtain ⟨a, rfl⟩ := List.length_eq_one_iff.mp hl
    have hall : ∀ j, IsPlain (Xform.vec 1 1 1 a j : F32) := by
      intro j
      rcases h4 j with rfl | rfl | rfl | rfl
      exacts [plain_one, plain_one, plain_one, hv a (by simp)]
    show [_] = [a]
    rw [identity_plain _ hall 3]
    rfl
  · obtain ⟨r, g, b, rfl⟩ := list3 hl
    have hall : ∀ j, IsPlain (Xform.vec r g b 1 j : F32) := by
      intro j
      rcases h4 j with rfl | rfl | rfl | rfl
      exacts [hv r (by simp), hv g (by simp), hv b (by simp), plain_one]
    show [_, _, _] = [r, g, b]
    rw [identity_plain _ hall 0, identity_plain _ hall 1, identity_plain _ hall 2]
    rfl
  · obtain ⟨r, g, b, a, rfl⟩ := list4 hl
    have hall : ∀ j, IsPlain (Xform.vec r g b a j : F32) := by
      intro j
      rcases h4 j with rfl | rfl | rfl | rfl
      exacts [hv r (by simp), hv g (by simp), hv b (by simp), hv a (by simp)]
    show [_, _, _, _] = [r, g, b, a]
    rw [identity_plain _ hall 0, identity_plain _ hall 1, identity_plain _ hall 2,
      identity_plain _ hall 3]
    rfl

theorem plain_pixel {P : Picture F32} (hP : AllPlain P) (x y : Int) :
    (P.pixel x y).length = P.channels ∧ ∀ v ∈ P.pixel x y, IsPlain v := by
  unfold Picture.pixel
  split
  · exact hP x y (by assumption)
  · refine ⟨List.length_replicate, fun v hv => ?_⟩
    rw [List.eq_of_mem_replicate hv]
    exact plain_zero

/-! ### Pictures -/

/-- C121: cutting out keeps every pixel of ordinary numbers bit by bit; where there was none is
black. -/
theorem C121_crop {W : BBox} {r : Bool} {P Q : Picture F32} (hn : Channels P.channels)
    (hP : AllPlain P) (h : IsCropped W r P Q) :
    AllPlain Q ∧ ∀ x y, Has W x y → Q.at_ x y = P.pixel x y := by
  have key : ∀ x y, Has W x y → Q.at_ x y = P.pixel x y := fun x y hxy =>
    settled_plain hn (plain_pixel hP x y).1 (plain_pixel hP x y).2 (h.pixels x y hxy)
  refine ⟨fun x y hxy => ?_, key⟩
  rw [h.data] at hxy
  rw [key x y hxy, h.channels]
  exact plain_pixel hP x y

/-- C121: cutting out a window and then a smaller one is cutting out the smaller one. -/
theorem C121_twice {W V : BBox} {r s : Bool} {P A B C : Picture F32} (hn : Channels P.channels)
    (hP : AllPlain P) (hV : ∀ x y, Has V x y → Has W x y) (h1 : IsCropped W r P A)
    (h2 : IsCropped V s A B) (h3 : IsCropped V s P C) :
    B.data = C.data ∧ B.channels = C.channels ∧ B.space = C.space ∧
      ∀ x y, Has V x y → B.at_ x y = C.at_ x y := by
  obtain ⟨hA, k1⟩ := C121_crop hn hP h1
  obtain ⟨-, k2⟩ := C121_crop (h1.channels ▸ hn) hA h2
  obtain ⟨-, k3⟩ := C121_crop hn hP h3
  refine ⟨h2.data.trans h3.data.symm, h2.channels.trans (h1.channels.trans h3.channels.symm),
    h2.space.trans (h1.space.trans h3.space.symm), fun x y hxy => ?_⟩
  rw [k2 x y hxy, k3 x y hxy]
  unfold Picture.pixel
  rw [h1.data, if_pos (hV x y hxy), k1 x y (hV x y hxy)]
  rfl

/-- C121: grading and then cutting out shows the same as cutting out and then grading, wherever the
picture had a pixel. -/
theorem C121_grade {W : BBox} {r : Bool} {op : GradeOp F32} {P G GC C CG : Picture F32}
    (hn : Channels P.channels) (hP : AllPlain P) (h1 : IsGraded op P G) (hG : AllPlain G)
    (h2 : IsCropped W r G GC) (h3 : IsCropped W r P C) (h4 : IsGraded op C CG) :
    GC.data = CG.data ∧ GC.display = CG.display ∧ GC.channels = CG.channels ∧
      GC.space = CG.space ∧ ∀ x y, Has W x y → Has P.data x y → GC.at_ x y = CG.at_ x y := by
  obtain ⟨-, k2⟩ := C121_crop (h1.channels ▸ hn) hG h2
  obtain ⟨-, k3⟩ := C121_crop hn hP h3
  refine ⟨h2.data.trans (h3.data.symm.trans h4.data.symm), ?_, ?_, ?_, fun x y hw hp => ?_⟩
  · rw [h2.display, h4.display, h3.display, h1.display]
  · rw [h2.channels, h4.channels, h3.channels, h1.channels]
  · rw [h2.space, h4.space, h3.space, h1.space]
  · have hg : Has G.data x y := by rw [h1.data]; exact hp
    have hc : Has C.data x y := by rw [h3.data]; exact hw
    rw [k2 x y hw]
    unfold Picture.pixel
    rw [if_pos hg]
    have e1 := h1.pixels x y hp
    have e2 := h4.pixels x y hc
    rw [k3 x y hw] at e2
    unfold Picture.pixel at e2
    rw [if_pos hp, h3.channels] at e2
    have e1 := (C47_in_order _ _ _ hn.pos').mpr e1
    have e2 := (C47_in_order _ _ _ hn.pos').mpr e2
    rw [e1] at e2
    injection e2

/-- Merging black with black gives black, if it gives an ordinary number. -/
theorem blend_black {mode : MergeImageMode} {mix : F32} (hm : IsFinite mix) {a b : Int → F32} {c : Int}
    (ha : ∀ c, a c = 0) (hb : ∀ c, b c = 0) (hp : IsPlain (blend mode mix a b c)) :
    blend mode mix a b c = 0 := by
  have z : ∀ {x : F32}, IsFinite x → ((0 : F32) * x).code = 0 := fun hx =>
    zero_mul_code ok_single hx (zero_code _)
  have az : ∀ {z : F32}, z.code = 0 → (0 : F32) + z = 0 := fun hz => plain_add_zero plain_zero hz
  cases mode
  · show a c + b c * mix = 0
    rw [ha, hb]
    exact az (z hm)
  · show a c + b c * ((1 - a 3) * mix) = 0
    rw [ha, hb, ha]
    have e : ((1 : F32) - 0) * mix = mix := by
      show mul (sub (ofInt 1) (zero false)) mix = mix
      rw [one_minus_zero _ (zero_code _), one_mul' ok_single hm]
    rw [e]
    exact az (z hm)
  · have hp : IsPlain (a c * (b c * mix)) := hp
    show a c * (b c * mix) = 0
    rw [ha, hb] at hp ⊢
    have h0 := z (finite_of_code_zero ok_single (z hm))
    have := eq_zero_of_code h0
    cases e : ((0 : F32) * (0 * mix)).neg
    · rw [e] at this; exact this
    · rw [e] at this; exact absurd this hp.2
  · rfl

/-- C121: merging and then cutting out shows the same as cutting both pictures out and then merging
them, everywhere in the window. -/
theorem C121_merge {mode : MergeImageMode} {mix : F32} (hm : IsFinite mix) {W : BBox} {r : Bool}
    {A B M MC A' B' N : Picture F32} (hnA : Channels A.channels) (hnB : Channels B.channels)
    (hA : AllPlain A) (hB : AllPlain B)
    (hp : ∀ x y, Has W x y → ∀ c : Nat, c < B.channels →
      IsPlain (blend mode mix (A.value x y) (B.value x y) c))
    (h1 : IsMerged mode mix A B M) (h2 : IsCropped W r M MC) (h3 : IsCropped W r A A')
    (h4 : IsCropped W r B B') (h5 : IsMerged mode mix A' B' N) :
    MC.data = N.data ∧ MC.display = N.display ∧ MC.channels = N.channels ∧ MC.space = N.space ∧
      ∀ x y, Has W x y → MC.at_ x y = N.at_ x y := by
  have nd : N.data = W := by
    rw [h5.data, h3.data, h4.data, min_self, min_self, max_self, max_self]
  obtain ⟨-, k3⟩ := C121_crop hnA hA h3
  obtain ⟨-, k4⟩ := C121_crop hnB hB h4
  refine ⟨h2.data.trans nd.symm, ?_, ?_, ?_, fun x y hw => ?_⟩
  · rw [h2.display, h5.display, h4.display, h1.display]
  · rw [h2.channels, h5.channels, h4.channels, h1.channels]
  · rw [h2.space, h5.space, h1.space]
  have merged : ∀ {u out : List F32}, Settled B.channels u out → u.length = B.channels →
      (∀ c : Nat, c < B.channels → u[c]? = some (blend mode mix (A.value x y) (B.value x y) c)) →
      out = u := by
    intro u out hs hl hv
    refine settled_plain hnB hl (fun p hp' => ?_) hs
    obtain ⟨i, hi, rfl⟩ := List.mem_iff_getElem.mp hp'
    have := hv i (hl ▸ hi)
    rw [List.getElem?_eq_getElem hi] at this
    injection this with this
    rw [this]
    exact hp x y hw i (hl ▸ hi)
  have va : ∀ c, A'.value x y c = A.value x y c := by
    intro c
    unfold Picture.value
    have : A'.pixel x y = A.pixel x y := by
      rw [Picture.pixel, if_pos (h3.data ▸ hw), k3 x y hw]
    rw [this]
  have vb : ∀ c, B'.value x y c = B.value x y c := by
    intro c
    unfold Picture.value
    have : B'.pixel x y = B.pixel x y := by
      rw [Picture.pixel, if_pos (h4.data ▸ hw), k4 x y hw]
    rw [this]
  -- the merged picture of the two cut out ones
  obtain ⟨u, su, lu, hu⟩ := h5.pixels x y (nd ▸ hw)
  rw [show A'.value x y = A.value x y from funext va, show B'.value x y = B.value x y from funext vb,
    h4.channels] at hu
  rw [h4.channels] at su lu
  rw [merged su lu hu]
  -- the merged picture cut out
  have pu : ∀ p ∈ u, IsPlain p := by
    intro p hp'
    obtain ⟨i, hi, rfl⟩ := List.mem_iff_getElem.mp hp'
    have := hu i (lu ▸ hi)
    rw [List.getElem?_eq_getElem hi] at this
    injection this with this
    rw [this]
    exact hp x y hw i (lu ▸ hi)
  have hmp : M.pixel x y = u := by
    unfold Picture.pixel
    split
    · rename_i hd
      obtain ⟨v, sv, lv, hv⟩ := h1.pixels x y hd
      rw [merged sv lv hv]
      refine List.ext_getElem? fun i => ?_
      by_cases hi : i < B.channels
      · rw [hv i hi, hu i hi]
      · rw [List.getElem?_eq_none (by omega), List.getElem?_eq_none (by omega)]
    · rename_i hd
      have oA : ¬ Has A.data x y := fun h => hd (merged_has h1 (.inl h))
      have oB : ¬ Has B.data x y := fun h => hd (merged_has h1 (.inr h))
      refine List.ext_getElem? fun i => ?_
      rw [h1.channels]
      by_cases hi : i < B.channels
      · rw [hu i hi, blend_black hm (fun c => value_outside oA) (fun c => value_outside oB)
          (hp x y hw i hi)]
        simp [hi]
      · rw [List.getElem?_eq_none (by simpa using hi), List.getElem?_eq_none (by omega)]
  have := h2.pixels x y hw
  rw [hmp, h1.channels] at this
  exact settled_plain hnB lu pu this

/-! ### Nodes -/

/-- C121, the nodes: a grade node before a crop node gives the same picture as the grade node behind
the crop node, wherever the input had pixels. -/
theorem C121_grade_nodes {H : Type} [HalfLike F32 H] (p : Profile) (lib : NodeLib F32 H)
    (g c : Node F32) (frame : F32) (mode : Mode) (input prev prev' : Stream F32 H) (w : World F32 H)
    (hg : g.attrs.nodeType = .grade) (hwork : Grades g) (hc : c.attrs.nodeType = .cropImage)
    (he : c.getI32 "enable" = 1) (hb : c.getI32 "black_outside" ≠ 1) (hw : IsOff w)
    {P : Picture F32} (hP : Shows lib.bake.color input P) (hl : P.space = colorSpaceLinear)
    (hs : ValidSize (sizeFor (cropWindow c) P.channels)) (hplain : AllPlain P)
    (hgraded : ∀ op G, IsGradeOf g op → IsGraded op P G → AllPlain G) :
    ∃ s1 late s2 early w1 w2 Q Q', g.run p lib frame mode [input] prev w = .ok (.valid, s1, w) ∧
      c.run p lib frame mode [s1] prev' w = .ok (.valid, late, w1) ∧
      c.run p lib frame mode [input] prev' w = .ok (.valid, s2, w2) ∧
      g.run p lib frame mode [s2] prev w2 = .ok (.valid, early, w2) ∧
      Shows lib.bake.color late Q ∧ Shows lib.bake.color early Q' ∧ Q.data = cropWindow c ∧
      Q'.data = cropWindow c ∧ Q.display = Q'.display ∧ Q.channels = Q'.channels ∧
      Q.space = Q'.space ∧
      ∀ x y, Has (cropWindow c) x y → Has P.data x y → Q.at_ x y = Q'.at_ x y := by
  have hn : Channels P.channels := hP.channels
  obtain ⟨s1, op, e1, o1, f1, ⟨G, hG⟩, k1⟩ := C86_grade p lib g frame mode input [] prev w hg hwork
    hP.isStill
  have lG : G.space = colorSpaceLinear := hG.space.trans hl
  have sG : ValidSize (sizeFor (cropWindow c) G.channels) := hG.channels ▸ hs
  obtain ⟨late, w1, e2, -, -, ⟨Q, hQ⟩, k2⟩ := C86_crop_partial p lib c frame mode s1 [] prev' w hc he
    hb hw (still_shows (k1 G hG) (by rw [f1]; exact hP.flat)).appears lG sG
  obtain ⟨s2, w2, e3, -, -, ⟨C, hC⟩, k3⟩ := C86_crop_partial p lib c frame mode input [] prev' w hc he
    hb hw hP.appears hl hs
  obtain ⟨early, op', e4, o4, f4, ⟨Q', hQ'⟩, k4⟩ := C86_grade p lib g frame mode s2 [] prev w2 hg
    hwork (k3 C hC).isStill
  have : op' = op := gradeOf_unique hg o4 o1
  subst this
  obtain ⟨d1, d2, d3, d4, d5⟩ := C121_grade hn hplain hG (hgraded _ G o1 hG) hQ hC hQ'
  exact ⟨s1, late, s2, early, w1, w2, Q, Q', e1, e2, e3, e4, k2 Q hQ,
    still_shows (k4 Q' hQ') (by rw [f4]; exact (k3 C hC).flat), hQ.data,
    d1.symm.trans hQ.data, d2, d3, d4, d5⟩

/-- C121, the nodes: a merge node before a crop node gives the same picture as the merge node behind
two crop nodes, everywhere in the window. -/
theorem C121_merge_nodes {H : Type} [HalfLike F32 H] (p : Profile) (lib : NodeLib F32 H)
    (m c : Node F32) (frame : F32) (mode : Mode) (inputA inputB prev prev' : Stream F32 H)
    (w : World F32 H) (ht : m.attrs.nodeType = .mergeImage) (hm : m.getI32 "enable" = 1)
    (hu : MergeImageMode.ofI32 (m.getI32 "mode") ≠ .uninitialized) (hx : IsFinite (m.getF32 "mix"))
    (hc : c.attrs.nodeType = .cropImage) (he : c.getI32 "enable" = 1)
    (hb : c.getI32 "black_outside" ≠ 1) (hw : IsOff w) {A B : Picture F32}
    (hA : Appears lib.bake inputA A) (hB : Appears lib.bake inputB B)
    (hBd : inputB.dataWindow = B.data) (ha : A.channels = 3 ∨ A.channels = 4) (hb' : B.channels = 3 ∨ B.channels = 4)
    (lA : A.space = colorSpaceLinear) (lB : B.space = colorSpaceLinear)
    (hs : ValidSize (sizeFor ⟨min A.data.minX B.data.minX, min A.data.minY B.data.minY,
      max A.data.maxX B.data.maxX, max A.data.maxY B.data.maxY⟩ 4))
    (sW : ∀ k : Nat, k = 3 ∨ k = 4 → ValidSize (sizeFor (cropWindow c) k)) (pA : AllPlain A)
    (pB : AllPlain B)
    (hp : ∀ x y, Has (cropWindow c) x y → ∀ k : Nat, k < B.channels →
      IsPlain (blend (MergeImageMode.ofI32 (m.getI32 "mode")) (m.getF32 "mix") (A.value x y)
        (B.value x y) k)) :
    ∃ s late a b early w1 w2 w3 w4 w5 Q Q',
      m.run p lib frame mode [inputA, inputB] prev w = .ok (.valid, s, w1) ∧
      c.run p lib frame mode [s] prev' w1 = .ok (.valid, late, w2) ∧
      c.run p lib frame mode [inputA] prev' w = .ok (.valid, a, w3) ∧
      c.run p lib frame mode [inputB] prev' w3 = .ok (.valid, b, w4) ∧
      m.run p lib frame mode [a, b] prev w4 = .ok (.valid, early, w5) ∧
      Shows lib.bake.color late Q ∧ Shows lib.bake.color early Q' ∧ Q.data = cropWindow c ∧
      Q'.data = cropWindow c ∧ Q.display = Q'.display ∧ Q.channels = Q'.channels ∧
      Q.space = Q'.space ∧ ∀ x y, Has (cropWindow c) x y → Q.at_ x y = Q'.at_ x y := by
  have hnA : Channels A.channels := hA.channels
  have hnB : Channels B.channels := hB.channels
  obtain ⟨s, w1, e1, o1, -, ⟨M, hM⟩, k1⟩ := C86_merge_partial p lib m frame mode inputA inputB [] prev
    w ht hm hu hw hA hB hBd ha hb' hs
  have sM : ValidSize (sizeFor (cropWindow c) M.channels) := hM.channels ▸ sW _ hb'
  obtain ⟨late, w2, e2, -, -, ⟨Q, hQ⟩, k2⟩ := C86_crop_partial p lib c frame mode s [] prev' w1 hc he
    hb o1 (k1 M hM).appears hM.space sM
  obtain ⟨a, w3, e3, o3, -, ⟨A', hA'⟩, k3⟩ := C86_crop_partial p lib c frame mode inputA [] prev' w hc
    he hb hw hA lA (sW _ ha)
  obtain ⟨b, w4, e4, o4, -, ⟨B', hB'⟩, k4⟩ := C86_crop_partial p lib c frame mode inputB [] prev' w3 hc
    he hb o3 hB lB (sW _ hb')
  have s5 : ValidSize (sizeFor ⟨min A'.data.minX B'.data.minX, min A'.data.minY B'.data.minY,
      max A'.data.maxX B'.data.maxX, max A'.data.maxY B'.data.maxY⟩ 4) := by
    rw [hA'.data, hB'.data, min_self, min_self, max_self, max_self]
    exact sW 4 (.inr rfl)
  have ca' : A'.channels = 3 ∨ A'.channels = 4 := hA'.channels ▸ ha
  have cb' : B'.channels = 3 ∨ B'.channels = 4 := hB'.channels ▸ hb'
  obtain ⟨early, w5, e5, -, -, ⟨Q', hQ'⟩, k5⟩ := C86_merge_partial p lib m frame mode a b [] prev w4
    ht hm hu o4 (k3 A' hA').appears (k4 B' hB').appears (k4 B' hB').data ca' cb' s5
  obtain ⟨d1, d2, d3, d4, d5⟩ := C121_merge hx hnA hnB pA pB hp hM hQ hA' hB' hQ'
  exact ⟨s, late, a, b, early, w1, w2, w3, w4, w5, Q, Q', e1, e2, e3, e4, e5, k2 Q hQ, k5 Q' hQ',
    hQ.data, d1.symm.trans hQ.data, d2, d3, d4, d5⟩

end

/-! ### Examples -/

section
attribute [local instance] exactPowf

/-- A picture of one pixel cut out with one more pixel on its left. -/
def widePicture (left v : List F32) : Picture F32 :=
  ⟨⟨-1, 0, 1, 1⟩, ⟨0, 0, 1, 1⟩, 4, colorSpaceLinear, fun x _ => if x < 0 then left else v⟩

/-- Black and transparent. -/
def noLight : List F32 := [0, 0, 0, 0]

theorem has_wide {x y : Int} (h : Has ⟨-1, 0, 1, 1⟩ x y) : (x = -1 ∨ x = 0) ∧ y = 0 := by
  obtain ⟨h1, h2, h3, h4⟩ := h
  dsimp only at *
  omega

theorem wide_cropped {v : List F32} (h : applyColorMatrix v 4 Mat4.identity = .ok v) :
    IsCropped ⟨-1, 0, 1, 1⟩ false (pixelPicture v) (widePicture noLight v) := by
  refine ⟨rfl, rfl, rfl, rfl, fun x y hxy => ?_⟩
  obtain ⟨rfl | rfl, rfl⟩ := has_wide hxy
  · exact ⟨_, (by decide +kernel : applyColorMatrix noLight 4 Mat4.identity = .ok noLight), .nil _⟩
  · exact ⟨_, h, .nil _⟩

theorem narrow_cropped {l v : List F32} (h : applyColorMatrix v 4 Mat4.identity = .ok v) :
    IsCropped ⟨0, 0, 1, 1⟩ false (widePicture l v) (pixelPicture v) := by
  refine ⟨rfl, rfl, rfl, rfl, fun x y hxy => ?_⟩
  obtain ⟨rfl, rfl⟩ := has_one hxy
  exact ⟨_, h, .nil _⟩

theorem pixel_cropped {v u : List F32} (h : applyColorMatrix v 4 Mat4.identity = .ok u) :
    IsCropped ⟨0, 0, 1, 1⟩ false (pixelPicture v) (pixelPicture u) := by
  refine ⟨rfl, rfl, rfl, rfl, fun x y hxy => ?_⟩
  obtain ⟨rfl, rfl⟩ := has_one hxy
  exact ⟨_, h, .nil _⟩

instance (x : F32) : Decidable (IsPlain x) := by unfold IsPlain IsFinite; infer_instance

theorem pixel_plain {v : List F32} (hl : v.length = 4) (h : ∀ p ∈ v, IsPlain p) :
    AllPlain (pixelPicture v) := fun _ _ _ => ⟨hl, h⟩

theorem redGlass_plain : AllPlain (pixelPicture redGlass) := pixel_plain rfl (by decide +kernel)

theorem whiteWall_plain : AllPlain (pixelPicture whiteWall) := pixel_plain rfl (by decide +kernel)

-- C121: red glass with some room on its left.
example : AllPlain (widePicture noLight redGlass) :=
  (C121_crop (.inr (.inr rfl)) redGlass_plain (wide_cropped (by decide +kernel))).1

-- C121: red glass cut out wide and then narrow.
example : (pixelPicture redGlass).at_ 0 0 = (pixelPicture redGlass).at_ 0 0 :=
  (C121_twice (.inr (.inr rfl)) redGlass_plain
    (fun x y h => by obtain ⟨rfl, rfl⟩ := has_one h; unfold Has; decide)
    (wide_cropped (by decide +kernel)) (narrow_cropped (by decide +kernel))
    (pixel_cropped (by decide +kernel))).2.2.2 0 0 (by unfold Has; decide)

/-- Everything twice as bright and one brighter. -/
def brightOp : GradeOp F32 :=
  { (GradeOp.new : GradeOp F32) with
    multiplyR := ofInt 2, multiplyG := ofInt 2, multiplyB := ofInt 2, offsetR := 1, offsetG := 1
    offsetB := 1 }

/-- Red glass graded, and nothing graded. -/
def brightGlass : List F32 := [ofInt 2, 1, 1, oneHalf]
def brightNothing : List F32 := [1, 1, 1, 0]

theorem bright_graded : IsGraded brightOp (pixelPicture redGlass) (pixelPicture brightGlass) := by
  refine ⟨rfl, rfl, rfl, rfl, fun x y _ => ?_⟩
  exact .step rfl (by decide +kernel : brightOp.applySlice redGlass 4 = .ok brightGlass) (.nil _)

theorem bright_wide : IsGraded brightOp (widePicture noLight redGlass)
    (widePicture brightNothing brightGlass) := by
  refine ⟨rfl, rfl, rfl, rfl, fun x y h => ?_⟩
  obtain ⟨rfl | rfl, rfl⟩ := has_wide h
  · exact .step rfl (by decide +kernel : brightOp.applySlice noLight 4 = .ok brightNothing) (.nil _)
  · exact .step rfl (by decide +kernel : brightOp.applySlice redGlass 4 = .ok brightGlass) (.nil _)

theorem brightGlass_plain : AllPlain (pixelPicture brightGlass) := pixel_plain rfl (by decide +kernel)

-- C121: red glass made brighter, before or behind a wide crop.
example : (widePicture noLight brightGlass).at_ 0 0 = (widePicture brightNothing brightGlass).at_ 0 0 :=
  (C121_grade (.inr (.inr rfl)) redGlass_plain bright_graded brightGlass_plain
    (wide_cropped (by decide +kernel)) (wide_cropped (by decide +kernel)) bright_wide).2.2.2.2 0 0
    (by unfold Has; decide) (by unfold Has; decide)

/-- C121 is false for a grade where the window sticks out: what is added by a crop is black, and a
grade behind it makes that brighter. -/
theorem C121_counterexample_outside : ∃ (op : GradeOp F32) (P G GC C CG : Picture F32),
    AllPlain P ∧ AllPlain G ∧ IsGraded op P G ∧ IsCropped ⟨-1, 0, 1, 1⟩ false G GC ∧
      IsCropped ⟨-1, 0, 1, 1⟩ false P C ∧ IsGraded op C CG ∧ Has GC.data (-1) 0 ∧
      GC.value (-1) 0 0 = 0 ∧ CG.value (-1) 0 0 = 1 :=
  ⟨brightOp, _, _, _, _, _, redGlass_plain, brightGlass_plain, bright_graded,
    wide_cropped (by decide +kernel), wide_cropped (by decide +kernel), bright_wide,
    by unfold Has; decide, by decide +kernel, by decide +kernel⟩

/-- C121 is false for pixels that are not finite: cutting out a pixel with infinite red makes its
other channels NaN. -/
theorem C121_counterexample_infinite (Q : Picture F32)
    (h : IsCropped ⟨0, 0, 1, 1⟩ false (pixelPicture [inf false, 1, 1, 1]) Q) :
    Q.at_ 0 0 = [inf false, nan, nan, nan] := by
  obtain ⟨mid, e, k⟩ := h.pixels 0 0 (by unfold Has; decide)
  cases k
  have e' : applyColorMatrix [inf false, 1, 1, 1] 4 Mat4.identity =
    .ok [(inf false : F32), nan, nan, nan] := by decide +kernel
  have := e.symm.trans e'
  injection this

example : IsCropped ⟨0, 0, 1, 1⟩ false (pixelPicture [inf false, 1, 1, 1])
    (pixelPicture [inf false, nan, nan, nan]) := pixel_cropped (by decide +kernel)

-- C121: red glass in front of a white wall, cut out late or early.
example : (pixelPicture redGlassOnWhite).at_ 0 0 = (pixelPicture redGlassOnWhite).at_ 0 0 :=
  (C121_merge (mode := .over) (mix := ofInt 1) (W := ⟨0, 0, 1, 1⟩) one_finite (.inr (.inr rfl))
    (.inr (.inr rfl)) redGlass_plain whiteWall_plain
    (fun x y h c hc => by
      obtain ⟨rfl, rfl⟩ := has_one h
      revert c
      decide +kernel)
    glass_over_wall (pixel_cropped (by decide +kernel)) (pixel_cropped (by decide +kernel))
    (pixel_cropped (by decide +kernel)) glass_over_wall).2.2.2.2 0 0 (by unfold Has; decide)

/-- A crop node for one pixel. -/
def cropPixel : Node F32 :=
  ⟨2, .uninitialized, .cropImage {
    enable := 1, useCache := 0, windowMinX := 0, windowMinY := 0, windowMaxX := 1, windowMaxY := 1, reformat := 0
    blackOutside := 0, intersect := 0 }⟩

-- C121: the nodes, with any libraries.
example {H : Type} [HalfLike F32 H] (lib : NodeLib F32 H) (w : World F32 H) (hw : IsOff w) :
    ∃ s late a b early w1 w2 w3 w4 w5 Q Q',
      productNode.run .debug lib 1 modeAll [pixelStream redGlass, pixelStream whiteWall] .new w =
        .ok (.valid, s, w1) ∧
      cropPixel.run .debug lib 1 modeAll [s] .new w1 = .ok (.valid, late, w2) ∧
      cropPixel.run .debug lib 1 modeAll [pixelStream redGlass] .new w = .ok (.valid, a, w3) ∧
      cropPixel.run .debug lib 1 modeAll [pixelStream whiteWall] .new w3 = .ok (.valid, b, w4) ∧
      productNode.run .debug lib 1 modeAll [a, b] .new w4 = .ok (.valid, early, w5) ∧
      Shows lib.bake.color late Q ∧ Shows lib.bake.color early Q' ∧ Q.data = ⟨0, 0, 1, 1⟩ ∧
      Q'.data = ⟨0, 0, 1, 1⟩ ∧ Q.display = Q'.display ∧ Q.channels = Q'.channels ∧
      Q.space = Q'.space ∧ ∀ x y, Has ⟨0, 0, 1, 1⟩ x y → Q.at_ x y = Q'.at_ x y :=
  C121_merge_nodes .debug lib productNode cropPixel 1 modeAll (pixelStream redGlass)
    (pixelStream whiteWall) .new .new w rfl (by decide) (by decide) one_finite rfl (by decide)
    (by decide) hw (pixelStream_shows _ rfl (by decide +kernel)).appears
    (pixelStream_shows _ rfl (by decide +kernel)).appears rfl (.inr rfl) (.inr rfl) rfl rfl
    (by unfold ValidSize; decide) (by unfold ValidSize; rintro k (rfl | rfl) <;> decide)
    redGlass_plain whiteWall_plain
    (fun x y h c hc => by
      obtain ⟨rfl, rfl⟩ := has_one h
      revert c
      decide +kernel)

/-- A grade node that doubles red. -/
def doubleRed : Node F32 :=
  ⟨1, .uninitialized, .grade { GradeAttrs.new with multiplyR := ofInt 2 }⟩

def doubleRedOp : GradeOp F32 := { GradeOp.new with multiplyR := ofInt 2 }

theorem carried_single {n : Int} {op : GradeOp F32} {a b : List F32} (he : op.getI32 "enable" = 1)
    (h : Carried n [op] a b) : op.applySlice a n = .ok b := by
  rcases h with _ | ⟨h, -⟩ | ⟨-, h, k⟩
  · exact absurd he h
  · cases k
    exact h

-- C121: the nodes of a grade.
example {H : Type} [HalfLike F32 H] (lib : NodeLib F32 H) (w : World F32 H) (hw : IsOff w) :
    ∃ s1 late s2 early w1 w2 Q Q',
      doubleRed.run .debug lib 1 modeAll [pixelStream redGlass] .new w = .ok (.valid, s1, w) ∧
      cropPixel.run .debug lib 1 modeAll [s1] .new w = .ok (.valid, late, w1) ∧
      cropPixel.run .debug lib 1 modeAll [pixelStream redGlass] .new w = .ok (.valid, s2, w2) ∧
      doubleRed.run .debug lib 1 modeAll [s2] .new w2 = .ok (.valid, early, w2) ∧
      Shows lib.bake.color late Q ∧ Shows lib.bake.color early Q' ∧ Q.data = ⟨0, 0, 1, 1⟩ ∧
      Q'.data = ⟨0, 0, 1, 1⟩ ∧ Q.display = Q'.display ∧ Q.channels = Q'.channels ∧
      Q.space = Q'.space ∧
      ∀ x y, Has ⟨0, 0, 1, 1⟩ x y → Has ⟨0, 0, 1, 1⟩ x y → Q.at_ x y = Q'.at_ x y := by
  refine C121_grade_nodes .debug lib doubleRed cropPixel 1 modeAll (pixelStream redGlass) .new .new w
    rfl (by decide +kernel) rfl (by decide) (by decide) hw (pixelStream_shows _ rfl (by decide +kernel)) rfl
    (by unfold ValidSize; decide) redGlass_plain ?_
  intro op G ho hG x y hxy
  have hd : IsGradeOf doubleRed doubleRedOp := ⟨by decide +kernel, by decide +kernel, by decide +kernel⟩
  have := gradeOf_unique rfl ho hd
  subst this
  have hxy' := hxy
  rw [hG.data] at hxy'
  have e : doubleRedOp.applySlice redGlass 4 = .ok [1, 0, 0, oneHalf] := by decide +kernel
  have k := carried_single (by decide +kernel) (hG.pixels x y hxy')
  have : [1, 0, 0, oneHalf] = G.at_ x y := by
    have := e.symm.trans k
    injection this
  rw [← this, hG.channels]
  exact ⟨rfl, by decide +kernel⟩

end
end OCG.Props
