import Verif.Proofs.Picture
import Verif.Props.CacheRun
/-
C86: the picture each kind of node makes of the pictures of its inputs.
-/

namespace OCG.Props

open BlockSpec BBoxSpec ImageSpecs PixelSpec ColorSpec PictureSpec ComputeSpec
open CacheSpec (IsOff lookup_off_mpr)

set_option linter.unusedSimpArgs false

section
variable {F H : Type} [FloatLike F] [HalfLike F H]

/-- Storing pixels with no colours waiting. -/
theorem stored_still {lib : ColorLib F} {out : Stream F H} {Q : Picture F} {v : List F}
    (hd : out.dataWindow = Q.data) (hw : out.displayWindow = Q.display)
    (hsp : out.imageSpec.colorSpace = colorSpaceLinear) (hq : Q.space = colorSpaceLinear)
    (hn : Channels Q.channels) (hs : ValidSize (sizeFor Q.data Q.channels))
    (hm : out.colorMatrix = Mat4.identity)
    (ho : out.colorOps = [])
    (hb : out.pixelBlock.convert (.known .f32) = .ok (floatImage (sizeFor Q.data Q.channels) v))
    (hl : (v.length : Int) = elements (sizeFor Q.data Q.channels))
    (hp : ∀ x y, Has Q.data x y →
      Settled Q.channels (pixelAt Q.data Q.channels v x y) (Q.at_ x y)) : Still lib out Q := by
  refine ⟨hd, hw, hsp.trans hq.symm, hn, hs, v, ⟨v, ?_, fun _ => rfl, fun h => absurd hsp h⟩, hl,
    ?_⟩
  · rw [hd]; exact hb
  · intro x y h
    rw [hm, ho]
    exact hp x y h

/-- Storing pixels with nothing waiting. -/
theorem stored_shows {lib : ColorLib F} {out : Stream F H} {Q : Picture F} {v : List F}
    (hd : out.dataWindow = Q.data) (hw : out.displayWindow = Q.display)
    (hsp : out.imageSpec.colorSpace = colorSpaceLinear) (hq : Q.space = colorSpaceLinear)
    (hn : Channels Q.channels) (hs : ValidSize (sizeFor Q.data Q.channels))
    (hf : ∀ d ∈ out.deformers, d.enable ≠ 1) (hm : out.colorMatrix = Mat4.identity)
    (ho : out.colorOps = []) (hb : out.pixelBlock = floatImage (sizeFor Q.data Q.channels) v)
    (hl : (v.length : Int) = elements (sizeFor Q.data Q.channels))
    (hp : ∀ x y, Has Q.data x y →
      Settled Q.channels (pixelAt Q.data Q.channels v x y) (Q.at_ x y)) : Shows lib out Q :=
  have h := stored_still (lib := lib) hd hw hsp hq hn hs hm ho
    (by rw [hb]; exact C18_convert_same (floatImage (H := H) _ v)) hl hp
  ⟨h.data, h.display, h.space, h.channels, h.size, hf, h.pixels⟩

omit [HalfLike F H] in
/-- The pixels of a picture that is shown have the right number of values. -/
theorem exists_settled {n : Nat} (hn : Channels n) (w : BBox) (f : Int → Int → List F)
    (hf : ∀ x y, Has w x y → (f x y).length = n) :
    ∃ g : Int → Int → List F, ∀ x y, Has w x y → Settled n (f x y) (g x y) := by
  have : ∀ x y, ∃ o, Has w x y → Settled n (f x y) o := fun x y => by
    by_cases h : Has w x y
    · obtain ⟨o, h1, -⟩ := graded_total hn Mat4.identity [] (hf x y h)
      exact ⟨o, fun _ => h1⟩
    · exact ⟨[], fun h' => absurd h' h⟩
  choose g hg using this
  exact ⟨g, hg⟩

theorem shows_length {lib : ColorLib F} {s : Stream F H} {P : Picture F} (h : Shows lib s P)
    {x y : Int} (hxy : Has P.data x y) : (P.at_ x y).length = P.channels := by
  obtain ⟨v, -, h2, h3⟩ := h.pixels
  exact graded_length h.channels (pixelAt_length h.size h2 hxy) (h3 x y hxy)

theorem shows_pixel_length {lib : ColorLib F} {s : Stream F H} {P : Picture F} (h : Shows lib s P)
    (x y : Int) : (P.pixel x y).length = P.channels := by
  unfold Picture.pixel
  split
  · exact shows_length h ‹_›
  · exact List.length_replicate

theorem appears_pixel_length [FloatConst F] {lib : BakeLib F} {s : Stream F H} {P : Picture F}
    (h : Appears lib s P) (x y : Int) : (P.pixel x y).length = P.channels := by
  unfold Picture.pixel
  split
  · exact h.length ‹_›
  · exact List.length_replicate

theorem still_length {lib : ColorLib F} {s : Stream F H} {P : Picture F} (h : Still lib s P)
    {x y : Int} (hxy : Has P.data x y) : (P.at_ x y).length = P.channels := by
  obtain ⟨v, -, h2, h3⟩ := h.pixels
  exact graded_length h.channels (pixelAt_length h.size h2 hxy) (h3 x y hxy)

theorem still_shows {lib : ColorLib F} {s : Stream F H} {P : Picture F} (h : Still lib s P)
    (hd : ∀ d ∈ s.deformers, d.enable ≠ 1) : Shows lib s P :=
  ⟨h.data, h.display, h.space, h.channels, h.size, hd, h.pixels⟩

/-- A buffer that holds a picture, read at any position. -/
theorem holds_valueAt {P : Picture F} {v : List F} (h : Holds P v)
    (hs : ValidSize (sizeFor P.data P.channels)) (x y : Int) (c : Nat) :
    valueAt P.data P.channels v x y c = P.value x y c := by
  unfold valueAt Picture.value Picture.pixel
  rw [if_pos (by omega : (0 : Int) ≤ c), Int.toNat_natCast]
  by_cases hxy : Has P.data x y
  · have hl : (P.at_ x y).length = P.channels := by
      rw [← h.pixels x y hxy]; exact pixelAt_length hs h.length hxy
    rw [if_pos hxy]
    by_cases hc : c < P.channels
    · rw [if_pos ⟨hxy, by omega⟩, ← pixelAt_channel hs h.length hxy hc, h.pixels x y hxy,
        List.getD_eq_getElem?_getD]
    · rw [if_neg (by omega), List.getD_eq_default _ _ (by omega)]
  · rw [if_neg (fun h => hxy h.1), if_neg hxy, List.getD_eq_getElem?_getD,
      List.getElem?_replicate]
    split <;> rfl

omit [FloatLike F] [HalfLike F H] in
theorem cover_unique {a b w w' : BBox} (h : SmallestCover a b w) (h' : SmallestCover a b w') :
    w = w' := by
  have h1 := h.2 w' h'.1.1 h'.1.2
  have h2 := h'.2 w h.1.1 h.1.2
  obtain ⟨x1, y1, x2, y2⟩ := w
  obtain ⟨x1', y1', x2', y2'⟩ := w'
  simp only [Inside, BBox.mk.injEq] at *
  omega

theorem blend_congr (mode : MergeImageMode) (mix : F) {a b a' b' : Int → F} {c : Int}
    (h1 : a c = a' c) (h2 : b c = b' c) (h3 : a 3 = a' 3) :
    blend mode mix a b c = blend mode mix a' b' c := by
  cases mode <;> simp only [blend, h1, h2, h3]

/-- Cutting a window out of a buffer that holds a picture. -/
theorem crop_holds (p : Profile) {P : Picture F} {v : List F} (h : Holds P v)
    (hs : ValidSize (sizeFor P.data P.channels)) (image : Image F H)
    (hd : image.dataWindow = P.data)
    (hb : image.pixelBlock = floatImage (sizeFor P.data P.channels) v) (crop : BBox)
    (hc : ValidSize (sizeFor crop P.channels)) (reformat intersect : Bool) :
    ∃ d : List F, cropImage p image crop reformat false intersect = .ok
        ⟨floatImage (sizeFor crop P.channels) d, image.spec,
          if reformat then crop else image.displayWindow, crop⟩ ∧
      (d.length : Int) = elements (sizeFor crop P.channels) ∧
      ∀ x y, Has crop x y → pixelAt crop P.channels d x y = P.pixel x y := by
  obtain ⟨block, spec, display, data⟩ := image
  simp only at hd hb
  subst hb hd
  obtain ⟨d, e, hl, hpx⟩ : ∃ d : List F,
      cropImage p ⟨floatImage (H := H) (sizeFor P.data P.channels) v, spec, display, P.data⟩ crop
        reformat false intersect = .ok ⟨floatImage (sizeFor crop P.channels) d, spec,
          if reformat then crop else display, crop⟩ ∧
      (d.length : Int) = elements (sizeFor crop P.channels) ∧
      ∀ x y c, Has crop x y → 0 ≤ c → c < (P.channels : Int) →
        channelAt (sizeFor crop P.channels) d (x - crop.minX) (y - crop.minY) c =
          if Has P.data x y then
            channelAt (sizeFor P.data P.channels) v (x - P.data.minX) (y - P.data.minY) c
          else some 0 :=
    C50_crop_partial p ⟨floatImage (H := H) (sizeFor P.data P.channels) v, spec, display, P.data⟩
      crop reformat intersect ⟨hs, h.length⟩ rfl rfl hc
  refine ⟨d, e, hl, ?_⟩
  intro x y hxy
  have hlen := pixelAt_length hc hl hxy
  have hlen' : (P.pixel x y).length = P.channels := by
    unfold Picture.pixel
    split
    · rename_i hin
      rw [← h.pixels x y hin]; exact pixelAt_length hs h.length hin
    · exact List.length_replicate
  apply List.ext_getElem?
  intro c
  by_cases hcn : c < P.channels
  · rw [pixelAt_channel hc hl hxy hcn]
    refine (hpx x y c hxy (by omega) (by
      show (c : Int) < (P.channels : Int); omega)).trans ?_
    unfold Picture.pixel
    by_cases hin : Has P.data x y
    · rw [if_pos hin, if_pos hin, ← h.pixels x y hin, pixelAt_channel hs h.length hin hcn]
    · rw [if_neg hin, if_neg hin, List.getElem?_replicate, if_pos hcn]
  · rw [List.getElem?_eq_none (by omega), List.getElem?_eq_none (by omega)]

/-- A fresh block is white. -/
theorem resize_white (p : Profile) (t : DType) {size : BlockSize} (hs : ValidSize size) :
    (PixelBlock.emptyF32 : PixelBlock F H).dataResize p size (.known t) =
      .ok ⟨size, ⟨t, List.replicate (elements size).toNat (whiteElem t)⟩⟩ := by
  have he : ∀ d : List (Elem F H t), (d.length : Int) = elements size →
      (∀ i, i < d.length → d[i]? = some (whiteElem t)) →
      d = List.replicate (elements size).toNat (whiteElem t) := by
    intro d h1 h2
    apply List.ext_getElem?
    intro i
    rw [List.getElem?_replicate]
    split
    · exact h2 i (by omega)
    · exact List.getElem?_eq_none (by omega)
  by_cases h : t = .f32
  · subst h
    obtain ⟨d, h1, h2, h3⟩ := C17_resize_same_type (F := F) (H := H) p ⟨0, 0, 0⟩ size .f32 [] hs
    have h4 := he d h2 (fun i hi => by rw [h3 i hi, if_neg (by simp)])
    rw [← h4]
    exact h1
  · obtain ⟨d, h1, h2, h3⟩ := C17_resize_other_type p (PixelBlock.emptyF32 : PixelBlock F H) size t
      (fun h' => h h'.symm) hs
    rw [h1, he d h2 h3]

variable [FloatConst F] [FloatBits F]

/-! ### Null, Read, Grade -/

/-- C86: a null node passes its first input on. -/
theorem C86_null (p : Profile) (lib : NodeLib F H) (n : Node F) (frame : F) (mode : Mode)
    (input : Stream F H) (rest : List (Stream F H)) (prev : Stream F H) (w : World F H)
    (ht : n.attrs.nodeType = .null) :
    n.run p lib frame mode (input :: rest) prev w = .ok (.valid, input, w) := by
  obtain ⟨id, st, attrs⟩ := n
  cases attrs <;> simp only [NodeAttrs.nodeType, reduceCtorEq] at ht
  rfl

/-- C86: a read node shows the picture in the file of the frame. -/
theorem C86_read (p : Profile) (lib : NodeLib F H) (n : Node F) (frame : F) (mode : Mode)
    (inputs : List (Stream F H)) (prev : Stream F H) (w : World F H)
    (ht : n.attrs.nodeType = .readImage) (he : n.getI32 "enable" ≠ 0)
    (hm : mode &&& modePixel = modePixel) (hw : IsOff w) {P : Picture F}
    (hP : IsFile lib (filePath lib n frame) P) :
    ∃ out w', n.run p lib frame mode inputs prev w = .ok (.valid, out, w') ∧ IsOff w' ∧
      w'.writes = w.writes ∧ Shows lib.bake.color out P := by
  obtain ⟨id, st, attrs⟩ := n
  cases attrs <;> simp only [NodeAttrs.nodeType, reduceCtorEq] at ht
  rename_i a
  simp only [filePath, attr_eval] at he hP
  obtain ⟨spec, t, k, v, hk, hh, hs, hf, hch, hn, hdata, hdis, hsp, hkl, hlin, hlen, hpx⟩ := hP
  obtain ⟨hv, hnc⟩ := sane_block hs t
  have hc := hs.channels
  obtain ⟨img, -, ha, -⟩ := allocate_ok p spec (Image.empty : Image F H) t hf (by omega) hnc hv hs.x
    hs.y hs.fullX hs.fullY
  obtain ⟨w1, w2, w3, m, hm1, hm2⟩ := allocate_windows ha
  obtain ⟨m', hm3, -, hm4⟩ := stride_eq t (by omega : 0 ≤ spec.numChannels) hnc
  rw [hf] at hm1 hm2
  rw [hm3] at hm1
  cases hm1
  rw [hm4] at hm2
  have hm2 := (resize_white p t hv).symm.trans hm2
  have hsz : (⟨spec.width, spec.height, blockChannels t spec.numChannels⟩ : BlockSize) =
      sizeFor P.data P.channels := by
    simp only [sizeFor, hn, hdata, blockChannels, BlockSize.mk.injEq, and_true]
    omega
  rw [hsz] at hm2 hv
  rw [← hkl, Int.toNat_natCast] at hm2
  have hread : readImage p lib.oiio (Path.expandString lib.shell a.filePath (frameNum frame)) =
      .ok { img with
        spec := spec.imageSpec
        pixelBlock := ⟨img.pixelBlock.size, ⟨img.pixelBlock.block.dtype,
          lib.oiio.pixels (Path.expandString lib.shell a.filePath (frameNum frame))
            spec.numChannels img.pixelBlock.block.dtype img.pixelBlock.size
            img.pixelBlock.block.data⟩⟩ } := by
    unfold readImage oiioRead
    rw [hh]
    dsimp only
    rw [if_neg (by omega)]
    exact Res.bind_ok.mpr ⟨(true, _), Res.bind_ok.mpr ⟨_, ha, rfl⟩, rfl⟩
  obtain ⟨w', e, ho, hwr⟩ := lookup_off_mpr (p := p) (u := decide (a.useCache ≠ 0))
    (key := Node.hash lib.hash lib.shell ⟨id, st, .readImage a⟩ frame (inputs.map (·.hash)))
    (make := do
      let image ← readImage p lib.oiio (Path.expandString lib.shell a.filePath (frameNum frame))
      .ok (image, ()))
    (hit := ()) hw (Res.bind_ok.mpr ⟨_, hread, rfl⟩)
  refine ⟨{ (Stream.new : Stream F H) with
    dataWindow := img.dataWindow, displayWindow := img.displayWindow
    hash := Node.hash lib.hash lib.shell ⟨id, st, .readImage a⟩ frame (inputs.map (·.hash))
    pixelBlock := ⟨img.pixelBlock.size, ⟨img.pixelBlock.block.dtype,
      lib.oiio.pixels (Path.expandString lib.shell a.filePath (frameNum frame))
        spec.numChannels img.pixelBlock.block.dtype img.pixelBlock.size
        img.pixelBlock.block.data⟩⟩
    imageSpec := spec.imageSpec }, w', ?_, ho, hwr, ?_⟩
  · simp only [Node.run, ReadImageAttrs.compute]
    rw [if_pos hm, if_neg he]
    simp only [hk]
    exact Res.bind_ok.mpr ⟨_, e, rfl⟩
  · have hb := Except.ok.inj hm2
    refine ⟨w2.trans hdata.symm, w1.trans hdis.symm, hsp.symm, .inr hch, hv, (fun d hd => nomatch hd),
      v, ?_, hlen, hpx⟩
    dsimp only
    rw [← hb, w2, ← hdata]
    exact hlin


omit [FloatConst F] [FloatBits F] [HalfLike F H] in
/-- The attributes determine the operation. -/
theorem gradeOf_unique {n : Node F} (ht : n.attrs.nodeType = .grade) {a b : GradeOp F}
    (ha : IsGradeOf n a) (hb : IsGradeOf n b) : a = b := by
  obtain ⟨a1, a2, a3⟩ := ha
  obtain ⟨b1, b2, b3⟩ := hb
  rw [ht] at a2 a3 b2 b3
  have h1 : ∀ name ∈ AttrSpec.names .grade .i32, a.getI32 name = b.getI32 name := fun name hm => by
    by_cases h : name = "enable"
    · rw [h, a1, b1]
    · rw [a2 name hm h, b2 name hm h]
  have h2 : ∀ name ∈ AttrSpec.names .grade .f32, a.getF32 name = b.getF32 name := fun name hm => by
    rw [a3 name hm, b3 name hm]
  simp only [AttrSpec.names, List.forall_mem_cons, List.not_mem_nil, false_implies, implies_true,
    and_true, GradeOp.getI32, GradeOp.getF32] at h1 h2
  cases a
  cases b
  simp only at h1 h2
  simp only [GradeOp.mk.injEq]
  tauto

/-- C86: a grade node that is switched on adds its operation to the picture; deformers
keep waiting. -/
theorem C86_grade (p : Profile) (lib : NodeLib F H) (n : Node F) (frame : F) (mode : Mode)
    (input : Stream F H) (rest : List (Stream F H)) (prev : Stream F H) (w : World F H)
    (ht : n.attrs.nodeType = .grade) (hg : Grades n) {P : Picture F}
    (hP : Still lib.bake.color input P) :
    ∃ out op, n.run p lib frame mode (input :: rest) prev w = .ok (.valid, out, w) ∧
      IsGradeOf n op ∧ out.deformers = input.deformers ∧ (∃ Q, IsGraded op P Q) ∧
      ∀ Q, IsGraded op P Q → Still lib.bake.color out Q := by
  obtain ⟨out, op, e, h1, h2, h3⟩ := C47_grade_appends p lib n frame mode input rest prev w ht hg
  have hn : Channels P.channels := hP.channels
  refine ⟨out, op, e, ⟨h1, h2⟩, h3.deformers, ?_, ?_⟩
  · have : ∀ x y, ∃ o, Has P.data x y → Carried P.channels [op] (P.at_ x y) o := fun x y => by
      obtain ⟨o, h4, -⟩ := C47_every_pixel [op] (P.at_ x y) hn
      exact ⟨o, fun _ => (C47_in_order _ _ _ hn.pos').mp h4⟩
    choose g hg using this
    exact ⟨⟨P.data, P.display, P.channels, P.space, g⟩, ⟨rfl, rfl, rfl, rfl, hg⟩⟩
  · rintro ⟨data, display, channels, space, at_⟩ ⟨q1, q2, q3, q4, q5⟩
    simp only at q1 q2 q3 q4 q5
    subst q1 q2 q3 q4
    obtain ⟨v, k1, k2, k3⟩ := hP.pixels
    refine ⟨h3.data.trans hP.data, h3.display.trans hP.display,
      (congrArg ImageSpec.colorSpace h3.spec).trans hP.space, hP.channels, hP.size, v, ?_, k2, ?_⟩
    · rw [h3.pixels, h3.spec, h3.data]; exact k1
    · intro x y hxy
      obtain ⟨mid, m1, m2⟩ := k3 x y hxy
      refine ⟨mid, ?_, ?_⟩
      · rw [h3.matrix]; exact m1
      · rw [h3.ops]
        exact (C47_in_order _ _ _ hn.pos').mp ((C47_downstream_after _ _ _ _ hn.pos').mpr
          ⟨_, (C47_in_order _ _ _ hn.pos').mpr m2, (C47_in_order _ _ _ hn.pos').mpr (q5 x y hxy)⟩)

omit [FloatBits F] [FloatConst F] in
theorem still_same {lib : ColorLib F} {s out : Stream F H} {P : Picture F} {ds : List (Deformer F)}
    (h : Still lib s P) (hs : SameImage out { s with deformers := ds }) :
    Still lib out P ∧ out.deformers = ds := by
  refine ⟨⟨hs.data.trans h.data, hs.display.trans h.display,
    (congrArg ImageSpec.colorSpace hs.spec).trans h.space, h.channels, h.size, ?_⟩,
    hs.deformers⟩
  have e1 := hs.pixels
  have e2 := hs.spec
  have e3 := hs.data
  have e4 := hs.matrix
  have e5 := hs.ops
  dsimp only at e1 e2 e3 e4 e5
  rw [e1, e2, e3, e4, e5]
  exact h.pixels

/-- C86: a transform node that is switched on adds its deformer to those that wait. -/
theorem C86_transform (p : Profile) (lib : NodeLib F H) (n : Node F) (frame : F) (mode : Mode)
    (input : Stream F H) (rest : List (Stream F H)) (prev : Stream F H) (w : World F H)
    (ht : n.attrs.nodeType = .transform) (he : n.getI32 "enable" = 1) {P : Picture F}
    (hP : Still lib.bake.color input P) :
    ∃ out, ∃ d : TransformDeformer F,
      n.run p lib frame mode (input :: rest) prev w = .ok (.valid, out, w) ∧
      d.getI32 "enable" = 1 ∧ Describes n d.getI32 d.getF32 ∧
      out.deformers = input.deformers ++ [.transform d] ∧ Still lib.bake.color out P := by
  obtain ⟨out, d, e, h1, h2, h3⟩ := C82_transform_appends p lib n frame mode input rest prev w ht he
  exact ⟨out, d, e, h1, h2, (still_same hP h3).2, (still_same hP h3).1⟩

/-- C86: a lens node that is switched on, with parameters that the lens model takes, adds its
deformer to those that wait. -/
theorem C86_lens (p : Profile) (lib : NodeLib F H) (n : Node F) (frame : F) (mode : Mode)
    (input : Stream F H) (rest : List (Stream F H)) (prev : Stream F H) (w : World F H)
    (ht : n.attrs.nodeType = .lensDistort) (he : n.getI32 "enable" = 1) {P : Picture F}
    (hP : Still lib.bake.color input P) :
    ∃ d : Tde4Deformer F, d.getI32 "enable" = 1 ∧ Describes n d.getI32 d.getF32 ∧
      StandardCamera d.getF32 ∧
      (lib.lensAccepts d = true → ∃ out,
        n.run p lib frame mode (input :: rest) prev w = .ok (.valid, out, w) ∧
        out.deformers = input.deformers ++ [.tde4 d] ∧ Still lib.bake.color out P) := by
  obtain ⟨d, h1, h2, hc, h3, -⟩ := C82_lens_appends p lib n frame mode input rest prev w ht he
  refine ⟨d, h1, h2, hc, fun ha => ?_⟩
  obtain ⟨out, e, hs⟩ := h3 ha
  exact ⟨out, e, (still_same hP hs).2, (still_same hP hs).1⟩

/-- C86: a grade node that is switched off passes its first input on. -/
theorem C86_grade_idle (p : Profile) (lib : NodeLib F H) (n : Node F) (frame : F) (mode : Mode)
    (input : Stream F H) (rest : List (Stream F H)) (prev : Stream F H) (w : World F H)
    (ht : n.attrs.nodeType = .grade) (hg : ¬ Grades n) :
    n.run p lib frame mode (input :: rest) prev w = .ok (.valid, input, w) :=
  C47_grade_idle p lib n frame mode input rest prev w ht hg

/-! ### Crop, Merge -/

/-- C86: a crop node that is switched on cuts its window out of the picture.  Missing: inputs that
are not stored in linear light, and the option that makes the outside black. -/
theorem C86_crop_partial (p : Profile) (lib : NodeLib F H) (n : Node F) (frame : F) (mode : Mode)
    (input : Stream F H) (rest : List (Stream F H)) (prev : Stream F H) (w : World F H)
    (ht : n.attrs.nodeType = .cropImage) (he : n.getI32 "enable" = 1)
    (hb : n.getI32 "black_outside" ≠ 1) (hw : IsOff w) {P : Picture F}
    (hP : Appears lib.bake input P) (hl : P.space = colorSpaceLinear)
    (hs : ValidSize (sizeFor (cropWindow n) P.channels)) :
    ∃ out w', n.run p lib frame mode (input :: rest) prev w = .ok (.valid, out, w') ∧ IsOff w' ∧
      w'.writes = w.writes ∧
      (∃ Q, IsCropped (cropWindow n) (decide (n.getI32 "reformat" = 1)) P Q) ∧
      ∀ Q, IsCropped (cropWindow n) (decide (n.getI32 "reformat" = 1)) P Q →
        Shows lib.bake.color out Q := by
  obtain ⟨id, st, attrs⟩ := n
  cases attrs <;> simp only [NodeAttrs.nodeType, reduceCtorEq] at ht
  rename_i a
  simp only [cropWindow, attr_eval] at he hb hs ⊢
  have hn : Channels P.channels := hP.channels
  obtain ⟨block, hd, e1⟩ := hP.bake p _ rfl colorSpaceLinear (.known .f32) .f32 rfl
  obtain ⟨v, hv, rfl⟩ := delivers_linear hd
  obtain ⟨d, e2, hdl, hpx⟩ := crop_holds p hv hP.size
    ⟨floatImage (H := H) (sizeFor P.data P.channels) v,
      { input.imageSpec with colorSpace := colorSpaceLinear }, input.displayWindow, P.data⟩ rfl rfl
    ⟨a.windowMinX, a.windowMinY, a.windowMaxX, a.windowMaxY⟩ hs (decide (a.reformat = 1))
    (decide (a.intersect = 1))
  have hmake : cropProcess p lib input ⟨a.windowMinX, a.windowMinY, a.windowMaxX, a.windowMaxY⟩
      (decide (a.reformat = 1)) (decide (a.blackOutside = 1)) (decide (a.intersect = 1)) = .ok
      (⟨floatImage (sizeFor ⟨a.windowMinX, a.windowMinY, a.windowMaxX, a.windowMaxY⟩ P.channels) d,
        { input.imageSpec with colorSpace := colorSpaceLinear },
        if decide (a.reformat = 1) then ⟨a.windowMinX, a.windowMinY, a.windowMaxX, a.windowMaxY⟩
          else input.displayWindow,
        ⟨a.windowMinX, a.windowMinY, a.windowMaxX, a.windowMaxY⟩⟩,
      { input with colorMatrix := Mat4.identity, colorOps := [], deformers := [] }) := by
    unfold cropProcess
    refine Res.bind_ok.mpr ⟨_, e1, ?_⟩
    rw [decide_eq_false hb]
    exact Res.bind_ok.mpr ⟨_, e2, rfl⟩
  obtain ⟨w', e, ho, hwr⟩ := lookup_off_mpr (p := p) (u := decide (a.useCache ≠ 0))
    (key := Node.hash lib.hash lib.shell ⟨id, st, .cropImage a⟩ frame
      ((input :: rest).map (·.hash)))
    (hit := input) hw hmake
  refine ⟨{ input with
    colorMatrix := Mat4.identity, colorOps := [], deformers := []
    hash := Node.hash lib.hash lib.shell ⟨id, st, .cropImage a⟩ frame
      ((input :: rest).map (·.hash))
    dataWindow := ⟨a.windowMinX, a.windowMinY, a.windowMaxX, a.windowMaxY⟩
    displayWindow := if decide (a.reformat = 1) then
      ⟨a.windowMinX, a.windowMinY, a.windowMaxX, a.windowMaxY⟩ else input.displayWindow
    pixelBlock := floatImage
      (sizeFor ⟨a.windowMinX, a.windowMinY, a.windowMaxX, a.windowMaxY⟩ P.channels) d }, w', ?_, ho,
    hwr, ?_, ?_⟩
  · simp only [Node.run, CropImageAttrs.compute]
    rw [if_neg (by rw [he]; simp)]
    exact Res.bind_ok.mpr ⟨_, e, rfl⟩
  · obtain ⟨g, hg⟩ := exists_settled hn ⟨a.windowMinX, a.windowMinY, a.windowMaxX, a.windowMaxY⟩
      P.pixel (fun x y _ => appears_pixel_length hP x y)
    exact ⟨⟨_, _, _, _, g⟩, rfl, rfl, rfl, rfl, hg⟩
  · rintro ⟨data, display, channels, space, at_⟩ ⟨q1, q2, q3, q4, q5⟩
    simp only at q1 q2 q3 q4 q5
    subst q1 q2 q3 q4
    refine stored_shows (v := d) rfl ?_ (hP.space.trans hl) hl hP.channels hs
      (fun d hd => nomatch hd) rfl rfl rfl hdl ?_
    · dsimp only
      rw [hP.display]
    · intro x y hxy
      dsimp only at hxy ⊢
      rw [hpx x y hxy]
      exact q5 x y hxy

/-- C86: a merge node that is switched on merges its two pictures.  Missing: a deformer waiting in
the second one that changes its window; the window before deforming is then used. -/
theorem C86_merge_partial (p : Profile) (lib : NodeLib F H) (n : Node F) (frame : F) (mode : Mode)
    (inputA inputB : Stream F H) (rest : List (Stream F H)) (prev : Stream F H) (w : World F H)
    (ht : n.attrs.nodeType = .mergeImage) (he : n.getI32 "enable" = 1)
    (hm : MergeImageMode.ofI32 (n.getI32 "mode") ≠ .uninitialized) (hw : IsOff w)
    {A B : Picture F} (hA : Appears lib.bake inputA A) (hB : Appears lib.bake inputB B)
    (hBd : inputB.dataWindow = B.data)
    (ha : A.channels = 3 ∨ A.channels = 4) (hb : B.channels = 3 ∨ B.channels = 4)
    (hs : ValidSize (sizeFor ⟨min A.data.minX B.data.minX, min A.data.minY B.data.minY,
      max A.data.maxX B.data.maxX, max A.data.maxY B.data.maxY⟩ 4)) :
    ∃ out w', n.run p lib frame mode (inputA :: inputB :: rest) prev w = .ok (.valid, out, w') ∧
      IsOff w' ∧ w'.writes = w.writes ∧
      (∃ Q, IsMerged (MergeImageMode.ofI32 (n.getI32 "mode")) (n.getF32 "mix") A B Q) ∧
      ∀ Q, IsMerged (MergeImageMode.ofI32 (n.getI32 "mode")) (n.getF32 "mix") A B Q →
        Shows lib.bake.color out Q := by
  obtain ⟨id, st, attrs⟩ := n
  cases attrs <;> simp only [NodeAttrs.nodeType, reduceCtorEq] at ht
  rename_i a
  simp only [attr_eval] at he hm ⊢
  have hnA : Channels A.channels := hA.channels
  have hnB : Channels B.channels := hB.channels
  obtain ⟨blockA, dA, eA⟩ := hA.bake p _ rfl colorSpaceLinear (.known .f32) .f32 rfl
  obtain ⟨blockB, dB, eB⟩ := hB.bake p _ rfl colorSpaceLinear (.known .f32) .f32 rfl
  obtain ⟨va, hva, rfl⟩ := delivers_linear dA
  obtain ⟨vb, hvb, rfl⟩ := delivers_linear dB
  obtain ⟨result, vo, eM, hF, hcov, hdis, -, hpx⟩ := C51_pixels p (MergeImageMode.ofI32 a.mode) hm
    ⟨floatImage (H := H) (sizeFor A.data A.channels) va,
      { inputA.imageSpec with colorSpace := colorSpaceLinear }, inputA.displayWindow, A.data⟩
    ⟨floatImage (H := H) (sizeFor B.data B.channels) vb,
      { inputB.imageSpec with colorSpace := colorSpaceLinear }, inputB.displayWindow, B.data⟩
    ⟨.constantPixel 0 0 0 1, .new, ⟨0, 0, 1, 1⟩, ⟨0, 0, 1, 1⟩⟩ a.mix A.channels B.channels va vb
    (hva.filled hA.size _ rfl rfl) (hvb.filled hB.size _ rfl rfl) (by omega) (by omega) hs
  have hdata : result.dataWindow = ⟨min A.data.minX B.data.minX, min A.data.minY B.data.minY,
      max A.data.maxX B.data.maxX, max A.data.maxY B.data.maxY⟩ :=
    cover_unique hcov (combine_cover A.data B.data)
  obtain ⟨hF1, hF2, hF3⟩ := hF
  dsimp only at hdis hpx
  rw [hdata] at hF1 hF2 hF3 hpx
  have hval : ∀ x y (c : Nat),
      blend (MergeImageMode.ofI32 a.mode) a.mix (valueAt A.data A.channels va x y)
        (valueAt B.data B.channels vb x y) c =
      blend (MergeImageMode.ofI32 a.mode) a.mix (A.value x y) (B.value x y) c := fun x y c =>
    blend_congr _ _ (holds_valueAt hva hA.size x y c) (holds_valueAt hvb hB.size x y c)
      (holds_valueAt hva hA.size x y 3)
  have hmake : mergeProcess p lib inputA inputB (MergeImageMode.ofI32 a.mode) a.mix = .ok result := by
    unfold mergeProcess
    refine Res.bind_ok.mpr ⟨_, eA, Res.bind_ok.mpr ⟨_, eB, ?_⟩⟩
    dsimp only
    rw [hBd]
    exact Res.bind_ok.mpr ⟨_, eM, rfl⟩
  obtain ⟨w', e, ho, hwr⟩ := lookup_off_mpr (p := p) (u := decide (a.useCache ≠ 0))
    (key := Node.hash lib.hash lib.shell ⟨id, st, .mergeImage a⟩ frame
      ((inputA :: inputB :: rest).map (·.hash)))
    (make := do
      let image ← mergeProcess p lib inputA inputB (MergeImageMode.ofI32 a.mode) a.mix
      .ok (image, ()))
    (hit := ()) hw (Res.bind_ok.mpr ⟨_, hmake, rfl⟩)
  generalize hcw : (⟨min A.data.minX B.data.minX, min A.data.minY B.data.minY,
      max A.data.maxX B.data.maxX, max A.data.maxY B.data.maxY⟩ : BBox) = cw at *
  have hch : ∀ x y, Has cw x y → ∀ c : Nat, c < B.channels →
      (pixelAt cw B.channels vo x y)[c]? =
        some (blend (MergeImageMode.ofI32 a.mode) a.mix (A.value x y) (B.value x y) c) := by
    intro x y hxy c hc
    have h1 := hpx x y c hxy (by omega) (by omega)
    rw [hval, valueAt, if_pos ⟨hxy, by omega⟩, ← pixelAt_channel hF2 hF3 hxy hc] at h1
    rw [List.getElem?_eq_getElem (by rw [pixelAt_length hF2 hF3 hxy]; exact hc)] at h1 ⊢
    exact congrArg some h1
  refine ⟨{ (Stream.new : Stream F H) with
    dataWindow := result.dataWindow, displayWindow := result.displayWindow
    hash := Node.hash lib.hash lib.shell ⟨id, st, .mergeImage a⟩ frame
      ((inputA :: inputB :: rest).map (·.hash))
    pixelBlock := result.pixelBlock }, w', ?_, ho, hwr, ?_, ?_⟩
  · simp only [Node.run, MergeImageAttrs.compute]
    rw [if_neg (by rw [he]; simp)]
    exact Res.bind_ok.mpr ⟨_, e, rfl⟩
  · obtain ⟨g, hg⟩ := exists_settled hnB cw (pixelAt cw B.channels vo)
      (fun x y h => pixelAt_length hF2 hF3 h)
    exact ⟨⟨_, _, _, _, g⟩, hcw.symm, rfl, rfl, rfl, fun x y h =>
      ⟨_, hg x y h, pixelAt_length hF2 hF3 h, hch x y h⟩⟩
  · rintro ⟨data, display, channels, space, at_⟩ ⟨q1, q2, q3, q4, q5⟩
    simp only at q1 q2 q3 q4 q5
    rw [hcw] at q1
    subst q1 q2 q3 q4
    refine stored_shows (v := vo) hdata (hdis.trans hB.display) rfl rfl hB.channels hF2
      (fun d hd => nomatch hd) rfl rfl hF1 hF3 ?_
    intro x y hxy
    obtain ⟨v, h1, h2, h3⟩ := q5 x y hxy
    have : pixelAt data B.channels vo x y = v := by
      have hl := pixelAt_length hF2 hF3 hxy
      apply List.ext_getElem?
      intro c
      by_cases hc : c < B.channels
      · rw [hch x y hxy c hc, h3 c hc]
      · rw [List.getElem?_eq_none (by omega), List.getElem?_eq_none (by omega)]
    dsimp only
    rw [this]
    exact h1


/-! ### Viewer, Write -/

omit [FloatConst F] [FloatBits F] in
theorem bakeType_wanted (code : Int) (block : PixelBlock F H) :
    bakeType (DataType.ofI32 code) block = .known (wantedType code block.block.dtype) := by
  unfold wantedType DataType.ofI32 DataTypeCode.ofI32
  by_cases h0 : code = 0
  · simp only [if_pos h0]; rfl
  by_cases h1 : code = 1
  · simp only [if_neg h0, if_pos h1]; rfl
  by_cases h2 : code = 2
  · simp only [if_neg h0, if_neg h1, if_pos h2]; rfl
  by_cases h3 : code = 3
  · simp only [if_neg h0, if_neg h1, if_neg h2, if_pos h3]; rfl
  · simp only [if_neg h0, if_neg h1, if_neg h2, if_neg h3]; rfl

omit [FloatConst F] [FloatBits F] in
theorem delivers_block {lib : ColorLib F} (hk : KeepsLength lib) {alpha : Bool} {dst : Bytes}
    {t : DType} {P : Picture F} {block : PixelBlock F H} (h : Delivers lib alpha dst t P block)
    (hs : ValidSize (sizeFor P.data P.channels)) :
    WellFormed block ∧ block.size = sizeFor P.data P.channels ∧ block.block.dtype = t := by
  obtain ⟨v, h1, h2⟩ := h
  obtain ⟨r, h3, h4, h5, h6⟩ := C18_convert_keeps_size (floatImage (H := H)
    (sizeFor P.data P.channels) (inSpace lib alpha dst (sizeFor P.data P.channels) v)) t
  rw [h2] at h3
  cases h3
  refine ⟨⟨by rw [h4]; exact hs, ?_⟩, h4, h5⟩
  rw [h6, h4]
  refine Eq.trans ?_ h1.length
  show ((inSpace lib alpha dst (sizeFor P.data P.channels) v).length : Int) = _
  unfold inSpace
  split
  · rfl
  · rw [hk]

omit [FloatConst F] [FloatBits F] in
/-- The type and the size of delivered pixels. -/
theorem delivers_type {lib : ColorLib F} {alpha : Bool} {dst : Bytes}
    {t : DType} {P : Picture F} {block : PixelBlock F H} (h : Delivers lib alpha dst t P block) :
    block.size = sizeFor P.data P.channels ∧ block.block.dtype = t := by
  obtain ⟨v, h1, h2⟩ := h
  obtain ⟨r, h3, h4, h5, h6⟩ := C18_convert_keeps_size (floatImage (H := H)
    (sizeFor P.data P.channels) (inSpace lib alpha dst (sizeFor P.data P.channels) v)) t
  rw [h2] at h3
  cases h3
  exact ⟨h4, h5⟩

omit [FloatConst F] [FloatBits F] in
theorem delivers_cut (p : Profile) {lib : ColorLib F} (hk : KeepsLength lib) {alpha : Bool}
    {dst : Bytes} {t : DType} {P : Picture F} {block : PixelBlock F H}
    (h : Delivers lib alpha dst t P block) (hs : ValidSize (sizeFor P.data P.channels))
    (spec : ImageSpec F) (display window : BBox) (hv : ValidSize (sizeFor window P.channels)) :
    ∃ out, CutOut block P.data out window ∧
      cropImage p ⟨block, spec, display, P.data⟩ window true false false =
        .ok ⟨out, spec, window, window⟩ := by
  obtain ⟨h1, h2, -⟩ := delivers_block hk h hs
  have hc : block.size.numChannels = P.channels := by rw [h2]; rfl
  obtain ⟨d, e, h3, h4⟩ := C50_crop_partial p ⟨block, spec, display, P.data⟩ window true false h1
    (by dsimp only; rw [h2]; rfl) (by dsimp only; rw [h2]; rfl) (by rw [hc]; exact hv)
  exact ⟨_, ⟨d, rfl, h3, h4⟩, e⟩

/-- C86: a viewer that bakes grades delivers the picture in the colour space and of the type it is
set to; in linear light it shows the same picture, up to what the type can hold.  Deformers keep
waiting. -/
theorem C86_viewer_grades (p : Profile) (lib : NodeLib F H) (n : Node F) (frame : F) (mode : Mode)
    (input : Stream F H) (rest : List (Stream F H)) (prev : Stream F H) (w : World F H)
    (ht : n.attrs.nodeType = .viewer) (he : n.getI32 "enable" = 1)
    (ho : n.getI32 "bake_option" = 2) (hc : n.getI32 "crop_to_format" = 0) (hw : IsOff w)
    {P : Picture F} (hP : Still lib.bake.color input P) :
    ∃ out w', n.run p lib frame mode (input :: rest) prev w = .ok (.valid, out, w') ∧ IsOff w' ∧
      w'.writes = w.writes ∧ out.dataWindow = P.data ∧ out.displayWindow = P.display ∧
      out.imageSpec = { input.imageSpec with colorSpace := n.getStr "bake_color_space" } ∧
      out.colorMatrix = Mat4.identity ∧ out.colorOps = [] ∧ out.deformers = input.deformers ∧
      Delivers lib.bake.color input.imageSpec.unassociatedAlpha (n.getStr "bake_color_space")
        (wantedType (n.getI32 "bake_pixel_data_type") input.pixelBlock.block.dtype) P
        out.pixelBlock ∧
      (n.getStr "bake_color_space" = colorSpaceLinear → ∀ t,
        wantedType (n.getI32 "bake_pixel_data_type") input.pixelBlock.block.dtype = t →
        (∃ Q, IsBaked H t P Q) ∧ ∀ Q, IsBaked H t P Q → Still lib.bake.color out Q) := by
  obtain ⟨id, st, attrs⟩ := n
  cases attrs <;> simp only [NodeAttrs.nodeType, reduceCtorEq] at ht
  rename_i a
  simp only [attr_eval] at he ho hc ⊢
  have hn : Channels P.channels := hP.channels
  obtain ⟨block, hd, e1⟩ := hP.bakeColours (lib := lib.bake) p input.displayWindow a.bakeColorSpace
    (DataType.ofI32 a.bakePixelDataType) _ (bakeType_wanted a.bakePixelDataType input.pixelBlock)
  have hmake : viewerProcess p lib input .colorSpaceAndGrade
        (DataType.ofI32 a.bakePixelDataType) false a.bakeColorSpace = .ok
        (⟨block, { input.imageSpec with colorSpace := a.bakeColorSpace }, input.displayWindow,
          P.data⟩,
        { input with colorMatrix := Mat4.identity, colorOps := [] }) :=
    Res.bind_ok.mpr ⟨_, e1, rfl⟩
  obtain ⟨w', e, hoff, hwr⟩ := lookup_off_mpr (p := p) (u := decide (a.useCache ≠ 0))
    (key := Node.hash lib.hash lib.shell ⟨id, st, .viewer a⟩ frame ((input :: rest).map (·.hash)))
    (hit := input) hw hmake
  refine ⟨{ input with
    colorMatrix := Mat4.identity, colorOps := []
    dataWindow := P.data, displayWindow := input.displayWindow
    hash := Node.hash lib.hash lib.shell ⟨id, st, .viewer a⟩ frame ((input :: rest).map (·.hash))
    pixelBlock := block
    imageSpec := { input.imageSpec with colorSpace := a.bakeColorSpace } }, w', ?_, hoff, hwr, rfl,
    hP.display, rfl, rfl, rfl, rfl, hd, ?_⟩
  · simp only [Node.run, ViewerAttrs.compute]
    rw [if_neg (by rw [he]; simp), if_pos (by rw [ho]; decide), hc, ho]
    exact Res.bind_ok.mpr ⟨_, e, rfl⟩
  · intro hl t hf
    constructor
    · obtain ⟨g, hg⟩ := exists_settled hn P.data (fun x y => (P.at_ x y).map (inType H t))
        (fun x y h => by rw [List.length_map]; exact still_length hP h)
      exact ⟨⟨_, _, _, _, g⟩, rfl, rfl, rfl, rfl, hg⟩
    · rintro ⟨data, display, channels, space, at_⟩ ⟨q1, q2, q3, q4, q5⟩
      simp only at q1 q2 q3 q4 q5
      subst q1 q2 q3 q4
      rw [hl, hf] at hd
      obtain ⟨v, hv, hv'⟩ := delivers_typed hd
      refine stored_still (v := v.map (inType H t)) rfl hP.display hl rfl hP.channels hP.size rfl rfl
        hv' (by rw [List.length_map]; exact hv.length) ?_
      intro x y hxy
      dsimp only
      rw [pixelAt_map, hv.pixels x y hxy]
      exact q5 x y hxy

/-- C86: a viewer that bakes everything delivers what the stream looks like, deformers carried out,
in the colour space and of the type it is set to; in linear light it shows the same picture, up to
what the type can hold.  Nothing stays waiting. -/
theorem C86_viewer_all (p : Profile) (lib : NodeLib F H) (n : Node F) (frame : F) (mode : Mode)
    (input : Stream F H) (rest : List (Stream F H)) (prev : Stream F H) (w : World F H)
    (ht : n.attrs.nodeType = .viewer) (he : n.getI32 "enable" = 1)
    (ho : n.getI32 "bake_option" = 3) (hc : n.getI32 "crop_to_format" = 0) (hw : IsOff w)
    {P : Picture F} (hP : Appears lib.bake input P) :
    ∃ out w', n.run p lib frame mode (input :: rest) prev w = .ok (.valid, out, w') ∧ IsOff w' ∧
      w'.writes = w.writes ∧ out.dataWindow = P.data ∧ out.displayWindow = P.display ∧
      out.imageSpec = { input.imageSpec with colorSpace := n.getStr "bake_color_space" } ∧
      out.colorMatrix = Mat4.identity ∧ out.colorOps = [] ∧ out.deformers = [] ∧
      Delivers lib.bake.color input.imageSpec.unassociatedAlpha (n.getStr "bake_color_space")
        (wantedType (n.getI32 "bake_pixel_data_type") input.pixelBlock.block.dtype) P
        out.pixelBlock ∧
      (n.getStr "bake_color_space" = colorSpaceLinear → ∀ t,
        wantedType (n.getI32 "bake_pixel_data_type") input.pixelBlock.block.dtype = t →
        (∃ Q, IsBaked H t P Q) ∧ ∀ Q, IsBaked H t P Q → Shows lib.bake.color out Q) := by
  obtain ⟨id, st, attrs⟩ := n
  cases attrs <;> simp only [NodeAttrs.nodeType, reduceCtorEq] at ht
  rename_i a
  simp only [attr_eval] at he ho hc ⊢
  have hn : Channels P.channels := hP.channels
  obtain ⟨block, hd, e1⟩ := hP.bake p _ rfl a.bakeColorSpace
    (DataType.ofI32 a.bakePixelDataType) _ (bakeType_wanted a.bakePixelDataType input.pixelBlock)
  have hmake : viewerProcess p lib input .all
        (DataType.ofI32 a.bakePixelDataType) false a.bakeColorSpace = .ok
        (⟨block, { input.imageSpec with colorSpace := a.bakeColorSpace }, input.displayWindow,
          P.data⟩,
        { input with colorMatrix := Mat4.identity, colorOps := [], deformers := [] }) :=
    Res.bind_ok.mpr ⟨_, e1, rfl⟩
  obtain ⟨w', e, hoff, hwr⟩ := lookup_off_mpr (p := p) (u := decide (a.useCache ≠ 0))
    (key := Node.hash lib.hash lib.shell ⟨id, st, .viewer a⟩ frame ((input :: rest).map (·.hash)))
    (hit := input) hw hmake
  refine ⟨{ input with
    colorMatrix := Mat4.identity, colorOps := [], deformers := []
    dataWindow := P.data, displayWindow := input.displayWindow
    hash := Node.hash lib.hash lib.shell ⟨id, st, .viewer a⟩ frame ((input :: rest).map (·.hash))
    pixelBlock := block
    imageSpec := { input.imageSpec with colorSpace := a.bakeColorSpace } }, w', ?_, hoff, hwr, rfl,
    hP.display, rfl, rfl, rfl, rfl, hd, ?_⟩
  · simp only [Node.run, ViewerAttrs.compute]
    rw [if_neg (by rw [he]; simp), if_pos (by rw [ho]; decide), hc, ho]
    exact Res.bind_ok.mpr ⟨_, e, rfl⟩
  · intro hl t hf
    constructor
    · obtain ⟨g, hg⟩ := exists_settled hn P.data (fun x y => (P.at_ x y).map (inType H t))
        (fun x y h => by rw [List.length_map]; exact hP.length h)
      exact ⟨⟨_, _, _, _, g⟩, rfl, rfl, rfl, rfl, hg⟩
    · rintro ⟨data, display, channels, space, at_⟩ ⟨q1, q2, q3, q4, q5⟩
      simp only at q1 q2 q3 q4 q5
      subst q1 q2 q3 q4
      rw [hl, hf] at hd
      obtain ⟨v, hv, hv'⟩ := delivers_typed hd
      refine still_shows (stored_still (v := v.map (inType H t)) rfl hP.display hl rfl hP.channels
        hP.size rfl rfl hv' (by rw [List.length_map]; exact hv.length) ?_) (fun d hd => nomatch hd)
      intro x y hxy
      dsimp only
      rw [pixelAt_map, hv.pixels x y hxy]
      exact q5 x y hxy

/-- C86: a viewer that crops to the display window bakes everything and then cuts the display
window out. -/
theorem C86_viewer_cropped (p : Profile) (lib : NodeLib F H) (n : Node F) (frame : F) (mode : Mode)
    (input : Stream F H) (rest : List (Stream F H)) (prev : Stream F H) (w : World F H)
    (ht : n.attrs.nodeType = .viewer) (he : n.getI32 "enable" = 1)
    (ho : n.getI32 "bake_option" ≠ 0) (hc : n.getI32 "crop_to_format" ≠ 0) (hw : IsOff w)
    {P : Picture F} (hP : Appears lib.bake input P) (hk : KeepsLength lib.bake.color)
    (hs : ValidSize (sizeFor P.display P.channels)) :
    ∃ out w' block, n.run p lib frame mode (input :: rest) prev w = .ok (.valid, out, w') ∧
      IsOff w' ∧ w'.writes = w.writes ∧ out.dataWindow = P.display ∧
      out.displayWindow = P.display ∧
      out.imageSpec = { input.imageSpec with colorSpace := n.getStr "bake_color_space" } ∧
      out.colorMatrix = Mat4.identity ∧ out.colorOps = [] ∧ out.deformers = [] ∧
      Delivers lib.bake.color input.imageSpec.unassociatedAlpha (n.getStr "bake_color_space")
        (wantedType (n.getI32 "bake_pixel_data_type") input.pixelBlock.block.dtype) P block ∧
      CutOut block P.data out.pixelBlock P.display := by
  obtain ⟨id, st, attrs⟩ := n
  cases attrs <;> simp only [NodeAttrs.nodeType, reduceCtorEq] at ht
  rename_i a
  simp only [attr_eval] at he ho hc ⊢
  obtain ⟨block, hd, e1⟩ := hP.bake p _ rfl a.bakeColorSpace
    (DataType.ofI32 a.bakePixelDataType) _ (bakeType_wanted a.bakePixelDataType input.pixelBlock)
  obtain ⟨out, hcut, e2⟩ := delivers_cut p hk hd hP.size
    { input.imageSpec with colorSpace := a.bakeColorSpace } input.displayWindow P.display hs
  have hmake : viewerProcess p lib input .all (DataType.ofI32 a.bakePixelDataType) true
      a.bakeColorSpace = .ok (⟨out, { input.imageSpec with colorSpace := a.bakeColorSpace },
        P.display, P.display⟩,
      { input with colorMatrix := Mat4.identity, colorOps := [], deformers := [] }) := by
    refine Res.bind_ok.mpr ⟨_, e1, ?_⟩
    dsimp only
    rw [if_pos rfl]
    refine Res.bind_ok.mpr ⟨_, ?_, rfl⟩
    rw [hP.display] at e2 ⊢
    exact e2
  obtain ⟨w', e, hoff, hwr⟩ := lookup_off_mpr (p := p) (u := decide (a.useCache ≠ 0))
    (key := Node.hash lib.hash lib.shell ⟨id, st, .viewer a⟩ frame ((input :: rest).map (·.hash)))
    (hit := input) hw hmake
  refine ⟨{ input with
    colorMatrix := Mat4.identity, colorOps := [], deformers := []
    dataWindow := P.display, displayWindow := P.display
    hash := Node.hash lib.hash lib.shell ⟨id, st, .viewer a⟩ frame ((input :: rest).map (·.hash))
    pixelBlock := out
    imageSpec := { input.imageSpec with colorSpace := a.bakeColorSpace } }, w', block, ?_, hoff, hwr,
    rfl, rfl, rfl, rfl, rfl, rfl, hd, hcut⟩
  have ho' : BakeOption.ofI32 a.bakeOption ≠ .nothing := by
    unfold BakeOption.ofI32
    rw [if_neg ho]
    repeat' split
    all_goals decide
  simp only [Node.run, ViewerAttrs.compute]
  rw [if_neg (by rw [he]; simp), if_pos ho', decide_eq_true hc]
  simp only [if_true]
  exact Res.bind_ok.mpr ⟨_, e, rfl⟩

/-- C86: a viewer that only converts the colour space leaves everything else waiting; converted to
linear floats the picture stays. -/
theorem C86_viewer_space (p : Profile) (lib : NodeLib F H) (n : Node F) (frame : F) (mode : Mode)
    (input : Stream F H) (rest : List (Stream F H)) (prev : Stream F H) (w : World F H)
    (ht : n.attrs.nodeType = .viewer) (he : n.getI32 "enable" = 1)
    (ho : n.getI32 "bake_option" = 1) (hc : n.getI32 "crop_to_format" = 0) (hw : IsOff w) :
    ∃ out w', n.run p lib frame mode (input :: rest) prev w = .ok (.valid, out, w') ∧ IsOff w' ∧
      w'.writes = w.writes ∧ out.dataWindow = input.dataWindow ∧
      out.displayWindow = input.displayWindow ∧ out.colorMatrix = input.colorMatrix ∧
      out.colorOps = input.colorOps ∧ out.deformers = input.deformers ∧
      (out.imageSpec = input.imageSpec ∨
        out.imageSpec = { input.imageSpec with colorSpace := n.getStr "bake_color_space" }) ∧
      Converted lib.bake.color input.imageSpec.unassociatedAlpha input.imageSpec.colorSpace
        (n.getStr "bake_color_space")
        (wantedType (n.getI32 "bake_pixel_data_type") input.pixelBlock.block.dtype)
        input.pixelBlock.size input.pixelBlock out.pixelBlock ∧
      (out.imageSpec.colorSpace = colorSpaceLinear →
        n.getStr "bake_color_space" = colorSpaceLinear →
        wantedType (n.getI32 "bake_pixel_data_type") input.pixelBlock.block.dtype = .f32 →
        ∀ P, Still lib.bake.color input P →
          Still lib.bake.color out { P with space := colorSpaceLinear }) := by
  obtain ⟨id, st, attrs⟩ := n
  cases attrs <;> simp only [NodeAttrs.nodeType, reduceCtorEq] at ht
  rename_i a
  simp only [attr_eval] at he ho hc ⊢
  obtain ⟨raw, c1⟩ : ∃ raw : List F, input.pixelBlock.convert (.known .f32) =
      .ok (floatImage input.pixelBlock.size raw) := by
    obtain ⟨⟨size, dt, raw⟩, c1, c2, c3, -⟩ := C18_convert_keeps_size input.pixelBlock .f32
    dsimp only at c2 c3
    subst c2 c3
    exact ⟨raw, c1⟩
  obtain ⟨spec, hspec, hb⟩ : ∃ spec, (spec = input.imageSpec ∨
        spec = { input.imageSpec with colorSpace := a.bakeColorSpace }) ∧
      bakeColorspace lib.bake.color input.pixelBlock input.imageSpec input.imageSpec.colorSpace
        a.bakeColorSpace = .ok (floatImage input.pixelBlock.size
          (if input.imageSpec.colorSpace = a.bakeColorSpace then raw
            else (lib.bake.color.convert raw input.pixelBlock.size.width
              input.pixelBlock.size.height input.pixelBlock.size.numChannels
              (if input.pixelBlock.size.numChannels > 3 then 3 else -1)
              input.imageSpec.unassociatedAlpha input.imageSpec.colorSpace
              a.bakeColorSpace).2), spec) := by
    unfold bakeColorspace
    by_cases h : input.imageSpec.colorSpace = a.bakeColorSpace
    · refine ⟨_, .inl rfl, Res.bind_ok.mpr ⟨_, c1, ?_⟩⟩
      rw [if_pos h, if_pos h]
    · have key : ∀ r : Bool × List F,
          (if r.1 then { input.imageSpec with colorSpace := a.bakeColorSpace } else
            input.imageSpec) = input.imageSpec ∨
          (if r.1 then { input.imageSpec with colorSpace := a.bakeColorSpace } else
            input.imageSpec) = { input.imageSpec with colorSpace := a.bakeColorSpace } := by
        rintro ⟨b, _⟩
        cases b
        · exact .inl rfl
        · exact .inr rfl
      refine ⟨_, key (lib.bake.color.convert raw input.pixelBlock.size.width
              input.pixelBlock.size.height input.pixelBlock.size.numChannels
              (if input.pixelBlock.size.numChannels > 3 then 3 else -1)
              input.imageSpec.unassociatedAlpha input.imageSpec.colorSpace
              a.bakeColorSpace), Res.bind_ok.mpr ⟨_, c1, ?_⟩⟩
      rw [if_neg h, if_neg h]
      exact Res.bind_ok.mpr ⟨raw, rfl, rfl⟩
  generalize hpx : (if input.imageSpec.colorSpace = a.bakeColorSpace then raw
            else (lib.bake.color.convert raw input.pixelBlock.size.width
              input.pixelBlock.size.height input.pixelBlock.size.numChannels
              (if input.pixelBlock.size.numChannels > 3 then 3 else -1)
              input.imageSpec.unassociatedAlpha input.imageSpec.colorSpace
              a.bakeColorSpace).2) = px at hb
  obtain ⟨block, hblock, -⟩ := C18_convert_keeps_size (floatImage (H := H) input.pixelBlock.size px)
    (wantedType a.bakePixelDataType input.pixelBlock.block.dtype)
  have hmake : viewerProcess p lib input .colorSpace (DataType.ofI32 a.bakePixelDataType) false
      a.bakeColorSpace = .ok (⟨block, spec, input.displayWindow, input.dataWindow⟩, input) := by
    refine Res.bind_ok.mpr ⟨⟨block, input.dataWindow, spec, input⟩, ?_, rfl⟩
    unfold bake
    dsimp only [Stream.toBake]
    rw [bakeType_wanted]
    exact Res.bind_ok.mpr ⟨_, hb, Res.bind_ok.mpr ⟨_, hblock, rfl⟩⟩
  obtain ⟨w', e, hoff, hwr⟩ := lookup_off_mpr (p := p) (u := decide (a.useCache ≠ 0))
    (key := Node.hash lib.hash lib.shell ⟨id, st, .viewer a⟩ frame ((input :: rest).map (·.hash)))
    (hit := input) hw hmake
  refine ⟨{ input with
    hash := Node.hash lib.hash lib.shell ⟨id, st, .viewer a⟩ frame ((input :: rest).map (·.hash))
    pixelBlock := block, imageSpec := spec }, w', ?_, hoff, hwr, rfl, rfl, rfl, rfl, rfl, hspec,
    ⟨raw, c1, ?_⟩, ?_⟩
  · simp only [Node.run, ViewerAttrs.compute]
    rw [if_neg (by rw [he]; simp), if_pos (by rw [ho]; decide), hc, ho]
    exact Res.bind_ok.mpr ⟨_, e, rfl⟩
  · rw [hpx]; exact hblock
  · intro hs hl hf P hP
    obtain ⟨v, ⟨raw', h1, h2, h3⟩, h4, h5⟩ := hP.pixels
    rw [c1] at h1
    have h6 := Except.ok.inj h1
    have h7 : input.pixelBlock.size = sizeFor input.dataWindow P.channels :=
      congrArg PixelBlock.size h6
    have h8 : raw = raw' := by
      have := congrArg PixelBlock.block h6
      exact eq_of_heq (DataBlock.mk.inj this).2
    have h9 : px = v := by
      rw [← hpx, hl]
      by_cases hx : input.imageSpec.colorSpace = colorSpaceLinear
      · rw [if_pos hx, h2 hx, h8]
      · rw [if_neg hx, h3 hx, h7, h8]
        rfl
    rw [hf] at hblock
    have h10 := Except.ok.inj ((C18_convert_same (floatImage (H := H) input.pixelBlock.size px)).symm.trans
      hblock)
    refine ⟨hP.data, hP.display, hs, hP.channels, hP.size, v,
      ⟨v, ?_, fun _ => rfl, fun h => absurd hs h⟩, h4, h5⟩
    dsimp only
    rw [← h10, h7, h9]
    exact C18_convert_same (floatImage (H := H) _ v)

/-- C86: a write node hands the picture to OpenImageIO: the path of the frame, the compression it is
set to, the pixels in the colour space of the file and of the type asked for, cropped to the display
window or not, and the windows. -/
theorem C86_write (p : Profile) (lib : NodeLib F H) (n : Node F) (frame : F) (mode : Mode)
    (input : Stream F H) (rest : List (Stream F H)) (prev : Stream F H) (w : World F H)
    (ht : n.attrs.nodeType = .writeImage) (he : n.getI32 "enable" ≠ 0)
    (hx : n.getI32 "execute" ≠ 0)
    (hc : n.getI32 "crop_on_write" = 0 ∨ n.getI32 "crop_on_write" = 1 ∨
      n.getI32 "crop_on_write" = 2)
    (hw : lib.oiio.hasWriter (filePath lib n frame) = true)
    {P : Picture F} (hP : Appears lib.bake input P)
    (hd1 : -2147483648 ≤ P.display.maxX - P.display.minX ∧
      P.display.maxX - P.display.minX ≤ 2147483647)
    (hd2 : -2147483648 ≤ P.display.maxY - P.display.minY ∧
      P.display.maxY - P.display.minY ≤ 2147483647)
    (hcrop : CropsFile (n.getI32 "crop_on_write") (filePath lib n frame) →
      KeepsLength lib.bake.color ∧ ValidSize (sizeFor P.display P.channels)) :
    ∃ job block, n.run p lib frame mode (input :: rest) prev w =
        .ok (.valid, input, { w with writes := w.writes ++ [job] }) ∧
      job.path = filePath lib n frame ∧
      job.extra = compressionAttrs (filePath lib n frame) (settings n) ∧
      Delivers lib.bake.color input.imageSpec.unassociatedAlpha (fileSpace (filePath lib n frame))
        (wantedType (n.getI32 "pixel_data_type") input.pixelBlock.block.dtype) P block ∧
      (¬ CropsFile (n.getI32 "crop_on_write") (filePath lib n frame) →
        (⟨job.size, job.block⟩ : PixelBlock F H) = block ∧ job.spec.x = P.data.minX ∧
          job.spec.y = P.data.minY) ∧
      (CropsFile (n.getI32 "crop_on_write") (filePath lib n frame) →
        CutOut block P.data ⟨job.size, job.block⟩ P.display ∧ job.spec.x = P.display.minX ∧
          job.spec.y = P.display.minY) ∧
      job.spec.width = job.size.width ∧ job.spec.height = job.size.height ∧
      job.spec.numChannels = P.channels ∧
      job.spec.format = .known (wantedType (n.getI32 "pixel_data_type")
        input.pixelBlock.block.dtype) ∧
      job.spec.fullX = P.display.minX ∧ job.spec.fullY = P.display.minY ∧
      job.spec.fullWidth = P.display.maxX - P.display.minX ∧
      job.spec.fullHeight = P.display.maxY - P.display.minY := by
  obtain ⟨id, st, attrs⟩ := n
  cases attrs <;> simp only [NodeAttrs.nodeType, reduceCtorEq] at ht
  rename_i a
  simp only [filePath, settings, attr_eval] at he hx hc hw hcrop ⊢
  generalize hpath : Path.expandString lib.shell a.filePath (frameNum frame) = path at *
  have hcode : writeCrop path (CropOnWrite.ofI32 a.cropOnWrite) =
      .ok (decide (CropsFile a.cropOnWrite path)) := by
    rcases hc with h | h | h
    · rw [decide_eq_false (by unfold CropsFile; rw [h]; simp), h]; rfl
    · rw [decide_eq_true (by unfold CropsFile; rw [h]; simp), h]; rfl
    · rw [h]
      show Except.ok (!hasSuffix path dotExr) = _
      congr 1
      rw [Bool.eq_iff_iff]
      simp only [hasSuffix, Bool.not_eq_true', decide_eq_true_eq, ← List.isSuffixOf_iff_suffix,
        Bool.not_eq_true, CropsFile, ending_exr]
      constructor
      · intro h'; exact .inr ⟨trivial, h'⟩
      · rintro (h' | ⟨-, h'⟩)
        · exact absurd h' (by decide)
        · exact h'
  have hspace : writeColorSpace path = fileSpace path := by
    unfold writeColorSpace fileSpace
    rw [ending_png, jpegEndings_eq]
    have : (dotPng.isSuffixOf path || dotJpegs.any (hasSuffix path)) = true ↔
        ∃ e ∈ dotPng :: dotJpegs, e <:+ path := by
      simp only [Bool.or_eq_true, List.any_eq_true, List.exists_mem_cons_iff, hasSuffix,
        List.isSuffixOf_iff_suffix]
    by_cases h : ∃ e ∈ dotPng :: dotJpegs, e <:+ path
    · rw [if_pos h, if_pos (this.mpr h)]; rfl
    · rw [if_neg h, if_neg (fun h' => h (this.mp h'))]
  obtain ⟨block, hd, e1⟩ := hP.bake p _ rfl (fileSpace path)
    (.known (wantedType a.pixelDataType input.pixelBlock.block.dtype)) _ rfl
  obtain ⟨t1, t2⟩ := delivers_type hd
  obtain ⟨out, window, e2, e3⟩ : ∃ (out : PixelBlock F H) (window : BBox),
      (if decide (CropsFile a.cropOnWrite path) = true then
        cropImage p ⟨block, .new, P.display, P.data⟩ P.display true false false
        else .ok ⟨block, .new, P.display, P.data⟩) = .ok ⟨out, .new, P.display, window⟩ ∧
      out.size.numChannels = P.channels ∧
      out.block.dtype = wantedType a.pixelDataType input.pixelBlock.block.dtype ∧
      (¬ CropsFile a.cropOnWrite path → out = block ∧ window = P.data) ∧
      (CropsFile a.cropOnWrite path → CutOut block P.data out P.display ∧ window = P.display) := by
    by_cases h : CropsFile a.cropOnWrite path
    · obtain ⟨k1, k2⟩ := hcrop h
      obtain ⟨out, h1, h2⟩ := delivers_cut p k1 hd hP.size .new P.display P.display k2
      refine ⟨out, P.display, ?_, ?_, ?_, fun h' => absurd h h', fun _ => ⟨h1, rfl⟩⟩
      · rw [decide_eq_true h, if_pos rfl]; exact h2
      · obtain ⟨d, h3, -⟩ := h1
        rw [h3, t1]
        rfl
      · obtain ⟨d, h3, -⟩ := h1
        rw [h3]
        exact t2
    · refine ⟨block, P.data, ?_, ?_, t2, fun _ => ⟨rfl, rfl⟩, fun h' => absurd h' h⟩
      · rw [decide_eq_false h]
        rfl
      · rw [t1]; rfl
  obtain ⟨e4, e5, e6, e7⟩ := e3
  obtain ⟨job, hjob⟩ : ∃ job : WriteJob F H, job =
        { path := path
          spec :=
            { x := window.minX, y := window.minY, width := out.size.width
              height := out.size.height, fullX := P.display.minX, fullY := P.display.minY
              fullWidth := P.display.maxX - P.display.minX
              fullHeight := P.display.maxY - P.display.minY
              numChannels := out.size.numChannels, format := .known out.block.dtype
              colorSpace := (ImageSpec.new : ImageSpec F).colorSpace
              gamma := (ImageSpec.new : ImageSpec F).gamma
              pixelAspect := (ImageSpec.new : ImageSpec F).pixelAspect
              orientation := (ImageSpec.new : ImageSpec F).orientation.code
              unassociatedAlpha := if (ImageSpec.new : ImageSpec F).unassociatedAlpha then 1 else 0
              dither := (ImageSpec.new : ImageSpec F).dither }
          extra := compressionAttrs path a.compression
          size := out.size, block := out.block } := ⟨_, rfl⟩
  have hwrite : writeProcess p lib input a.filePath frame (DataType.ofI32 a.pixelDataType)
      (CropOnWrite.ofI32 a.cropOnWrite) a.compression = .ok (true, some job) := by
    unfold writeProcess
    dsimp only
    rw [hpath, hspace, bakeType_wanted]
    refine Res.bind_ok.mpr ⟨_, e1, ?_⟩
    rw [hcode]
    refine Res.bind_ok.mpr ⟨_, rfl, ?_⟩
    unfold writeImage
    dsimp only
    rw [hP.display]
    suffices hjob : oiioWrite lib.oiio path ⟨out, .new, P.display, window⟩ a.compression =
        .ok (true, some job) by
      by_cases h : CropsFile a.cropOnWrite path
      · rw [decide_eq_true h, if_pos rfl] at e2
        rw [decide_eq_true h, if_pos rfl]
        exact Res.bind_ok.mpr ⟨_, e2, hjob⟩
      · rw [decide_eq_false h, if_neg (by simp)] at e2
        rw [decide_eq_false h, if_neg (by simp)]
        rw [Except.ok.inj e2]
        exact hjob
    unfold oiioWrite
    rw [if_pos hw, hjob]
    refine Res.bind_ok.mpr ⟨_, ?_, rfl⟩
    unfold writeSpec
    refine Res.bind_ok.mpr ⟨_, cint_ok.mpr ⟨hd1, rfl⟩, ?_⟩
    exact Res.bind_ok.mpr ⟨_, cint_ok.mpr ⟨hd2, rfl⟩, rfl⟩
  refine ⟨job, block, ?_, ?_⟩
  rotate_left
  · rw [hjob]
    refine ⟨rfl, rfl, hd, ?_, ?_, rfl, rfl, e4, congrArg DataType.known e5, rfl, rfl, rfl, rfl⟩
    · intro h
      obtain ⟨h1, h2⟩ := e6 h
      exact ⟨h1, congrArg BBox.minX h2, congrArg BBox.minY h2⟩
    · intro h
      obtain ⟨h1, h2⟩ := e7 h
      exact ⟨h1, congrArg BBox.minX h2, congrArg BBox.minY h2⟩
  · simp only [Node.run, WriteImageAttrs.compute]
    rw [if_neg he, if_neg hx]
    exact Res.bind_ok.mpr ⟨_, hwrite, rfl⟩

end

/-! ### Examples -/

attribute [local instance] finFloat finBits finHalf finPi

/-- The picture of `onePixel`. -/
def redPicture : Picture (Fin 256) :=
  ⟨⟨0, 0, 1, 1⟩, ⟨0, 0, 1, 1⟩, 3, colorSpaceLinear, fun _ _ => [1, 0, 0]⟩

theorem red_size : ValidSize (sizeFor ⟨0, 0, 1, 1⟩ 3) := by unfold ValidSize; decide

theorem has_one {x y : Int} (h : Has ⟨0, 0, 1, 1⟩ x y) : x = 0 ∧ y = 0 := by
  obtain ⟨h1, h2, h3, h4⟩ := h
  dsimp only at *
  omega

theorem red_shows (lib : ColorLib (Fin 256)) : Shows lib onePixel redPicture := by
  refine stored_shows (v := [1, 0, 0]) rfl rfl rfl rfl (.inr (.inl rfl)) red_size
    (fun d hd => nomatch hd) rfl rfl rfl rfl ?_
  intro x y h
  obtain ⟨rfl, rfl⟩ := has_one h
  exact ⟨[1, 0, 0], by decide +kernel, .nil _⟩

theorem noCache_off : IsOff noCache := ⟨rfl, rfl⟩

example : (nodeOf (.null {})).run .debug finLib 1 modeAll [onePixel] .new noCache =
    .ok (.valid, onePixel, noCache) := C86_null _ _ _ _ _ _ _ _ _ rfl

/-- The picture in the file `a` of `twoFiles`. -/
theorem white_file : IsFile twoFiles [97] (⟨⟨0, 0, 1, 1⟩, ⟨0, 0, 1, 1⟩, 3, (plainFile 1).colorSpace,
    fun _ _ => [1, 1, 1]⟩ : Picture (Fin 256)) := by
  refine ⟨plainFile 1, .f32, 3, [1, 1, 1], rfl, rfl, by constructor <;> decide, rfl, .inl rfl, rfl,
    rfl, rfl, rfl, rfl, ⟨[1, 1, 1], rfl, ?_, ?_⟩, rfl, ?_⟩
  · intro _; rfl
  · intro _; rfl
  · intro x y h
    obtain ⟨rfl, rfl⟩ := has_one h
    exact ⟨[1, 1, 1], by decide +kernel, .nil _⟩

example : ∃ out w', (readNode 1 [97]).run .debug twoFiles 1 modeAll [] .new noCache =
    .ok (.valid, out, w') ∧ out.dataWindow = ⟨0, 0, 1, 1⟩ := by
  obtain ⟨out, w', e, -, -, h⟩ := C86_read .debug twoFiles (readNode 1 [97]) 1 modeAll [] .new noCache
    rfl (by decide) (by decide) noCache_off
    (show IsFile twoFiles (filePath twoFiles (readNode 1 [97]) 1) _ from white_file)
  exact ⟨out, w', e, h.data⟩

example : ∃ out op Q, doubling.run .debug finLib 1 modeAll [onePixel] .new noCache =
    .ok (.valid, out, noCache) ∧ IsGraded op redPicture Q ∧ Still finLib.bake.color out Q := by
  obtain ⟨out, op, e, -, -, ⟨Q, hQ⟩, h⟩ := C86_grade .debug finLib doubling 1 modeAll onePixel [] .new
    noCache rfl (by decide) (red_shows _).isStill
  exact ⟨out, op, Q, e, hQ, h Q hQ⟩

example : switchedOff.run .debug finLib 1 modeAll [onePixel] .new noCache =
    .ok (.valid, onePixel, noCache) := C86_grade_idle _ _ _ _ _ _ _ _ _ rfl (by decide)

/-- A lens that moves everything one pixel to the right. -/
def rightLens : NodeLib (Fin 256) (Fin 256) :=
  { finLib with
    bake := { finLib.bake with
      deform := { finLib.bake.deform with
        lens := ⟨fun _ x y => (x + 1, y), fun _ x y => (x - 1, y), fun _ _ => ⟨3, 2, 0, 255⟩,
          fun _ b => b⟩ } } }

/-- One pixel with that lens waiting. -/
def lensPixel : Stream (Fin 256) (Fin 256) :=
  { onePixel with deformers := [.tde4 Tde4Deformer.new] }

/-- What it looks like. -/
def movedPicture : Picture (Fin 256) := { redPicture with data := ⟨1, 0, 2, 1⟩ }

theorem lens_still (lib : ColorLib (Fin 256)) : Still lib lensPixel redPicture :=
  have h := (red_shows lib).isStill
  ⟨h.data, h.display, h.space, h.channels, h.size, h.pixels⟩

theorem lens_carried :
    CarriedOut rightLens.bake.deform lensPixel.deformers redPicture movedPicture := by
  refine ⟨rfl, rfl, rfl, fun h => absurd rfl (h _ List.mem_cons_self), fun _ => ⟨.inl rfl, ?_, ?_, ?_,
    ?_, ⟨_, .on rfl rfl .nil, ?_⟩, ?_⟩⟩
  · intro d hd _
    cases List.mem_singleton.mp hd
    exact .inl rfl
  · constructor <;> decide
  · constructor <;> decide
  · unfold ValidSize; decide
  · decide +kernel
  · intro x y _
    exact ⟨_, .on rfl rfl .nil, rfl⟩

theorem lens_appears : Appears rightLens.bake lensPixel movedPicture :=
  ⟨redPicture, lens_still _, lens_carried⟩

/-- The lens node. -/
example : ∃ out d, (lensNode 0).run .debug rightLens 1 modeAll [onePixel] .new noCache =
    .ok (.valid, out, noCache) ∧ out.deformers = [.tde4 d] ∧
    Still rightLens.bake.color out redPicture := by
  obtain ⟨d, -, -, -, h⟩ := C86_lens .debug rightLens (lensNode 0) 1 modeAll onePixel [] .new noCache rfl
    (by decide) (red_shows _).isStill
  obtain ⟨out, e, h1, h2⟩ := h rfl
  exact ⟨out, d, e, h1, h2⟩

/-- A transform node. -/
example : ∃ out d, (nodeOf (.transform { TransformAttrs.new with translateX := 3 })).run .debug finLib 1
    modeAll [onePixel] .new noCache = .ok (.valid, out, noCache) ∧
    out.deformers = [.transform d] ∧ Still finLib.bake.color out redPicture := by
  obtain ⟨out, d, e, -, -, h1, h2⟩ := C86_transform .debug finLib
    (nodeOf (.transform { TransformAttrs.new with translateX := 3 })) 1 modeAll onePixel [] .new noCache
    rfl (by decide) (red_shows _).isStill
  exact ⟨out, d, e, h1, h2⟩

/-- A window that sticks out on the left. -/
def wideCrop : Node (Fin 256) :=
  nodeOf (.cropImage { pixelCrop with windowMinX := -1, reformat := 1 })

example : ∃ out w' Q, wideCrop.run .debug rightLens 1 modeAll [lensPixel] .new noCache =
    .ok (.valid, out, w') ∧ IsCropped ⟨-1, 0, 1, 1⟩ true movedPicture Q ∧
    Shows rightLens.bake.color out Q := by
  obtain ⟨out, w', e, -, -, ⟨Q, hQ⟩, h⟩ := C86_crop_partial .debug rightLens wideCrop 1 modeAll lensPixel
    [] .new noCache rfl (by decide) (by decide) noCache_off lens_appears rfl
    (show ValidSize ⟨2, 1, 3⟩ by unfold ValidSize; decide)
  exact ⟨out, w', Q, e, hQ, h Q hQ⟩

/-- Multiplying two pictures. -/
def product : Node (Fin 256) := nodeOf (.mergeImage { MergeImageAttrs.new with enable := 1, mode := 2 })

example : ∃ out w' Q, product.run .debug rightLens 1 modeAll [lensPixel, onePixel] .new noCache =
    .ok (.valid, out, w') ∧ IsMerged .multiply (product.getF32 "mix") movedPicture redPicture Q ∧
    Shows rightLens.bake.color out Q := by
  obtain ⟨out, w', e, -, -, ⟨Q, hQ⟩, h⟩ := C86_merge_partial .debug rightLens product 1 modeAll lensPixel
    onePixel [] .new noCache rfl (by decide) (by decide) noCache_off lens_appears (red_shows _).appears
    rfl (.inl rfl) (.inl rfl) (show ValidSize ⟨2, 1, 4⟩ by unfold ValidSize; decide)
  exact ⟨out, w', Q, e, hQ, h Q hQ⟩

/-- C86 fails for a merge whose second input has a lens waiting: the window it has before the lens is
used, so it is not where it should be.  (As the first input it is.) -/
theorem C86_counterexample_merge : ∃ out w', Appears rightLens.bake lensPixel movedPicture ∧
    Appears rightLens.bake onePixel redPicture ∧
    product.run .debug rightLens 1 modeAll [onePixel, lensPixel] .new noCache =
      .ok (.valid, out, w') ∧ out.dataWindow = ⟨0, 0, 1, 1⟩ ∧
    ∀ Q, IsMerged .multiply (product.getF32 "mix") redPicture movedPicture Q →
      Q.data = ⟨0, 0, 2, 1⟩ ∧ ¬ Appears rightLens.bake out Q := by
  refine ⟨_, _, lens_appears, (red_shows _).appears, ran (by decide +kernel), by decide +kernel, ?_⟩
  intro Q hQ
  have hd : Q.data = ⟨0, 0, 2, 1⟩ := hQ.data
  refine ⟨hd, ?_⟩
  rintro ⟨P, hP, hR⟩
  have h1 := (hR.still (by
    have : (outOf (product.run .debug rightLens 1 modeAll [onePixel, lensPixel] .new
      noCache)).deformers = [] := List.isEmpty_iff.mp (by decide +kernel)
    rw [this]
    exact fun d hd => nomatch hd)).1
  rw [hd, ← hP.data] at h1
  exact absurd h1 (by decide +kernel)

example : ∃ out w' Q, (nodeOf (.viewer fullViewer)).run .debug rightLens 1 modeAll [lensPixel] .new
      noCache = .ok (.valid, out, w') ∧ IsBaked (Fin 256) .f32 movedPicture Q ∧
      Shows rightLens.bake.color out Q := by
  obtain ⟨out, w', e, -, -, -, -, -, -, -, -, -, h⟩ := C86_viewer_all .debug rightLens
    (nodeOf (.viewer fullViewer)) 1 modeAll lensPixel [] .new noCache rfl (by decide) (by decide)
    (by decide) noCache_off lens_appears
  obtain ⟨⟨Q, hQ⟩, h⟩ := h (by decide) .f32 (by decide)
  exact ⟨out, w', Q, e, hQ, h Q hQ⟩

example : ∃ out w' Q, (nodeOf (.viewer { fullViewer with bakeOption := 2 })).run .debug rightLens 1
      modeAll [lensPixel] .new noCache = .ok (.valid, out, w') ∧ IsBaked (Fin 256) .f32 redPicture Q ∧
      Still rightLens.bake.color out Q ∧ out.deformers = lensPixel.deformers := by
  obtain ⟨out, w', e, -, -, -, -, -, -, -, hd, -, h⟩ := C86_viewer_grades .debug rightLens
    (nodeOf (.viewer { fullViewer with bakeOption := 2 })) 1 modeAll lensPixel [] .new noCache rfl
    (by decide) (by decide) (by decide) noCache_off (lens_still _)
  obtain ⟨⟨Q, hQ⟩, h⟩ := h (by decide) .f32 (by decide)
  exact ⟨out, w', Q, e, hQ, h Q hQ, hd⟩

example : ∃ out w' Q, (nodeOf (.viewer { fullViewer with
        bakeOption := 2, bakePixelDataType := 2 })).run .debug rightLens 1 modeAll [lensPixel] .new
      noCache = .ok (.valid, out, w') ∧ IsBaked (Fin 256) .u8 redPicture Q ∧
      Still rightLens.bake.color out Q ∧ out.pixelBlock.block.dtype = .u8 := by
  obtain ⟨out, w', e, -, -, -, -, -, -, -, -, ⟨v, -, hv⟩, h⟩ := C86_viewer_grades .debug rightLens
    (nodeOf (.viewer { fullViewer with bakeOption := 2, bakePixelDataType := 2 })) 1 modeAll
    lensPixel [] .new noCache rfl (by decide) (by decide) (by decide) noCache_off (lens_still _)
  obtain ⟨⟨Q, hQ⟩, h⟩ := h (by decide) .u8 (by decide)
  refine ⟨out, w', Q, e, hQ, h Q hQ, ?_⟩
  obtain ⟨r, e', -, h3, -⟩ := C18_convert_keeps_size (floatImage (H := Fin 256)
    (sizeFor redPicture.data redPicture.channels) (inSpace rightLens.bake.color
      lensPixel.imageSpec.unassociatedAlpha
      ((nodeOf (.viewer { fullViewer with bakeOption := 2, bakePixelDataType := 2 })).getStr
        "bake_color_space") (sizeFor redPicture.data redPicture.channels) v)) .u8
  obtain rfl := Except.ok.inj (e'.symm.trans hv)
  exact h3

theorem fin_keeps : KeepsLength finLib.bake.color := fun _ _ _ _ _ _ _ _ => rfl

example : ∃ out w', (nodeOf (.viewer { fullViewer with cropToFormat := 1 })).run .debug finLib 1
      modeAll [onePixel] .new noCache = .ok (.valid, out, w') ∧ out.dataWindow = ⟨0, 0, 1, 1⟩ := by
  obtain ⟨out, w', block, e, -, -, h, -⟩ := C86_viewer_cropped .debug finLib
    (nodeOf (.viewer { fullViewer with cropToFormat := 1 })) 1 modeAll onePixel [] .new noCache rfl
    (by decide) (by decide) (by decide) noCache_off (red_shows _).appears fin_keeps red_size
  exact ⟨out, w', e, h⟩

example : ∃ out w', (nodeOf (.viewer { fullViewer with bakeOption := 1 })).run .debug finLib 1
      modeAll [gradedPixel] .new noCache = .ok (.valid, out, w') ∧
      out.colorOps = gradedPixel.colorOps := by
  obtain ⟨out, w', e, -, -, -, -, -, h, -⟩ := C86_viewer_space .debug finLib
    (nodeOf (.viewer { fullViewer with bakeOption := 1 })) 1 modeAll gradedPixel [] .new noCache rfl
    (by decide) (by decide) (by decide) noCache_off
  exact ⟨out, w', e, h⟩

example : ∃ job, writeNode.run .debug finLib 1 modeAll [onePixel] .new noCache =
    .ok (.valid, onePixel, { noCache with writes := noCache.writes ++ [job] }) ∧
    job.spec.numChannels = 3 := by
  obtain ⟨job, block, e, -, -, -, -, -, -, -, h, -⟩ := C86_write .debug finLib writeNode 1 modeAll
    onePixel [] .new noCache rfl (by decide) (by decide) (.inl (by decide)) rfl (red_shows _).appears
    (by decide) (by decide) (fun h => absurd h (by decide +kernel))
  exact ⟨job, e, h⟩

/-- A colour library that makes everything brighter. -/
def brighter : NodeLib (Fin 256) (Fin 256) :=
  { finLib with bake := { finLib.bake with color := ⟨fun px _ _ _ _ _ _ _ => (true, px.map (· + 1))⟩ } }

/-- One pixel of an sRGB image, and its picture. -/
def srgbPixel : Stream (Fin 256) (Fin 256) :=
  { onePixel with imageSpec := { onePixel.imageSpec with colorSpace := colorSpaceSrgb } }

/-- The picture of `srgbPixel`. -/
def srgbPicture : Picture (Fin 256) :=
  { redPicture with space := colorSpaceSrgb, at_ := fun _ _ => [2, 1, 1] }

theorem srgb_shows : Shows brighter.bake.color srgbPixel srgbPicture := by
  refine ⟨rfl, rfl, rfl, .inr (.inl rfl), red_size, (fun d hd => nomatch hd), [2, 1, 1],
    ⟨[1, 0, 0], rfl, fun h => absurd h (by decide), fun _ => rfl⟩, rfl, ?_⟩
  intro x y h
  obtain ⟨rfl, rfl⟩ := has_one h
  exact ⟨[2, 1, 1], by decide +kernel, .nil _⟩

theorem convert_numbers {b : PixelBlock (Fin 256) (Fin 256)} {size : BlockSize}
    {raw : List (Fin 256)} (h : b.convert (.known .f32) = .ok (floatImage size raw)) :
    (match b.convert (.known .f32) with
      | .ok b => numbersOf b
      | .error _ => []) = raw := by
  rw [h]; rfl

/-- C86 fails for a crop of an image that is not stored in linear light: the pixels of the output are
linear, but it still says sRGB, so they are converted again. -/
theorem C86_counterexample_crop : ∃ out w', Shows brighter.bake.color srgbPixel srgbPicture ∧
    (nodeOf (.cropImage pixelCrop)).run .debug brighter 1 modeAll [srgbPixel] .new noCache =
      .ok (.valid, out, w') ∧
    ∀ Q, IsCropped ⟨0, 0, 1, 1⟩ false srgbPicture Q → ¬ Shows brighter.bake.color out Q := by
  refine ⟨_, _, srgb_shows, ran (by decide +kernel), ?_⟩
  rintro Q hQ h
  obtain ⟨v, ⟨raw, h1, -, h3⟩, -, h5⟩ := h.pixels
  have hc : Q.channels = 3 := hQ.channels
  have hd : Q.data = ⟨0, 0, 1, 1⟩ := hQ.data
  have hr := (convert_numbers h1).symm.trans
    (show _ = ([2, 1, 1] : List (Fin 256)) by decide +kernel)
  subst hr
  have hv := h3 (by decide +kernel)
  have hv' : v = [3, 2, 2] := hv
  obtain ⟨mid, m1, m2⟩ := h5 0 0 (by rw [hd]; unfold Has; decide)
  obtain ⟨mid', k1, k2⟩ := hQ.pixels 0 0 (by unfold Has; decide)
  cases k2
  rw [hv', hd, hc] at m1
  have e1 : applyColorMatrix (pixelAt ⟨0, 0, 1, 1⟩ 3 [3, 2, 2] 0 0) ((3 : Nat) : Int)
      (outOf ((nodeOf (.cropImage pixelCrop)).run .debug brighter 1 modeAll [srgbPixel] .new
        noCache)).colorMatrix = .ok [3, 2, 2] := by decide +kernel
  have e2 : applyColorMatrix (srgbPicture.pixel 0 0) (srgbPicture.channels : Int) Mat4.identity =
      .ok [2, 1, 1] := by decide +kernel
  have e3 : (outOf ((nodeOf (.cropImage pixelCrop)).run .debug brighter 1 modeAll [srgbPixel] .new
        noCache)).colorOps = [] := List.isEmpty_iff.mp (by decide +kernel)
  rw [e3] at m2
  cases m2
  have f1 := Except.ok.inj (m1.symm.trans e1)
  have f2 := Except.ok.inj (k1.symm.trans e2)
  exact absurd (f1.symm.trans f2) (by decide)

end OCG.Props
