import Verif.Spec.Safe
import Verif.Proofs.Picture
import Verif.Proofs.Sized
import Verif.Props.DeformPixels
/-
Baking, cropping and merging tidy pixels does not panic and gives tidy pixels.
-/

namespace OCG

open SafeSpec BlockSpec ImageSpecs SizedSpec Props DeformSpec

theorem SafeSpec.Within.valid {l : Limits} (hl : l.Workable) {w : BBox} (h : Within l w) {n : Int}
    (hn : n = 3 ∨ n = 4) : ValidSize (sizeFor w n) := by
  obtain ⟨a1, a2, a3, a4, a5, a6⟩ := h
  have hs := hl.small
  refine ⟨by show 0 < w.maxX - w.minX; omega, by show 0 < w.maxY - w.minY; omega,
    by show 0 < n; omega, ?_⟩
  show (w.maxX - w.minX) * (w.maxY - w.minY) * n ≤ 2147483647
  have h1 : (w.maxX - w.minX) * (w.maxY - w.minY) ≤ (l.high - l.low) * (l.high - l.low) :=
    mul_le_mul (by omega) (by omega) (by omega) (by omega)
  have h0 : 0 ≤ (w.maxX - w.minX) * (w.maxY - w.minY) := mul_nonneg (by omega) (by omega)
  rcases hn with rfl | rfl <;> omega

theorem SafeSpec.Limits.Workable.bound {l : Limits} (hl : l.Workable) : -23170 ≤ l.low ∧ l.high ≤ 23170 := by
  obtain ⟨a, b, c⟩ := hl
  have : l.high - l.low ≤ 23170 := by
    by_contra h
    have : 23171 * 23171 ≤ (l.high - l.low) * (l.high - l.low) :=
      mul_le_mul (by omega) (by omega) (by omega) (by omega)
    omega
  omega

section
variable {F H : Type}

theorem SafeSpec.Tidy.size {l : Limits} {b : PixelBlock F H} {w d : BBox} (h : Tidy l b w d) :
    b.size = sizeFor w b.size.numChannels := by
  obtain ⟨⟨a, c, n⟩, _⟩ := b
  have h1 := h.complete.width
  have h2 := h.complete.height
  dsimp only at h1 h2
  unfold sizeFor
  rw [h1, h2]

theorem SafeSpec.Tidy.wellFormed {l : Limits} (hl : l.Workable) {b : PixelBlock F H} {w d : BBox}
    (h : Tidy l b w d) : WellFormed b := by
  refine ⟨by rw [h.size]; exact h.dataFits.valid hl h.channels, ?_⟩
  rw [h.complete.values]
  unfold elements
  rw [h.complete.width, h.complete.height]

theorem SafeSpec.Tidy.of {l : Limits} {b : PixelBlock F H} {w d : BBox} (hw : Within l w)
    (hd : Within l d) {n : Int} (hn : n = 3 ∨ n = 4) (hs : b.size = sizeFor w n)
    (hlen : (b.block.data.length : Int) = elements (sizeFor w n)) : Tidy l b w d := by
  refine ⟨hw, hd, by rw [hs]; exact hn, ?_, ?_, ?_⟩
  · rw [hs]; rfl
  · rw [hs]; rfl
  · rw [hs, hlen]; rfl

theorem SafeSpec.Tidy.sized {l : Limits} (hl : l.Workable) {b : PixelBlock F H} {w d : BBox}
    (h : Tidy l b w d) (p : Profile) : Sized p b w := by
  have hwf := h.wellFormed hl
  have hb := hl.bound
  obtain ⟨a1, a2, a3, a4, a5, a6⟩ := h.dataFits
  refine ⟨?_, ?_, ?_⟩
  · rw [size_eq p b.size hwf.1, ← hwf.2]
    rfl
  · rw [h.complete.width]; exact i32_of (by unfold InI32; omega)
  · rw [h.complete.height]; exact i32_of (by unfold InI32; omega)

/-- Another block with the same size and as many values. -/
theorem SafeSpec.Tidy.same {l : Limits} {b b' : PixelBlock F H} {w d : BBox} (h : Tidy l b w d)
    (hs : b'.size = b.size) (hlen : b'.block.data.length = b.block.data.length) :
    Tidy l b' w d :=
  ⟨h.dataFits, h.displayFits, by rw [hs]; exact h.channels, by rw [hs]; exact h.complete.width,
    by rw [hs]; exact h.complete.height, by rw [hs, hlen]; exact h.complete.values⟩

theorem float_block {b : PixelBlock F H} (h : b.block.dtype = .f32) :
    ∃ v : List F, b = floatImage b.size v ∧ v.length = b.block.data.length := by
  obtain ⟨s, t, d⟩ := b
  cases h
  exact ⟨d, rfl, rfl⟩

variable [FloatLike F] [HalfLike F H]

theorem bakeColorspace_ok {lib : ColorLib F} (hk : PictureSpec.KeepsLength lib)
    (b : PixelBlock F H) (spec : ImageSpec F) (src dst : Bytes) :
    ∃ b' spec', bakeColorspace lib b spec src dst = .ok (b', spec') ∧ b'.size = b.size ∧
      b'.block.dtype = .f32 ∧ b'.block.data.length = b.block.data.length := by
  obtain ⟨r, e, h1, h2, h3⟩ := C18_convert_keeps_size b .f32
  obtain ⟨v, hv, hlen⟩ := float_block h2
  unfold bakeColorspace
  rw [e]
  simp only [bind, Except.bind]
  split
  · exact ⟨r, spec, rfl, h1, h2, h3⟩
  · have hv2 : r.asSliceF32 = .ok v := by rw [hv]; rfl
    rw [hv2]
    refine ⟨_, _, rfl, h1, rfl, ?_⟩
    dsimp only
    exact (hk _ _ _ _ _ _ _ _).trans (hlen.trans h3)

omit [HalfLike F H] in
theorem bakeStreamColorgrade_ok {b : PixelBlock F H} (hb : b.block.dtype = .f32)
    (hn : b.size.numChannels = 3 ∨ b.size.numChannels = 4) (s : Stream F H) :
    ∃ b', bakeStreamColorgrade b s =
        .ok (b', { s with colorMatrix := Mat4.identity, colorOps := [] }) ∧
      b'.size = b.size ∧ b'.block.dtype = .f32 ∧
      b'.block.data.length = b.block.data.length := by
  obtain ⟨v, hv, hlen⟩ := float_block hb
  obtain ⟨n, hn', hc⟩ : ∃ n : Nat, b.size.numChannels = n ∧ Channels n := by
    rcases hn with h | h
    · exact ⟨3, h, by unfold Channels; omega⟩
    · exact ⟨4, h, by unfold Channels; omega⟩
  obtain ⟨mid, h1, h2⟩ := C57_per_pixel s.colorMatrix hc v
  obtain ⟨out, h3, h4, -⟩ := C47_every_pixel s.colorOps mid hc
  refine ⟨⟨b.size, ⟨.f32, out⟩⟩, ?_, rfl, rfl, ?_⟩
  · unfold bakeStreamColorgrade bakeColorgrade PixelBlock.updateF32
    have hv2 : b.asSliceF32 = .ok v := by rw [hv]; rfl
    rw [hv2, hn']
    simp only [bind, Except.bind, h1, h3]
  · exact (h4.trans h2.length).trans hlen

variable [FloatConst F]

omit [HalfLike F H] [FloatConst F] in
theorem SafeSpec.WholeNumbers.outer {l : Limits} (hf : WholeNumbers F l) {w : BBox}
    (hw : Within l w) : outerBox (BBoxF.ofBBox w : BBoxF F) = w := by
  obtain ⟨a1, a2, a3, a4, a5, a6⟩ := hw
  obtain ⟨x0, y0, x1, y1⟩ := w
  dsimp only at *
  show (⟨FloatLike.toI32 (FloatLike.floor (FloatLike.ofInt x0 : F)),
    FloatLike.toI32 (FloatLike.floor (FloatLike.ofInt y0 : F)),
    FloatLike.toI32 (FloatLike.ceil (FloatLike.ofInt x1 : F)),
    FloatLike.toI32 (FloatLike.ceil (FloatLike.ofInt y1 : F))⟩ : BBox) = _
  rw [(hf x0 a1 (by omega)).1, (hf y0 a4 (by omega)).1, (hf x1 (by omega) a3).2,
    (hf y1 (by omega) a6).2]

omit [FloatConst F] in
theorem deformedBox_transforms (lib : DeformLib F) (w : BBoxF F) :
    ∀ (ds : List (Deformer F)), (∀ d ∈ ds, ∃ t, d = .transform t) → ∀ b,
      deformedBox lib ds w b = .ok b := by
  intro ds
  induction ds with
  | nil => intro _ b; rfl
  | cons d ds ih =>
    intro h b
    obtain ⟨t, rfl⟩ := h d List.mem_cons_self
    exact Res.bind_ok.mpr ⟨b, rfl, ih (fun e he => h e (List.mem_cons_of_mem _ he)) b⟩

theorem applyDeformers_ok (p : Profile) (lib : DeformLib F) {l : Limits} (hl : l.Workable)
    (hf : WholeNumbers F l) {ds : List (Deformer F)}
    (hd : ∀ d ∈ ds, d.enable = 1 → ∃ t, d = .transform t) {display w : BBox}
    {b : PixelBlock F H} (hb : b.block.dtype = .f32) (ht : Tidy l b w display)
    (dst : PixelBlock F H) :
    ∃ b', applyDeformersToPixels p lib ds display b w dst = .ok (b', w) ∧ b'.size = b.size ∧
      b'.block.dtype = .f32 ∧ b'.block.data.length = b.block.data.length := by
  by_cases hon : ∃ d ∈ ds, d.enable = 1
  · obtain ⟨v, hv, hlen⟩ := float_block hb
    have hsz := ht.size
    have hwf := ht.wellFormed hl
    have hen : deformedBox lib (enabledDeformers ds) (BBoxF.ofBBox display) (BBoxF.ofBBox w) =
        .ok (BBoxF.ofBBox w) := by
      refine deformedBox_transforms lib _ _ (fun d hm => ?_) _
      unfold enabledDeformers at hm
      rw [List.mem_filter] at hm
      exact hd d hm.1 (by simpa using hm.2)
    have ho := hf.outer ht.dataFits
    have hbd := hl.bound
    have hdf := ht.dataFits
    have hbox := hdf.valid hl ht.channels
    obtain ⟨out, e, -⟩ := deform_pixels (H := H) p lib ds
      (fun d hm he => by obtain ⟨t, rfl⟩ := hd d hm he; trivial) hon display w b.size v dst
      hwf.1 (by rw [hlen]; exact hwf.2) ht.channels
      (by unfold InI32; have := hdf.left; have := hdf.wide; have := hdf.right; omega)
      (by unfold InI32; have := hdf.bottom; have := hdf.tall; have := hdf.top; omega)
      (BBoxF.ofBBox w) hen (by rw [ho]; exact hbox)
    rw [ho, ← hv] at e
    have hszd := applyDeformersToPixels_sized (ht.sized hl p) e
    · refine ⟨_, e, ?_, rfl, ?_⟩
      · exact hsz.symm
      · have h1 := hszd.values
        have h2 := (ht.sized hl p).values
        change BlockSize.size p (sizeFor w b.size.numChannels) = _ at h1
        rw [← hsz, h2] at h1
        exact (Except.ok.inj h1).symm
  · refine ⟨b, ?_, rfl, hb, rfl⟩
    unfold applyDeformersToPixels
    split
    · rfl
    · have : (enabledDeformers ds).length = 0 := by
        rw [List.length_eq_zero_iff, enabledDeformers, List.filter_eq_nil_iff]
        intro d hm h
        exact hon ⟨d, hm, by simpa using h⟩
      dsimp only
      rw [if_pos this]

/-- Baking tidy pixels. -/
theorem bake_ok (p : Profile) {lib : BakeLib F} (hk : PictureSpec.KeepsLength lib.color)
    {l : Limits} (hl : l.Workable) (hf : WholeNumbers F l) {option : BakeOption}
    (ho : option ≠ .uninitialized) {display : BBox} {b : Baked F H}
    (hd : ∀ d ∈ b.stream.deformers, d.enable = 1 → ∃ t, d = .transform t)
    (ht : Tidy l b.block b.dataWindow display) (src dst : Bytes) (t : DataType) :
    ∃ b', bake p lib option display b src dst t = .ok b' ∧
      Tidy l b'.block b'.dataWindow display ∧ b'.dataWindow = b.dataWindow ∧
      (∀ d ∈ b'.stream.deformers, d ∈ b.stream.deformers) ∧
      (option ≠ .nothing → bakeType t b.block = .known b'.block.block.dtype) := by
  obtain ⟨t', ht'⟩ : ∃ t', bakeType t b.block = .known t' := by
    cases t with
    | unknown => exact ⟨_, rfl⟩
    | known t => exact ⟨t, rfl⟩
  unfold bake
  rw [ht']
  cases option
  case uninitialized => exact absurd rfl ho
  case nothing => exact ⟨b, rfl, ht, rfl, fun d h => h, fun h => absurd rfl h⟩
  case colorSpace =>
    obtain ⟨b1, s1, e1, q1, q2, q3⟩ := bakeColorspace_ok hk b.block b.spec src dst
    obtain ⟨b2, e2, r1, r2, r3⟩ := C18_convert_keeps_size b1 t'
    refine ⟨_, Res.bind_ok.mpr ⟨_, e1, Res.bind_ok.mpr ⟨_, e2, rfl⟩⟩, ?_, rfl, fun d h => h,
      fun _ => by rw [← r2]⟩
    exact ht.same (r1.trans q1) (r3.trans q3)
  case colorSpaceAndGrade =>
    obtain ⟨b1, s1, e1, q1, q2, q3⟩ := bakeColorspace_ok hk b.block b.spec src colorSpaceLinear
    have t1 := ht.same q1 q3
    obtain ⟨b2, e2, u1, u2, u3⟩ := bakeStreamColorgrade_ok q2 t1.channels b.stream
    have t2 := t1.same u1 u3
    obtain ⟨b3, s3, e3, v1, v2, v3⟩ := bakeColorspace_ok hk b2 s1 colorSpaceLinear dst
    obtain ⟨b4, e4, r1, r2, r3⟩ := C18_convert_keeps_size b3 t'
    refine ⟨_, Res.bind_ok.mpr ⟨_, e1, Res.bind_ok.mpr ⟨_, e2, Res.bind_ok.mpr ⟨_, e3,
      Res.bind_ok.mpr ⟨_, e4, rfl⟩⟩⟩⟩, ?_, rfl, fun d h => h, fun _ => by rw [← r2]⟩
    exact (t2.same v1 v3).same r1 r3
  case all =>
    obtain ⟨b1, s1, e1, q1, q2, q3⟩ := bakeColorspace_ok hk b.block b.spec src colorSpaceLinear
    have t1 := ht.same q1 q3
    obtain ⟨b2, e2, u1, u2, u3⟩ := bakeStreamColorgrade_ok q2 t1.channels b.stream
    have t2 := t1.same u1 u3
    obtain ⟨b3, e3, v1, v2, v3⟩ := applyDeformers_ok p lib.deform hl hf hd u2 t2 b2
    have t3 := t2.same v1 v3
    obtain ⟨b4, s4, e4, w1, w2, w3⟩ := bakeColorspace_ok hk b3 s1 colorSpaceLinear dst
    obtain ⟨b5, e5, r1, r2, r3⟩ := C18_convert_keeps_size b4 t'
    refine ⟨_, Res.bind_ok.mpr ⟨_, e1, Res.bind_ok.mpr ⟨_, e2, Res.bind_ok.mpr ⟨_, e3,
      Res.bind_ok.mpr ⟨_, e4, Res.bind_ok.mpr ⟨_, e5, rfl⟩⟩⟩⟩⟩, ?_, rfl,
      fun d h => (by cases h), fun _ => by rw [← r2]⟩
    exact (t3.same w1 w3).same r1 r3

omit [FloatConst F] in
/-- Cropping tidy pixels. -/
theorem cropImage_ok (p : Profile) {l : Limits} (hl : l.Workable) {image : Image F H}
    (ht : Tidy l image.pixelBlock image.dataWindow image.displayWindow) {crop : BBox}
    (hc : Within l crop) (reformat intersect : Bool) :
    ∃ out, cropImage p image crop reformat false intersect = .ok out ∧
      Tidy l out.pixelBlock out.dataWindow out.displayWindow := by
  obtain ⟨d, e, hlen, -⟩ := C50_crop_partial p image crop reformat intersect (ht.wellFormed hl)
    ht.complete.width ht.complete.height (hc.valid hl ht.channels)
  refine ⟨_, e, ?_⟩
  refine .of hc ?_ ht.channels rfl hlen
  dsimp only
  split
  · exact hc
  · exact ht.displayFits

omit [FloatConst F] in
/-- Merging tidy pixels. -/
theorem mergeImages_ok (p : Profile) {l : Limits} (hl : l.Workable) {a b out : Image F H}
    (ha : Tidy l a.pixelBlock a.dataWindow a.displayWindow)
    (hb : Tidy l b.pixelBlock b.dataWindow b.displayWindow)
    (ho : Tidy l out.pixelBlock out.dataWindow out.displayWindow)
    (ta : a.pixelBlock.block.dtype = .f32) (tb : b.pixelBlock.block.dtype = .f32)
    (mode : MergeImageMode) (mix : F) :
    ∃ f r, mergeImages p mode a b mix out = .ok (f, r) ∧
      Tidy l r.pixelBlock r.dataWindow r.displayWindow := by
  by_cases hm : mode = .uninitialized
  · refine ⟨false, out, ?_, ho⟩
    unfold mergeImages
    rw [if_pos hm]
  · have filled : ∀ i : Image F H, Tidy l i.pixelBlock i.dataWindow i.displayWindow →
        i.pixelBlock.block.dtype = .f32 → ∃ v, Filled i i.pixelBlock.size.numChannels v := by
      intro i hi ti
      obtain ⟨v, h1, h2⟩ := float_block ti
      have hw := hi.wellFormed hl
      have hs := hi.size
      refine ⟨v, ?_, ?_, ?_⟩
      · rw [← hs]; exact h1
      · rw [← hs]; exact hw.1
      · rw [← hs, h2]; exact hw.2
    obtain ⟨va, fa⟩ := filled a ha ta
    obtain ⟨vb, fb⟩ := filled b hb tb
    have hc : Within l (BBox.combine a.dataWindow b.dataWindow) := by
      obtain ⟨a1, a2, a3, a4, a5, a6⟩ := ha.dataFits
      obtain ⟨b1, b2, b3, b4, b5, b6⟩ := hb.dataFits
      unfold BBox.combine
      constructor <;> dsimp only <;> omega
    obtain ⟨r, vo, e, fo, -, hdisp, -, -⟩ := C51_pixels p mode hm a b out mix _ _ va vb fa fb
      ha.channels hb.channels (hc.valid hl (.inr rfl))
    have hdata : r.dataWindow = BBox.combine a.dataWindow b.dataWindow := by
      unfold mergeImages at e
      rw [if_neg hm] at e
      obtain ⟨_, -, e⟩ := Res.bind_ok.mp e
      obtain ⟨_, -, e⟩ := Res.bind_ok.mp e
      obtain ⟨_, -, e⟩ := Res.bind_ok.mp e
      obtain ⟨_, -, e⟩ := Res.bind_ok.mp e
      obtain ⟨_, -, e⟩ := Res.bind_ok.mp e
      obtain ⟨_, -, e⟩ := Res.bind_ok.mp e
      obtain ⟨_, -, e⟩ := Res.bind_ok.mp e
      cases e
      rfl
    refine ⟨true, r, e, .of (by rw [hdata]; exact hc) (by rw [hdisp]; exact hb.displayFits)
      hb.channels (by rw [fo.block]; rfl) ?_⟩
    rw [fo.block]
    exact fo.length

omit [FloatConst F] in
/-- Allocating an image for a file. -/
theorem oiioAllocate_ok (p : Profile) {l : Limits} (hl : l.Workable) {spec : FileSpec F}
    (hs : SafeHeader l spec) (image : Image F H) :
    ∃ out, oiioAllocate p spec image = .ok out ∧
      Tidy l out.pixelBlock out.dataWindow out.displayWindow := by
  obtain ⟨hb1, hb2⟩ := hl.bound
  have hdf := hs.data
  have hdp := hs.display
  obtain ⟨a1, a2, a3, a4, a5, a6⟩ := id hdf
  obtain ⟨b1, b2, b3, b4, b5, b6⟩ := id hdp
  dsimp only at a1 a2 a3 a4 a5 a6 b1 b2 b3 b4 b5 b6
  obtain ⟨t, ht⟩ : ∃ t, spec.format = .known t := by
    cases h : spec.format with
    | unknown => exact absurd h hs.format
    | known t => exact ⟨t, rfl⟩
  obtain ⟨c, hc, hc2⟩ : ∃ c : Nat, strideNumChannels spec.numChannels spec.format = .ok c ∧
      (wrapI32 c = 3 ∨ wrapI32 c = 4) := by
    rw [ht]
    rcases hs.channels with h | h <;> rw [h] <;> cases t <;>
      first
      | exact ⟨4, rfl, .inr (by decide)⟩
      | exact ⟨3, rfl, .inl (by decide)⟩
  obtain ⟨m, hm⟩ : ∃ m, wrapI32 c = m := ⟨_, rfl⟩
  rw [hm] at hc2
  have hsize : sizeFor ⟨spec.x + spec.fullX, spec.y + spec.fullY,
      spec.x + spec.width + spec.fullX, spec.y + spec.height + spec.fullY⟩ m =
      ⟨spec.width, spec.height, m⟩ := by
    clear hm hc
    unfold sizeFor
    rw [BlockSize.mk.injEq]
    exact ⟨by dsimp only; omega, by dsimp only; omega, rfl⟩
  have hv := hdf.valid hl hc2
  rw [hsize] at hv
  obtain ⟨d, e, hlen⟩ : ∃ d : List (Elem F H t), image.pixelBlock.dataResize p
      ⟨spec.width, spec.height, m⟩ spec.format =
        .ok ⟨⟨spec.width, spec.height, m⟩, ⟨t, d⟩⟩ ∧
      (d.length : Int) = spec.width * spec.height * m := by
    rw [ht]
    obtain ⟨s0, t0, d0⟩ := image.pixelBlock
    by_cases h : t0 = t
    · subst h
      obtain ⟨d, h1, h2, -⟩ := C17_resize_same_type p s0 _ t0 d0 hv
      exact ⟨d, h1, h2⟩
    · obtain ⟨d, h1, h2, -⟩ := C17_resize_other_type p (⟨s0, ⟨t0, d0⟩⟩ : PixelBlock F H) _ t h hv
      exact ⟨d, h1, h2⟩
  unfold oiioAllocate cint
  have e' : image.pixelBlock.dataResize p ⟨spec.width, spec.height, wrapI32 c⟩ spec.format =
      .ok ⟨⟨spec.width, spec.height, m⟩, ⟨t, d⟩⟩ := by rw [hm]; exact e
  refine ⟨_, Res.bind_ok.mpr ⟨_, i32_of hs.right, Res.bind_ok.mpr ⟨_, i32_of hs.top,
    Res.bind_ok.mpr ⟨_, i32_of hs.fullRight, Res.bind_ok.mpr ⟨_, i32_of hs.fullTop,
    Res.bind_ok.mpr ⟨_, i32_of (by unfold InI32; omega),
    Res.bind_ok.mpr ⟨_, i32_of (by unfold InI32; omega),
    Res.bind_ok.mpr ⟨_, i32_of (by unfold InI32; omega),
    Res.bind_ok.mpr ⟨_, i32_of (by unfold InI32; omega),
    Res.bind_ok.mpr ⟨_, i32_of (by unfold InI32; omega),
    Res.bind_ok.mpr ⟨_, i32_of (by unfold InI32; omega),
    Res.bind_ok.mpr ⟨_, hc, Res.bind_ok.mpr ⟨_, e', rfl⟩⟩⟩⟩⟩⟩⟩⟩⟩⟩⟩⟩, ?_⟩
  refine .of hdf ?_ hc2 (by rw [hsize]) (by rw [hsize]; exact hlen)
  have e1 : spec.fullX + spec.fullWidth - spec.fullX = spec.fullWidth := by omega
  have e2 : spec.fullY + spec.fullHeight - spec.fullY = spec.fullHeight := by omega
  dsimp only
  rw [e1, e2]
  exact hdp

omit [FloatConst F] in
/-- Reading a file with a safe header. -/
theorem readImage_ok (p : Profile) {l : Limits} (hl : l.Workable) {oiio : Oiio F H} {path : Bytes}
    {spec : FileSpec F} (h : oiio.header path = some spec) (hs : SafeHeader l spec) :
    ∃ out, readImage p oiio path = .ok out ∧
      Tidy l out.pixelBlock out.dataWindow out.displayWindow := by
  obtain ⟨a, e, ht⟩ := oiioAllocate_ok p hl hs (Image.empty : Image F H)
  unfold readImage oiioRead
  rw [h]
  dsimp only
  rw [if_neg (by have := hs.channels; omega), e]
  exact ⟨_, rfl, ht.same rfl (oiio.pixels_length _ _ _ _ _)⟩

omit [FloatConst F] [FloatLike F] [HalfLike F H] in
theorem resampleLength_le (oiio : Oiio F H) {l : Limits} (hl : l.Workable) {len factor : Int}
    (h0 : 0 < len) (h1 : len ≤ l.high - l.low) (hne : factor ≠ 0)
    (hup : 0 < factor → 16384 ≤ l.high) (hdown : factor < 0 → -l.low ≤ l.high) :
    0 < resampleLength oiio len factor ∧ resampleLength oiio len factor ≤ l.high := by
  have hb := hl.bound
  have hh := hl.high
  unfold resampleLength
  rcases lt_or_gt_of_ne hne with h | h
  · have hd := hdown h
    have hq0 : (0 : Rat) < (2 : Rat) ^ factor := by positivity
    have hq1 : (2 : Rat) ^ factor ≤ 1 / 2 := by
      have : (2 : Rat) ^ factor ≤ (2 : Rat) ^ (-1 : Int) :=
        zpow_le_zpow_right₀ (by norm_num) (by omega)
      simpa using this
    have hlen0 : (0 : Rat) < len := by exact_mod_cast h0
    have hlen1 : (len : Rat) ≤ 46340 := by exact_mod_cast (by omega : len ≤ 46340)
    set q : Rat := (len : Rat) * (2 : Rat) ^ factor with hq
    have q0 : 0 ≤ q := by positivity
    have q1 : q ≤ (len : Rat) / 2 := by
      rw [hq]
      nlinarith
    have e := oiio.toInt_fits q (by linarith) (by linarith)
    rw [if_pos q0] at e
    have hf : q.floor ≤ l.high := by
      have h2 : (q.floor : Rat) ≤ q := Rat.floor_le q
      have h3 : ((len : Int) : Rat) ≤ 2 * (l.high : Rat) := by
        exact_mod_cast (by omega : len ≤ 2 * l.high)
      have : (q.floor : Rat) ≤ (l.high : Rat) := by linarith
      exact_mod_cast this
    rw [e]
    omega
  · have := hup h
    omega

omit [FloatConst F] in
/-- Resampling tidy pixels. -/
theorem oiioResample_ok (p : Profile) {l : Limits} (hl : l.Workable) (oiio : Oiio F H)
    {src : Image F H} (ht : Tidy l src.pixelBlock src.dataWindow src.displayWindow)
    (dst : Image F H) {factor : Int} (hne : factor ≠ 0)
    (hup : 0 < factor → 16384 ≤ l.high) (hdown : factor < 0 → -l.low ≤ l.high)
    (interpolate : Bool) :
    ∃ f out, oiioResample p oiio src dst factor interpolate = .ok (f, out) ∧
      Tidy l out.pixelBlock out.dataWindow out.displayWindow := by
  obtain ⟨a1, a2, a3, a4, a5, a6⟩ := ht.dataFits
  have hw := ht.complete.width
  have hh := ht.complete.height
  obtain ⟨w0, w1⟩ := resampleLength_le oiio hl (len := src.pixelBlock.size.width) (by omega)
    (by omega) hne hup hdown
  obtain ⟨h0, h1⟩ := resampleLength_le oiio hl (len := src.pixelBlock.size.height) (by omega)
    (by omega) hne hup hdown
  have hlo := hl.low
  have hbd := hl.bound
  unfold oiioResample
  dsimp only
  set w := resampleLength oiio src.pixelBlock.size.width factor
  set h := resampleLength oiio src.pixelBlock.size.height factor
  obtain ⟨a, e, hta⟩ := oiioAllocate_ok p hl (spec :=
    { x := 0, y := 0, width := w, height := h, fullX := 0, fullY := 0
      fullWidth := w, fullHeight := h, numChannels := src.pixelBlock.size.numChannels
      format := .known src.pixelBlock.block.dtype
      colorSpace := [], gamma := (1 : F), pixelAspect := 1, orientation := 0, unassociatedAlpha := 0
      dither := 0 }) (by
        refine ⟨ht.channels, by simp, ?_, ?_, ?_, ?_, ?_, ?_⟩
        · constructor <;> dsimp only <;> omega
        · constructor <;> dsimp only <;> omega
        all_goals unfold InI32; dsimp only; omega) dst
  rw [e]
  exact ⟨_, _, rfl, hta.same rfl (oiio.resample_length _ _ _ _ _ _ _)⟩

omit [FloatConst F] in
/-- Writing tidy pixels. -/
theorem writeImage_ok (p : Profile) {l : Limits} (hl : l.Workable) (oiio : Oiio F H)
    {image : Image F H} (ht : Tidy l image.pixelBlock image.dataWindow image.displayWindow)
    (path : Bytes) (crop : Bool) (c : ImageCompression) :
    ∃ r, writeImage p oiio image path crop c = .ok r := by
  have hw : ∀ out : Image F H, Tidy l out.pixelBlock out.dataWindow out.displayWindow →
      ∃ r, oiioWrite oiio path out c = .ok r := by
    intro out ho
    have hb := hl.bound
    obtain ⟨b1, b2, b3, b4, b5, b6⟩ := ho.displayFits
    unfold oiioWrite writeSpec cint
    split
    · rw [i32_of (x := out.displayWindow.maxX - out.displayWindow.minX) (by unfold InI32; omega),
        i32_of (x := out.displayWindow.maxY - out.displayWindow.minY) (by unfold InI32; omega)]
      exact ⟨_, rfl⟩
    · exact ⟨_, rfl⟩
  unfold writeImage
  dsimp only
  cases crop with
  | true =>
    obtain ⟨out, e, ho⟩ := cropImage_ok p hl (image := { image with spec := .new }) ht
      ht.displayFits true false
    obtain ⟨r, hr⟩ := hw out ho
    exact ⟨r, Res.bind_ok.mpr ⟨out, e, hr⟩⟩
  | false =>
    obtain ⟨r, hr⟩ := hw { image with spec := .new } ht
    exact ⟨r, Res.bind_ok.mpr ⟨_, rfl, hr⟩⟩

/-! ### The cache -/

/-- All cached images are tidy, and the cache counts correctly and has a safe capacity. -/
structure TidyWorld (p : Profile) (l : Limits) (w : World F H) : Prop where
  images : w.cache.Good fun _ i => Tidy l i.pixelBlock i.dataWindow i.displayWindow
  count : w.cache.Exact Image.sizeBytes
  capacity : SafeCapacity p l w.cache.capacity

omit [FloatLike F] [HalfLike F H] [FloatConst F] in
theorem SafeSpec.Tidy.bytes {l : Limits} {i : Image F H}
    (h : Tidy l i.pixelBlock i.dataWindow i.displayWindow) :
    (i.sizeBytes : Int) ≤ (l.high - l.low) * (l.high - l.low) * 16 := by
  have hv := h.complete.values
  obtain ⟨a1, a2, a3, a4, a5, a6⟩ := h.dataFits
  have h1 : (i.dataWindow.maxX - i.dataWindow.minX) * (i.dataWindow.maxY - i.dataWindow.minY) ≤
      (l.high - l.low) * (l.high - l.low) :=
    mul_le_mul (by omega) (by omega) (by omega) (by omega)
  have h0 : 0 ≤ (i.dataWindow.maxX - i.dataWindow.minX) *
      (i.dataWindow.maxY - i.dataWindow.minY) := mul_nonneg (by omega) (by omega)
  have ht : i.pixelBlock.block.dtype.sizeBytes ≤ 4 := by
    cases i.pixelBlock.block.dtype <;> decide
  have hl : (i.pixelBlock.block.data.length : Int) ≤ (l.high - l.low) * (l.high - l.low) * 4 := by
    rcases h.channels with hc | hc <;> rw [hc] at hv <;> omega
  unfold Image.sizeBytes DataBlock.sizeBytes DataBlock.len
  have : i.pixelBlock.block.data.length * i.pixelBlock.block.dtype.sizeBytes ≤
      i.pixelBlock.block.data.length * 4 := Nat.mul_le_mul_left _ ht
  omega

omit [FloatLike F] [HalfLike F H] [FloatConst F] in
theorem lookup_ok {p : Profile} {l : Limits} (hl : l.Workable) {w : World F H}
    (hw : TidyWorld p l w) {X : Type} {P : X → Prop} {hit : X} (hh : P hit) (u : Bool) (key : Nat)
    {make : Res (Image F H × X)}
    (hm : ∃ i x, make = .ok (i, x) ∧ Tidy l i.pixelBlock i.dataWindow i.displayWindow ∧ P x) :
    ∃ w' i x, lookup p u w key hit make = .ok (w', i, x) ∧ TidyWorld p l w' ∧
      Tidy l i.pixelBlock i.dataWindow i.displayWindow ∧ P x := by
  obtain ⟨i, x, e, ht, hx⟩ := hm
  unfold lookup
  cases u with
  | false =>
    rw [if_neg (by simp), e]
    exact ⟨w, i, x, rfl, hw, ht, hx⟩
  | true =>
    rw [if_pos rfl]
    obtain ⟨g1, g2⟩ := hw.images.get key
    have g3 := Cache.exact_get w.cache key hw.count
    have g4 := Cache.get_capacity w.cache key
    have g5 := Cache.get_snd w.cache key
    split
    · rename_i c im hg
      rw [hg] at g1 g2 g3 g4
      exact ⟨_, im, hit, rfl, ⟨g1, g3, by rw [g4]; exact hw.capacity⟩, g2 im rfl, hh⟩
    · rename_i c hg
      have hf : Cache.find c.lru key = none := by
        have h1 := Cache.get_lru w.cache key
        rw [hg] at g5 h1
        rw [← g5] at h1
        rw [h1]
        exact g5.symm
      rw [hg] at g1 g2 g3 g4
      dsimp only at g1 g2 g3 g4 hf
      rw [e]
      simp only [bind, Except.bind]
      have hcap := hw.capacity
      rw [← g4] at hcap
      have hb := ht.bytes
      have hs := hl.small
      have hlim : i.sizeBytes < allocLimit := by
        rw [allocLimit_eq]
        omega
      by_cases hc0 : c.capacity = 0
      · have : Cache.insert Image.sizeBytes p c key i = .ok c := by
          unfold Cache.insert
          rw [if_pos hc0]
        rw [this]
        exact ⟨_, i, x, rfl, ⟨g1, g3, hcap⟩, ht, hx⟩
      · have hins := Cache.insert_eq (p := p) c key i g3 hlim hc0
        rw [if_pos (by
          rcases hcap.2 with h | h | h
          · exact .inr h
          · exact absurd h hc0
          · left; omega)] at hins
        rw [hins]
        exact ⟨_, i, x, rfl, ⟨g1.insert ht hins, Cache.exact_afterInsert c key i g3 hlim hf, hcap⟩,
          ht, hx⟩

end
end OCG
