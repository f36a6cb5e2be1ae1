import Verif.Spec.Picture
import Verif.Props.Bake
import Verif.Props.Image
/-
Helpers for the pictures: pixels of buffers, baking a stream that shows a picture.
-/

namespace OCG

open BlockSpec BBoxSpec ImageSpecs PixelSpec ColorSpec PictureSpec Props

section
variable {F : Type} [FloatLike F]

theorem pixel_self {n : Nat} {l : List F} (h : l.length = n) : pixel n l 0 = l := by
  unfold pixel
  rw [Nat.zero_mul, List.drop_zero, List.take_of_length_le (by omega)]

/-- A mapping of a single pixel. -/
theorem mapped_single {n : Nat} (hn : 0 < n) {g : List F → List F} {v out : List F}
    (hv : v.length = n) (h : Mapped n g v out) : out = g v := by
  have h5 := h.pixels 0 (by rw [hv, Nat.div_self hn]; exact Nat.one_pos)
  rwa [pixel_self hv, pixel_self (by rw [h.length, hv])] at h5

theorem Channels.pos {n : Nat} (hn : Channels n) : 0 < n := by
  rcases hn with rfl | rfl | rfl <;> decide

theorem Channels.pos' {n : Nat} (hn : Channels n) : (0 : Int) < n := by
  have := hn.pos; omega

theorem graded_unique {n : Nat} {m : Mat4 F} {ops : List (GradeOp F)} {v a b : List F}
    (h : Graded n m ops v a) (h' : Graded n m ops v b) : a = b := by
  obtain ⟨x, e, k⟩ := h
  obtain ⟨x', e', k'⟩ := h'
  rw [e] at e'
  cases e'
  rw [carried_iff] at k k'
  rw [k] at k'
  exact Except.ok.inj k'

/-- Grading a buffer grades every pixel. -/
theorem graded_buffer {n : Nat} (hn : Channels n) (m : Mat4 F) (ops : List (GradeOp F))
    (buf : List F) : ∃ mid out, applyColorMatrix buf n m = .ok mid ∧ Carried n ops mid out ∧
      out.length = buf.length ∧
      ∀ i, i < buf.length / n → Graded n m ops (pixel n buf i) (pixel n out i) := by
  obtain ⟨mid, h1, h2⟩ := C57_per_pixel m hn buf
  obtain ⟨out, h3, h4, h5⟩ := C47_every_pixel ops mid hn
  refine ⟨mid, out, h1, (C47_in_order ops mid out hn.pos').mp h3, h4.trans h2.length, ?_⟩
  intro i hi
  have hi' : i < mid.length / n := by rw [h2.length]; exact hi
  obtain ⟨q, h6, h7⟩ := h5 i hi'
  obtain ⟨s, h8, h9⟩ := C57_per_pixel m hn (pixel n buf i)
  refine ⟨pixel n mid i, ?_, ?_⟩
  · rw [h8, mapped_single hn.pos (pixel_length hi) h9, h2.pixels i hi]
  · rw [h7]
    exact (C47_in_order ops _ _ hn.pos').mp h6

theorem graded_total {n : Nat} (hn : Channels n) (m : Mat4 F) (ops : List (GradeOp F))
    {v : List F} (hv : v.length = n) : ∃ out, Graded n m ops v out ∧ out.length = n := by
  obtain ⟨mid, out, h1, h2, h3, -⟩ := graded_buffer hn m ops v
  exact ⟨out, ⟨mid, h1, h2⟩, h3.trans hv⟩

theorem graded_length {n : Nat} (hn : Channels n) {m : Mat4 F} {ops : List (GradeOp F)}
    {v out : List F} (hv : v.length = n) (h : Graded n m ops v out) : out.length = n := by
  obtain ⟨out', h1, h2⟩ := graded_total hn m ops hv
  rw [graded_unique h h1, h2]

/-! ### Pixels of windows -/

/-- The number of a pixel inside a window. -/
theorem pixel_index {w : BBox} {n : Nat} {v : List F} (hs : ValidSize (sizeFor w n))
    (hl : (v.length : Int) = elements (sizeFor w n)) {x y : Int} (h : Has w x y) :
    0 ≤ (y - w.minY) * (w.maxX - w.minX) + (x - w.minX) ∧
    ((y - w.minY) * (w.maxX - w.minX) + (x - w.minX)).toNat < v.length / n := by
  obtain ⟨h1, h2, h3, h4⟩ := h
  obtain ⟨s1, s2, s3, -⟩ := hs
  unfold elements at hl
  simp only [sizeFor] at *
  have hn : 0 < n := by omega
  have e : v.length = ((w.maxX - w.minX) * (w.maxY - w.minY)).toNat * n := by
    have hp : 0 ≤ (w.maxX - w.minX) * (w.maxY - w.minY) := (Int.mul_pos s1 s2).le
    zify
    rw [hl, Int.toNat_of_nonneg hp]
  rw [e, Nat.mul_div_cancel _ hn]
  generalize hW : w.maxX - w.minX = W at *
  generalize hH : w.maxY - w.minY = K at *
  generalize hX : x - w.minX = X
  generalize hY : y - w.minY = Y
  have a1 : 0 ≤ X := by omega
  have a2 : X < W := by omega
  have a3 : 0 ≤ Y := by omega
  have a4 : Y + 1 ≤ K := by omega
  have b1 : 0 ≤ Y * W := Int.mul_nonneg a3 s1.le
  have b2 : (Y + 1) * W ≤ K * W := Int.mul_le_mul_of_nonneg_right a4 s1.le
  have b3 : W * K = K * W := Int.mul_comm _ _
  have b4 : (Y + 1) * W = Y * W + W := by ring
  constructor
  · omega
  · rw [b3]; omega

theorem pixelAt_length {w : BBox} {n : Nat} {v : List F} (hs : ValidSize (sizeFor w n))
    (hl : (v.length : Int) = elements (sizeFor w n)) {x y : Int} (h : Has w x y) :
    (pixelAt w n v x y).length = n := pixel_length (pixel_index hs hl h).2

/-- Channels of pixels. -/
theorem pixelAt_channel {w : BBox} {n : Nat} {v : List F} (hs : ValidSize (sizeFor w n))
    (hl : (v.length : Int) = elements (sizeFor w n)) {x y : Int} (h : Has w x y) {c : Nat}
    (hc : c < n) :
    (pixelAt w n v x y)[c]? = channelAt (sizeFor w n) v (x - w.minX) (y - w.minY) c := by
  have h0 := (pixel_index hs hl h).1
  unfold pixelAt pixel channelAt
  rw [List.getElem?_take_of_lt hc, List.getElem?_drop]
  congr 1
  simp only [sizeFor]
  generalize (y - w.minY) * (w.maxX - w.minX) + (x - w.minX) = k at *
  lift k to Nat using h0
  rw [Int.toNat_natCast]
  omega

/-! ### Baking -/

variable {H : Type} [HalfLike F H]

theorem PictureSpec.Holds.filled {P : Picture F} {v : List F} (h : Holds P v)
    (hs : ValidSize (sizeFor P.data P.channels)) (image : Image F H)
    (hd : image.dataWindow = P.data)
    (hb : image.pixelBlock = floatImage (sizeFor P.data P.channels) v) :
    Filled image P.channels v := ⟨by rw [hd, hb], by rw [hd]; exact hs, by rw [hd]; exact h.length⟩

omit [FloatLike F] in
theorem spec_space (b : Bool) (spec : ImageSpec F) (dst : Bytes) :
    { (if b then { spec with colorSpace := dst } else spec) with colorSpace := dst } =
      { spec with colorSpace := dst } := by cases b <;> rfl

/-- Converting float pixels of a stream to linear ones. -/
theorem PictureSpec.LinearFloats.bake {lib : ColorLib F} {s : Stream F H} {n : Nat} {v : List F}
    (h : LinearFloats lib s.pixelBlock s.imageSpec.colorSpace s.imageSpec.unassociatedAlpha
      s.dataWindow n v) :
    ∃ spec, bakeColorspace lib s.pixelBlock s.imageSpec s.imageSpec.colorSpace colorSpaceLinear =
        .ok (floatImage (sizeFor s.dataWindow n) v, spec) ∧
      { spec with colorSpace := colorSpaceLinear } =
        { s.imageSpec with colorSpace := colorSpaceLinear } := by
  obtain ⟨raw, h1, h2, h3⟩ := h
  unfold bakeColorspace
  by_cases hc : s.imageSpec.colorSpace = colorSpaceLinear
  · refine ⟨s.imageSpec, Res.bind_ok.mpr ⟨_, h1, ?_⟩, rfl⟩
    rw [if_pos hc, h2 hc]
  · refine ⟨?spec, Res.bind_ok.mpr ⟨_, h1, ?_⟩, ?_⟩
    case spec => exact if (lib.convert raw (s.dataWindow.maxX - s.dataWindow.minX)
        (s.dataWindow.maxY - s.dataWindow.minY) n (if (n : Int) > 3 then 3 else -1)
        s.imageSpec.unassociatedAlpha s.imageSpec.colorSpace colorSpaceLinear).1 then
          { s.imageSpec with colorSpace := colorSpaceLinear } else s.imageSpec
    · rw [if_neg hc]
      refine Res.bind_ok.mpr ⟨raw, rfl, ?_⟩
      rw [h3 hc]
      rfl
    · exact spec_space _ _ _

theorem bakeColorspace_float (lib : ColorLib F) (size : BlockSize) (v : List F)
    (spec : ImageSpec F) (dst : Bytes) :
    ∃ spec', bakeColorspace lib (floatImage (H := H) size v) spec colorSpaceLinear dst =
        .ok (floatImage size (inSpace lib spec.unassociatedAlpha dst size v), spec') ∧
      { spec' with colorSpace := dst } = { spec with colorSpace := dst } := by
  unfold bakeColorspace inSpace
  by_cases hc : dst = colorSpaceLinear
  · refine ⟨spec, Res.bind_ok.mpr ⟨_, C18_convert_same (floatImage (H := H) size v), ?_⟩, rfl⟩
    rw [if_pos hc.symm, if_pos hc]
  · refine ⟨?spec, Res.bind_ok.mpr ⟨_, C18_convert_same (floatImage (H := H) size v), ?_⟩, ?_⟩
    case spec => exact if (lib.convert v size.width size.height size.numChannels
        (if size.numChannels > 3 then 3 else -1) spec.unassociatedAlpha colorSpaceLinear dst).1 then
          { spec with colorSpace := dst } else spec
    · rw [if_neg (fun h => hc h.symm), if_neg hc]
      exact Res.bind_ok.mpr ⟨v, rfl, rfl⟩
    · exact spec_space _ _ _

variable [FloatConst F]

omit [FloatConst F] in
/-- The first half of baking: colours. -/
theorem PictureSpec.Still.colours {lib : ColorLib F} {s : Stream F H} {P : Picture F}
    (h : Still lib s P) :
    ∃ u spec, Holds P u ∧
      { spec with colorSpace := colorSpaceLinear } =
        { s.imageSpec with colorSpace := colorSpaceLinear } ∧
      (∃ v, bakeColorspace lib s.pixelBlock s.imageSpec s.imageSpec.colorSpace colorSpaceLinear =
        .ok (floatImage (sizeFor P.data P.channels) v, spec) ∧
      bakeColorgrade (floatImage (H := H) (sizeFor P.data P.channels) v) s.colorMatrix s.colorOps =
        .ok (floatImage (sizeFor P.data P.channels) u)) := by
  obtain ⟨v, h1, h2, h3⟩ := h.pixels
  have hn : Channels P.channels := h.channels
  obtain ⟨spec, e1, e1'⟩ := LinearFloats.bake h1
  rw [h.data] at e1
  obtain ⟨mid, u, g1, g2, g3, g4⟩ := graded_buffer hn s.colorMatrix s.colorOps v
  refine ⟨u, spec, ⟨by rw [g3]; exact h2, fun x y hxy => ?_⟩, e1', v, e1,
    (bakeColorgrade_iff _ _ _ _ hn.pos' _).mpr ⟨mid, u, g1, g2, rfl⟩⟩
  exact graded_unique (g4 _ (pixel_index h.size h2 hxy).2) (h3 x y hxy)

/-- Baking colours only. -/
theorem PictureSpec.Still.bakeColours {lib : BakeLib F} {s : Stream F H} {P : Picture F}
    (h : Still lib.color s P) (p : Profile) (display : BBox) (dst : Bytes) (t : DataType)
    (t' : DType) (ht : bakeType t s.pixelBlock = .known t') :
    ∃ block, Delivers lib.color s.imageSpec.unassociatedAlpha dst t' P block ∧
      OCG.bake p lib .colorSpaceAndGrade display s.toBake s.imageSpec.colorSpace dst t = .ok
        ⟨block, P.data, { s.imageSpec with colorSpace := dst },
          { s with colorMatrix := Mat4.identity, colorOps := [] }⟩ := by
  obtain ⟨u, spec, hu, e1', v, e1, e2⟩ := h.colours
  obtain ⟨spec', e3, e3'⟩ := bakeColorspace_float (H := H) lib.color (sizeFor P.data P.channels) u
    spec dst
  have hsame : { spec' with colorSpace := dst } = { s.imageSpec with colorSpace := dst } := by
    rw [e3']
    have := congrArg (fun sp : ImageSpec F => { sp with colorSpace := dst }) e1'
    exact this
  have hal : spec.unassociatedAlpha = s.imageSpec.unassociatedAlpha :=
    by have := congrArg (fun sp : ImageSpec F => sp.unassociatedAlpha) e1'; exact this
  obtain ⟨block, e4, -⟩ := C18_convert_keeps_size (floatImage (H := H) (sizeFor P.data P.channels)
    (inSpace lib.color spec.unassociatedAlpha dst (sizeFor P.data P.channels) u)) t'
  refine ⟨block, ⟨u, hu, by rw [← hal]; exact e4⟩, ?_⟩
  unfold OCG.bake
  simp only [Stream.toBake, ht]
  refine Res.bind_ok.mpr ⟨_, e1, ?_⟩
  refine Res.bind_ok.mpr ⟨(floatImage (sizeFor P.data P.channels) u, _),
    Res.bind_ok.mpr ⟨_, e2, rfl⟩, ?_⟩
  refine Res.bind_ok.mpr ⟨_, e3, ?_⟩
  refine Res.bind_ok.mpr ⟨_, e4, ?_⟩
  rw [← hsame, h.data]

/-- The box of the deformers. -/
theorem boxed_eq {lib : DeformLib F} {w : BBoxF F} {ds : List (Deformer F)} {b c : BBoxF F}
    (h : Boxed lib w ds b c) : deformedBox lib (enabledDeformers ds) w b = .ok c := by
  induction h with
  | nil => rfl
  | off hd _ ih =>
    unfold enabledDeformers
    rw [List.filter_cons_of_neg (by simpa using hd)]
    exact ih
  | on hd he _ ih =>
    unfold enabledDeformers
    rw [List.filter_cons_of_pos (by simpa using hd)]
    exact Res.bind_ok.mpr ⟨_, he, ih⟩

/-- The second half of baking: deformers. -/
theorem PictureSpec.CarriedOut.bake {lib : DeformLib F} {ds : List (Deformer F)} {P R : Picture F}
    (h : CarriedOut lib ds P R) (hs : ValidSize (sizeFor P.data P.channels)) {u : List F}
    (hu : Holds P u) (p : Profile) (dst : PixelBlock F H) :
    ∃ v, Holds R v ∧
      applyDeformersToPixels p lib ds P.display (floatImage (sizeFor P.data P.channels) u) P.data
        dst = .ok (floatImage (sizeFor R.data R.channels) v, R.data) := by
  by_cases hon : ∃ d ∈ ds, d.enable = 1
  · obtain ⟨hc, hus, hx, hy, hv, ⟨box, hb, hw⟩, hpx⟩ := h.moved hon
    have hbox := boxed_eq hb
    have hw' : R.data = outerBox box := hw
    have hv' : ValidSize ⟨(outerBox box).maxX - (outerBox box).minX,
        (outerBox box).maxY - (outerBox box).minY, (sizeFor P.data P.channels).numChannels⟩ := by
      rw [← hw']
      have := hv
      rw [h.channels] at this
      exact this
    obtain ⟨v, e, hlen, hcopy⟩ := deform_pixels p lib ds hus hon P.display P.data
      (sizeFor P.data P.channels) u dst hs hu.length (by
        rcases hc with hc | hc
        · left; show ((P.channels : Nat) : Int) = 3; omega
        · right; show ((P.channels : Nat) : Int) = 4; omega) hx hy box hbox hv'
    rw [← hw'] at e hcopy hlen
    have hch : (sizeFor P.data P.channels).numChannels = (R.channels : Int) := by
      rw [h.channels]; rfl
    rw [hch] at e hcopy hlen
    refine ⟨v, ⟨hlen, fun x y hxy => ?_⟩, e⟩
    obtain ⟨q, hq, hat⟩ := hpx x y hxy
    obtain ⟨q', hq', hcp⟩ := hcopy (x - R.data.minX) (y - R.data.minY) (by
      obtain ⟨a1, a2, a3, a4⟩ := hxy
      refine ⟨?_, ?_, ?_, ?_⟩ <;> (try dsimp only) <;> omega)
    rw [show R.data.minX + (x - R.data.minX) = x by omega,
      show R.data.minY + (y - R.data.minY) = y by omega] at hq'
    have hqq : q' = q := Carried.unique hq' hq
    subst hqq
    have hin : Has P.data
        (P.data.minX + seen (P.data.maxX - P.data.minX) P.display.minX P.display.maxX P.data.minX
          P.data.maxX q'.1)
        (P.data.minY + seen (P.data.maxY - P.data.minY) P.display.minY P.display.maxY P.data.minY
          P.data.maxY q'.2) := by
      obtain ⟨s1, s2, -, -⟩ := hs
      obtain ⟨a1, a2⟩ := pick_range (a := P.display.minX) (b := P.display.maxX) (c := P.data.minX)
        (d := P.data.maxX) s1 q'.1
      obtain ⟨b1, b2⟩ := pick_range (a := P.display.minY) (b := P.display.maxY) (c := P.data.minY)
        (d := P.data.maxY) s2 q'.2
      simp only [sizeFor, pick] at a1 a2 b1 b2
      refine ⟨?_, ?_, ?_, ?_⟩ <;> (unfold seen; omega)
    rw [hat, ← hu.pixels _ _ hin]
    apply List.ext_getElem?
    intro c
    by_cases hcn : c < P.channels
    · rw [pixelAt_channel hs hu.length hin hcn,
        pixelAt_channel hv hlen hxy (by rw [h.channels]; exact hcn)]
      obtain ⟨z, z1, z2⟩ := hcp c (by omega) (by show (c : Int) < (R.channels : Int); rw [h.channels]; omega)
      refine z1.trans (z2.symm.trans ?_)
      show channelAt (sizeFor P.data P.channels) u _ _ c = _
      congr 1 <;> (unfold seen pick sizeFor; dsimp only; omega)
    · have l1 := pixelAt_length hv hlen hxy
      have l2 := pixelAt_length hs hu.length hin
      rw [List.getElem?_eq_none (by rw [l1, h.channels]; omega), List.getElem?_eq_none (by omega)]
  · have hoff : ∀ d ∈ ds, d.enable ≠ 1 := fun d hd he => hon ⟨d, hd, he⟩
    obtain ⟨k1, k2⟩ := h.still hoff
    refine ⟨u, ⟨by rw [k1, h.channels]; exact hu.length, fun x y hxy => ?_⟩, ?_⟩
    · rw [k1] at hxy
      rw [k1, h.channels, k2 x y hxy]
      exact hu.pixels x y hxy
    · rw [k1, h.channels]
      exact C48_pixels_none p lib ds hoff _ _ _ _

omit [FloatConst F] in
theorem PictureSpec.Shows.isStill {lib : ColorLib F} {s : Stream F H} {P : Picture F}
    (h : Shows lib s P) : Still lib s P :=
  ⟨h.data, h.display, h.space, h.channels, h.size, h.pixels⟩

/-- What is shown with nothing switched on is how the stream appears. -/
theorem PictureSpec.Shows.appears {lib : BakeLib F} {s : Stream F H} {P : Picture F}
    (h : Shows lib.color s P) : Appears lib s P :=
  ⟨P, h.isStill, rfl, rfl, rfl, fun _ => ⟨rfl, fun _ _ _ => rfl⟩,
    fun ⟨d, hd, he⟩ => absurd he (h.flat d hd)⟩

namespace PictureSpec.Appears

variable {lib : BakeLib F} {s : Stream F H} {P : Picture F}

theorem display (h : Appears lib s P) : s.displayWindow = P.display := by
  obtain ⟨P0, h1, h2⟩ := h
  rw [h2.display, h1.display]

theorem space (h : Appears lib s P) : s.imageSpec.colorSpace = P.space := by
  obtain ⟨P0, h1, h2⟩ := h
  rw [h2.space, h1.space]

theorem channels (h : Appears lib s P) : P.channels = 1 ∨ P.channels = 3 ∨ P.channels = 4 := by
  obtain ⟨P0, h1, h2⟩ := h
  rw [h2.channels]
  exact h1.channels

theorem size (h : Appears lib s P) : ValidSize (sizeFor P.data P.channels) := by
  obtain ⟨P0, h1, h2⟩ := h
  by_cases hon : ∃ d ∈ s.deformers, d.enable = 1
  · exact (h2.moved hon).2.2.2.2.1
  · rw [(h2.still (fun d hd he => hon ⟨d, hd, he⟩)).1, h2.channels]
    exact h1.size

/-- Baking everything. -/
theorem bake (h : Appears lib s P) (p : Profile) (display : BBox) (hd : display = s.displayWindow)
    (dst : Bytes) (t : DataType) (t' : DType) (ht : bakeType t s.pixelBlock = .known t') :
    ∃ block, Delivers lib.color s.imageSpec.unassociatedAlpha dst t' P block ∧
      OCG.bake p lib .all display s.toBake s.imageSpec.colorSpace dst t = .ok
        ⟨block, P.data, { s.imageSpec with colorSpace := dst },
          { s with colorMatrix := Mat4.identity, colorOps := [], deformers := [] }⟩ := by
  subst hd
  obtain ⟨P0, h1, h2⟩ := h
  obtain ⟨u0, spec, hu0, e1', v, e1, e2⟩ := h1.colours
  obtain ⟨u, hu, e5⟩ := h2.bake h1.size hu0 (H := H) p
    (floatImage (sizeFor P0.data P0.channels) u0)
  obtain ⟨spec', e3, e3'⟩ := bakeColorspace_float (H := H) lib.color (sizeFor P.data P.channels) u
    spec dst
  have hsame : { spec' with colorSpace := dst } = { s.imageSpec with colorSpace := dst } := by
    rw [e3']
    have := congrArg (fun sp : ImageSpec F => { sp with colorSpace := dst }) e1'
    exact this
  have hal : spec.unassociatedAlpha = s.imageSpec.unassociatedAlpha :=
    by have := congrArg (fun sp : ImageSpec F => sp.unassociatedAlpha) e1'; exact this
  obtain ⟨block, e4, -⟩ := C18_convert_keeps_size (floatImage (H := H) (sizeFor P.data P.channels)
    (inSpace lib.color spec.unassociatedAlpha dst (sizeFor P.data P.channels) u)) t'
  refine ⟨block, ⟨u, hu, by rw [← hal]; exact e4⟩, ?_⟩
  unfold OCG.bake
  simp only [Stream.toBake, ht]
  refine Res.bind_ok.mpr ⟨_, e1, ?_⟩
  refine Res.bind_ok.mpr ⟨(floatImage (sizeFor P0.data P0.channels) u0, _),
    Res.bind_ok.mpr ⟨_, e2, rfl⟩, ?_⟩
  rw [h1.display, h1.data]
  refine Res.bind_ok.mpr ⟨_, e5, ?_⟩
  refine Res.bind_ok.mpr ⟨_, e3, ?_⟩
  refine Res.bind_ok.mpr ⟨_, e4, ?_⟩
  rw [← hsame]

theorem length (h : Appears lib s P) {x y : Int} (hxy : Has P.data x y) :
    (P.at_ x y).length = P.channels := by
  obtain ⟨block, ⟨v, hv, -⟩, -⟩ := h.bake .debug _ rfl colorSpaceLinear (.known .f32) .f32 rfl
  rw [← hv.pixels x y hxy]
  exact pixelAt_length h.size hv.length hxy

end PictureSpec.Appears

omit [FloatConst F] in
/-- Linear floats. -/
theorem delivers_linear {lib : ColorLib F} {alpha : Bool} {P : Picture F} {block : PixelBlock F H}
    (h : Delivers lib alpha colorSpaceLinear .f32 P block) :
    ∃ v, Holds P v ∧ block = floatImage (sizeFor P.data P.channels) v := by
  obtain ⟨v, h1, h2⟩ := h
  refine ⟨v, h1, ?_⟩
  have h3 := C18_convert_same (floatImage (H := H) (sizeFor P.data P.channels) v)
  unfold inSpace at h2
  rw [if_pos rfl] at h2
  exact (Except.ok.inj (h3.symm.trans h2)).symm

omit [FloatLike F] [HalfLike F H] [FloatConst F] in
theorem pixelAt_map (w : BBox) (n : Nat) (f : F → F) (v : List F) (x y : Int) :
    pixelAt w n (v.map f) x y = (pixelAt w n v x y).map f := by
  unfold pixelAt PixelSpec.pixel
  rw [← List.map_drop, ← List.map_take]

omit [FloatConst F] in
theorem conv_twice (t : DType) (x : F) :
    (convElem (F := F) (H := H) t .f32 (convElem (F := F) (H := H) .f32 t x) : F) =
      inType H t x := by
  cases t <;> rfl

omit [FloatConst F] in
theorem maps_twice (t : DType) (v : List F) :
    List.map (β := F) (convElem (F := F) (H := H) t .f32)
      (List.map (α := F) (convElem (F := F) (H := H) .f32 t) v) = v.map (inType H t) := by
  induction v with
  | nil => rfl
  | cons x v ih => exact congr (congrArg List.cons (conv_twice t x)) ih

omit [FloatConst F] in
/-- Linear values of any type, read again as floats. -/
theorem delivers_typed {lib : ColorLib F} {alpha : Bool} {t : DType} {P : Picture F}
    {block : PixelBlock F H} (h : Delivers lib alpha colorSpaceLinear t P block) :
    ∃ v, Holds P v ∧ block.convert (.known .f32) =
      .ok (floatImage (sizeFor P.data P.channels) (v.map (inType H t))) := by
  obtain ⟨v, h1, h2⟩ := h
  refine ⟨v, h1, ?_⟩
  unfold inSpace at h2
  rw [if_pos rfl] at h2
  by_cases ht : t = .f32
  · subst ht
    have h3 := C18_convert_same (floatImage (H := H) (sizeFor P.data P.channels) v)
    obtain rfl := Except.ok.inj (h3.symm.trans h2)
    have : v.map (inType H .f32) = v := List.map_id v
    rw [this]
    exact h3
  · have e : (floatImage (H := H) (sizeFor P.data P.channels) v).convert (.known t) =
        .ok ⟨sizeFor P.data P.channels, ⟨t, v.map (convElem (F := F) (H := H) .f32 t)⟩⟩ := by
      unfold PixelBlock.convert DataBlock.convert floatImage
      simp only [if_neg (Ne.symm ht), bind, Except.bind]
    obtain rfl := Except.ok.inj (e.symm.trans h2)
    unfold PixelBlock.convert DataBlock.convert
    simp only [if_neg ht, bind, Except.bind]
    exact congrArg (fun l : List F => Except.ok (floatImage (H := H) (sizeFor P.data P.channels) l))
      (maps_twice t v)

end
end OCG
