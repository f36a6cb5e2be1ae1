import Verif.Props.Bake
import Verif.Props.DeformPixels
/-
C48 for baking: grades are carried out first, then the pixels are moved.
-/

namespace OCG.Props

open DeformSpec PixelSpec BlockSpec RemapSpec

section
variable {F : Type} [Field F] [LinearOrder F] [IsStrictOrderedRing F] [FloatOps F] [FloatConst F]
  [RoundLaws F]

/-- C48: baking everything, with one deformer switched on, first carries out the colour matrix and
the grades, and then takes every pixel from the graded pixel nearest to the position that the
deformer carries to its centre, relative to the display window.  (Linear floats; other colour spaces
and types only add the conversions before and after.) -/
theorem C48_bake_single {H : Type} [HalfLike F H] (p : Profile) (lib : BakeLib F)
    (b : Baked F H) (px mid v : List F) (ss : BlockSize) (hb : b.block = floatImage ss px)
    (hm : applyColorMatrix px ss.numChannels b.stream.colorMatrix = .ok mid)
    (hg : ColorSpec.Carried ss.numChannels b.stream.colorOps mid v)
    (d : Deformer F) (hon : enabledDeformers b.stream.deformers = [d]) (hud : Usable d)
    (display : BBox) (hundo : Undoes lib.deform (BBoxF.ofBBox display) d)
    (hs : ValidSize ss) (hvl : (v.length : Int) = elements ss)
    (hc : ss.numChannels = 3 ∨ ss.numChannels = 4)
    (hwx : InI32 (b.dataWindow.maxX - 1)) (hwy : InI32 (b.dataWindow.maxY - 1))
    (box : BBoxF F)
    (hbox : d.box lib.deform (BBoxF.ofBBox b.dataWindow) (BBoxF.ofBBox display) = .ok box)
    (win : BBox) (hwin : win = outerBox box) (os : BlockSize)
    (hos : os = ⟨win.maxX - win.minX, win.maxY - win.minY, ss.numChannels⟩) (hv : ValidSize os) :
    ∃ out : List F,
      bake p lib .all display b colorSpaceLinear colorSpaceLinear (.known .f32) =
        .ok ⟨floatImage os out, win, { b.spec with colorSpace := colorSpaceLinear },
          { b.stream with colorMatrix := Mat4.identity, colorOps := [], deformers := [] }⟩ ∧
      ∀ x y, InBlock os x y → ∃ (q : F × F) (sx sy : Int),
        DeformSpec.Carried lib.deform (BBoxF.ofBBox display) false b.stream.deformers q
          ((win.minX + x : Int) + 1 / 2, (win.minY + y : Int) + 1 / 2) ∧
        Nearest ss.width
          (position display.minX display.maxX b.dataWindow.minX (b.dataWindow.maxX - 1) q.1) sx ∧
        Nearest ss.height
          (position display.minY display.maxY b.dataWindow.minY (b.dataWindow.maxY - 1) q.2) sy ∧
        CopiesPixel os out ss v x y sx sy := by
  obtain ⟨out, e, h⟩ := C48_pixels_single (H := H) p lib.deform b.stream.deformers d hon hud display
    b.dataWindow hundo ss v (floatImage ss v) hs hvl hc hwx hwy box hbox win hwin os hos hv
  refine ⟨out, ?_, h⟩
  unfold bake
  dsimp only [bakeType]
  rw [hb]
  refine Res.bind_ok.mpr ⟨_, bakeColorspace_same _ _ _ _ _, ?_⟩
  refine Res.bind_ok.mpr ⟨(floatImage ss v, _), Res.bind_ok.mpr ⟨_,
    (bakeColorgrade_iff ss px _ _ (by omega) _).mpr ⟨mid, v, hm, hg, rfl⟩, rfl⟩, ?_⟩
  refine Res.bind_ok.mpr ⟨_, e, ?_⟩
  refine Res.bind_ok.mpr ⟨_, bakeColorspace_same _ _ _ _ _, ?_⟩
  exact Res.bind_ok.mpr ⟨_, C18_convert_same (floatImage (H := H) os out), rfl⟩

end

attribute [local instance] ratRound ratRound_laws ratPi

/-- The hypotheses of `C48_bake_single` are met by an image with a waiting deformer. -/
example {H : Type} [HalfLike Rat H] (p : Profile) (color : ColorLib Rat) :
    ∃ (out : List Rat) (stream : Stream Rat H), stream.deformers = [] ∧
      bake p ⟨color, matLib⟩ .all ⟨0, 0, 8, 1⟩
        ⟨floatImage ⟨8, 1, 3⟩ (List.replicate 24 1), ⟨0, 0, 8, 1⟩, .new,
          { (Stream.new : Stream Rat H) with deformers := [doubleX] }⟩
        colorSpaceLinear colorSpaceLinear (.known .f32) =
          .ok ⟨floatImage ⟨8, 1, 3⟩ out, ⟨0, 0, 8, 1⟩, .new, stream⟩ := by
  have hv : ValidSize ⟨8, 1, 3⟩ := by unfold ValidSize; decide
  obtain ⟨mid, h1, h2⟩ := C57_per_pixel (Mat4.identity : Mat4 Rat) (n := 3) (.inr (.inl rfl))
    (List.replicate 24 1)
  obtain ⟨out, e, -⟩ := C48_bake_single (H := H) p ⟨color, matLib⟩
    ⟨floatImage ⟨8, 1, 3⟩ (List.replicate 24 1), ⟨0, 0, 8, 1⟩, .new,
      { (Stream.new : Stream Rat H) with deformers := [doubleX] }⟩ (List.replicate 24 1) mid mid
    ⟨8, 1, 3⟩ rfl h1 (.nil _) doubleX rfl trivial ⟨0, 0, 8, 1⟩ (undoes_doubleX _) hv
    (by rw [h2.length, List.length_replicate]; decide) (.inl rfl) (by dsimp only; decide) (by dsimp only; decide)
    (BBoxF.ofBBox ⟨0, 0, 8, 1⟩) rfl ⟨0, 0, 8, 1⟩ outer_row.symm ⟨8, 1, 3⟩ rfl hv
  exact ⟨out, _, rfl, e⟩

end OCG.Props
