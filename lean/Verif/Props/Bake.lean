import Verif.Props.Compute
import Verif.Props.Lut
import Verif.Props.PixelBlock
/-
C47 (baking) and C83: what baking does to a stream and its pixels.
-/

namespace OCG.Props

open ColorSpec BlockSpec ComputeSpec

section
variable {F H : Type} [FloatLike F] [HalfLike F H]

/-- Converting the colour space of a linear float image to linear does nothing. -/
theorem bakeColorspace_same (lib : ColorLib F) (size : BlockSize) (px : List F)
    (spec : ImageSpec F) (space : Bytes) :
    bakeColorspace lib (floatImage (H := H) size px) spec space space =
      .ok (floatImage size px, spec) := by
  unfold bakeColorspace
  refine Res.bind_ok.mpr ⟨_, C18_convert_same (floatImage (H := H) size px), ?_⟩
  rw [if_pos rfl]

/-- Grading a float image. -/
theorem bakeColorgrade_iff (size : BlockSize) (px : List F) (m : Mat4 F)
    (ops : List (GradeOp F)) (hn : 0 < size.numChannels) (out : PixelBlock F H) :
    bakeColorgrade (floatImage (H := H) size px) m ops = .ok out ↔
      ∃ mid v, applyColorMatrix px size.numChannels m = .ok mid ∧
        Carried size.numChannels ops mid v ∧ out = floatImage size v := by
  unfold bakeColorgrade PixelBlock.updateF32
  constructor
  · intro e
    obtain ⟨v, e1, e⟩ := Res.bind_ok.mp e
    obtain ⟨u, e2, e⟩ := Res.bind_ok.mp e
    obtain ⟨mid, e3, e2⟩ := Res.bind_ok.mp e2
    simp only [Except.ok.injEq] at e
    have : v = px := by
      have h : PixelBlock.asSliceF32 (floatImage (H := H) size px) = .ok px := rfl
      rw [h] at e1
      exact (Except.ok.inj e1).symm
    subst this
    exact ⟨mid, u, e3, (C47_in_order ops mid u hn).mp e2, e.symm⟩
  · rintro ⟨mid, v, e1, e2, rfl⟩
    refine Res.bind_ok.mpr ⟨px, rfl, ?_⟩
    refine Res.bind_ok.mpr ⟨v, ?_, rfl⟩
    exact Res.bind_ok.mpr ⟨mid, e1, (C47_in_order ops mid v hn).mpr e2⟩

variable [FloatConst F]

/-- C47: baking colour space and grade of a linear float image to linear floats multiplies the
pixels with the colour matrix and then carries out exactly the enabled operations, in order.
(Other colour spaces and pixel types only add the conversions before and after.) -/
theorem C47_bake (p : Profile) (lib : BakeLib F) (display : BBox) (b r : Baked F H)
    (size : BlockSize) (px : List F) (hb : b.block = floatImage size px)
    (hn : 0 < size.numChannels) :
    bake p lib .colorSpaceAndGrade display b colorSpaceLinear colorSpaceLinear (.known .f32) =
        .ok r ↔
      ∃ mid v, applyColorMatrix px size.numChannels b.stream.colorMatrix = .ok mid ∧
        Carried size.numChannels b.stream.colorOps mid v ∧
        r = ⟨floatImage size v, b.dataWindow, { b.spec with colorSpace := colorSpaceLinear },
          { b.stream with colorMatrix := Mat4.identity, colorOps := [] }⟩ := by
  unfold bake
  dsimp only [bakeType]
  rw [hb]
  constructor
  · intro e
    obtain ⟨⟨b1, s1⟩, e1, e⟩ := Res.bind_ok.mp e
    rw [bakeColorspace_same] at e1
    cases e1
    obtain ⟨⟨b2, t2⟩, e2, e⟩ := Res.bind_ok.mp e
    obtain ⟨b3, e3, e2⟩ := Res.bind_ok.mp e2
    simp only [Except.ok.injEq, Prod.mk.injEq] at e2
    obtain ⟨rfl, rfl⟩ := e2
    obtain ⟨mid, v, h1, h2, rfl⟩ := (bakeColorgrade_iff size px _ _ hn b3).mp e3
    obtain ⟨⟨b4, s4⟩, e4, e⟩ := Res.bind_ok.mp e
    rw [bakeColorspace_same] at e4
    cases e4
    obtain ⟨b5, e5, e⟩ := Res.bind_ok.mp e
    have h5 := C18_convert_same (floatImage (H := H) size v)
    cases h5.symm.trans e5
    exact ⟨mid, v, h1, h2, (Except.ok.inj e).symm⟩
  · rintro ⟨mid, v, h1, h2, rfl⟩
    refine Res.bind_ok.mpr ⟨_, bakeColorspace_same _ _ _ _ _, ?_⟩
    refine Res.bind_ok.mpr ⟨(floatImage size v, _), Res.bind_ok.mpr ⟨_,
      (bakeColorgrade_iff size px _ _ hn _).mpr ⟨mid, v, h1, h2, rfl⟩, rfl⟩, ?_⟩
    refine Res.bind_ok.mpr ⟨_, bakeColorspace_same _ _ _ _ _, ?_⟩
    exact Res.bind_ok.mpr ⟨_, C18_convert_same (floatImage (H := H) size v), rfl⟩

/-! ### C83 -/

/-- C83: after baking, the stream carries exactly the operations that have not been applied to
the pixels: all of them, the deformers only, or none. -/
theorem C83_resets (p : Profile) (lib : BakeLib F) (option : BakeOption) (display : BBox)
    (b r : Baked F H) (src dst : Bytes) (t : DataType)
    (e : bake p lib option display b src dst t = .ok r) :
    Remaining option b r dst := by
  unfold bake at e
  cases option
  case nothing => exact (Except.ok.inj e).symm
  case uninitialized => simp at e
  case colorSpace =>
    obtain ⟨⟨b1, s1⟩, e1, e⟩ := Res.bind_ok.mp e
    obtain ⟨b5, e5, e⟩ := Res.bind_ok.mp e
    simp only [Except.ok.injEq] at e
    rw [← e]
    exact ⟨rfl, rfl⟩
  case colorSpaceAndGrade =>
    obtain ⟨⟨b1, s1⟩, e1, e⟩ := Res.bind_ok.mp e
    obtain ⟨⟨b2, t2⟩, e2, e⟩ := Res.bind_ok.mp e
    obtain ⟨b3, e3, e2⟩ := Res.bind_ok.mp e2
    simp only [Except.ok.injEq, Prod.mk.injEq] at e2
    obtain ⟨rfl, rfl⟩ := e2
    obtain ⟨⟨b4, s4⟩, e4, e⟩ := Res.bind_ok.mp e
    obtain ⟨b5, e5, e⟩ := Res.bind_ok.mp e
    simp only [Except.ok.injEq] at e
    rw [← e]
    exact ⟨rfl, rfl, rfl⟩
  case all =>
    obtain ⟨⟨b1, s1⟩, e1, e⟩ := Res.bind_ok.mp e
    obtain ⟨⟨b2, t2⟩, e2, e⟩ := Res.bind_ok.mp e
    obtain ⟨b3, e3, e2⟩ := Res.bind_ok.mp e2
    simp only [Except.ok.injEq, Prod.mk.injEq] at e2
    obtain ⟨rfl, rfl⟩ := e2
    obtain ⟨⟨b6, w6⟩, e6, e⟩ := Res.bind_ok.mp e
    obtain ⟨⟨b4, s4⟩, e4, e⟩ := Res.bind_ok.mp e
    obtain ⟨b5, e5, e⟩ := Res.bind_ok.mp e
    simp only [Except.ok.injEq] at e
    rw [← e]
    exact ⟨rfl, rfl⟩

end

section
attribute [local instance] finFloat finBits finHalf finPi

/-- A pixel with one grade to be carried out. -/
def gradedPixel : Stream (Fin 256) (Fin 256) :=
  { onePixel with colorOps := [{ (GradeOp.new : GradeOp (Fin 256)) with multiplyR := 2 }] }

/-- Baking it applies the grade. -/
example : ∃ r mid v, bake .debug finLib.bake .colorSpaceAndGrade ⟨0, 0, 1, 1⟩ gradedPixel.toBake
      colorSpaceLinear colorSpaceLinear (.known .f32) = .ok r ∧
    Carried 3 gradedPixel.colorOps mid v ∧ r.block = floatImage ⟨1, 1, 3⟩ v ∧ v = [2, 0, 0] := by
  have e : ∃ r : Baked (Fin 256) (Fin 256), bake .debug finLib.bake .colorSpaceAndGrade ⟨0, 0, 1, 1⟩
      gradedPixel.toBake colorSpaceLinear colorSpaceLinear (.known .f32) = .ok r ∧
      r.block = floatImage ⟨1, 1, 3⟩ ([2, 0, 0] : List (Fin 256)) := ⟨_, rfl, rfl⟩
  obtain ⟨r, e, hr⟩ := e
  obtain ⟨mid, v, -, h2, h3⟩ := (C47_bake .debug finLib.bake ⟨0, 0, 1, 1⟩ gradedPixel.toBake r
    ⟨1, 1, 3⟩ [1, 0, 0] rfl (by decide)).mp e
  have hv : r.block = floatImage ⟨1, 1, 3⟩ v := by rw [h3]
  refine ⟨r, mid, v, e, h2, hv, ?_⟩
  rw [hr] at hv
  have h4 : DataBlock.mk .f32 ([2, 0, 0] : List (Fin 256)) = DataBlock.mk (F := Fin 256)
      (H := Fin 256) .f32 v := congrArg PixelBlock.block hv
  exact (eq_of_heq (DataBlock.mk.inj h4).2).symm

example : ∃ r : Baked (Fin 256) (Fin 256), bake .debug finLib.bake .all ⟨0, 0, 1, 1⟩
      gradedPixel.toBake colorSpaceLinear colorSpaceLinear (.known .f32) = .ok r ∧
    Remaining .all gradedPixel.toBake r colorSpaceLinear := by
  have e : ∃ r : Baked (Fin 256) (Fin 256), bake .debug finLib.bake .all ⟨0, 0, 1, 1⟩
      gradedPixel.toBake colorSpaceLinear colorSpaceLinear (.known .f32) = .ok r := ⟨_, rfl⟩
  obtain ⟨r, e⟩ := e
  exact ⟨r, e, C83_resets _ _ _ _ _ _ _ _ _ e⟩

end
end OCG.Props
