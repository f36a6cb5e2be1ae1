import Verif.Model.ColorUtils
import Verif.Model.FastPow
import Verif.Props.IeeeConvert
/-
The sRGB conversions of all samples of 8 bits, in `f32` with the power function of `fastapprox`.
-/

namespace OCG.Props

open Ieee IeeeSpec

theorem srgb_any (i j : Libm single32) (x : F32) :
    @srgbToLinear F32 (@ieeeFloat _ i) FastPow.pow x =
      @srgbToLinear F32 (@ieeeFloat _ j) FastPow.pow x := rfl
theorem linear_any (i j : Libm single32) (x : F32) :
    @linearToSrgb F32 (@ieeeFloat _ i) FastPow.pow x =
      @linearToSrgb F32 (@ieeeFloat _ j) FastPow.pow x := rfl

/-- The light of a sample of 8 bits. -/
def lightOf [Libm single32] (x : Fin 256) : F32 :=
  srgbToLinear FastPow.pow (FloatLike.ofInt x.val / FloatLike.ofInt 255)

/-- The sample of 8 bits for some light. -/
def sampleOf [Libm single32] (x : F32) : Fin 256 :=
  FloatLike.toU8 (linearToSrgb FastPow.pow x * FloatLike.ofInt 255)

theorem lightOf_any (i j : Libm single32) (x : Fin 256) : @lightOf i x = @lightOf j x :=
  srgb_any i j _

theorem sampleOf_any (i j : Libm single32) (x : F32) : @sampleOf i x = @sampleOf j x := by
  unfold sampleOf
  rw [linear_any i j]
  rfl

/-- The light `m` (in units of 1 / `u`) is within -8.1 % and +11 % of that of the sample `i`, in
integers. -/
def nearLight (u i m : Nat) : Bool :=
  if i ≤ 10 then
    919 * (i * 100) * u ≤ 1000 * m * (255 * 1292) &&
    100 * m * (255 * 1292) ≤ 111 * (i * 100) * u
  else
    919 ^ 5 * (200 * i + 2805) ^ 12 * u ^ 5 ≤ 1000 ^ 5 * 53805 ^ 12 * m ^ 5 &&
    100 ^ 5 * 53805 ^ 12 * m ^ 5 ≤ 111 ^ 5 * (200 * i + 2805) ^ 12 * u ^ 5

/-- What is checked for every sample. -/
def checkSample (x : Nat) (l : F32) (y : Nat) : Bool :=
  l.isFinite && !l.neg && nearLight (2 ^ 149) x l.mag && (y == x || y + 1 == x)

theorem checkSample_all [i : Libm single32] (x : Fin 256) :
    checkSample x.val (lightOf x) (sampleOf (lightOf x)).val = true := by
  rw [lightOf_any i IeeeConvertExamples.someLibm, sampleOf_any i IeeeConvertExamples.someLibm]
  revert x
  have : ∀ x : Fin 256, checkSample x.val (@lightOf IeeeConvertExamples.someLibm x)
      (@sampleOf IeeeConvertExamples.someLibm
        (@lightOf IeeeConvertExamples.someLibm x)).val = true := by decide +kernel
  exact this

theorem lightOf_step [i : Libm single32] (x : Fin 255) :
    ltb (lightOf x.castSucc) (lightOf x.succ) = true := by
  rw [lightOf_any i IeeeConvertExamples.someLibm, lightOf_any i IeeeConvertExamples.someLibm]
  revert x
  have : ∀ x : Fin 255, ltb (@lightOf IeeeConvertExamples.someLibm x.castSucc)
    (@lightOf IeeeConvertExamples.someLibm x.succ) = true := by decide +kernel
  exact this

theorem white_facts [i : Libm single32] : (lightOf 255).neg = false ∧
    108 * 2 ^ 149 < (lightOf 255).mag * 100 ∧ sampleOf (lightOf 255) = 254 := by
  rw [lightOf_any i IeeeConvertExamples.someLibm, sampleOf_any i IeeeConvertExamples.someLibm]
  decide +kernel

theorem half_facts [i : Libm single32] : (lightOf 128).neg = false ∧
    (lightOf 128).mag * 100 < 24 * 2 ^ 149 := by
  rw [lightOf_any i IeeeConvertExamples.someLibm]
  decide +kernel

end OCG.Props
