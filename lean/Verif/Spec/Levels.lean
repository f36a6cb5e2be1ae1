import Verif.Model.PixelBlock
import Verif.Spec.Ieee
/-
Brightness of pixel values of all four types.
-/

namespace OCG.LevelSpec

open IeeeSpec

variable {f : Format}

/-- The infinity with the given sign (IEEE 754, 3.4). -/
def IsInfinity (neg : Bool) (x : Ieee f) : Prop := x.neg = neg ∧ x.code = f.expMax * 2 ^ f.mant

/-- Not a number (IEEE 754, 3.4). -/
def IsNotNumber (x : Ieee f) : Prop := f.expMax * 2 ^ f.mant < x.code

/-- `x ≤ y` (IEEE 754, 5.11). -/
def NotAbove (x y : Ieee f) : Prop :=
  (IsFinite x ∧ IsFinite y ∧ val x ≤ val y) ∨ (IsInfinity true x ∧ ¬ IsNotNumber y) ∨
    (¬ IsNotNumber x ∧ IsInfinity false y)

/-- A pixel value is at most as bright as another one of the same type. -/
def NotBrighter : (t : DType) → Elem F32 F16 t → Elem F32 F16 t → Prop
  | .f32, x, y => NotAbove (f := single32) x y
  | .f16, x, y => NotAbove (f := half16) x y
  | .u8, x, y => Fin.val (n := 256) x ≤ Fin.val (n := 256) y
  | .u16, x, y => Fin.val (n := 65536) x ≤ Fin.val (n := 65536) y

/-- Black. -/
def IsBlack : (t : DType) → Elem F32 F16 t → Prop
  | .f32, x => IsFinite (f := single32) x ∧ val (f := single32) x = 0
  | .f16, x => IsFinite (f := half16) x ∧ val (f := half16) x = 0
  | .u8, x => Fin.val (n := 256) x = 0
  | .u16, x => Fin.val (n := 65536) x = 0

/-- White. -/
def IsWhite : (t : DType) → Elem F32 F16 t → Prop
  | .f32, x => IsFinite (f := single32) x ∧ val (f := single32) x = 1
  | .f16, x => IsFinite (f := half16) x ∧ val (f := half16) x = 1
  | .u8, x => Fin.val (n := 256) x = 255
  | .u16, x => Fin.val (n := 65536) x = 65535

/-- Between black and white. -/
def InUnit : (t : DType) → Elem F32 F16 t → Prop
  | .f32, x => IsFinite (f := single32) x ∧ 0 ≤ val (f := single32) x ∧ val (f := single32) x ≤ 1
  | .f16, x => IsFinite (f := half16) x ∧ 0 ≤ val (f := half16) x ∧ val (f := half16) x ≤ 1
  | .u8, _ => True
  | .u16, _ => True

/-- A float that is not a number. -/
def IsNoLevel : (t : DType) → Elem F32 F16 t → Prop
  | .f32, x => IsNotNumber (f := single32) x
  | .f16, x => IsNotNumber (f := half16) x
  | .u8, _ => False
  | .u16, _ => False

end OCG.LevelSpec
