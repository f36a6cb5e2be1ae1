import Verif.Spec.GradeError
/-
C139: changing the exposure by whole stops.
-/

namespace OCG.StopsSpec

open Ieee IeeeSpec ColorSpec GradeErrorSpec

/-- The number can be stored in a single float. -/
def Fits (q : ℚ) : Prop := ∃ y : F32, IsFinite y ∧ val y = q

/-- The settings multiply by a power of two, and do nothing else. -/
def IsStops (k : ℤ) : Settings → Prop
  | (black, white, lift, gain, multiply, offset, gamma) =>
    (IsFinite black ∧ val black = 0) ∧ white = ofInt 1 ∧ (IsFinite lift ∧ val lift = 0) ∧
      gain = ofInt 1 ∧ (IsFinite multiply ∧ val multiply = 2 ^ k) ∧
      (IsFinite offset ∧ val offset = 0) ∧ gamma = ofInt 1

/-- The grade changes the exposure of the channels it processes by `k` stops. -/
structure Exposes [Libm single32] (d : GradeOp F32) (k : ℤ) : Prop where
  enable : d.getI32 "enable" = 1
  mix : d.getF32 "mix" = ofInt 1
  settings : ∀ c, c < 4 → processes d c = 1 → IsStops k (values d c)

end OCG.StopsSpec
