import Verif.Spec.ColorOps
import Verif.Spec.Ieee
/-
C134: what a grade is worth in exact arithmetic, and settings of ordinary size.
-/

namespace OCG.GradeErrorSpec

open Ieee IeeeSpec ColorSpec

/-- The settings of one channel of a grade. -/
abbrev Settings := F32 × F32 × F32 × F32 × F32 × F32 × F32

/-- How much a grade raises the contrast, in exact arithmetic: the distance from black to white point
becomes that from lift to gain, times the multiplication. -/
def contrast : Settings → ℚ
  | (black, white, lift, gain, multiply, _, _) =>
    val multiply * (val gain - val lift) / (val white - val black)

/-- The value that a grade gives before the gamma curve, in exact arithmetic: the black point goes to
the lift, and the offset comes on top. -/
def line (v : Settings) (p : ℚ) : ℚ :=
  match v with
  | (black, _, lift, _, _, offset, _) => val lift + contrast v * (p - val black) + val offset

/-- Settings that are numbers of ordinary size, with black and white point clearly apart. -/
def Ordinary : Settings → Prop
  | (black, white, lift, gain, multiply, offset, _) =>
    (IsFinite black ∧ IsFinite white ∧ IsFinite lift ∧ IsFinite gain ∧ IsFinite multiply ∧
      IsFinite offset) ∧ |val gain - val lift| ≤ 2 ^ 17 ∧ |val multiply| ≤ 2 ^ 16 ∧
    |val white - val black| ≤ 2 ^ 17 ∧ 1 / 2 ^ 16 ≤ |val white - val black|

/-- The sizes on which the precision depends: the contrast is at most `S`, the value `p` and the
black point at most `P`, lift and offset at most `T`. -/
structure Sizes (v : Settings) (p : F32) (S P T : ℚ) : Prop where
  finite : IsFinite p
  contrast : |contrast v| ≤ S
  value : |val p| ≤ P
  black : |val v.1| ≤ P
  lift : |val v.2.2.1| ≤ T
  offset : |val v.2.2.2.2.2.1| ≤ T
  small : S ≤ 2 ^ 16 ∧ P ≤ 2 ^ 16 ∧ T ≤ 2 ^ 16

end OCG.GradeErrorSpec
