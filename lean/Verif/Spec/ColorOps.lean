import Verif.Model.ColorOps
import Verif.Spec.Field
/-
Independent specification for colour operations: what a grade means for one value, and how a list
of operations is carried out.
-/

namespace OCG.ColorSpec

/-- The channel (0 red, 1 green, 2 blue, 3 alpha) that value number `k` of a pixel with `n`
values belongs to: a single value is alpha. -/
def channelOf (n k : Nat) : Nat := if n = 1 then 3 else k

section
variable {F : Type} [FloatLike F]

/-- Whether a grade processes a channel. -/
def processes (d : GradeOp F) : Nat → Int
  | 0 => d.getI32 "process_r"
  | 1 => d.getI32 "process_g"
  | 2 => d.getI32 "process_b"
  | _ => d.getI32 "process_a"

/-- The values of one channel of a grade: black point, white point, lift, gain, multiply, offset,
gamma. -/
def values (d : GradeOp F) (c : Nat) : F × F × F × F × F × F × F :=
  let s := if c = 0 then "r" else if c = 1 then "g" else if c = 2 then "b" else "a"
  (d.getF32 ("black_point_" ++ s), d.getF32 ("white_point_" ++ s), d.getF32 ("lift_" ++ s),
    d.getF32 ("gain_" ++ s), d.getF32 ("multiply_" ++ s), d.getF32 ("offset_" ++ s),
    d.getF32 ("gamma_" ++ s))

/-- A grade of one value: a straight line that takes the black point to `lift` and the white point
to `gain`, with gain, multiplication and offset on top, and then the gamma curve. -/
def forward (v : F × F × F × F × F × F × F) (p : F) : F :=
  match v with
  | (black, white, lift, gain, multiply, offset, gamma) =>
    let slope := multiply * (gain - lift) / (white - black)
    FloatLike.powf (slope * p + (offset + lift - slope * black)) (1 / gamma)

/-- Part `m` of a new value and the rest of the old one. -/
def mixed (m new old : F) : F := new * m + old * (1 - m)

/-- Carrying out a list of operations on a buffer: enabled ones one after the other, others
skipped. -/
inductive Carried (n : Int) : List (GradeOp F) → List F → List F → Prop
  | nil (buf) : Carried n [] buf buf
  | skip {op ops a b} : op.getI32 "enable" ≠ 1 → Carried n ops a b → Carried n (op :: ops) a b
  | step {op ops a b c} : op.getI32 "enable" = 1 → op.applySlice a n = .ok b →
      Carried n ops b c → Carried n (op :: ops) a c

end
end OCG.ColorSpec
