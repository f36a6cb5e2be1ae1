import Verif.Model.OpAttrs
import Verif.Model.Xform
import Verif.Model.Hash
import Verif.Model.Loop
/-
Model of src/ops/colorgrade.rs, src/ops/xformcolor.rs, src/colorop/colorgrade.rs,
src/colorop.rs, src/coloroputils.rs and src/math/colorxform.rs.
-/

namespace OCG

/-- Four components: `Vector4f32` (cxxbridge.rs) and nalgebra's `Vector4<f32>`. -/
abbrev Vec4 (F : Type) := Fin 4 → F

section
variable {F : Type} [FloatLike F]

/-- `a <= b` (false if either is NaN). -/
def fle (a b : F) : Bool := FloatLike.lt a b || FloatLike.eq a b

/-- The body of the loop for one channel, ops/colorgrade.rs:189-213 and
ops/xformcolor.rs:30-37. -/
def pixelStep1 (f : Vec4 F → Vec4 F) (i : Nat) (pixels : List F) : Res (List F) := do
  let a ← getAt pixels i
  let rgba := f (Xform.vec 1 1 1 a)
  setAt pixels i (rgba 3)

/-- The body of the loop for three channels, ops/colorgrade.rs:217-243 and
ops/xformcolor.rs:41-56. -/
def pixelStep3 (f : Vec4 F → Vec4 F) (i : Nat) (pixels : List F) : Res (List F) := do
  let index := i * 3
  let r ← getAt pixels (index + 0)
  let g ← getAt pixels (index + 1)
  let b ← getAt pixels (index + 2)
  let rgba := f (Xform.vec r g b 1)
  let pixels ← setAt pixels (index + 0) (rgba 0)
  let pixels ← setAt pixels (index + 1) (rgba 1)
  setAt pixels (index + 2) (rgba 2)

/-- The body of the loop for four channels, ops/colorgrade.rs:247-275 and
ops/xformcolor.rs:60-71. -/
def pixelStep4 (f : Vec4 F → Vec4 F) (i : Nat) (pixels : List F) : Res (List F) := do
  let index := i * 4
  let r ← getAt pixels (index + 0)
  let g ← getAt pixels (index + 1)
  let b ← getAt pixels (index + 2)
  let a ← getAt pixels (index + 3)
  let rgba := f (Xform.vec r g b a)
  let pixels ← setAt pixels (index + 0) (rgba 0)
  let pixels ← setAt pixels (index + 1) (rgba 1)
  let pixels ← setAt pixels (index + 2) (rgba 2)
  setAt pixels (index + 3) (rgba 3)

/-- ops/colorgrade.rs:185-281 and ops/xformcolor.rs:26-77: the loops over the pixels, which are
the same in both files; `f` is what happens to one RGBA value.  Channel counts other than 1, 3
and 4 panic (0 when dividing by the channel count in colorgrade.rs:185). -/
def pixelLoop (f : Vec4 F → Vec4 F) (numChannels : Int) (pixels : List F) : Res (List F) :=
  if numChannels = 1 then forRange (pixels.length / 1) (pixelStep1 f) pixels
  else if numChannels = 3 then forRange (pixels.length / 3) (pixelStep3 f) pixels
  else if numChannels = 4 then forRange (pixels.length / 4) (pixelStep4 f) pixels
  else .error .explicit

/-- ops/colorgrade.rs:28-79 `grade_single`. -/
def gradeSingle (pixel blackPoint whitePoint lift gain multiply offset gamma : F)
    (reverse : Bool) : F :=
  let a := multiply * (gain - lift) / (whitePoint - blackPoint)
  let b := offset + lift - a * blackPoint
  if reverse = false then FloatLike.powf (a * pixel + b) (1 / gamma)
  else
    let value :=
      if fle gamma 0 then (if FloatLike.lt 0 pixel then 1 else 0)
      else if !FloatLike.eq gamma 1 then
        (if fle pixel 0 then pixel
         else if FloatLike.lt pixel 1 then FloatLike.powf pixel gamma
         else 1 + (pixel - 1) * gamma)
      else pixel
    if !FloatLike.eq a 1 || !FloatLike.eq b 0 then
      let a' := if !FloatLike.eq a 0 then 1 / a else 1
      let b' := -b * a'
      pixel * a' + b'
    else value

/-- ops/colorgrade.rs:81-158 `grade`. -/
def gradePixel (mask blackPoint whitePoint lift gain multiply offset gamma : Vec4 F)
    (reverse : Bool) (pixel : Vec4 F) : Vec4 F :=
  let one (c : Fin 4) : F :=
    gradeSingle (pixel c) (blackPoint c) (whitePoint c) (lift c) (gain c) (multiply c) (offset c)
      (gamma c) reverse
  Xform.vec
    ((one 0 * mask 0) + (pixel 0 * (1 - mask 0)))
    ((one 1 * mask 1) + (pixel 1 * (1 - mask 1)))
    ((one 2 * mask 2) + (pixel 2 * (1 - mask 2)))
    ((one 3 * mask 3) + (pixel 3 * (1 - mask 3)))

/-- ops/colorgrade.rs:160-284 `apply_color_grade_inplace`.  `clamp_black`, `clamp_white` and
`premult` are passed on and never used (colorgrade.rs:38-40). -/
def applyColorGrade (pixels : List F) (numChannels : Int) (process : Fin 4 → Int)
    (blackPoint whitePoint lift gain multiply offset gamma : Vec4 F) (reverse : Bool) (mix : F) :
    Res (List F) :=
  let mask := Xform.vec (FloatLike.ofInt (process 0) * mix) (FloatLike.ofInt (process 1) * mix)
    (FloatLike.ofInt (process 2) * mix) (FloatLike.ofInt (process 3) * mix)
  pixelLoop (gradePixel mask blackPoint whitePoint lift gain multiply offset gamma reverse)
    numChannels pixels

/-- ops/xformcolor.rs:24-78 `apply_color_matrix_inplace`. -/
def applyColorMatrix (pixels : List F) (numChannels : Int) (matrix : Mat4 F) : Res (List F) :=
  if ¬ numChannels > 0 then .error .assertion
  else pixelLoop (Xform.mulVec matrix) numChannels pixels

/-- math/colorxform.rs:25-35 `apply_scale_rgba`. -/
def applyScaleRgba (input : Mat4 F) (r g b a : F) : Mat4 F :=
  Xform.mul (Xform.mk r 0 0 0  0 g 0 0  0 0 b 0  0 0 0 a) input

namespace GradeOp

/-- colorop/colorgrade.rs:213-277 `apply_slice_in_place`. -/
def applySlice (d : GradeOp F) (buffer : List F) (numChannels : Int) : Res (List F) :=
  let hasWork := d.enable = 1 ∧
    (d.processR ≠ 0 ∨ d.processG ≠ 0 ∨ d.processB ≠ 0 ∨ d.processA ≠ 0)
  if ¬ hasWork then .ok buffer
  else
    applyColorGrade buffer numChannels
      (fun c => match c with
        | 0 => d.processR | 1 => d.processG | 2 => d.processB | 3 => d.processA)
      (Xform.vec d.blackPointR d.blackPointG d.blackPointB d.blackPointA)
      (Xform.vec d.whitePointR d.whitePointG d.whitePointB d.whitePointA)
      (Xform.vec d.liftR d.liftG d.liftB d.liftA)
      (Xform.vec d.gainR d.gainG d.gainB d.gainA)
      (Xform.vec d.multiplyR d.multiplyG d.multiplyB d.multiplyA)
      (Xform.vec d.offsetR d.offsetG d.offsetB d.offsetA)
      (Xform.vec d.gammaR d.gammaG d.gammaB d.gammaA)
      (decide (d.reverse ≠ 0)) d.mix

/-- colorop/colorgrade.rs:88-149 `Hash`. -/
def hashItems [FloatBits F] (a : GradeOp F) : List HashItem :=
  .i32 a.enable ::
    if a.enable = 0 then []
    else
      [.i32 a.processR, .i32 a.processG, .i32 a.processB, .i32 a.processA] ++
      (if a.processR ≠ 0 then
        hashFloat a.blackPointR ++ hashFloat a.whitePointR ++ hashFloat a.liftR ++
        hashFloat a.gainR ++ hashFloat a.multiplyR ++ hashFloat a.offsetR ++ hashFloat a.gammaR
       else []) ++
      (if a.processG ≠ 0 then
        hashFloat a.blackPointG ++ hashFloat a.whitePointG ++ hashFloat a.liftG ++
        hashFloat a.gainG ++ hashFloat a.multiplyG ++ hashFloat a.offsetG ++ hashFloat a.gammaG
       else []) ++
      (if a.processB ≠ 0 then
        hashFloat a.blackPointB ++ hashFloat a.whitePointB ++ hashFloat a.liftB ++
        hashFloat a.gainB ++ hashFloat a.multiplyB ++ hashFloat a.offsetB ++ hashFloat a.gammaB
       else []) ++
      (if a.processA ≠ 0 then
        hashFloat a.blackPointA ++ hashFloat a.whitePointA ++ hashFloat a.liftA ++
        hashFloat a.gainA ++ hashFloat a.multiplyA ++ hashFloat a.offsetA ++ hashFloat a.gammaA
       else []) ++
      (if a.processR ≠ 0 ∨ a.processG ≠ 0 ∨ a.processB ≠ 0 ∨ a.processA ≠ 0 then
        [.i32 a.reverse, .i32 a.clampBlack, .i32 a.clampWhite, .i32 a.premult] ++ hashFloat a.mix
       else [])

end GradeOp

/-- coloroputils.rs:24-45 `apply_color_ops_to_pixels`.  `ColorOpGrade` is the only type with the
`ColorOp` trait. -/
def applyColorOps (ops : List (GradeOp F)) (pixels : List F) (numChannels : Int) : Res (List F) :=
  if ¬ numChannels > 0 then .error .assertion
  else if ops.length = 0 then .ok pixels
  else
    let enabled := ops.filter fun x => decide (x.getI32 "enable" = 1)
    if enabled.length = 0 then .ok pixels
    else forEach (fun op px => op.applySlice px numChannels) enabled pixels

end
end OCG
