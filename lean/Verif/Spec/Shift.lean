import Verif.Spec.Picture
import Verif.Spec.Ieee
/-
Pictures moved by whole pixels.
-/

namespace OCG.ShiftSpec

open IeeeSpec PictureSpec BlockSpec ImageSpecs

/-- The entry of the matrix that moves points by `(k, l)`. -/
def shiftMat (k l : Int) (i j : Fin 4) : Int :=
  if i = j then 1 else if i = 0 ∧ j = 3 then k else if i = 1 ∧ j = 3 then l else 0

/-- The matrix moves points by `(k, l)`. -/
def IsShift (m : Mat4 F32) (k l : Int) : Prop :=
  ∀ i j, IsFinite (m i j) ∧ val (m i j) = (shiftMat k l i j : Int)

/-- The library inverts the matrices that move points by whole numbers up to 2^22, exactly. -/
def InvertsShifts (lib : DeformLib F32) : Prop :=
  ∀ m k l, k.natAbs ≤ 2 ^ 22 → l.natAbs ≤ 2 ^ 22 → IsShift m k l → ∃ v, lib.tryInverse m = some v ∧ IsShift v (-k) (-l)

variable [Libm single32]

/-- The transform is switched on and only translates, by `k` columns and `l` rows of a picture that
is `w` pixels wide.  Both translations are given in pixels times the width: the code divides both by
the width of the display window (C72).  A transform that is turned around moves the other way. -/
structure ShiftsBy (w : Int) (d : Deformer F32) (s : Int × Int) : Prop where
  shape : ∃ t : TransformDeformer F32, d = .transform
    { TransformDeformer.default with
      invert := t.invert, translateX := t.translateX, translateY := t.translateY } ∧
    IsFinite t.translateX ∧ val t.translateX = ((if t.invert = 0 then s.1 else -s.1) * w : Int) ∧
    IsFinite t.translateY ∧ val t.translateY = ((if t.invert = 0 then s.2 else -s.2) * w : Int)

/-- How far a list of moves goes to the right and upwards. -/
def totalX (s : List (Int × Int)) : Int := (s.map Prod.fst).sum
def totalY (s : List (Int × Int)) : Int := (s.map Prod.snd).sum

/-- The whole way, wherever it leads. -/
def wayX (s : List (Int × Int)) : Int := (s.map fun a => |a.1|).sum
def wayY (s : List (Int × Int)) : Int := (s.map fun a => |a.2|).sum

/-- The closest of the numbers from 0 to `n - 1`. -/
def closest (n v : Int) : Int := if v < 0 then 0 else if n ≤ v then n - 1 else v

/-- The picture moved by `(k, l)` within its window, `w` by `h` pixels at the origin: what leaves the
window is lost, and what would be empty repeats the pixel at the border. -/
def shifted {F : Type} (w h k l : Int) (P : Picture F) : Picture F :=
  { P with at_ := fun x y => P.at_ (closest w (x - k)) (closest h (y - l)) }

/-- The translations `ds`, by `s`, fit a picture of `w` by `h` pixels at the origin. -/
structure FitsMoves (w h : Int) (ds : List (Deformer F32)) (s : List (Int × Int)) (P : Picture F32) :
    Prop where
  data : P.data = ⟨0, 0, w, h⟩
  display : P.display = ⟨0, 0, w, h⟩
  channels : P.channels = 3 ∨ P.channels = 4
  size : ValidSize (sizeFor P.data P.channels)
  moves : List.Forall₂ (ShiftsBy w) ds s
  farX : w + wayX s ≤ 2 ^ 22
  farY : h + wayY s ≤ 2 ^ 22

/-- The number is `a` steps of size `1 / 2^m`. -/
def OnGrid (m : Nat) (x : F32) (a : Int) : Prop := IsFinite x ∧ val x = (a : ℚ) / 2 ^ m

/-- The transform is not turned around, or turned around by a positive number. -/
def Upright : Deformer F32 → Prop
  | .transform t => 0 ≤ t.invert
  | .tde4 _ => True

end OCG.ShiftSpec
