import Verif.Spec.Shift
/-
Pictures that are mirrored and moved by whole pixels.
-/

namespace OCG.TurnSpec

open IeeeSpec PictureSpec BlockSpec ImageSpecs

/-- Mirroring (a sign of -1) or not (1) in each direction, and then moving. -/
structure Turn where
  signX : Int
  moveX : Int
  signY : Int
  moveY : Int

/-- The signs are signs. -/
def Turn.IsProper (t : Turn) : Prop := (t.signX = 1 ∨ t.signX = -1) ∧ (t.signY = 1 ∨ t.signY = -1)

/-- The entry of the matrix that mirrors and then moves by `(k, l)`. -/
def turnMat (a k b l : Int) (i j : Fin 4) : Int :=
  if i = j then (if i = 0 then a else if i = 1 then b else 1)
  else if i = 0 ∧ j = 3 then k else if i = 1 ∧ j = 3 then l else 0

/-- The matrix mirrors and moves points. -/
def IsTurn (m : Mat4 F32) (a k b l : Int) : Prop :=
  ∀ i j, IsFinite (m i j) ∧ val (m i j) = (turnMat a k b l i j : Int)

/-- The library inverts the matrices that mirror and move by whole numbers up to 2^22, exactly. -/
def InvertsTurns (lib : DeformLib F32) : Prop :=
  ∀ m a k b l, (a = 1 ∨ a = -1) → (b = 1 ∨ b = -1) → k.natAbs ≤ 2 ^ 22 → l.natAbs ≤ 2 ^ 22 →
    IsTurn m a k b l → ∃ v, lib.tryInverse m = some v ∧ IsTurn v a (-a * k) b (-b * l)

variable [Libm single32]

/-- The transform is switched on, and mirrors (with a scale of -1) and translates a picture that is
`w` pixels wide, by whole pixels.  Both translations are given in pixels times the width, as in
`ShiftSpec.ShiftsBy`. -/
structure TurnsBy (w : Int) (d : Deformer F32) (s : Turn) : Prop where
  proper : s.IsProper
  shape : ∃ t : TransformDeformer F32, d = .transform
    { TransformDeformer.default with
      invert := t.invert, translateX := t.translateX, translateY := t.translateY,
      scaleX := t.scaleX, scaleY := t.scaleY } ∧
    IsFinite t.translateX ∧
    val t.translateX = ((if t.invert = 0 then s.moveX else -s.signX * s.moveX) * w : Int) ∧
    IsFinite t.translateY ∧
    val t.translateY = ((if t.invert = 0 then s.moveY else -s.signY * s.moveY) * w : Int) ∧
    IsFinite t.scaleX ∧ val t.scaleX = (s.signX : Int) ∧
    IsFinite t.scaleY ∧ val t.scaleY = (s.signY : Int)

/-- Which column, or row, stands at `i` after mirroring and moving. -/
def backX (t : Turn) (i : Int) : Int := t.signX * (i - t.moveX)
def backY (t : Turn) (i : Int) : Int := t.signY * (i - t.moveY)

/-- The same for several, going back from the first one on. -/
def sourceX : List Turn → Int → Int
  | [], i => i
  | t :: ts, i => sourceX ts (backX t i)
def sourceY : List Turn → Int → Int
  | [], i => i
  | t :: ts, i => sourceY ts (backY t i)

/-- How far all of them go. -/
def farX (s : List Turn) : Int := (s.map fun t => |t.moveX|).sum
def farY (s : List Turn) : Int := (s.map fun t => |t.moveY|).sum

/-- The picture mirrored and moved within its window, `w` by `h` pixels at the origin. -/
def turned {F : Type} (w h : Int) (s : List Turn) (P : Picture F) : Picture F :=
  { P with at_ := fun x y =>
      P.at_ (ShiftSpec.closest w (sourceX s x)) (ShiftSpec.closest h (sourceY s y)) }

/-- The transforms fit a picture of `w` by `h` pixels at the origin. -/
structure FitsTurns (w h : Int) (ds : List (Deformer F32)) (s : List Turn) (P : Picture F32) :
    Prop where
  data : P.data = ⟨0, 0, w, h⟩
  display : P.display = ⟨0, 0, w, h⟩
  channels : P.channels = 3 ∨ P.channels = 4
  size : ValidSize (sizeFor P.data P.channels)
  turns : List.Forall₂ (TurnsBy w) ds s
  farX : w + farX s ≤ 2 ^ 22
  farY : h + farY s ≤ 2 ^ 22

end OCG.TurnSpec
