import Verif.Spec.Turn
/-
Where the vertices of a mesh go when they are mirrored and moved with a picture.
-/

namespace OCG.TurnSpec

/-- A coordinate of `a` steps of size `1 / 2^m` after mirroring (around the centre of the first
pixel) and moving by whole pixels. -/
def ahead (sign move : Int) (m : Nat) (a : Int) : Int :=
  sign * (a - 2 ^ (m - 1)) + move * 2 ^ m + 2 ^ (m - 1)

/-- The same for several, one after another. -/
def placeX (m : Nat) : List Turn → Int → Int
  | [], a => a
  | t :: ts, a => placeX m ts (ahead t.signX t.moveX m a)
def placeY (m : Nat) : List Turn → Int → Int
  | [], a => a
  | t :: ts, a => placeY m ts (ahead t.signY t.moveY m a)

/-- Which column, or row, a column or row goes to. -/
def columnOf : List Turn → Int → Int
  | [], i => i
  | t :: ts, i => columnOf ts (t.signX * i + t.moveX)
def rowOf : List Turn → Int → Int
  | [], i => i
  | t :: ts, i => rowOf ts (t.signY * i + t.moveY)

/-- How far a coordinate may come on the way, in pixels. -/
def roomX (s : List Turn) : Int := (s.map fun t => |t.moveX| + 1).sum
def roomY (s : List Turn) : Int := (s.map fun t => |t.moveY| + 1).sum

/-- It does not matter which of the two comes first. -/
def Independent (t u : Turn) : Prop :=
  t.signX * u.moveX + t.moveX = u.signX * t.moveX + u.moveX ∧
  t.signY * u.moveY + t.moveY = u.signY * t.moveY + u.moveY

end OCG.TurnSpec
