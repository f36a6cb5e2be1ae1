import Mathlib.Data.Int.Notation
/-
Independent specification of triangle grids: vertices are numbered row by row.
-/

namespace OCG.PlaneSpec

/-- Row of vertex number `n` in a grid with `dx` vertices per row. -/
def rowOf (dx n : Nat) : Nat := n / dx
/-- Column of vertex number `n`. -/
def colOf (dx n : Nat) : Nat := n % dx

/-- The vertex is one of the four corners of the cell whose first corner is `(r, c)`. -/
def Corner (dx r c n : Nat) : Prop :=
  (rowOf dx n = r ∨ rowOf dx n = r + 1) ∧ (colOf dx n = c ∨ colOf dx n = c + 1)

/-- Triangle number `t` of an index buffer has the vertices `a`, `b`, `c`. -/
def Tri (buf : List Nat) (t a b c : Nat) : Prop :=
  buf[3 * t]? = some a ∧ buf[3 * t + 1]? = some b ∧ buf[3 * t + 2]? = some c

/-- Twice the signed area of a triangle in grid coordinates (column to the right, row down). -/
def area2 (dx a b c : Nat) : Int :=
  ((colOf dx b : Int) - colOf dx a) * ((rowOf dx c : Int) - rowOf dx a) -
  ((colOf dx c : Int) - colOf dx a) * ((rowOf dx b : Int) - rowOf dx a)

/-- Line number `l` of a line index buffer joins `a` and `b`. -/
def Line (buf : List Nat) (l a b : Nat) : Prop :=
  buf[2 * l]? = some a ∧ buf[2 * l + 1]? = some b

end OCG.PlaneSpec
