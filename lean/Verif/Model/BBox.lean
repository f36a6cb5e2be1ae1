import Verif.Model.Int32
/-
Model of src/bbox/bbox2di.rs and its iterators (src/bbox/bbox2di/*.rs).
-/

namespace OCG

/-- cxxbridge.rs `BBox2Di` (fields are `i32`; the model stores exact integers). -/
structure BBox where
  minX : Int
  minY : Int
  maxX : Int
  maxY : Int
  deriving DecidableEq, Repr, Inhabited

namespace BBox

/-- bbox2di.rs:42-49 `combine`. -/
def combine (a b : BBox) : BBox :=
  { minX := min a.minX b.minX
    minY := min a.minY b.minY
    maxX := max a.maxX b.maxX
    maxY := max a.maxY b.maxY }

/-- bbox2di.rs:51-77 `intersection`. -/
def intersection (a b : BBox) : BBox :=
  if a.minX > b.maxX ∨ b.minX > a.maxX ∨ a.minY > b.maxY ∨ b.minY > a.maxY then
    { minX := 0, minY := 0, maxX := 0, maxY := 0 }
  else
    let x1 := max a.minX b.minX
    let x2 := max x1 (min a.maxX b.maxX)
    let y1 := max a.minY b.minY
    let y2 := max y1 (min a.maxY b.maxY)
    { minX := x1, minY := y1, maxX := x2, maxY := y2 }

/-- bbox2di.rs:83-87 `center`; Rust's `/` truncates towards zero. -/
def center (p : Profile) (b : BBox) : Res (Int × Int) := do
  let sx ← i32 p (b.minX + b.maxX)
  let sy ← i32 p (b.minY + b.maxY)
  .ok (sx.tdiv 2, sy.tdiv 2)

/-- bbox2di.rs:93-95 `width`. -/
def width (p : Profile) (b : BBox) : Res Int := i32 p (b.maxX - b.minX)

/-- bbox2di.rs:97-99 `height`. -/
def height (p : Profile) (b : BBox) : Res Int := i32 p (b.maxY - b.minY)

/-- bbox2di.rs:89-91 `area`. -/
def area (p : Profile) (b : BBox) : Res Nat := do
  let w ← b.width p
  let h ← b.height p
  let a ← i32 p (w * h)
  .ok (asU32 a)

/-- bbox2di/row_iter.rs:44-52 `next` of the column iterator; the state is the field `index`,
which row_iter.rs:32-37 initialises with `min_x` (row.rs:39-41).  `index + 1` cannot
overflow because `index < max_x`. -/
def rowNext (b : BBox) (index : Int) : Option (Int × Int) :=
  if index ≥ b.maxX then none else some (index, index + 1)

/-- bbox2di/rows_iter.rs:41-52 `next` of the row iterator; the state is the field
`next_row`, initialised with 0 (rows_iter.rs:32-34).  The items are represented by their
`row_index`. -/
def rowsNext (p : Profile) (b : BBox) (nextRow : Nat) : Res (Option (Nat × Nat)) := do
  let h ← b.height p
  if nextRow ≥ asUsize h then .ok none else .ok (some (nextRow, nextRow + 1))

end BBox
end OCG
