import Verif.Model.Loop
import Verif.Model.Interp
/-
Model of src/geom/plane.rs.
-/

namespace OCG

/-- geom/plane.rs:25-33 `GeometryPlaneImpl`; the divisions are `u32`. -/
structure Plane (F : Type) where
  centerX : F
  centerY : F
  sizeX : F
  sizeY : F
  divisionsX : Nat
  divisionsY : Nat

namespace Plane

variable {F : Type}

/-- geom/plane.rs:102-104 `calc_count_vertex_positions` (and 106-108 `calc_count_vertex_uvs`,
which calls it). -/
def countVertex (p : Profile) (g : Plane F) : Res Nat := u32 p (g.divisionsX * g.divisionsY)

/-- geom/plane.rs:110-114 `calc_buffer_size_vertex_positions`.  The `usize` product cannot
overflow. -/
def sizePositions (p : Profile) (g : Plane F) : Res Nat := do
  let n ← g.countVertex p
  .ok (n * 3)

/-- geom/plane.rs:116-120 `calc_buffer_size_vertex_uvs`. -/
def sizeUvs (p : Profile) (g : Plane F) : Res Nat := do
  let n ← g.countVertex p
  .ok (n * 2)

/-- geom/plane.rs:122-127 `calc_buffer_size_index_tris`. -/
def sizeTris (p : Profile) (g : Plane F) : Res Nat := do
  let a ← u32 p (g.divisionsX - 1)
  let b ← u32 p (g.divisionsY - 1)
  let n ← u32 p (a * b)
  .ok (2 * 3 * n)

/-- geom/plane.rs:129-134 `calc_buffer_size_index_border_lines`. -/
def sizeBorder (p : Profile) (g : Plane F) : Res Nat := do
  let a ← u32 p (g.divisionsX - 1)
  let a2 ← u32 p (a * 2)
  let b ← u32 p (g.divisionsY - 1)
  let b2 ← u32 p (b * 2)
  let n ← u32 p (a2 + b2)
  .ok (2 * n)

/-- geom/plane.rs:136-141 `calc_buffer_size_index_wire_lines`. -/
def sizeWire (p : Profile) (g : Plane F) : Res Nat := do
  let a ← u32 p (g.divisionsX - 1)
  let b ← u32 p (g.divisionsY - 1)
  let n ← u32 p (a * b)
  .ok (4 * 2 * n)

/-- geom/plane.rs:143-149 `get_indexes`: top left, bottom left, top right, bottom right. -/
def getIndexes (p : Profile) (g : Plane F) (row col : Nat) : Res (Nat × Nat × Nat × Nat) := do
  let rd ← u32 p (row * g.divisionsX)
  let topLeft ← u32 p (rd + col)
  let bottomLeft ← u32 p (topLeft + g.divisionsX)
  let topRight ← u32 p (topLeft + 1)
  let bottomRight ← u32 p (bottomLeft + 1)
  .ok (topLeft, bottomLeft, topRight, bottomRight)

/-- A run of consecutive assignments `buffer[index + 0] = ..; buffer[index + 1] = ..; ..`
as in every loop body of geom/plane.rs:152-290. -/
def writeAll {α : Type} (buf : List α) (index : Nat) : List α → Res (List α)
  | [] => .ok buf
  | v :: vs => do
    let b ← setAt buf index v
    writeAll b (index + 1) vs

section
variable [FloatLike F]

/-- geom/plane.rs:152-173 `fill_buffer_vertex_positions`.  The state of the loops is the
buffer and `index`. -/
def fillPositions (p : Profile) (g : Plane F) (buffer : List F) : Res (List F) := do
  let two : F := FloatLike.ofInt 2
  let maxX := g.sizeX / two
  let minX := -maxX
  let maxY := g.sizeY / two
  let minY := -maxY
  let dx ← u32 p (g.divisionsX - 1)
  let dy ← u32 p (g.divisionsY - 1)
  let squareX : F := 1 / FloatLike.ofInt dx
  let squareY : F := 1 / FloatLike.ofInt dy
  let r ← forRange g.divisionsY (fun row st =>
    forRange g.divisionsX (fun col (st : List F × Nat) => do
      let x := FloatLike.ofInt col * squareX
      let y := FloatLike.ofInt row * squareY
      let posX := Interp.lerp minX maxX x - g.centerX
      let posY := Interp.lerp minY maxY y - g.centerY
      let b ← writeAll st.1 st.2 [posX, posY, 0]
      .ok (b, st.2 + 3)) st) (buffer, 0)
  .ok r.1

/-- geom/plane.rs:176-190 `fill_buffer_vertex_uvs`. -/
def fillUvs (p : Profile) (g : Plane F) (buffer : List F) : Res (List F) := do
  let dx ← u32 p (g.divisionsX - 1)
  let dy ← u32 p (g.divisionsY - 1)
  let squareX : F := 1 / FloatLike.ofInt dx
  let squareY : F := 1 / FloatLike.ofInt dy
  let r ← forRange g.divisionsY (fun row st =>
    forRange g.divisionsX (fun col (st : List F × Nat) => do
      let b ← writeAll st.1 st.2
        [FloatLike.ofInt col * squareX, 1 + (FloatLike.ofInt row * squareY * (-1))]
      .ok (b, st.2 + 2)) st) (buffer, 0)
  .ok r.1

end

/-- geom/plane.rs:193-214 `fill_buffer_index_tris`. -/
def fillTris (p : Profile) (g : Plane F) (buffer : List Nat) : Res (List Nat) := do
  let rows ← u32 p (g.divisionsY - 1)
  let r ← forRange rows (fun row st => do
    let cols ← u32 p (g.divisionsX - 1)
    forRange cols (fun col (st : List Nat × Nat) => do
      let (tl, bl, tr, br) ← g.getIndexes p row col
      let b ← writeAll st.1 st.2 [tl, bl, br, tl, br, tr]
      .ok (b, st.2 + 6)) st) (buffer, 0)
  .ok r.1

/-- geom/plane.rs:217-260 `fill_buffer_index_border_lines`. -/
def fillBorder (p : Profile) (g : Plane F) (buffer : List Nat) : Res (List Nat) := do
  -- left line
  let rows ← u32 p (g.divisionsY - 1)
  let s1 ← forRange rows (fun row (st : List Nat × Nat) => do
    let (tl, bl, _, _) ← g.getIndexes p row 0
    let b ← writeAll st.1 st.2 [tl, bl]
    .ok (b, st.2 + 2)) (buffer, 0)
  -- right line
  let rightColumn ← u32 p (g.divisionsX - 1)
  let rows2 ← u32 p (g.divisionsY - 1)
  let s2 ← forRange rows2 (fun row (st : List Nat × Nat) => do
    let (tl, bl, _, _) ← g.getIndexes p row rightColumn
    let b ← writeAll st.1 st.2 [tl, bl]
    .ok (b, st.2 + 2)) s1
  -- top line
  let topRow ← u32 p (g.divisionsY - 1)
  let cols ← u32 p (g.divisionsX - 1)
  let s3 ← forRange cols (fun col (st : List Nat × Nat) => do
    let (tl, _, tr, _) ← g.getIndexes p topRow col
    let b ← writeAll st.1 st.2 [tl, tr]
    .ok (b, st.2 + 2)) s2
  -- bottom line
  let cols2 ← u32 p (g.divisionsX - 1)
  let s4 ← forRange cols2 (fun col (st : List Nat × Nat) => do
    let (tl, _, tr, _) ← g.getIndexes p 0 col
    let b ← writeAll st.1 st.2 [tl, tr]
    .ok (b, st.2 + 2)) s3
  .ok s4.1

/-- geom/plane.rs:263-290 `fill_buffer_index_wire_lines` (the loop variables named `col` and
`row` there run over rows and columns). -/
def fillWire (p : Profile) (g : Plane F) (buffer : List Nat) : Res (List Nat) := do
  let n ← u32 p (g.divisionsY - 1)
  let r ← forRange n (fun row st => do
    let m ← u32 p (g.divisionsX - 1)
    forRange m (fun col (st : List Nat × Nat) => do
      let (tl, bl, tr, br) ← g.getIndexes p row col
      let b ← writeAll st.1 st.2 [tl, bl, bl, br, br, tr, tr, tl]
      .ok (b, st.2 + 8)) st) (buffer, 0)
  .ok r.1

end Plane
end OCG
