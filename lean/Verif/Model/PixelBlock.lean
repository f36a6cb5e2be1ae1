import Verif.Model.BBox
import Verif.Model.Float
/-
Model of src/pixelblock/: block sizes, typed data buffers and pixel blocks.
-/

namespace OCG

/-- cxxbridge.rs `BlockSize` (blocksize.rs:43-48); the fields are `i32`. -/
structure BlockSize where
  width : Int
  height : Int
  numChannels : Int
  deriving DecidableEq, Repr, Inhabited

/-- blocksize.rs:31-41 `get_index` (the same function is in utils.rs:172-189
`get_pixel_index`). -/
def getIndex (p : Profile) (width height xStride yStride x y : Int) : Res Int := do
  let indexX ← i32 p (x * xStride)
  let indexY ← i32 p (y * yStride)
  let w1 ← i32 p (width - 1)
  let maxX ← i32 p (w1 * xStride)
  let h1 ← i32 p (height - 1)
  let maxY ← i32 p (h1 * yStride)
  let index ← i32 p (indexX + indexY)
  if indexX < 0 ∨ indexX > maxX ∨ indexY < 0 ∨ indexY > maxY then .ok (-1) else .ok index

namespace BlockSize

/-- blocksize.rs:59-64 `empty`. -/
def empty : BlockSize := ⟨0, 0, 0⟩

/-- blocksize.rs:78-80 `size`. -/
def size (p : Profile) (b : BlockSize) : Res Nat := do
  let wh ← i32 p (b.width * b.height)
  let s ← i32 p (wh * b.numChannels)
  .ok (asUsize s)

/-- blocksize.rs:82-86 `get_index`. -/
def getIndex (p : Profile) (b : BlockSize) (x y : Int) : Res Int := do
  let xStride := b.numChannels
  let yStride ← i32 p (b.width * xStride)
  OCG.getIndex p b.width b.height xStride yStride x y

/-- blocksize.rs:88-94 `get_xy`.  Simplification: the final `as i32` casts are exact for the
indices of a block (they are smaller than 2^31); division by zero panics. -/
def getXY (p : Profile) (b : BlockSize) (ix : Nat) : Res (Int × Int) := do
  let rs ← i32 p (b.width * b.numChannels)
  let rowStride := asUsize rs
  if rowStride = 0 then .error .explicit
  else
    let rowIx := ix % rowStride
    let x := rowIx / asUsize b.numChannels
    let y := ix / rowStride
    .ok ((x : Int), (y : Int))

end BlockSize

/-- pixelblock/pixelblock/index.rs:6-12 `BlockIndex` (usize fields). -/
structure BlockIndex where
  index : Nat
  width : Nat
  height : Nat
  numChannels : Nat
  deriving DecidableEq, Repr

namespace BlockIndex

/-- pixelblock/pixelblock/index.rs:33-53 `from_xy`.  Simplification: the products are exact (they are
bounded by the block's element count for in-range coordinates). -/
def fromXY (b : BlockSize) (x y : Nat) : Res BlockIndex :=
  let width := asUsize b.width
  let height := asUsize b.height
  if x ≥ width then .error .explicit
  else if y ≥ height then .error .explicit
  else
    let nc := asUsize b.numChannels
    .ok { index := y * (width * nc) + x * nc, width := width, height := height,
          numChannels := nc }

/-- pixelblock/pixelblock/index.rs:55-57 `column`. -/
def column (i : BlockIndex) : Nat := i.index % (i.width * i.numChannels)

/-- pixelblock/pixelblock/index.rs:59-61 `row`. -/
def row (i : BlockIndex) : Nat := i.index / (i.height * i.numChannels)

end BlockIndex

/-- Element types of a stored buffer, datablock.rs:36-41 `DataBlockEnum`. -/
inductive DType where
  | f32 | f16 | u8 | u16
  deriving DecidableEq, Repr, Inhabited

/-- cxxbridge.rs:272-283 `DataType`: a stored element type or `Unknown`. -/
inductive DataType where
  | known (t : DType)
  | unknown
  deriving DecidableEq, Repr, Inhabited

/-- The Rust type of the elements of each buffer type, datablock.rs:36-41. -/
def Elem (F H : Type) : DType → Type
  | .f32 => F
  | .f16 => H
  | .u8 => Fin 256
  | .u16 => Fin 65536

/-- datatype.rs:28-39 `size_bytes`. -/
def DType.sizeBytes : DType → Nat
  | .u8 => 1
  | .f16 => 2
  | .f32 => 4
  | .u16 => 2

/-- datablock.rs:43-46 `DataBlock`: one of four vectors, here a type tag with a list. -/
structure DataBlock (F H : Type) where
  dtype : DType
  data : List (Elem F H dtype)

section
variable {F H : Type} [FloatLike F] [HalfLike F H]

/-- datablock.rs:50-53, the zero of each element type. -/
def zeroElem : (t : DType) → Elem F H t
  | .f32 => (0 : F)
  | .f16 => (HalfLike.ofF32 (0 : F) : H)
  | .u8 => (0 : Fin 256)
  | .u16 => (0 : Fin 65536)

/-- datablock.rs:231-234, the "white" of each element type. -/
def whiteElem : (t : DType) → Elem F H t
  | .f32 => (1 : F)
  | .f16 => (HalfLike.ofF32 (1 : F) : H)
  | .u8 => (255 : Fin 256)
  | .u16 => (65535 : Fin 65536)

/-- The element conversions of utils.rs:29-119.  (The four identity conversions are never
used: datablock.rs:282-284 returns early.) -/
def convElem : (a b : DType) → Elem F H a → Elem F H b
  -- utils.rs:29-47 to f32
  | .f32, .f32, x => x
  | .f16, .f32, x => (HalfLike.toF32 (F := F) (H := H) x : F)
  | .u8, .f32, x => (FloatLike.ofInt (F := F) (Fin.val (n := 256) x) / FloatLike.ofInt 255 : F)
  | .u16, .f32, x => (FloatLike.ofInt (F := F) (Fin.val (n := 65536) x) / FloatLike.ofInt 65535 : F)
  -- utils.rs:50-68 to f16
  | .f32, .f16, x => (HalfLike.ofF32 (F := F) (H := H) x : H)
  | .f16, .f16, x => x
  | .u8, .f16, x =>
    (HalfLike.ofF32 (FloatLike.ofInt (F := F) (Fin.val (n := 256) x) / FloatLike.ofInt 255) : H)
  | .u16, .f16, x =>
    (HalfLike.ofF32 (FloatLike.ofInt (F := F) (Fin.val (n := 65536) x) / FloatLike.ofInt 65535) : H)
  -- utils.rs:71-95 to u16
  | .f32, .u16, x => FloatLike.toU16 (F := F) (HMul.hMul (α := F) (β := F) (γ := F) x (FloatLike.ofInt 65535))
  | .f16, .u16, x => FloatLike.toU16 (HalfLike.toF32 (F := F) (H := H) x * (FloatLike.ofInt 65535 : F))
  | .u8, .u16, x =>
    FloatLike.toU16 (FloatLike.ofInt (F := F) (Fin.val (n := 256) x) / (FloatLike.ofInt 255 : F) *
      (FloatLike.ofInt 65535 : F))
  | .u16, .u16, x => x
  -- utils.rs:98-119 to u8
  | .f32, .u8, x => FloatLike.toU8 (F := F) (HMul.hMul (α := F) (β := F) (γ := F) x (FloatLike.ofInt 255))
  | .f16, .u8, x => FloatLike.toU8 (HalfLike.toF32 (F := F) (H := H) x * (FloatLike.ofInt 255 : F))
  | .u16, .u8, x =>
    FloatLike.toU8 (FloatLike.ofInt (F := F) (Fin.val (n := 65536) x) / (FloatLike.ofInt 65535 : F) *
      (FloatLike.ofInt 255 : F))
  | .u8, .u8, x => x

namespace DataBlock

/-- datablock.rs:49-69 `new`. -/
def new (size : Nat) : DataType → Res (DataBlock F H)
  | .known t => .ok { dtype := t, data := List.replicate size (zeroElem t) }
  | .unknown => .error .explicit

/-- datablock.rs:207-214 `len`. -/
def len (d : DataBlock F H) : Nat := d.data.length

/-- datablock.rs:216-220 `size_bytes`. -/
def sizeBytes (d : DataBlock F H) : Nat := d.len * d.dtype.sizeBytes

/-- `Vec::resize`. -/
def resizeList {α : Type} (l : List α) (n : Nat) (fill : α) : List α :=
  l.take n ++ List.replicate (n - l.length) fill

/-- datablock.rs:222-274 `data_resize`. -/
def dataResize (d : DataBlock F H) (newLength : Nat) : DataType → Res (DataBlock F H)
  | .known t =>
    if h : d.dtype = t then
      .ok { dtype := t, data := resizeList (h ▸ d.data) newLength (whiteElem t) }
    else .ok { dtype := t, data := List.replicate newLength (whiteElem t) }
  | .unknown => .error .explicit

/-- datablock.rs:276-305 `convert_into_data_type` with utils.rs:258-274
`convert_pixel_data_value_types` (which pushes one converted value per element). -/
def convert (d : DataBlock F H) : DataType → Res (DataBlock F H)
  | .known t =>
    if d.dtype = t then .ok d
    else .ok { dtype := t, data := d.data.map (convElem d.dtype t) }
  | .unknown => .error .explicit

end DataBlock

/-- pixelblock.rs:47-51 `PixelBlock`. -/
structure PixelBlock (F H : Type) where
  size : BlockSize
  block : DataBlock F H

/-- Copying `src[s0..s1]` over `dst[d0..d1]`: the slice expressions and `copy_from_slice` at
pixelblock.rs:169-171.  Panics when a range is out of bounds or the lengths differ. -/
def copyRange {α : Type} (dst : List α) (d0 d1 : Nat) (src : List α) (s0 s1 : Nat) :
    Res (List α) :=
  if d0 ≤ d1 ∧ d1 ≤ dst.length ∧ s0 ≤ s1 ∧ s1 ≤ src.length ∧ d1 - d0 = s1 - s0 then
    .ok (dst.take d0 ++ (src.drop s0).take (s1 - s0) ++ dst.drop d1)
  else .error .index

/-- pixelblock.rs:153-190, the scanline loop of `from_pixel_block`; `n` rows remain and
`y` is the current scanline.  The four branches of the `match` do the same for each element
type.  Simplification: the loop-invariant offsets of pixelblock.rs:144-148 are written inside
the loop. -/
def copyRows {α : Type} (p : Profile) (nc : Int) (data crop diff : BBox)
    (src : List α) : Nat → Int → List α → Res (List α)
  | 0, _, dst => .ok dst
  | n + 1, y, dst => do
    -- pixelblock.rs:144-148
    let dstOffsetX ← i32 p (diff.minX - crop.minX)
    let sx ← i32 p (diff.minX - data.minX)
    let srcOffsetStartX ← i32 p (sx * nc)
    let diffW ← diff.width p
    let rowLen ← i32 p (diffW * nc)
    let srcOffsetEndX ← i32 p (srcOffsetStartX + rowLen)
    -- pixelblock.rs:155-158
    let dstRow ← i32 p (y - crop.minY)
    let cropW ← crop.width p
    let d1 ← i32 p (dstRow * cropW)
    let d2 ← i32 p (d1 + dstOffsetX)
    let d3 ← i32 p (d2 * nc)
    let dstStart := asUsize d3
    let dstEnd ← uadd p dstStart (asUsize rowLen)
    -- pixelblock.rs:161-164
    let srcRow ← i32 p (y - data.minY)
    let dataW ← data.width p
    let s1 ← i32 p (srcRow * dataW)
    let s2 ← i32 p (s1 * nc)
    let srcRowIndex := asUsize s2
    let srcStart ← uadd p srcRowIndex (asUsize srcOffsetStartX)
    let srcEnd ← uadd p srcRowIndex (asUsize srcOffsetEndX)
    let dst' ← copyRange dst dstStart dstEnd src srcStart srcEnd
    copyRows p nc data crop diff src n (y + 1) dst'

namespace PixelBlock

/-- pixelblock.rs:54-61 `new`. -/
def new (p : Profile) (b : BlockSize) (t : DataType) : Res (PixelBlock F H) := do
  let n ← b.size p
  let d ← DataBlock.new n t
  .ok { size := b, block := d }

/-- pixelblock.rs:101-109 `from_datablock`. -/
def fromDataBlock (p : Profile) (b : BlockSize) (d : DataBlock F H) : Res (PixelBlock F H) := do
  let n ← b.size p
  if n = d.len then .ok { size := b, block := d } else .error .assertion

/-- pixelblock.rs:72-85 `new_constant_pixel_rgba_f32`. -/
def constantPixel (r g b a : F) : PixelBlock F H :=
  { size := ⟨1, 1, 4⟩, block := { dtype := .f32, data := [r, g, b, a] } }

/-- pixelblock.rs:254-258 `data_resize`. -/
def dataResize (p : Profile) (b : PixelBlock F H) (size : BlockSize) (t : DataType) :
    Res (PixelBlock F H) := do
  let n ← size.size p
  let d ← b.block.dataResize n t
  .ok { size := size, block := d }

/-- pixelblock.rs:260-262 `convert_into_data_type`. -/
def convert (b : PixelBlock F H) (t : DataType) : Res (PixelBlock F H) := do
  let d ← b.block.convert t
  .ok { b with block := d }

/-- pixelblock.rs:115-198 `from_pixel_block` (timing messages omitted; the freshly
allocated buffer is written out as a list of zeros). -/
def fromPixelBlock (p : Profile) (b : PixelBlock F H) (data crop : BBox) :
    Res (PixelBlock F H) := do
  let dw ← data.width p
  if b.size.width ≠ dw then .error .assertion
  let dh ← data.height p
  if b.size.height ≠ dh then .error .assertion
  let diff := BBox.intersection data crop
  let w ← crop.width p
  let h ← crop.height p
  let nc := b.size.numChannels
  let new ← PixelBlock.new p ⟨w, h, nc⟩ (.known b.block.dtype)
  let area ← diff.area p
  if area = 0 then .ok new
  else
    let rows := (diff.maxY - diff.minY).toNat
    let start : List (Elem F H b.block.dtype) :=
      List.replicate new.block.len (zeroElem b.block.dtype)
    let d ← copyRows p nc data crop diff b.block.data rows diff.minY start
    .ok { size := ⟨w, h, nc⟩, block := { dtype := b.block.dtype, data := d } }

/-- pixelblock.rs:204-206 and datablock.rs:133-138 `as_slice_f32`. -/
def asSliceF32 (b : PixelBlock F H) : Res (List F) :=
  match b.block with
  | ⟨.f32, d⟩ => .ok d
  | _ => .error .explicit

/-- pixelblock/pixelblock/row.rs:42-49 `RowFloat32::as_slice`. -/
def rowSlice (b : PixelBlock F H) (row : Nat) : Res (List F) := do
  let d ← b.asSliceF32
  let stride := asUsize b.size.width * asUsize b.size.numChannels
  if (row + 1) * stride ≤ d.length then .ok ((d.drop (row * stride)).take stride)
  else .error .index

/-- pixelblock.rs:309-311 `rows` with pixelblock/pixelblock/row.rs:78-93: the rows handed out. -/
def rows (b : PixelBlock F H) : List Nat := List.range (asUsize b.size.height)

/-- pixelblock/pixelblock/row.rs:57-63 `Index` for `RowFloat32`. -/
def rowIndex (b : PixelBlock F H) (row ix : Nat) : Res F := do
  let d ← b.asSliceF32
  match d[row * asUsize b.size.width + ix]? with
  | some v => .ok v
  | none => .error .index

end PixelBlock

/-- stream.rs:216-224 `pixel_buffer` with utils.rs:195-216: it hands out the buffer as bytes by
transmuting the slice, which keeps the element count as the slice length.  The result is
the number of bytes visible to the caller. -/
def byteViewLength (d : DataBlock F H) : Nat := d.len

/-- utils.rs:124-148 `stride_num_channels`. -/
def strideNumChannels (numChannels : Int) : DataType → Res Nat
  | .known .u8 => .ok 4
  | .known .f16 => .ok 4
  | .known .u16 => .ok 4
  | .known .f32 => .ok (asUsize numChannels)
  | .unknown => .error .explicit

end

end OCG
