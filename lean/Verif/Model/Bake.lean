import Verif.Model.Stream
/-
Model of src/ops/bake.rs and src/colorspace.rs.
-/

namespace OCG

/-- colorspace.cpp:59-94 `oiio_color_convert_inplace` (external: OpenImageIO and OpenColorIO):
the flag and the changed buffer, as a function of the buffer, width, height, number of channels,
alpha channel index, the unassociated-alpha flag and the two colour spaces.  The colour
configuration is fixed. -/
structure ColorLib (F : Type) where
  convert : List F → Int → Int → Int → Int → Bool → Bytes → Bytes → Bool × List F

/-- The external functions used while baking. -/
structure BakeLib (F : Type) where
  color : ColorLib F
  deform : DeformLib F

section
variable {F H : Type} [FloatLike F] [HalfLike F H]

/-- `as_mut_slice_f32` (pixelblock/pixelblock.rs) handed to a function that changes the slice. -/
def PixelBlock.updateF32 (b : PixelBlock F H) (f : List F → Res (List F)) :
    Res (PixelBlock F H) := do
  let px ← b.asSliceF32
  let px ← f px
  .ok { b with block := ⟨.f32, px⟩ }

/-- ops/bake.rs:39-94 `do_process_colorspace` with colorspace.rs:27-52. -/
def bakeColorspace (lib : ColorLib F) (block : PixelBlock F H) (spec : ImageSpec F)
    (src dst : Bytes) : Res (PixelBlock F H × ImageSpec F) := do
  let block ← block.convert (.known .f32)
  if src = dst then .ok (block, spec)
  else do
    let alpha := if block.size.numChannels > 3 then 3 else -1
    let px ← block.asSliceF32
    let r := lib.convert px block.size.width block.size.height block.size.numChannels alpha
      spec.unassociatedAlpha src dst
    .ok ({ block with block := ⟨.f32, r.2⟩ },
      if r.1 then { spec with colorSpace := dst } else spec)

/-- ops/bake.rs:97-116 `do_process_colorgrade`. -/
def bakeColorgrade (block : PixelBlock F H) (matrix : Mat4 F) (ops : List (GradeOp F)) :
    Res (PixelBlock F H) :=
  block.updateF32 fun px => do
    let px ← applyColorMatrix px block.size.numChannels matrix
    applyColorOps ops px block.size.numChannels

/-- ops/bake.rs:119-134 `do_process_stream_colorgrade`. -/
def bakeStreamColorgrade (block : PixelBlock F H) (s : Stream F H) :
    Res (PixelBlock F H × Stream F H) := do
  let block ← bakeColorgrade block s.colorMatrix s.colorOps
  .ok (block, { s with colorMatrix := Mat4.identity, colorOps := [] })

/-- The values changed by `do_process` (ops/bake.rs:138-148): pixel block, data window, image
spec and stream. -/
structure Baked (F H : Type) where
  block : PixelBlock F H
  dataWindow : BBox
  spec : ImageSpec F
  stream : Stream F H

/-- ops/bake.rs:156-159. -/
def bakeType (t : DataType) (block : PixelBlock F H) : DataType :=
  match t with
  | .unknown => .known block.block.dtype
  | t => t

/-- ops/bake.rs:138-239 `do_process`. -/
def bake [FloatConst F] (p : Profile) (lib : BakeLib F) (option : BakeOption) (display : BBox)
    (b : Baked F H) (src dst : Bytes) (toType : DataType) : Res (Baked F H) :=
  let toType := bakeType toType b.block
  match option with
  | .nothing => .ok b
  | .colorSpace => do
    let (block, spec) ← bakeColorspace lib.color b.block b.spec src dst
    let block ← block.convert toType
    .ok { b with block := block, spec := spec }
  | .colorSpaceAndGrade => do
    let (block, spec) ← bakeColorspace lib.color b.block b.spec src colorSpaceLinear
    let (block, stream) ← bakeStreamColorgrade block b.stream
    let (block, spec) ← bakeColorspace lib.color block spec colorSpaceLinear dst
    let block ← block.convert toType
    .ok { b with block := block, spec := { spec with colorSpace := dst }, stream := stream }
  | .all => do
    let (block, spec) ← bakeColorspace lib.color b.block b.spec src colorSpaceLinear
    let (block, stream) ← bakeStreamColorgrade block b.stream
    let (block, window) ← applyDeformersToPixels p lib.deform stream.deformers display block
      b.dataWindow block
    let (block, spec) ← bakeColorspace lib.color block spec colorSpaceLinear dst
    let block ← block.convert toType
    .ok
      { block := block
        dataWindow := window
        spec := { spec with colorSpace := dst }
        stream := { stream with deformers := [] } }
  | .uninitialized => .error .explicit

end
end OCG
