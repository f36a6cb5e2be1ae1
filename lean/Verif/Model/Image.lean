import Verif.Model.Remap
import Verif.Model.Attrs
import Verif.Model.Enums
/-
Model of src/imagespec.rs, src/ops/imagecrop.rs and src/ops/imagemerge.rs: images with their
windows, cropping and merging.
-/

namespace OCG

/-- cxxbridge.rs:162-171 `ImageSpec`. -/
structure ImageSpec (F : Type) where
  colorSpace : Bytes
  gamma : F
  pixelAspect : F
  orientation : ImageOrientation
  unassociatedAlpha : Bool
  dither : Int

/-- imagespec.rs:29-38 `ImageSpec::new`. -/
def ImageSpec.new {F : Type} [FloatLike F] : ImageSpec F :=
  { colorSpace := colorSpaceLinear, gamma := 1, pixelAspect := 1, orientation := .normal,
    unassociatedAlpha := false, dither := 0 }

/-- cxxbridge.rs:173-180 `ImageShared`. -/
structure Image (F H : Type) where
  pixelBlock : PixelBlock F H
  spec : ImageSpec F
  displayWindow : BBox
  dataWindow : BBox

section
variable {F H : Type} [FloatLike F] [HalfLike F H]

/-- ops/imagecrop.rs:62-130 `crop_image_in_place`; the result is the changed image (the function
also returns `true`). `intersect` is ignored by the code. -/
def cropImage (p : Profile) (image : Image F H) (crop : BBox) (reformat blackOutside : Bool)
    (_intersect : Bool) : Res (Image F H) := do
  let data ← (if blackOutside then do
      let a ← i32 p (crop.minX - 1)
      let b ← i32 p (crop.minY - 1)
      let c ← i32 p (crop.maxX + 1)
      let d ← i32 p (crop.maxY + 1)
      .ok { minX := a, minY := b, maxX := c, maxY := d }
    else .ok crop : Res BBox)
  let display := if reformat then crop else image.displayWindow
  let block ← image.pixelBlock.fromPixelBlock p image.dataWindow crop
  let w ← data.width p
  ensure (w = block.size.width)
  let h ← data.height p
  ensure (h = block.size.height)
  .ok { image with pixelBlock := block, displayWindow := display, dataWindow := data }

/-- ops/imagemerge.rs:32-57 `get_pixel_rgba`. -/
def mergePixel (p : Profile) (image : Image F H) (x y : Int) : Res (F × F × F × F) := do
  let pixels ← image.pixelBlock.asSliceF32
  let imageX ← i32 p (x - image.dataWindow.minX)
  let imageY ← i32 p (y - image.dataWindow.minY)
  let index ← image.pixelBlock.size.getIndex p imageX imageY
  if index ≥ 0 then do
    let i := asUsize index
    let r ← getAt pixels (i + 0)
    let g ← getAt pixels (i + 1)
    let b ← getAt pixels (i + 2)
    if image.pixelBlock.size.numChannels = 4 then do
      let a ← getAt pixels (i + 3)
      .ok (r, g, b, a)
    else .ok (r, g, b, 0)
  else .ok (0, 0, 0, 0)

/-- ops/imagemerge.rs:127-154, the formula of each mode. -/
def mergeFormula (mode : MergeImageMode) (mix : F) (a b : F × F × F × F) : Res (F × F × F × F) :=
  match mode with
  | .add =>
    let mask := mix
    .ok (a.1 + b.1 * mask, a.2.1 + b.2.1 * mask, a.2.2.1 + b.2.2.1 * mask,
      a.2.2.2 + b.2.2.2 * mask)
  | .over =>
    let mask := (1 - a.2.2.2) * mix
    .ok (a.1 + b.1 * mask, a.2.1 + b.2.1 * mask, a.2.2.1 + b.2.2.1 * mask,
      a.2.2.2 + b.2.2.2 * mask)
  | .multiply =>
    let mask := mix
    .ok (a.1 * (b.1 * mask), a.2.1 * (b.2.1 * mask), a.2.2.1 * (b.2.2.1 * mask),
      a.2.2.2 * (b.2.2.2 * mask))
  | .uninitialized => .error .explicit

/-- ops/imagemerge.rs:121-166, the body of the pixel loop; the state is the output buffer and
`index`. -/
def mergeStep (p : Profile) (mode : MergeImageMode) (mix : F) (imageA imageB : Image F H)
    (window : BBox) (stride : Nat) (i j : Nat) (st : List F × Nat) : Res (List F × Nat) := do
  let row := window.minY + i
  let col := window.minX + j
  let a ← mergePixel p imageA col row
  let b ← mergePixel p imageB col row
  let v ← mergeFormula mode mix a b
  let buf ← writeFrom st.1 st.2
    (if stride = 4 then [v.1, v.2.1, v.2.2.1, v.2.2.2] else [v.1, v.2.1, v.2.2.1])
  .ok (buf, st.2 + stride)

/-- ops/imagemerge.rs:75-171 `merge`; the result is the returned flag and `image_out`.
Simplification: the `usize` additions to `index` are exact. -/
def mergeImages (p : Profile) (mode : MergeImageMode) (imageA imageB : Image F H) (mix : F)
    (out : Image F H) : Res (Bool × Image F H) :=
  if mode = .uninitialized then .ok (false, out)
  else do
    ensure (imageA.pixelBlock.block.dtype = .f32)
    ensure (imageB.pixelBlock.block.dtype = .f32)
    let window := BBox.combine imageA.dataWindow imageB.dataWindow
    let w ← window.width p
    let h ← window.height p
    let block ← out.pixelBlock.dataResize p ⟨w, h, imageB.pixelBlock.size.numChannels⟩
      (.known imageB.pixelBlock.block.dtype)
    let stride := asUsize block.size.numChannels
    let pixels ← block.asSliceF32
    let r ← forRange (window.maxY - window.minY).toNat (fun i st =>
      forRange (window.maxX - window.minX).toNat
        (mergeStep p mode mix imageA imageB window stride i) st) (pixels, 0)
    .ok (true,
      { pixelBlock := { size := block.size, block := { dtype := .f32, data := r.1 } },
        spec := imageB.spec, displayWindow := imageB.displayWindow, dataWindow := window })

end
end OCG
