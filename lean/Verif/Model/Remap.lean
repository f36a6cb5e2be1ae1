import Verif.Model.PixelBlock
import Verif.Model.DeformTransform
/-
Model of src/pixel.rs and src/ops/pixelremap.rs: sampling an image at a list of positions.
-/

namespace OCG

section
variable {F H : Type} [FloatLike F]

/-- pixel.rs:36-37 and 70-71: the pixel position nearest to a coordinate, clamped to the
image. -/
def nearest (p : Profile) (size : Int) (x : F) : Res Int := do
  let last ← i32 p (size - 1)
  .ok (min (max (FloatLike.toI32 (FloatLike.round x)) 0) last)

/-- pixel.rs:26-56 `get_pixel_rgba` (`channels` = 4) and 60-86 `get_pixel_rgb` (`channels` = 3);
the result lists the channels. -/
def getPixel (p : Profile) (channels : Nat) (pixels : List F)
    (width height xStride yStride : Int) (x y : F) : Res (List F) := do
  let sx ← nearest p width x
  let sy ← nearest p height y
  let index ← getIndex p width height xStride yStride sx sy
  if index ≥ 0 then
    let i := asUsize index
    let r ← getAt pixels (i + 0)
    let g ← getAt pixels (i + 1)
    let b ← getAt pixels (i + 2)
    if channels = 4 then do
      let a ← getAt pixels (i + 3)
      .ok [r, g, b, a]
    else .ok [r, g, b]
  else .ok (List.replicate channels 0)

/-- ops/pixelremap.rs:106-121: from a coordinate in the display window to a coordinate in the
source image. -/
def remapCoord (p : Profile) (dispMin dispMax dataMin dataMax : Int) (x : F) : Res F := do
  let last ← i32 p (dataMax - 1)
  .ok (Interp.remap (FloatLike.ofInt dispMin) (FloatLike.ofInt dispMax) (FloatLike.ofInt dataMin)
    (FloatLike.ofInt last) x)

/-- `dst_pixels[dst_index + k] = value` for consecutive `k` (ops/pixelremap.rs:133-136, 147-149). -/
def writeFrom (buf : List F) (i : Nat) : List F → Res (List F)
  | [] => .ok buf
  | v :: vs => do
    let buf' ← setAt buf i v
    writeFrom buf' (i + 1) vs

/-- ops/pixelremap.rs:96-152, the body of the pixel loop; the state is the destination buffer and
`pixel_coord_index`. -/
def remapStep (p : Profile) (display : BBox) (coords : List F) (srcPixels : List F)
    (srcSize : BlockSize) (srcWindow : BBox) (srcYStride : Int)
    (dstXStride dstYStride dy dx : Nat) (st : List F × Nat) : Res (List F × Nat) := do
  let dstIndex := dy * dstYStride + dx * dstXStride
  let x ← getAt coords (st.2 + 0)
  let y ← getAt coords (st.2 + 1)
  let x ← remapCoord p display.minX display.maxX srcWindow.minX srcWindow.maxX x
  let y ← remapCoord p display.minY display.maxY srcWindow.minY srcWindow.maxY y
  let channels := if srcSize.numChannels = 4 then 4 else 3
  let v ← getPixel p channels srcPixels srcSize.width srcSize.height srcSize.numChannels srcYStride
    x y
  let buf ← writeFrom st.1 dstIndex v
  .ok (buf, st.2 + 2)

/-- ops/pixelremap.rs:34-154 `pixels_remap_coords`; the result is the destination block.
Simplification: the `usize` products in the loop (line 97) are exact. -/
def pixelsRemapCoords [HalfLike F H] (p : Profile) (display : BBox) (coords : List F)
    (src : PixelBlock F H) (srcWindow : BBox) (dst : PixelBlock F H) : Res (PixelBlock F H) := do
  ensure (src.block.dtype = .f32)
  ensure (dst.block.dtype = .f32)
  let dstNumPixels ← umul p (asUsize dst.size.width) (asUsize dst.size.height)
  if dstNumPixels ≠ coords.length / 2 then .ok dst
  else do
    let dstPixels ← dst.asSliceF32
    let srcPixels ← src.asSliceF32
    ensure (src.size.numChannels = 4 ∨ src.size.numChannels = 3)
    let srcYStride ← i32 p (src.size.width * src.size.numChannels)
    let dstYStride ← i32 p (dst.size.width * dst.size.numChannels)
    let hw ← i32 p (dst.size.height * dst.size.width)
    let hwc ← i32 p (hw * dst.size.numChannels)
    ensure (dstPixels.length ≥ asUsize hwc)
    let hw1 ← i32 p (hw + 1)
    ensure (coords.length ≥ asUsize hw1)
    let r ← forRange (asUsize dst.size.height) (fun dy st =>
      forRange (asUsize dst.size.width) (fun dx st =>
        remapStep p display coords srcPixels src.size srcWindow srcYStride
          (asUsize dst.size.numChannels) (asUsize dstYStride) dy dx st) st) (dstPixels, 0)
    .ok { dst with block := { dtype := .f32, data := r.1 } }

end
end OCG
