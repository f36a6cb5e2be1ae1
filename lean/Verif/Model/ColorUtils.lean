import Verif.Model.ColorOps
import Verif.Model.PixelBlock
/-
Model of src/colorutils.rs, src/pixelblock/dynimage.rs and src/imagebuffer.rs: sRGB, and the
exchange of pixels with the `image` crate.  Literals are written as quotients.  The function `pow` is
`fastapprox::faster::pow` (external; see `Verif.Model.FastPow`).
-/

namespace OCG

section
variable {F H : Type} [FloatLike F]

/-- The literal `a / b`. -/
def ratio (a b : Int) : F := FloatLike.ofInt a / FloatLike.ofInt b

/-- colorutils.rs:26-33 `convert_srgb_to_linear`. -/
def srgbToLinear (pow : F → F → F) (x : F) : F :=
  let a : F := ratio 55 1000
  if fle x (ratio 4045 100000) then x * (1 / ratio 1292 100)
  else pow ((x + a) * (1 / (1 + a))) (ratio 24 10)

/-- colorutils.rs:37-44 `convert_linear_to_srgb`. -/
def linearToSrgb (pow : F → F → F) (x : F) : F :=
  let a : F := ratio 55 1000
  if fle x (ratio 31308 10000000) then x * ratio 1292 100
  else (1 + a) * pow x (1 / ratio 24 10) - a

/-- The colour types of the `image` crate that are told apart (external). -/
inductive ColorType
  | rgb8 | rgba8 | other
  deriving DecidableEq

/-- `image::DynamicImage` (external): size, colour type and, for the two supported types, the
samples. -/
structure DynImage where
  width : Nat
  height : Nat
  color : ColorType
  samples : List (Fin 256)

/-- `u32 as i32`. -/
def u32AsI32 (n : Nat) : Int := if n < 2147483648 then n else (n : Int) - 4294967296

/-- pixelblock/dynimage.rs:44-48. -/
def ColorType.channels : ColorType → Int
  | .rgb8 => 3
  | .rgba8 => 4
  | .other => 0

/-- pixelblock/dynimage.rs:35-84 `from_dynamic_image`.  The statistics for the log (dynimage.rs:71-79) are left out. -/
def fromDynamicImage (pow : F → F → F) (p : Profile) (img : DynImage) : Res (PixelBlock F H) := do
  let size : BlockSize := ⟨u32AsI32 img.width, u32AsI32 img.height, img.color.channels⟩
  if img.color = .other then .error .explicit
  else
    let pixels : List F := img.samples.map fun x =>
      srgbToLinear pow (FloatLike.ofInt x.val / FloatLike.ofInt 255)
    PixelBlock.fromDataBlock p size ⟨.f32, pixels⟩

/-- imagebuffer.rs:28-56 `create_image_buffer_rgb_u8` and imagebuffer.rs:58-94
`create_image_buffer_rgba_u8`, which differ in the number of channels only.  `ImageBuffer::from_raw`
(external) refuses a buffer that is shorter than the image.  The statistics for the log are left
out. -/
def createImageBuffer (pow : F → F → F) (color : ColorType) (block : PixelBlock F H) :
    Res DynImage := do
  let pixels ← block.asSliceF32
  let bytes : List (Fin 256) := pixels.map fun x =>
    FloatLike.toU8 (linearToSrgb pow x * FloatLike.ofInt 255)
  let width := asU32 block.size.width
  let height := asU32 block.size.height
  if width * height * color.channels.toNat ≤ bytes.length then
    .ok ⟨width, height, color, bytes⟩
  else .error .explicit

end
end OCG
