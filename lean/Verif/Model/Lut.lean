import Verif.Model.Bake
import Verif.Model.Cache
/-
Model of src/colorlutimage.rs: lookup-table images.
-/

namespace OCG

section
variable {F H : Type} [FloatLike F]

/-- colorlutimage.rs:47-67 `get_3dlut_image_size`. -/
def lutImageSize (F : Type) [FloatLike F] (p : Profile) (cubeSize numChannels : Int) :
    Res (Int × Int) :=
  if numChannels = 1 then .ok (cubeSize, 1)
  else if numChannels = 2 then .ok (cubeSize, cubeSize)
  else if numChannels = 3 then do
    let width ← i32 p (cubeSize * cubeSize)
    let c2 ← i32 p (cubeSize * cubeSize)
    let pixelCount ← i32 p (c2 * cubeSize)
    let height := FloatLike.toI32 (F := F)
      (FloatLike.ceil (FloatLike.ofInt (F := F) pixelCount / FloatLike.ofInt width))
    .ok (width, height)
  else .error .explicit

/-- colorlutimage.rs:73-98 `generate_identity_3dlut`.  Simplification: `usize` values below 2^64
are converted to `f32` by `ofInt`; a remainder by zero cannot occur because the loops are then
empty. -/
def identityLut (p : Profile) (img : List F) (edgeLength numChannels : Int) : Res (List F) := do
  ensure (numChannels = 1 ∨ numChannels = 3)
  let nc := asUsize numChannels
  let n := asUsize edgeLength
  let c : F := 1 / (FloatLike.ofInt n - 1)
  if nc = 1 then
    forRange n (fun i img => setAt img i (FloatLike.ofInt (i % n : Nat) * c)) img
  else do
    let n2 ← umul p n n
    let pixelCount ← umul p n2 n
    forRange pixelCount (fun i img => do
      let img ← setAt img (nc * i + 0) (FloatLike.ofInt (i % n : Nat) * c)
      let img ← setAt img (nc * i + 1) (FloatLike.ofInt (i / n % n : Nat) * c)
      setAt img (nc * i + 2) (FloatLike.ofInt (i / n / n % n : Nat) * c)) img

variable [HalfLike F H]

/-- colorlutimage.rs:102-137 `generate_color_transform_3dlut`. -/
def generateTransformLut (p : Profile) (lib : ColorLib F) (cubeSize numChannels : Int)
    (src dst : Bytes) : Res (Image F H) := do
  let (width, height) ← lutImageSize F p cubeSize numChannels
  let spec : ImageSpec F := { ImageSpec.new with colorSpace := src }
  let block ← PixelBlock.new p ⟨width, height, numChannels⟩ (.known .f32)
  let block ← block.updateF32 fun px => identityLut p px cubeSize numChannels
  let (block, spec) ← bakeColorspace lib block spec src dst
  .ok
    { pixelBlock := block
      spec := spec
      displayWindow := ⟨0, 0, width, height⟩
      dataWindow := ⟨0, 0, width, height⟩ }

/-- colorlutimage.rs:151-158, the bytes hashed for a colour transform LUT: `3DLUT Size:`, the
cube size, `From:`, the source space, `To:` and the destination space. -/
def transformLutItems (src dst : Bytes) (cubeSize : Int) : List HashItem :=
  [.bytes [51, 68, 76, 85, 84, 32, 83, 105, 122, 101, 58], .i32 cubeSize,
   .bytes [70, 114, 111, 109, 58], .bytes src, .bytes [84, 111, 58], .bytes dst]

/-- cache.rs:40-42 `CachedImage::size_bytes`. -/
def Image.sizeBytes (image : Image F H) : Nat := image.pixelBlock.block.sizeBytes

/-- Look up, or compute and insert: colorlutimage.rs:160-188 and 250-275 (the same shape is used
by the nodes). -/
def cached (p : Profile) (cache : Cache (Image F H)) (key : Nat) (make : Res (Image F H)) :
    Res (Cache (Image F H) × Image F H) :=
  match cache.get key with
  | (cache, some image) => .ok (cache, image)
  | (cache, none) => do
    let image ← make
    let cache ← cache.insert Image.sizeBytes p key image
    .ok (cache, image)

/-- colorlutimage.rs:142-189 `get_color_transform_3dlut`. -/
def getTransformLut (p : Profile) (hf : ByteHash) (lib : ColorLib F) (src dst : Bytes)
    (cubeSize : Int) (cache : Cache (Image F H)) : Res (Cache (Image F H) × Image F H) :=
  cached p cache (hf (hashBytes (transformLutItems src dst cubeSize)))
    (generateTransformLut p lib cubeSize 3 src dst)

/-- colorlutimage.rs:193-224 `generate_color_ops_lut`. -/
def generateOpsLut (p : Profile) (cubeSize numChannels : Int) (ops : List (GradeOp F)) :
    Res (Image F H) := do
  let (width, height) ← lutImageSize F p cubeSize numChannels
  let spec : ImageSpec F := { ImageSpec.new with colorSpace := colorSpaceLinear }
  let block ← PixelBlock.new p ⟨width, height, numChannels⟩ (.known .f32)
  let block ← block.updateF32 fun px => identityLut p px cubeSize numChannels
  let block ← bakeColorgrade block Mat4.identity ops
  .ok
    { pixelBlock := block
      spec := spec
      displayWindow := ⟨0, 0, width, height⟩
      dataWindow := ⟨0, 0, width, height⟩ }

/-- colorlutimage.rs:240-248, the bytes hashed for a colour operations LUT: `Color Ops LUT`,
`LUT Size:`, the size, `Number of channels:`, the number, `Color Ops Hash` and the hash of the
operations. -/
def opsLutItems (opsHash : Nat) (cubeSize numChannels : Int) : List HashItem :=
  [.bytes [67, 111, 108, 111, 114, 32, 79, 112, 115, 32, 76, 85, 84],
   .bytes [76, 85, 84, 32, 83, 105, 122, 101, 58], .i32 cubeSize,
   .bytes [78, 117, 109, 98, 101, 114, 32, 111, 102, 32, 99, 104, 97, 110, 110, 101, 108, 115, 58],
   .i32 numChannels,
   .bytes [67, 111, 108, 111, 114, 32, 79, 112, 115, 32, 72, 97, 115, 104], .u64 opsHash]

/-- colorlutimage.rs:229-276 `get_color_ops_lut`. -/
def getOpsLut [FloatBits F] (p : Profile) (hf : ByteHash) (stream : Stream F H)
    (cubeSize numChannels : Int) (cache : Cache (Image F H)) :
    Res (Cache (Image F H) × Image F H) :=
  cached p cache (hf (hashBytes (opsLutItems (colorOpsHash hf stream.colorOps) cubeSize numChannels)))
    (generateOpsLut p cubeSize numChannels stream.colorOps)

end
end OCG
