import Verif.Model.Node
import Verif.Model.Enums
import Verif.Model.Hash
import Verif.Model.Path
/-
Model of the node hashes (src/node/*.rs `attr_hash`, src/node/traits.rs `cache_hash`) and of the
work requested from inputs (`validate_inputs`).
-/

namespace OCG

/-- `n` in `k` little-endian bytes. -/
def leBytes : Nat → Nat → List Nat
  | 0, _ => []
  | k + 1, n => n % 256 :: leBytes k (n / 256)

/-- The bytes that std's `DefaultHasher` (external; it works byte by byte) sees for one
`Hasher::write_*` call on a little-endian 64-bit machine. -/
def HashItem.toBytes : HashItem → List Nat
  | .u8 n => leBytes 1 n
  | .u32 n => leBytes 4 n
  | .u64 n => leBytes 8 n
  | .usize n => leBytes 8 n
  | .i8 n => leBytes 1 (n % 256).toNat
  | .i16 n => leBytes 2 (n % 65536).toNat
  | .i32 n => leBytes 4 (n % 4294967296).toNat
  | .bytes b => b
  | .tag n => leBytes 8 n

/-- The byte stream of a list of calls. -/
def hashBytes (items : List HashItem) : List Nat := items.flatMap HashItem.toBytes

/-- `DefaultHasher::finish` (external) as a function of the byte stream.  Simplification: an
arbitrary function. -/
abbrev ByteHash := List Nat → Nat

/-- read_image.rs:240, write_image.rs:301 `frame.round().trunc() as i32`.  Simplification: the
cast truncates, so the separate `trunc` is left out. -/
def frameNum {F : Type} [FloatLike F] (frame : F) : Int := FloatLike.toI32 (FloatLike.round frame)

section
variable {F : Type} [FloatLike F] [FloatBits F]

/-- node/read_image.rs:237-244 `attr_hash`. -/
def ReadImageAttrs.hashItems (shell : Bytes → Option Bytes) (a : ReadImageAttrs) (frame : F) :
    List HashItem :=
  .i32 a.enable ::
    if a.enable = 1 then hashStr (Path.expandString shell a.filePath (frameNum frame)) else []

/-- node/write_image.rs:298-305 `attr_hash`. -/
def WriteImageAttrs.hashItems (shell : Bytes → Option Bytes) (a : WriteImageAttrs) (frame : F) :
    List HashItem :=
  .i32 a.enable ::
    if a.enable = 1 then hashStr (Path.expandString shell a.filePath (frameNum frame)) else []

/-- node/grade.rs:109-170 `Hash`, used by `attr_hash` (grade.rs:373-375). -/
def GradeAttrs.hashItems (a : GradeAttrs F) : List HashItem :=
  .i32 a.enable ::
    if a.enable = 0 then []
    else
      [.i32 a.processR, .i32 a.processG, .i32 a.processB, .i32 a.processA] ++
      (if a.processR ≠ 0 then
        hashFloat a.blackPointR ++ hashFloat a.whitePointR ++ hashFloat a.liftR ++
        hashFloat a.gainR ++ hashFloat a.multiplyR ++ hashFloat a.offsetR ++ hashFloat a.gammaR
       else []) ++
      (if a.processG ≠ 0 then
        hashFloat a.blackPointG ++ hashFloat a.whitePointG ++ hashFloat a.liftG ++
        hashFloat a.gainG ++ hashFloat a.multiplyG ++ hashFloat a.offsetG ++ hashFloat a.gammaG
       else []) ++
      (if a.processB ≠ 0 then
        hashFloat a.blackPointB ++ hashFloat a.whitePointB ++ hashFloat a.liftB ++
        hashFloat a.gainB ++ hashFloat a.multiplyB ++ hashFloat a.offsetB ++ hashFloat a.gammaB
       else []) ++
      (if a.processA ≠ 0 then
        hashFloat a.blackPointA ++ hashFloat a.whitePointA ++ hashFloat a.liftA ++
        hashFloat a.gainA ++ hashFloat a.multiplyA ++ hashFloat a.offsetA ++ hashFloat a.gammaA
       else []) ++
      (if a.processR ≠ 0 ∨ a.processG ≠ 0 ∨ a.processB ≠ 0 ∨ a.processA ≠ 0 then
        [.i32 a.reverse, .i32 a.clampBlack, .i32 a.clampWhite, .i32 a.premult] ++ hashFloat a.mix
       else [])

/-- node/lens_distort.rs:72-86 `Hash`, used by `attr_hash` (lens_distort.rs:176-178). -/
def LensDistortAttrs.hashItems (a : LensDistortAttrs F) : List HashItem :=
  .i32 a.enable ::
    if a.enable = 0 then []
    else
      hashFloat a.lensCenterOffsetX ++ hashFloat a.lensCenterOffsetY ++ hashFloat a.distortion ++
      hashFloat a.anamorphicSqueeze ++ hashFloat a.curvatureX ++ hashFloat a.curvatureY ++
      hashFloat a.quarticDistortion

/-- node/transform.rs:74-92 `Hash`, used by `attr_hash` (transform.rs:185-187). -/
def TransformAttrs.hashItems (a : TransformAttrs F) : List HashItem :=
  .i32 a.enable ::
    if a.enable = 0 then []
    else
      [.i32 a.invert] ++
      hashFloat a.translateX ++ hashFloat a.translateY ++ hashFloat a.rotate ++
      hashFloat a.rotateCenterX ++ hashFloat a.rotateCenterY ++
      hashFloat a.scaleX ++ hashFloat a.scaleY ++ hashFloat a.pivotX ++ hashFloat a.pivotY

/-- node/merge_image.rs:311-317 `attr_hash`. -/
def MergeImageAttrs.hashItems (a : MergeImageAttrs F) : List HashItem :=
  .i32 a.enable ::
    if a.enable = 1 then .i32 a.mode :: hashFloat a.mix else []

/-- node/crop_image.rs:261-273 `attr_hash`. -/
def CropImageAttrs.hashItems (a : CropImageAttrs) : List HashItem :=
  .i32 a.enable ::
    if a.enable = 0 then []
    else [.i32 a.windowMinX, .i32 a.windowMinY, .i32 a.windowMaxX, .i32 a.windowMaxY,
      .i32 a.reformat, .i32 a.blackOutside, .i32 a.intersect]

/-- node/viewer.rs:284-297 `attr_hash`. -/
def ViewerAttrs.hashItems (a : ViewerAttrs) : List HashItem :=
  .i32 a.enable ::
    if a.enable = 0 then []
    else if BakeOption.ofI32 a.bakeOption ≠ .nothing then
      [.i32 a.bakeOption, .i32 a.cropToFormat, .i32 a.bakePixelDataType] ++
        hashStr a.bakeColorSpace
    else []

/-- node/resample_image.rs:218-226 `attr_hash`. -/
def ResampleImageAttrs.hashItems (a : ResampleImageAttrs) : List HashItem :=
  .i32 a.enable ::
    if a.enable = 1 then (if a.factor ≠ 0 then [.i32 a.factor, .i32 a.interpolate] else []) else []

/-- `AttrBlock::attr_hash` of the node's block (null.rs:103-105 feeds nothing: the structure has
no fields). -/
def NodeAttrs.hashItems (shell : Bytes → Option Bytes) (frame : F) : NodeAttrs F → List HashItem
  | .null _ => []
  | .readImage a => a.hashItems shell frame
  | .writeImage a => a.hashItems shell frame
  | .grade a => a.hashItems
  | .lensDistort a => a.hashItems
  | .transform a => a.hashItems
  | .mergeImage a => a.hashItems
  | .cropImage a => a.hashItems
  | .viewer a => a.hashItems
  | .resampleImage a => a.hashItems

/-- node/traits.rs:63-77 `cache_hash`: what is fed to the hasher. -/
def Node.hashItems (shell : Bytes → Option Bytes) (n : Node F) (frame : F) (inputs : List Nat) :
    List HashItem :=
  .u8 n.attrs.nodeType.code :: (n.attrs.hashItems shell frame ++ inputs.map .u64)

/-- node.rs:85-92 `hash`. -/
def Node.hash (hf : ByteHash) (shell : Bytes → Option Bytes) (n : Node F) (frame : F)
    (inputs : List Nat) : Nat :=
  hf (hashBytes (n.hashItems shell frame inputs))

end

/-! ### validate_inputs -/

/-- data.rs:108 -/
def modePixel : Mode := 1
/-- data.rs:109 -/
def modeColor : Mode := 2
/-- data.rs:110 -/
def modeColorSpace : Mode := 4
/-- data.rs:111 -/
def modeDeformer : Mode := 8
/-- data.rs:107 -/
def modeNone : Mode := 0

/-- null.rs:146-166, read_image.rs:304-324, write_image.rs:389-409, grade.rs:572-592,
lens_distort.rs:256-276, transform.rs:271-288, crop_image.rs:351-371, resample_image.rs:289-309
`validate_inputs`: the first input is requested what is requested from the node, the others
nothing. -/
def validateFirst {α : Type} (mode : Mode) : List α → List Mode
  | [] => []
  | _ :: rest => (mode &&& modeAll) :: rest.map fun _ => mode &&& modeNone

/-- merge_image.rs:380-403 `validate_inputs`. -/
def validateMerge {α : Type} (mode : Mode) : List α → List Mode
  | [] => []
  | [_] => [mode &&& modeAll]
  | _ :: _ :: rest =>
    (mode &&& modeAll) :: (mode &&& modeAll) :: rest.map fun _ => mode &&& modeNone

/-- viewer.rs:369-433 `validate_inputs`.  The set difference of `bitflags` on the constants is
the subtraction of the numbers. -/
def ViewerAttrs.validate {α : Type} (a : ViewerAttrs) (mode : Mode) : List α → Res (List Mode)
  | [] => .ok []
  | _ :: rest => do
    let cropToFormat := decide (a.cropToFormat ≠ 0)
    let initial := BakeOption.ofI32 a.bakeOption
    let bake : BakeOption :=
      if initial ≠ .nothing then (if cropToFormat then .all else BakeOption.ofI32 a.bakeOption)
      else .nothing
    let first ←
      if a.enable = 0 then .ok modeAll
      else match bake with
        | .nothing => .ok (mode &&& modeAll)
        | .colorSpace => .ok (mode &&& (modeAll - modeColorSpace))
        | .colorSpaceAndGrade => .ok (mode &&& (modeAll - modeColorSpace - modeColor))
        | .all => .ok (mode &&&
            (modeAll - modeColorSpace - modeColor - modeDeformer - modePixel))
        | .uninitialized => .error .explicit
    .ok (first :: rest.map fun _ => mode &&& modeNone)

/-- node.rs:94-108 `validate_inputs` of a node, by type. -/
def Node.validate {F α : Type} (n : Node F) (mode : Mode) (inputs : List α) : Res (List Mode) :=
  match n.attrs with
  | .viewer a => a.validate mode inputs
  | .mergeImage _ => .ok (validateMerge mode inputs)
  | _ => .ok (validateFirst mode inputs)

end OCG
