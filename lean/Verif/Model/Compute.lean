import Verif.Model.Oiio
import Verif.Model.Lut
/-
Model of the `compute` functions of the nodes (src/node/*.rs, src/node.rs:110-134) and of the
nodes as the graph sees them.
-/

namespace OCG

/-- `Path::canonicalize` and `Path::is_file` (std, external): no such path, a file, or something
else. -/
inductive PathKind where
  | missing
  | file
  | other
  deriving DecidableEq

/-- Everything outside the library: the hash function, `shellexpand`, the file system, colour and
lens libraries, OpenImageIO.  `lensAccepts` tells whether `initialize_parameters` of the lens
plug-in succeeds. -/
structure NodeLib (F H : Type) where
  hash : ByteHash
  shell : Bytes → Option Bytes
  pathKind : Bytes → PathKind
  bake : BakeLib F
  lensAccepts : Tde4Deformer F → Bool
  oiio : Oiio F H

/-- What the nodes change besides their output: the cache, and the jobs handed to OpenImageIO for
writing, in order.  Simplification: files written do not change what is read later. -/
structure World (F H : Type) where
  cache : Cache (Image F H)
  writes : List (WriteJob F H)

section
variable {F H : Type} [FloatLike F] [HalfLike F H] [FloatConst F]

/-- The result of a `compute`: the status, the new contents of `output`, and the world. -/
abbrev Computed (F H : Type) := NodeStatus × Stream F H × World F H

/-- The `match use_cache` of the nodes (read_image.rs:141-184, merge_image.rs:239-270,
resample_image.rs:161-200, crop_image.rs:194-248, viewer.rs:212-256).  `make` is the computation
on a miss, with a value `X` that the computation also changes (`hit` if there is none). -/
def lookup {X : Type} (p : Profile) (useCache : Bool) (w : World F H) (key : Nat) (hit : X)
    (make : Res (Image F H × X)) : Res (World F H × Image F H × X) :=
  if useCache then
    match w.cache.get key with
    | (cache, some image) => .ok ({ w with cache := cache }, image, hit)
    | (cache, none) => do
      let (image, x) ← make
      let cache ← cache.insert Image.sizeBytes p key image
      .ok ({ w with cache := cache }, image, x)
  else do
    let (image, x) ← make
    .ok (w, image, x)

/-- node/null.rs:71-99 `compute`. -/
def computeNull (inputs : List (Stream F H)) (w : World F H) : Computed F H :=
  match inputs with
  | [] => (.warning, .new, w)
  | input :: _ => (.valid, input, w)

/-- node/read_image.rs:94-233 `compute`. -/
def ReadImageAttrs.compute (p : Profile) (lib : NodeLib F H) (a : ReadImageAttrs) (frame : F)
    (hash : Nat) (mode : Mode) (prev : Stream F H) (w : World F H) : Res (Computed F H) :=
  if mode &&& modePixel = modePixel then
    if a.enable = 0 then .ok (.warning, .new, w)
    else
      let path := Path.expandString lib.shell a.filePath (frameNum frame)
      match lib.pathKind path with
      | .missing => .ok (.warning, .new, w)
      | .file => do
        let (w, image, _) ← lookup p (a.useCache ≠ 0) w hash ()
          (do let image ← readImage p lib.oiio path; .ok (image, ()))
        .ok (.valid,
          { (Stream.new : Stream F H) with
            dataWindow := image.dataWindow, displayWindow := image.displayWindow, hash := hash
            pixelBlock := image.pixelBlock, imageSpec := image.spec }, w)
      | .other =>
        if a.enable ≠ 1 then .ok (.valid, { (Stream.new : Stream F H) with hash := hash }, w)
        else .ok (.valid, prev, w)
  else .ok (.valid, prev, w)

/-- `DataType::from` (cxxbridge.rs:900-910) as the type of pixel blocks. -/
def DataType.ofI32 (value : Int) : DataType :=
  match DataTypeCode.ofI32 value with
  | .float32 => .known .f32
  | .half16 => .known .f16
  | .uint8 => .known .u8
  | .uint16 => .known .u16
  | .unknown => .unknown

/-- data.rs:46 `COLOR_SPACE_NAME_SRGB`. -/
def colorSpaceSrgb : Bytes := [115, 82, 71, 66]

/-- node/write_image.rs:156-167. -/
def writeColorSpace (path : Bytes) : Bytes :=
  if dotPng.isSuffixOf path || dotJpegs.any (hasSuffix path) then colorSpaceSrgb
  else colorSpaceLinear

/-- node/write_image.rs:194-205. -/
def writeCrop (path : Bytes) : CropOnWrite → Res Bool
  | .disable => .ok false
  | .enable => .ok true
  | .auto => .ok (!hasSuffix path dotExr)
  | .uninitialized => .error .explicit

/-- The values of a stream handed to `bake::do_process`. -/
def Stream.toBake (s : Stream F H) : Baked F H := ⟨s.pixelBlock, s.dataWindow, s.imageSpec, s⟩

/-- node/write_image.rs:129-209 `do_image_process`. -/
def writeProcess (p : Profile) (lib : NodeLib F H) (input : Stream F H) (filePath : Bytes)
    (frame : F) (toType : DataType) (crop : CropOnWrite) (c : ImageCompression) :
    Res (Bool × Option (WriteJob F H)) := do
  let path := Path.expandString lib.shell filePath (frameNum frame)
  let toType := bakeType toType input.pixelBlock
  let b ← bake p lib.bake .all input.displayWindow input.toBake input.imageSpec.colorSpace
    (writeColorSpace path) toType
  let doCrop ← writeCrop path crop
  writeImage p lib.oiio ⟨b.block, b.spec, input.displayWindow, b.dataWindow⟩ path doCrop c

/-- node/write_image.rs:257-274. -/
def WriteImageAttrs.compression (a : WriteImageAttrs) : ImageCompression :=
  { exrCompression := ExrCompression.ofI32 a.exrCompression
    exrDwaLevel := a.exrDwaCompressionLevel
    pngLevel := a.pngCompressionLevel
    jpegLevel := a.jpegCompressionLevel
    jpegSubsampling := JpegChromaSubSampling.ofI32 a.jpegSubsampling
    jpegProgressive := a.jpegProgressive ≠ 0 }

/-- node/write_image.rs:212-294 `compute`. -/
def WriteImageAttrs.compute (p : Profile) (lib : NodeLib F H) (a : WriteImageAttrs) (frame : F)
    (inputs : List (Stream F H)) (w : World F H) : Res (Computed F H) :=
  if a.enable = 0 then .ok (.valid, .new, w)
  else match inputs with
    | [] => .ok (.warning, .new, w)
    | input :: _ =>
      if a.execute = 0 then .ok (.valid, input, w)
      else do
        let (_, job) ← writeProcess p lib input a.filePath frame (DataType.ofI32 a.pixelDataType)
          (CropOnWrite.ofI32 a.cropOnWrite) a.compression
        .ok (.valid, input, { w with writes := w.writes ++ job.toList })

/-- node/merge_image.rs:92-181 `do_image_process`. -/
def mergeProcess (p : Profile) (lib : NodeLib F H) (a b : Stream F H) (mode : MergeImageMode)
    (mix : F) : Res (Image F H) := do
  let ba ← bake p lib.bake .all a.displayWindow a.toBake a.imageSpec.colorSpace colorSpaceLinear
    (.known .f32)
  let bb ← bake p lib.bake .all b.displayWindow b.toBake b.imageSpec.colorSpace colorSpaceLinear
    (.known .f32)
  let (_, image) ← mergeImages p mode ⟨ba.block, ba.spec, a.displayWindow, ba.dataWindow⟩
    ⟨bb.block, bb.spec, b.displayWindow, b.dataWindow⟩ mix
    ⟨.constantPixel 0 0 0 1, .new, ⟨0, 0, 1, 1⟩, ⟨0, 0, 1, 1⟩⟩
  .ok image

/-- node/merge_image.rs:184-307 `compute`. -/
def MergeImageAttrs.compute (p : Profile) (lib : NodeLib F H) (a : MergeImageAttrs F)
    (hash : Nat) (inputs : List (Stream F H)) (w : World F H) : Res (Computed F H) :=
  if a.enable ≠ 1 then .ok (.warning, .new, w)
  else
    match inputs with
    | [] => .ok (.warning, .new, w)
    | inputA :: rest => do
      let status : NodeStatus := if rest = [] then .warning else .valid
      let inputB : Stream F H := match rest with
        | [] => .new
        | b :: _ => b
      let (w, image, _) ← lookup p (a.useCache ≠ 0) w hash ()
        (do
          let image ← mergeProcess p lib inputA inputB (MergeImageMode.ofI32 a.mode) a.mix
          .ok (image, ()))
      .ok (status,
        { (Stream.new : Stream F H) with
          dataWindow := image.dataWindow, displayWindow := image.displayWindow, hash := hash
          pixelBlock := image.pixelBlock }, w)

/-- node/resample_image.rs:87-113 `do_image_process`. -/
def resampleProcess (p : Profile) (lib : NodeLib F H) (s : Stream F H) (factor : Int)
    (interpolate : Bool) : Res (Bool × Image F H) :=
  oiioResample p lib.oiio ⟨s.pixelBlock, s.imageSpec, s.displayWindow, s.dataWindow⟩ .empty factor
    interpolate

/-- node/resample_image.rs:116-214 `compute`.  `debug_assert!` is checked in debug builds only. -/
def ResampleImageAttrs.compute (p : Profile) (lib : NodeLib F H) (a : ResampleImageAttrs)
    (hash : Nat) (inputs : List (Stream F H)) (w : World F H) : Res (Computed F H) :=
  match inputs with
  | [] => .ok (.warning, .new, w)
  | input :: rest =>
    if a.enable ≠ 1 then .ok (.valid, input, w)
    else do
      ensure (p = .release ∨ rest.length = 0)
      if a.factor ≠ 0 then do
        let (w, image, status) ← lookup p (a.useCache ≠ 0) w hash NodeStatus.valid
          (do
            let (ok, image) ← resampleProcess p lib input a.factor (a.interpolate ≠ 0)
            .ok (image, if ok = false then NodeStatus.error else NodeStatus.valid))
        .ok (status,
          { input with
            dataWindow := image.dataWindow, displayWindow := image.displayWindow
            pixelBlock := image.pixelBlock, hash := hash }, w)
      else .ok (.valid, input, w)

/-- node/crop_image.rs:98-144 `do_image_process`: the cropped image and the changed stream (the
flag is always `true`). -/
def cropProcess (p : Profile) (lib : NodeLib F H) (s : Stream F H) (crop : BBox)
    (reformat blackOutside intersect : Bool) : Res (Image F H × Stream F H) := do
  let b ← bake p lib.bake .all s.displayWindow s.toBake s.imageSpec.colorSpace colorSpaceLinear
    (.known .f32)
  let image ← cropImage p ⟨b.block, b.spec, s.displayWindow, b.dataWindow⟩ crop reformat
    blackOutside intersect
  .ok (image, b.stream)

/-- node/crop_image.rs:147-257 `compute`. -/
def CropImageAttrs.compute (p : Profile) (lib : NodeLib F H) (a : CropImageAttrs)
    (hash : Nat) (inputs : List (Stream F H)) (w : World F H) : Res (Computed F H) :=
  match inputs with
  | [] => .ok (.warning, .new, w)
  | input :: _ =>
    if a.enable ≠ 1 then .ok (.valid, input, w)
    else do
      let (w, image, stream) ← lookup p (a.useCache ≠ 0) w hash input
        (cropProcess p lib input ⟨a.windowMinX, a.windowMinY, a.windowMaxX, a.windowMaxY⟩
          (a.reformat = 1) (a.blackOutside = 1) (a.intersect = 1))
      .ok (.valid,
        { stream with
          hash := hash, dataWindow := image.dataWindow, displayWindow := image.displayWindow
          pixelBlock := image.pixelBlock }, w)

/-- node/viewer.rs:96-156 `do_viewer_bake`: the image and the changed stream. -/
def viewerProcess (p : Profile) (lib : NodeLib F H) (s : Stream F H) (option : BakeOption)
    (toType : DataType) (crop : Bool) (dst : Bytes) : Res (Image F H × Stream F H) := do
  let b ← bake p lib.bake option s.displayWindow s.toBake s.imageSpec.colorSpace dst toType
  let image : Image F H := ⟨b.block, b.spec, s.displayWindow, b.dataWindow⟩
  let image ← if crop then cropImage p image s.displayWindow true false false else .ok image
  .ok (image, b.stream)

/-- node/viewer.rs:159-280 `compute`. -/
def ViewerAttrs.compute (p : Profile) (lib : NodeLib F H) (a : ViewerAttrs) (hash : Nat)
    (inputs : List (Stream F H)) (prev : Stream F H) (w : World F H) : Res (Computed F H) :=
  if a.enable ≠ 1 then .ok (.valid, prev, w)
  else
    let stream : Stream F H := match inputs with
      | [] => .new
      | input :: _ => input
    if BakeOption.ofI32 a.bakeOption ≠ .nothing then do
      let crop := decide (a.cropToFormat ≠ 0)
      let option := if crop then .all else BakeOption.ofI32 a.bakeOption
      let (w, image, stream) ← lookup p (a.useCache ≠ 0) w hash stream
        (viewerProcess p lib stream option (DataType.ofI32 a.bakePixelDataType) crop
          a.bakeColorSpace)
      let stream := if option = .all then { stream with deformers := [] } else stream
      .ok (.valid,
        { stream with
          dataWindow := image.dataWindow, displayWindow := image.displayWindow, hash := hash
          pixelBlock := image.pixelBlock, imageSpec := image.spec }, w)
    else .ok (.valid, stream, w)

/-- `set_attr_f32(name, get_attr_f32(name))` for each of the names. -/
def copyFloats {A : Type} (set : A → String → F → A) (get : String → F) (names : List String)
    (d : A) : A :=
  names.foldl (fun d name => set d name (get name)) d

/-- `set_attr_i32(name, get_attr_i32(name))` for each of the names. -/
def copyInts {A : Type} (set : A → String → Int → A) (get : String → Int) (names : List String)
    (d : A) : A :=
  names.foldl (fun d name => set d name (get name)) d

/-- deformer/transform.rs:74-91 `default`. -/
def TransformDeformer.new : TransformDeformer F :=
  { enable := 1, invert := 0, translateX := 0, translateY := 0, rotate := 0, rotateCenterX := 0,
    rotateCenterY := 0, scaleX := 1, scaleY := 1, pivotX := 1 / FloatLike.ofInt 2,
    pivotY := 1 / FloatLike.ofInt 2 }

/-- node/transform.rs:154-173: the deformer of a Transform node. -/
def TransformAttrs.deformer (a : TransformAttrs F) : TransformDeformer F :=
  copyFloats (·.setF32) a.getF32
    ["translate_x", "translate_y", "rotate", "rotate_center_x", "rotate_center_y", "scale_x",
     "scale_y", "pivot_x", "pivot_y"]
    (copyInts (·.setI32) a.getI32 ["invert"] TransformDeformer.new)

/-- node/transform.rs:119-181 `compute`. -/
def TransformAttrs.compute (a : TransformAttrs F) (hash : Nat) (inputs : List (Stream F H))
    (w : World F H) : Computed F H :=
  let status : NodeStatus := if inputs.length = 0 then .warning else .valid
  let stream : Stream F H := match inputs with
    | [] => .new
    | input :: _ => input
  let stream := if a.enable = 1 then stream.pushDeformer (.transform a.deformer) else stream
  (status, { stream with hash := hash }, w)

/-- node/lens_distort.rs:146-164: the deformer of a LensDistort node. -/
def LensDistortAttrs.deformer (a : LensDistortAttrs F) : Tde4Deformer F :=
  copyFloats (·.setF32) a.getF32
    ["lens_center_offset_x", "lens_center_offset_y", "distortion", "anamorphic_squeeze",
     "curvature_x", "curvature_y", "quartic_distortion"]
    (copyInts (·.setI32) a.getI32 ["direction"] Tde4Deformer.new)

/-- node/lens_distort.rs:111-172 `compute`; `commit_data().unwrap()` panics if the plug-in rejects
the values. -/
def LensDistortAttrs.compute (lib : NodeLib F H) (a : LensDistortAttrs F) (hash : Nat)
    (inputs : List (Stream F H)) (w : World F H) : Res (Computed F H) := do
  let status : NodeStatus := if inputs.length = 0 then .warning else .valid
  let stream : Stream F H := match inputs with
    | [] => .new
    | input :: _ => input
  if a.enable = 1 then
    if lib.lensAccepts a.deformer then
      .ok (status, { stream.pushDeformer (.tde4 a.deformer) with hash := hash }, w)
    else .error .explicit
  else .ok (status, { stream with hash := hash }, w)

/-- node/grade.rs:279-361: the operation of a Grade node. -/
def GradeAttrs.op (a : GradeAttrs F) : GradeOp F :=
  let d : GradeOp F := GradeOp.new
  let d := copyInts (·.setI32) a.getI32 ["process_r", "process_g", "process_b", "process_a"] d
  let d := copyFloats (·.setF32) a.getF32 ["gamma_r", "gamma_g", "gamma_b", "gamma_a"] d
  let d := copyInts (·.setI32) a.getI32 ["reverse", "clamp_black", "clamp_white", "premult"] d
  copyFloats (·.setF32) a.getF32
    ["mix", "black_point_r", "black_point_g", "black_point_b", "black_point_a", "white_point_r",
     "white_point_g", "white_point_b", "white_point_a", "lift_r", "lift_g", "lift_b", "lift_a",
     "gain_r", "gain_g", "gain_b", "gain_a", "multiply_r", "multiply_g", "multiply_b",
     "multiply_a", "offset_r", "offset_g", "offset_b", "offset_a"] d

/-- node/grade.rs:235-369 `compute`. -/
def GradeAttrs.compute (a : GradeAttrs F) (hash : Nat) (inputs : List (Stream F H))
    (w : World F H) : Computed F H :=
  let status : NodeStatus := if inputs.length = 0 then .warning else .valid
  let stream : Stream F H := match inputs with
    | [] => .new
    | input :: _ => input
  if a.enable = 1 ∧ (a.processR ≠ 0 ∨ a.processG ≠ 0 ∨ a.processB ≠ 0 ∨ a.processA ≠ 0) then
    (status, { stream.pushColorOp a.op with hash := hash }, w)
  else (status, stream, w)

variable [FloatBits F]

/-- node.rs:110-134 `compute`, without storing the status. -/
def Node.run (p : Profile) (lib : NodeLib F H) (n : Node F) (frame : F) (mode : Mode)
    (inputs : List (Stream F H)) (prev : Stream F H) (w : World F H) : Res (Computed F H) :=
  let hash := n.hash lib.hash lib.shell frame (inputs.map (·.hash))
  match n.attrs with
  | .null _ => .ok (computeNull inputs w)
  | .readImage a => a.compute p lib frame hash mode prev w
  | .writeImage a => a.compute p lib frame inputs w
  | .grade a => .ok (a.compute hash inputs w)
  | .lensDistort a => a.compute lib hash inputs w
  | .transform a => .ok (a.compute hash inputs w)
  | .mergeImage a => a.compute p lib hash inputs w
  | .cropImage a => a.compute p lib hash inputs w
  | .viewer a => a.compute p lib hash inputs prev w
  | .resampleImage a => a.compute p lib hash inputs w

/-- The nodes as the graph sees them: node.rs:50-134. -/
def nodeSem (p : Profile) (lib : NodeLib F H) :
    NodeSem (Node F) (Stream F H) (World F H) F where
  id n := n.id
  status n := n.status
  hash n frame inputs := n.hash lib.hash lib.shell frame inputs
  validate n mode _ inputs := n.validate mode inputs
  compute n frame mode inputs prev w := do
    let (status, out, w) ← n.run p lib frame mode inputs prev w
    .ok ({ n with status := status }, status, out, w)

end
end OCG
