import Verif.Model.Remap
import Verif.Model.OpAttrs
/-
Model of src/deformer.rs, src/deformer/tde4_classic.rs and src/deformutils.rs.
-/

namespace OCG

/-- The external lens distortion plug-in (crate `tde4`/LDPK through `DistortPlugin`) after
`commit_data` (deformer/tde4_classic.rs:165-204) has handed it the values of the deformer.  The
casts to and from `f64` are part of these functions. -/
structure LensPlugin (F : Type) where
  undistort : Tde4Deformer F → F → F → F × F
  distort : Tde4Deformer F → F → F → F × F
  boxUndistort : Tde4Deformer F → BBoxF F → BBoxF F
  boxDistort : Tde4Deformer F → BBoxF F → BBoxF F

/-- The external functions used by deformers: nalgebra's `try_inverse` and the lens plug-in. -/
structure DeformLib (F : Type) where
  tryInverse : Mat4 F → Option (Mat4 F)
  lens : LensPlugin F

namespace Tde4Deformer

variable {F : Type} [FloatLike F]

/-- deformer/tde4_classic.rs:142-156 `_apply`. -/
def apply (lens : LensPlugin F) (d : Tde4Deformer F) (x y : F) (inverse : Bool) : Res (F × F) :=
  if d.direction = 0 then
    .ok (if inverse = false then lens.undistort d x y else lens.distort d x y)
  else if d.direction = 1 then
    .ok (if inverse = false then lens.distort d x y else lens.undistort d x y)
  else .error .explicit

/-- deformer/tde4_classic.rs:79-98 `Hash`. -/
def hashItems [FloatBits F] (d : Tde4Deformer F) : List HashItem :=
  if d.enable = 0 then [.i32 d.enable]
  else [.i32 d.enable] ++ hashFloat d.focalLength ++ hashFloat d.filmBackWidth ++
    hashFloat d.filmBackHeight ++ hashFloat d.pixelAspect ++ hashFloat d.lensCenterOffsetX ++
    hashFloat d.lensCenterOffsetY ++ hashFloat d.distortion ++ hashFloat d.anamorphicSqueeze ++
    hashFloat d.curvatureX ++ hashFloat d.curvatureY ++ hashFloat d.quarticDistortion

/-- deformer/tde4_classic.rs:283-297, the new position of one point. -/
def point (lens : LensPlugin F) (d : Tde4Deformer F) (window : BBoxF F) (inverse : Bool)
    (x y : F) : Res (F × F) := do
  let xr := Interp.remap window.minX window.maxX 0 1 x
  let yr := Interp.remap window.minY window.maxY 0 1 y
  let (xu, yu) ← d.apply lens xr yr inverse
  .ok (Interp.remap 0 1 window.minX window.maxX xu, Interp.remap 0 1 window.minY window.maxY yu)

/-- deformer/tde4_classic.rs:208-268 `apply_bounding_box`. -/
def box (lens : LensPlugin F) (d : Tde4Deformer F) (bbox window : BBoxF F) : Res (BBoxF F) := do
  let b : BBoxF F :=
    { minX := Interp.remap window.minX window.maxX 0 1 bbox.minX
      minY := Interp.remap window.minY window.maxY 0 1 bbox.minY
      maxX := Interp.remap window.minX window.maxX 0 1 bbox.maxX
      maxY := Interp.remap window.minY window.maxY 0 1 bbox.maxY }
  let r ← (if d.direction = 0 then .ok (lens.boxUndistort d b)
    else if d.direction = 1 then .ok (lens.boxDistort d b)
    else .error .explicit : Res (BBoxF F))
  .ok
    { minX := Interp.remap 0 1 window.minX window.maxX r.minX - FloatLike.ofInt 2
      minY := Interp.remap 0 1 window.minY window.maxY r.minY - FloatLike.ofInt 2
      maxX := Interp.remap 0 1 window.minX window.maxX r.maxX + FloatLike.ofInt 2
      maxY := Interp.remap 0 1 window.minY window.maxY r.maxY + FloatLike.ofInt 2 }

end Tde4Deformer

/-- deformer.rs:68-87 `Deformer`, the trait object: one of the two implementations in use. -/
inductive Deformer (F : Type) where
  | transform (d : TransformDeformer F)
  | tde4 (d : Tde4Deformer F)

namespace Deformer

section
variable {F : Type} [FloatLike F]

/-- `get_attr_i32("enable")` (deformer/transform.rs:205-211, deformer/tde4_classic.rs:366-372). -/
def enable : Deformer F → Int
  | .transform d => d.enable
  | .tde4 d => d.enable

/-- The items hashed by `hash_deformer` (deformer/transform.rs:143-147,
deformer/tde4_classic.rs:159-163). -/
def hashItems [FloatBits F] : Deformer F → List HashItem
  | .transform d => d.hashItems
  | .tde4 d => d.hashItems

/-- The new position of one point: deformer/transform.rs:167 and
deformer/tde4_classic.rs:289-295. -/
def point [FloatConst F] (lib : DeformLib F) (window : BBoxF F) (inverse : Bool) :
    Deformer F → F → F → Res (F × F)
  | .transform d, x, y => d.apply lib.tryInverse x y window inverse
  | .tde4 d, x, y => d.point lib.lens window inverse x y

/-- deformer/transform.rs:161-171 and deformer/tde4_classic.rs:285-299, the body of the loop. -/
def sliceStep [FloatConst F] (lib : DeformLib F) (d : Deformer F) (window : BBoxF F)
    (inverse : Bool) (stride : Nat) (i : Nat) (buffer : List F) : Res (List F) := do
  let index := i * stride
  let x ← getAt buffer (index + 0)
  let y ← getAt buffer (index + 1)
  let (xu, yu) ← d.point lib window inverse x y
  let buffer ← setAt buffer (index + 0) xu
  setAt buffer (index + 1) yu

/-- deformer/transform.rs:153-172 and deformer/tde4_classic.rs:272-300 `apply_slice_in_place`.
Dividing by a `stride` of zero panics. -/
def applySlice [FloatConst F] (lib : DeformLib F) (d : Deformer F) (buffer : List F)
    (window : BBoxF F) (inverse : Bool) (stride : Nat) : Res (List F) :=
  if stride = 0 then .error .explicit
  else forRange (buffer.length / stride) (d.sliceStep lib window inverse stride) buffer

/-- deformer.rs:75-77 (the default, for `DeformerTransform`) and
deformer/tde4_classic.rs:208-268 `apply_bounding_box`. -/
def box (lib : DeformLib F) : Deformer F → BBoxF F → BBoxF F → Res (BBoxF F)
  | .transform _, bbox, _ => .ok bbox
  | .tde4 d, bbox, window => d.box lib.lens bbox window

end
end Deformer

section
variable {F H : Type} [FloatLike F] [FloatConst F]

/-- deformutils.rs:41-44 and 77-80. -/
def enabledDeformers (ds : List (Deformer F)) : List (Deformer F) :=
  ds.filter fun d => d.enable = 1

/-- deformutils.rs:32-54 `apply_deformers_to_positions`.  The display window is not used. -/
def applyDeformersToPositions (lib : DeformLib F) (ds : List (Deformer F))
    (dataWindow : BBoxF F) (buffer : List F) : Res (List F) :=
  if ds.length = 0 then .ok buffer
  else
    let enabled := enabledDeformers ds
    if enabled.length = 0 then .ok buffer
    else forEach (fun d buf => d.applySlice lib buf dataWindow false 3) enabled buffer

/-- deformutils.rs:92-95, the bounding box after all deformers. -/
def deformedBox (lib : DeformLib F) (ds : List (Deformer F)) (window : BBoxF F) (bbox : BBoxF F) :
    Res (BBoxF F) :=
  forEach (fun d b => d.box lib b window) ds bbox

/-- deformutils.rs:97-100. -/
def outerBox (b : BBoxF F) : BBox :=
  { minX := FloatLike.toI32 (FloatLike.floor b.minX)
    minY := FloatLike.toI32 (FloatLike.floor b.minY)
    maxX := FloatLike.toI32 (FloatLike.ceil b.maxX)
    maxY := FloatLike.toI32 (FloatLike.ceil b.maxY) }

/-- deformutils.rs:113-129, the coordinates of the pixel centres of a window, row by row, in a
buffer for `n` pixels.  The literal 0.5 is written 1/2. -/
def pixelCoords (window : BBox) (n : Nat) : Res (List F) := do
  let r ← forRange (window.maxY - window.minY).toNat (fun i st =>
    forRange (window.maxX - window.minX).toNat (fun j (st : List F × Nat) => do
      let row := window.minY + i
      let col := window.minX + j
      let x := FloatLike.ofInt col + 1 / FloatLike.ofInt 2
      let y := FloatLike.ofInt row + 1 / FloatLike.ofInt 2
      let buf ← setAt st.1 (st.2 + 0) x
      let buf ← setAt buf (st.2 + 1) y
      .ok (buf, st.2 + 2)) st) (List.replicate n (0 : F), 0)
  .ok r.1

/-- deformutils.rs:56-162 `apply_deformers_to_pixels`; the result is the destination block and
the destination window.  Simplification: allocations succeed. -/
def applyDeformersToPixels [HalfLike F H] (p : Profile) (lib : DeformLib F)
    (ds : List (Deformer F)) (display : BBox) (src : PixelBlock F H) (srcWindow : BBox)
    (dst : PixelBlock F H) : Res (PixelBlock F H × BBox) :=
  if ds.length = 0 then .ok (src, srcWindow)
  else
    let enabled := enabledDeformers ds
    if enabled.length = 0 then .ok (src, srcWindow)
    else do
      let displayF := BBoxF.ofBBox (F := F) display
      let tmp ← deformedBox lib enabled displayF (BBoxF.ofBBox srcWindow)
      let window := outerBox tmp
      let w ← window.width p
      let h ← window.height p
      let dst ← dst.dataResize p ⟨w, h, src.size.numChannels⟩ (.known src.block.dtype)
      let n ← umul p (asUsize w) (asUsize h)
      let n2 ← umul p n 2
      let coords ← pixelCoords window n2
      let coords ← forEach (fun d buf => d.applySlice lib buf displayF true 2) enabled coords
      let dst ← pixelsRemapCoords p display coords src srcWindow dst
      .ok (dst, window)

end
end OCG
