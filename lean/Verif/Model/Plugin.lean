import Verif.Model.Compute
/-
Model of src/deformer/ldpk_utils.rs and of the lens deformer as an object that owns a plug-in
(src/deformer/tde4_classic.rs, src/deformer.rs).  `Verif.Model.Deform` treats the plug-in as a
function of the values of the deformer; here it is an object with a state of its own.
-/

namespace OCG

/-- Values of the parameters of the plug-in, by name; `none` before a value was given. -/
abbrev LensValues (F : Type) := String → Option F

/-- deformer/ldpk_utils.rs:33-42 `LensDistortionPlugin`: the state of the C++ object
(deformer/ldpk_utils.cpp:47-49): the values given to it so far, and those it was last initialised
with (`none` before the first time). -/
structure LensObject (F : Type) where
  given : LensValues F
  inEffect : Option (LensValues F)

/-- The external C++ class `tde4_ldp_classic_3de_mixed` (LDPK): whether it accepts a value for a
parameter (deformer/ldpk_utils.cpp:108-113), whether it can be initialised with its values
(deformer/ldpk_utils.cpp:115-118), and what it computes with the values it was initialised with
(deformer/ldpk_utils.cpp:120-169).  The casts between `f32` and `f64` are part of these functions. -/
structure LensClass (F : Type) where
  acceptsValue : String → F → Bool
  accepts : LensValues F → Bool
  undistort : Option (LensValues F) → F → F → F × F
  distort : Option (LensValues F) → F → F → F × F
  boxUndistort : Option (LensValues F) → BBoxF F → BBoxF F
  boxDistort : Option (LensValues F) → BBoxF F → BBoxF F

namespace LensObject

variable {F : Type}

/-- deformer/ldpk_utils.rs:65-69 `new`. -/
def new : LensObject F := ⟨fun _ => none, none⟩

/-- deformer/ldpk_utils.rs:58-62 `Clone`: a new plug-in, without the values of the old one. -/
def clone (_ : LensObject F) : LensObject F := new

/-- deformer/ldpk_utils.rs:154-163 `set_parameter_value_f64` and its `unwrap`
(deformer/tde4_classic.rs:166-202). -/
def setValue (cls : LensClass F) (name : String) (value : F) (o : LensObject F) :
    Res (LensObject F) :=
  if cls.acceptsValue name value then
    .ok { o with given := fun n => if n = name then some value else o.given n }
  else .error .explicit

/-- deformer/ldpk_utils.rs:165-175 `initialize_parameters`; `false` is the result `Err`. -/
def init (cls : LensClass F) (o : LensObject F) : LensObject F × Bool :=
  if cls.accepts o.given then ({ o with inEffect := some o.given }, true) else (o, false)

end LensObject

/-- deformer/tde4_classic.rs:54-77 `DeformerTde4Classic`: its values and its plug-in. -/
structure LensDeformer (F : Type) where
  values : Tde4Deformer F
  plugin : LensObject F

namespace LensDeformer

variable {F : Type} [FloatLike F]

/-- deformer/tde4_classic.rs:100-137 `default`. -/
def new : LensDeformer F := ⟨.new, .new⟩

/-- deformer/tde4_classic.rs:374-380 `set_attr_i32`. -/
def setI32 (d : LensDeformer F) (name : String) (value : Int) : LensDeformer F :=
  { d with values := d.values.setI32 name value }

/-- deformer/tde4_classic.rs:402-420 `set_attr_f32`. -/
def setF32 (d : LensDeformer F) (name : String) (value : F) : LensDeformer F :=
  { d with values := d.values.setF32 name value }

/-- deformer/tde4_classic.rs:165-204 `commit_data`.  The names are defined in
deformer/tde4_classic.rs:38-52 and end with a zero byte, where C++ stops reading. -/
def commit (cls : LensClass F) (d : LensDeformer F) : Res (LensDeformer F × Bool) := do
  let v := d.values
  let o ← d.plugin.setValue cls "tde4_focal_length_cm" v.focalLength
  let o ← o.setValue cls "tde4_filmback_width_cm" v.filmBackWidth
  let o ← o.setValue cls "tde4_filmback_height_cm" v.filmBackHeight
  let o ← o.setValue cls "tde4_pixel_aspect" v.pixelAspect
  let o ← o.setValue cls "tde4_lens_center_offset_x_cm" v.lensCenterOffsetX
  let o ← o.setValue cls "tde4_lens_center_offset_y_cm" v.lensCenterOffsetY
  let o ← o.setValue cls "Distortion" v.distortion
  let o ← o.setValue cls "Anamorphic Squeeze" v.anamorphicSqueeze
  let o ← o.setValue cls "Curvature X" v.curvatureX
  let o ← o.setValue cls "Curvature Y" v.curvatureY
  let o ← o.setValue cls "Quartic Distortion" v.quarticDistortion
  let r := o.init cls
  .ok ({ d with plugin := r.1 }, r.2)

/-- `commit_data().unwrap()` (node/lens_distort.rs:164, deformer.rs:53). -/
def commitUnwrap (cls : LensClass F) (d : LensDeformer F) : Res (LensDeformer F) := do
  let (d, ok) ← d.commit cls
  if ok then .ok d else .error .explicit

/-- deformer/tde4_classic.rs:54, the derived `Clone`, used by `clone_box` (deformer.rs:37-44). -/
def clone (d : LensDeformer F) : LensDeformer F := ⟨d.values, d.plugin.clone⟩

/-- deformer.rs:47-56 `Clone for Box<dyn Deformer>`, the clone made whenever a stream with
deformers is copied. -/
def cloneBox (cls : LensClass F) (d : LensDeformer F) : Res (LensDeformer F) :=
  d.clone.commitUnwrap cls

/-- node/lens_distort.rs:146-164, the deformer a LensDistort node puts into its stream. -/
def ofNode (cls : LensClass F) (a : LensDistortAttrs F) : Res (LensDeformer F) :=
  (copyFloats setF32 a.getF32
    ["lens_center_offset_x", "lens_center_offset_y", "distortion", "anamorphic_squeeze",
     "curvature_x", "curvature_y", "quartic_distortion"]
    (copyInts setI32 a.getI32 ["direction"] new)).commitUnwrap cls

/-- deformer/tde4_classic.rs:142-156 `_apply`. -/
def apply (cls : LensClass F) (d : LensDeformer F) (x y : F) (inverse : Bool) : Res (F × F) :=
  if d.values.direction = 0 then
    .ok (if inverse = false then cls.undistort d.plugin.inEffect x y
      else cls.distort d.plugin.inEffect x y)
  else if d.values.direction = 1 then
    .ok (if inverse = false then cls.distort d.plugin.inEffect x y
      else cls.undistort d.plugin.inEffect x y)
  else .error .explicit

/-- deformer/tde4_classic.rs:283-297, the new position of one point. -/
def point (cls : LensClass F) (d : LensDeformer F) (window : BBoxF F) (inverse : Bool)
    (x y : F) : Res (F × F) := do
  let xr := Interp.remap window.minX window.maxX 0 1 x
  let yr := Interp.remap window.minY window.maxY 0 1 y
  let (xu, yu) ← d.apply cls xr yr inverse
  .ok (Interp.remap 0 1 window.minX window.maxX xu, Interp.remap 0 1 window.minY window.maxY yu)

/-- deformer/tde4_classic.rs:208-268 `apply_bounding_box`. -/
def box (cls : LensClass F) (d : LensDeformer F) (bbox window : BBoxF F) : Res (BBoxF F) := do
  let b : BBoxF F :=
    { minX := Interp.remap window.minX window.maxX 0 1 bbox.minX
      minY := Interp.remap window.minY window.maxY 0 1 bbox.minY
      maxX := Interp.remap window.minX window.maxX 0 1 bbox.maxX
      maxY := Interp.remap window.minY window.maxY 0 1 bbox.maxY }
  let r ← (if d.values.direction = 0 then .ok (cls.boxUndistort d.plugin.inEffect b)
    else if d.values.direction = 1 then .ok (cls.boxDistort d.plugin.inEffect b)
    else .error .explicit : Res (BBoxF F))
  .ok
    { minX := Interp.remap 0 1 window.minX window.maxX r.minX - FloatLike.ofInt 2
      minY := Interp.remap 0 1 window.minY window.maxY r.minY - FloatLike.ofInt 2
      maxX := Interp.remap 0 1 window.minX window.maxX r.maxX + FloatLike.ofInt 2
      maxY := Interp.remap 0 1 window.minY window.maxY r.maxY + FloatLike.ofInt 2 }

end LensDeformer

end OCG
