import Verif.Model.Plugin
/-
Which values a lens plug-in should work with.
-/

namespace OCG.PluginSpec

variable {F : Type} [FloatLike F]

/-- The parameters of the plug-in and the attributes they are taken from. -/
def table : List (String × String) :=
  [("tde4_focal_length_cm", "focal_length"), ("tde4_filmback_width_cm", "film_back_width"),
   ("tde4_filmback_height_cm", "film_back_height"), ("tde4_pixel_aspect", "pixel_aspect"),
   ("tde4_lens_center_offset_x_cm", "lens_center_offset_x"),
   ("tde4_lens_center_offset_y_cm", "lens_center_offset_y"), ("Distortion", "distortion"),
   ("Anamorphic Squeeze", "anamorphic_squeeze"), ("Curvature X", "curvature_x"),
   ("Curvature Y", "curvature_y"), ("Quartic Distortion", "quartic_distortion")]

/-- The values the plug-in should have: those of the attributes. -/
def wanted (d : Tde4Deformer F) : LensValues F :=
  fun name => (table.lookup name).map d.getF32

/-- The plug-in accepts the values of the attributes. -/
def Accepted (cls : LensClass F) (d : Tde4Deformer F) : Prop :=
  (∀ x ∈ table, cls.acceptsValue x.1 (d.getF32 x.2) = true) ∧ cls.accepts (wanted d) = true

/-- The plug-in as a function of the attributes. -/
def lensOf (cls : LensClass F) : LensPlugin F where
  undistort d := cls.undistort (some (wanted d))
  distort d := cls.distort (some (wanted d))
  boxUndistort d := cls.boxUndistort (some (wanted d))
  boxDistort d := cls.boxDistort (some (wanted d))

/-- What can be done to a lens deformer. -/
inductive Event (F : Type) where
  | setI32 (name : String) (value : Int)
  | setF32 (name : String) (value : F)
  | commit
  | copy
  | plainCopy

/-- The history of one deformer, following the copy when a copy is made. -/
inductive History (cls : LensClass F) : List (Event F) → LensDeformer F → Prop
  | new : History cls [] .new
  | setI32 {es d} (name value) : History cls es d →
      History cls (.setI32 name value :: es) (d.setI32 name value)
  | setF32 {es d} (name value) : History cls es d →
      History cls (.setF32 name value :: es) (d.setF32 name value)
  | commit {es d d'} : History cls es d → d.commitUnwrap cls = .ok d' →
      History cls (.commit :: es) d'
  | copy {es d d'} : History cls es d → d.cloneBox cls = .ok d' → History cls (.copy :: es) d'
  | plainCopy {es d} : History cls es d → History cls (.plainCopy :: es) d.clone

/-- The values of the attributes after some events (latest first), starting with the
defaults. -/
def attributes : List (Event F) → Tde4Deformer F
  | [] => .new
  | .setI32 name value :: es => (attributes es).setI32 name value
  | .setF32 name value :: es => (attributes es).setF32 name value
  | _ :: es => attributes es

/-- The values of the attributes at the last commit or copy; none before the first one, and none
after a copy made without committing. -/
def committed : List (Event F) → Option (Tde4Deformer F)
  | [] => none
  | .setI32 .. :: es => committed es
  | .setF32 .. :: es => committed es
  | .commit :: es => some (attributes es)
  | .copy :: es => some (attributes es)
  | .plainCopy :: _ => none

end OCG.PluginSpec
