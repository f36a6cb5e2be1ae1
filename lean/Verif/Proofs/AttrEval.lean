import Verif.Proofs.AttrSimp
import Verif.Proofs.Attrs
/-
Reading the attributes of a block by name.
-/

namespace OCG

open AttrSpec

variable {F : Type} [FloatLike F]

theorem missing_names {n : Node F} {name : String} (h : n.attrs.attrExists name = .missing)
    (k : Kind) : name ∉ names n.attrs.nodeType k := by
  intro hk
  have := (NodeAttrs.exists_iff n.attrs name).mpr ⟨k, hk⟩
  rw [h] at this
  cases this

@[attr_eval] theorem Node.getStr_eq (n : Node F) (name : String) :
    n.getStr name = n.attrs.getStr name := by
  unfold Node.getStr
  split
  · rfl
  · rename_i h
    exact (NodeAttrs.getStr_other _ _ (missing_names h _)).symm

@[attr_eval] theorem Node.getI32_eq (n : Node F) (name : String) :
    n.getI32 name = n.attrs.getI32 name := by
  unfold Node.getI32
  split
  · rfl
  · rename_i h
    exact (NodeAttrs.getI32_other _ _ (missing_names h _)).symm

@[attr_eval] theorem Node.getF32_eq (n : Node F) (name : String) :
    n.getF32 name = n.attrs.getF32 name := by
  unfold Node.getF32
  split
  · rfl
  · rename_i h
    exact (NodeAttrs.getF32_other _ _ (missing_names h _)).symm

@[attr_eval] theorem NodeAttrs.getStr_null (a : NullAttrs) (name : String) :
    (NodeAttrs.null a : NodeAttrs F).getStr name = a.getStr name := rfl
@[attr_eval] theorem NodeAttrs.getI32_null (a : NullAttrs) (name : String) :
    (NodeAttrs.null a : NodeAttrs F).getI32 name = a.getI32 name := rfl
@[attr_eval] theorem NodeAttrs.getF32_null (a : NullAttrs) (name : String) :
    (NodeAttrs.null a : NodeAttrs F).getF32 name = a.getF32 name := rfl
@[attr_eval] theorem NodeAttrs.nodeType_null (a : NullAttrs) :
    (NodeAttrs.null a : NodeAttrs F).nodeType = .null := rfl

@[attr_eval] theorem NodeAttrs.getStr_readImage (a : ReadImageAttrs) (name : String) :
    (NodeAttrs.readImage a : NodeAttrs F).getStr name = a.getStr name := rfl
@[attr_eval] theorem NodeAttrs.getI32_readImage (a : ReadImageAttrs) (name : String) :
    (NodeAttrs.readImage a : NodeAttrs F).getI32 name = a.getI32 name := rfl
@[attr_eval] theorem NodeAttrs.getF32_readImage (a : ReadImageAttrs) (name : String) :
    (NodeAttrs.readImage a : NodeAttrs F).getF32 name = a.getF32 name := rfl
@[attr_eval] theorem NodeAttrs.nodeType_readImage (a : ReadImageAttrs) :
    (NodeAttrs.readImage a : NodeAttrs F).nodeType = .readImage := rfl
@[attr_eval] theorem ReadImageAttrs.get_filePath (a : ReadImageAttrs) :
    a.getStr "file_path" = a.filePath := rfl
@[attr_eval] theorem ReadImageAttrs.get_enable (a : ReadImageAttrs) :
    a.getI32 "enable" = a.enable := rfl
@[attr_eval] theorem ReadImageAttrs.get_useCache (a : ReadImageAttrs) :
    a.getI32 "use_cache" = a.useCache := rfl

@[attr_eval] theorem NodeAttrs.getStr_writeImage (a : WriteImageAttrs) (name : String) :
    (NodeAttrs.writeImage a : NodeAttrs F).getStr name = a.getStr name := rfl
@[attr_eval] theorem NodeAttrs.getI32_writeImage (a : WriteImageAttrs) (name : String) :
    (NodeAttrs.writeImage a : NodeAttrs F).getI32 name = a.getI32 name := rfl
@[attr_eval] theorem NodeAttrs.getF32_writeImage (a : WriteImageAttrs) (name : String) :
    (NodeAttrs.writeImage a : NodeAttrs F).getF32 name = a.getF32 name := rfl
@[attr_eval] theorem NodeAttrs.nodeType_writeImage (a : WriteImageAttrs) :
    (NodeAttrs.writeImage a : NodeAttrs F).nodeType = .writeImage := rfl
@[attr_eval] theorem WriteImageAttrs.get_filePath (a : WriteImageAttrs) :
    a.getStr "file_path" = a.filePath := rfl
@[attr_eval] theorem WriteImageAttrs.get_enable (a : WriteImageAttrs) :
    a.getI32 "enable" = a.enable := rfl
@[attr_eval] theorem WriteImageAttrs.get_execute (a : WriteImageAttrs) :
    a.getI32 "execute" = a.execute := rfl
@[attr_eval] theorem WriteImageAttrs.get_cropOnWrite (a : WriteImageAttrs) :
    a.getI32 "crop_on_write" = a.cropOnWrite := rfl
@[attr_eval] theorem WriteImageAttrs.get_pixelDataType (a : WriteImageAttrs) :
    a.getI32 "pixel_data_type" = a.pixelDataType := rfl
@[attr_eval] theorem WriteImageAttrs.get_exrCompression (a : WriteImageAttrs) :
    a.getI32 "exr_compression" = a.exrCompression := rfl
@[attr_eval] theorem WriteImageAttrs.get_exrDwaCompressionLevel (a : WriteImageAttrs) :
    a.getI32 "exr_dwa_compression_level" = a.exrDwaCompressionLevel := rfl
@[attr_eval] theorem WriteImageAttrs.get_pngCompressionLevel (a : WriteImageAttrs) :
    a.getI32 "png_compression_level" = a.pngCompressionLevel := rfl
@[attr_eval] theorem WriteImageAttrs.get_jpegCompressionLevel (a : WriteImageAttrs) :
    a.getI32 "jpeg_compression_level" = a.jpegCompressionLevel := rfl
@[attr_eval] theorem WriteImageAttrs.get_jpegSubsampling (a : WriteImageAttrs) :
    a.getI32 "jpeg_subsampling" = a.jpegSubsampling := rfl
@[attr_eval] theorem WriteImageAttrs.get_jpegProgressive (a : WriteImageAttrs) :
    a.getI32 "jpeg_progressive" = a.jpegProgressive := rfl

@[attr_eval] theorem NodeAttrs.getStr_grade (a : GradeAttrs F) (name : String) :
    (NodeAttrs.grade a : NodeAttrs F).getStr name = a.getStr name := rfl
@[attr_eval] theorem NodeAttrs.getI32_grade (a : GradeAttrs F) (name : String) :
    (NodeAttrs.grade a : NodeAttrs F).getI32 name = a.getI32 name := rfl
@[attr_eval] theorem NodeAttrs.getF32_grade (a : GradeAttrs F) (name : String) :
    (NodeAttrs.grade a : NodeAttrs F).getF32 name = a.getF32 name := rfl
@[attr_eval] theorem NodeAttrs.nodeType_grade (a : GradeAttrs F) :
    (NodeAttrs.grade a : NodeAttrs F).nodeType = .grade := rfl
@[attr_eval] theorem GradeAttrs.get_enable (a : GradeAttrs F) :
    a.getI32 "enable" = a.enable := rfl
@[attr_eval] theorem GradeAttrs.get_processR (a : GradeAttrs F) :
    a.getI32 "process_r" = a.processR := rfl
@[attr_eval] theorem GradeAttrs.get_processG (a : GradeAttrs F) :
    a.getI32 "process_g" = a.processG := rfl
@[attr_eval] theorem GradeAttrs.get_processB (a : GradeAttrs F) :
    a.getI32 "process_b" = a.processB := rfl
@[attr_eval] theorem GradeAttrs.get_processA (a : GradeAttrs F) :
    a.getI32 "process_a" = a.processA := rfl
@[attr_eval] theorem GradeAttrs.get_reverse (a : GradeAttrs F) :
    a.getI32 "reverse" = a.reverse := rfl
@[attr_eval] theorem GradeAttrs.get_clampBlack (a : GradeAttrs F) :
    a.getI32 "clamp_black" = a.clampBlack := rfl
@[attr_eval] theorem GradeAttrs.get_clampWhite (a : GradeAttrs F) :
    a.getI32 "clamp_white" = a.clampWhite := rfl
@[attr_eval] theorem GradeAttrs.get_premult (a : GradeAttrs F) :
    a.getI32 "premult" = a.premult := rfl
@[attr_eval] theorem GradeAttrs.get_blackPointR (a : GradeAttrs F) :
    a.getF32 "black_point_r" = a.blackPointR := rfl
@[attr_eval] theorem GradeAttrs.get_blackPointG (a : GradeAttrs F) :
    a.getF32 "black_point_g" = a.blackPointG := rfl
@[attr_eval] theorem GradeAttrs.get_blackPointB (a : GradeAttrs F) :
    a.getF32 "black_point_b" = a.blackPointB := rfl
@[attr_eval] theorem GradeAttrs.get_blackPointA (a : GradeAttrs F) :
    a.getF32 "black_point_a" = a.blackPointA := rfl
@[attr_eval] theorem GradeAttrs.get_whitePointR (a : GradeAttrs F) :
    a.getF32 "white_point_r" = a.whitePointR := rfl
@[attr_eval] theorem GradeAttrs.get_whitePointG (a : GradeAttrs F) :
    a.getF32 "white_point_g" = a.whitePointG := rfl
@[attr_eval] theorem GradeAttrs.get_whitePointB (a : GradeAttrs F) :
    a.getF32 "white_point_b" = a.whitePointB := rfl
@[attr_eval] theorem GradeAttrs.get_whitePointA (a : GradeAttrs F) :
    a.getF32 "white_point_a" = a.whitePointA := rfl
@[attr_eval] theorem GradeAttrs.get_liftR (a : GradeAttrs F) :
    a.getF32 "lift_r" = a.liftR := rfl
@[attr_eval] theorem GradeAttrs.get_liftG (a : GradeAttrs F) :
    a.getF32 "lift_g" = a.liftG := rfl
@[attr_eval] theorem GradeAttrs.get_liftB (a : GradeAttrs F) :
    a.getF32 "lift_b" = a.liftB := rfl
@[attr_eval] theorem GradeAttrs.get_liftA (a : GradeAttrs F) :
    a.getF32 "lift_a" = a.liftA := rfl
@[attr_eval] theorem GradeAttrs.get_gainR (a : GradeAttrs F) :
    a.getF32 "gain_r" = a.gainR := rfl
@[attr_eval] theorem GradeAttrs.get_gainG (a : GradeAttrs F) :
    a.getF32 "gain_g" = a.gainG := rfl
@[attr_eval] theorem GradeAttrs.get_gainB (a : GradeAttrs F) :
    a.getF32 "gain_b" = a.gainB := rfl
@[attr_eval] theorem GradeAttrs.get_gainA (a : GradeAttrs F) :
    a.getF32 "gain_a" = a.gainA := rfl
@[attr_eval] theorem GradeAttrs.get_multiplyR (a : GradeAttrs F) :
    a.getF32 "multiply_r" = a.multiplyR := rfl
@[attr_eval] theorem GradeAttrs.get_multiplyG (a : GradeAttrs F) :
    a.getF32 "multiply_g" = a.multiplyG := rfl
@[attr_eval] theorem GradeAttrs.get_multiplyB (a : GradeAttrs F) :
    a.getF32 "multiply_b" = a.multiplyB := rfl
@[attr_eval] theorem GradeAttrs.get_multiplyA (a : GradeAttrs F) :
    a.getF32 "multiply_a" = a.multiplyA := rfl
@[attr_eval] theorem GradeAttrs.get_offsetR (a : GradeAttrs F) :
    a.getF32 "offset_r" = a.offsetR := rfl
@[attr_eval] theorem GradeAttrs.get_offsetG (a : GradeAttrs F) :
    a.getF32 "offset_g" = a.offsetG := rfl
@[attr_eval] theorem GradeAttrs.get_offsetB (a : GradeAttrs F) :
    a.getF32 "offset_b" = a.offsetB := rfl
@[attr_eval] theorem GradeAttrs.get_offsetA (a : GradeAttrs F) :
    a.getF32 "offset_a" = a.offsetA := rfl
@[attr_eval] theorem GradeAttrs.get_gammaR (a : GradeAttrs F) :
    a.getF32 "gamma_r" = a.gammaR := rfl
@[attr_eval] theorem GradeAttrs.get_gammaG (a : GradeAttrs F) :
    a.getF32 "gamma_g" = a.gammaG := rfl
@[attr_eval] theorem GradeAttrs.get_gammaB (a : GradeAttrs F) :
    a.getF32 "gamma_b" = a.gammaB := rfl
@[attr_eval] theorem GradeAttrs.get_gammaA (a : GradeAttrs F) :
    a.getF32 "gamma_a" = a.gammaA := rfl
@[attr_eval] theorem GradeAttrs.get_mix (a : GradeAttrs F) :
    a.getF32 "mix" = a.mix := rfl

@[attr_eval] theorem NodeAttrs.getStr_lensDistort (a : LensDistortAttrs F) (name : String) :
    (NodeAttrs.lensDistort a : NodeAttrs F).getStr name = a.getStr name := rfl
@[attr_eval] theorem NodeAttrs.getI32_lensDistort (a : LensDistortAttrs F) (name : String) :
    (NodeAttrs.lensDistort a : NodeAttrs F).getI32 name = a.getI32 name := rfl
@[attr_eval] theorem NodeAttrs.getF32_lensDistort (a : LensDistortAttrs F) (name : String) :
    (NodeAttrs.lensDistort a : NodeAttrs F).getF32 name = a.getF32 name := rfl
@[attr_eval] theorem NodeAttrs.nodeType_lensDistort (a : LensDistortAttrs F) :
    (NodeAttrs.lensDistort a : NodeAttrs F).nodeType = .lensDistort := rfl
@[attr_eval] theorem LensDistortAttrs.get_enable (a : LensDistortAttrs F) :
    a.getI32 "enable" = a.enable := rfl
@[attr_eval] theorem LensDistortAttrs.get_direction (a : LensDistortAttrs F) :
    a.getI32 "direction" = a.direction := rfl
@[attr_eval] theorem LensDistortAttrs.get_lensCenterOffsetX (a : LensDistortAttrs F) :
    a.getF32 "lens_center_offset_x" = a.lensCenterOffsetX := rfl
@[attr_eval] theorem LensDistortAttrs.get_lensCenterOffsetY (a : LensDistortAttrs F) :
    a.getF32 "lens_center_offset_y" = a.lensCenterOffsetY := rfl
@[attr_eval] theorem LensDistortAttrs.get_distortion (a : LensDistortAttrs F) :
    a.getF32 "distortion" = a.distortion := rfl
@[attr_eval] theorem LensDistortAttrs.get_anamorphicSqueeze (a : LensDistortAttrs F) :
    a.getF32 "anamorphic_squeeze" = a.anamorphicSqueeze := rfl
@[attr_eval] theorem LensDistortAttrs.get_curvatureX (a : LensDistortAttrs F) :
    a.getF32 "curvature_x" = a.curvatureX := rfl
@[attr_eval] theorem LensDistortAttrs.get_curvatureY (a : LensDistortAttrs F) :
    a.getF32 "curvature_y" = a.curvatureY := rfl
@[attr_eval] theorem LensDistortAttrs.get_quarticDistortion (a : LensDistortAttrs F) :
    a.getF32 "quartic_distortion" = a.quarticDistortion := rfl

@[attr_eval] theorem NodeAttrs.getStr_transform (a : TransformAttrs F) (name : String) :
    (NodeAttrs.transform a : NodeAttrs F).getStr name = a.getStr name := rfl
@[attr_eval] theorem NodeAttrs.getI32_transform (a : TransformAttrs F) (name : String) :
    (NodeAttrs.transform a : NodeAttrs F).getI32 name = a.getI32 name := rfl
@[attr_eval] theorem NodeAttrs.getF32_transform (a : TransformAttrs F) (name : String) :
    (NodeAttrs.transform a : NodeAttrs F).getF32 name = a.getF32 name := rfl
@[attr_eval] theorem NodeAttrs.nodeType_transform (a : TransformAttrs F) :
    (NodeAttrs.transform a : NodeAttrs F).nodeType = .transform := rfl
@[attr_eval] theorem TransformAttrs.get_enable (a : TransformAttrs F) :
    a.getI32 "enable" = a.enable := rfl
@[attr_eval] theorem TransformAttrs.get_invert (a : TransformAttrs F) :
    a.getI32 "invert" = a.invert := rfl
@[attr_eval] theorem TransformAttrs.get_translateX (a : TransformAttrs F) :
    a.getF32 "translate_x" = a.translateX := rfl
@[attr_eval] theorem TransformAttrs.get_translateY (a : TransformAttrs F) :
    a.getF32 "translate_y" = a.translateY := rfl
@[attr_eval] theorem TransformAttrs.get_rotate (a : TransformAttrs F) :
    a.getF32 "rotate" = a.rotate := rfl
@[attr_eval] theorem TransformAttrs.get_rotateCenterX (a : TransformAttrs F) :
    a.getF32 "rotate_center_x" = a.rotateCenterX := rfl
@[attr_eval] theorem TransformAttrs.get_rotateCenterY (a : TransformAttrs F) :
    a.getF32 "rotate_center_y" = a.rotateCenterY := rfl
@[attr_eval] theorem TransformAttrs.get_scaleX (a : TransformAttrs F) :
    a.getF32 "scale_x" = a.scaleX := rfl
@[attr_eval] theorem TransformAttrs.get_scaleY (a : TransformAttrs F) :
    a.getF32 "scale_y" = a.scaleY := rfl
@[attr_eval] theorem TransformAttrs.get_pivotX (a : TransformAttrs F) :
    a.getF32 "pivot_x" = a.pivotX := rfl
@[attr_eval] theorem TransformAttrs.get_pivotY (a : TransformAttrs F) :
    a.getF32 "pivot_y" = a.pivotY := rfl

@[attr_eval] theorem NodeAttrs.getStr_mergeImage (a : MergeImageAttrs F) (name : String) :
    (NodeAttrs.mergeImage a : NodeAttrs F).getStr name = a.getStr name := rfl
@[attr_eval] theorem NodeAttrs.getI32_mergeImage (a : MergeImageAttrs F) (name : String) :
    (NodeAttrs.mergeImage a : NodeAttrs F).getI32 name = a.getI32 name := rfl
@[attr_eval] theorem NodeAttrs.getF32_mergeImage (a : MergeImageAttrs F) (name : String) :
    (NodeAttrs.mergeImage a : NodeAttrs F).getF32 name = a.getF32 name := rfl
@[attr_eval] theorem NodeAttrs.nodeType_mergeImage (a : MergeImageAttrs F) :
    (NodeAttrs.mergeImage a : NodeAttrs F).nodeType = .mergeImage := rfl
@[attr_eval] theorem MergeImageAttrs.get_enable (a : MergeImageAttrs F) :
    a.getI32 "enable" = a.enable := rfl
@[attr_eval] theorem MergeImageAttrs.get_useCache (a : MergeImageAttrs F) :
    a.getI32 "use_cache" = a.useCache := rfl
@[attr_eval] theorem MergeImageAttrs.get_mode (a : MergeImageAttrs F) :
    a.getI32 "mode" = a.mode := rfl
@[attr_eval] theorem MergeImageAttrs.get_mix (a : MergeImageAttrs F) :
    a.getF32 "mix" = a.mix := rfl

@[attr_eval] theorem NodeAttrs.getStr_cropImage (a : CropImageAttrs) (name : String) :
    (NodeAttrs.cropImage a : NodeAttrs F).getStr name = a.getStr name := rfl
@[attr_eval] theorem NodeAttrs.getI32_cropImage (a : CropImageAttrs) (name : String) :
    (NodeAttrs.cropImage a : NodeAttrs F).getI32 name = a.getI32 name := rfl
@[attr_eval] theorem NodeAttrs.getF32_cropImage (a : CropImageAttrs) (name : String) :
    (NodeAttrs.cropImage a : NodeAttrs F).getF32 name = a.getF32 name := rfl
@[attr_eval] theorem NodeAttrs.nodeType_cropImage (a : CropImageAttrs) :
    (NodeAttrs.cropImage a : NodeAttrs F).nodeType = .cropImage := rfl
@[attr_eval] theorem CropImageAttrs.get_enable (a : CropImageAttrs) :
    a.getI32 "enable" = a.enable := rfl
@[attr_eval] theorem CropImageAttrs.get_useCache (a : CropImageAttrs) :
    a.getI32 "use_cache" = a.useCache := rfl
@[attr_eval] theorem CropImageAttrs.get_windowMinX (a : CropImageAttrs) :
    a.getI32 "window_min_x" = a.windowMinX := rfl
@[attr_eval] theorem CropImageAttrs.get_windowMinY (a : CropImageAttrs) :
    a.getI32 "window_min_y" = a.windowMinY := rfl
@[attr_eval] theorem CropImageAttrs.get_windowMaxX (a : CropImageAttrs) :
    a.getI32 "window_max_x" = a.windowMaxX := rfl
@[attr_eval] theorem CropImageAttrs.get_windowMaxY (a : CropImageAttrs) :
    a.getI32 "window_max_y" = a.windowMaxY := rfl
@[attr_eval] theorem CropImageAttrs.get_reformat (a : CropImageAttrs) :
    a.getI32 "reformat" = a.reformat := rfl
@[attr_eval] theorem CropImageAttrs.get_blackOutside (a : CropImageAttrs) :
    a.getI32 "black_outside" = a.blackOutside := rfl
@[attr_eval] theorem CropImageAttrs.get_intersect (a : CropImageAttrs) :
    a.getI32 "intersect" = a.intersect := rfl

@[attr_eval] theorem NodeAttrs.getStr_viewer (a : ViewerAttrs) (name : String) :
    (NodeAttrs.viewer a : NodeAttrs F).getStr name = a.getStr name := rfl
@[attr_eval] theorem NodeAttrs.getI32_viewer (a : ViewerAttrs) (name : String) :
    (NodeAttrs.viewer a : NodeAttrs F).getI32 name = a.getI32 name := rfl
@[attr_eval] theorem NodeAttrs.getF32_viewer (a : ViewerAttrs) (name : String) :
    (NodeAttrs.viewer a : NodeAttrs F).getF32 name = a.getF32 name := rfl
@[attr_eval] theorem NodeAttrs.nodeType_viewer (a : ViewerAttrs) :
    (NodeAttrs.viewer a : NodeAttrs F).nodeType = .viewer := rfl
@[attr_eval] theorem ViewerAttrs.get_bakeColorSpace (a : ViewerAttrs) :
    a.getStr "bake_color_space" = a.bakeColorSpace := rfl
@[attr_eval] theorem ViewerAttrs.get_enable (a : ViewerAttrs) :
    a.getI32 "enable" = a.enable := rfl
@[attr_eval] theorem ViewerAttrs.get_useCache (a : ViewerAttrs) :
    a.getI32 "use_cache" = a.useCache := rfl
@[attr_eval] theorem ViewerAttrs.get_bakeOption (a : ViewerAttrs) :
    a.getI32 "bake_option" = a.bakeOption := rfl
@[attr_eval] theorem ViewerAttrs.get_bakePixelDataType (a : ViewerAttrs) :
    a.getI32 "bake_pixel_data_type" = a.bakePixelDataType := rfl
@[attr_eval] theorem ViewerAttrs.get_cropToFormat (a : ViewerAttrs) :
    a.getI32 "crop_to_format" = a.cropToFormat := rfl

@[attr_eval] theorem NodeAttrs.getStr_resampleImage (a : ResampleImageAttrs) (name : String) :
    (NodeAttrs.resampleImage a : NodeAttrs F).getStr name = a.getStr name := rfl
@[attr_eval] theorem NodeAttrs.getI32_resampleImage (a : ResampleImageAttrs) (name : String) :
    (NodeAttrs.resampleImage a : NodeAttrs F).getI32 name = a.getI32 name := rfl
@[attr_eval] theorem NodeAttrs.getF32_resampleImage (a : ResampleImageAttrs) (name : String) :
    (NodeAttrs.resampleImage a : NodeAttrs F).getF32 name = a.getF32 name := rfl
@[attr_eval] theorem NodeAttrs.nodeType_resampleImage (a : ResampleImageAttrs) :
    (NodeAttrs.resampleImage a : NodeAttrs F).nodeType = .resampleImage := rfl
@[attr_eval] theorem ResampleImageAttrs.get_enable (a : ResampleImageAttrs) :
    a.getI32 "enable" = a.enable := rfl
@[attr_eval] theorem ResampleImageAttrs.get_useCache (a : ResampleImageAttrs) :
    a.getI32 "use_cache" = a.useCache := rfl
@[attr_eval] theorem ResampleImageAttrs.get_factor (a : ResampleImageAttrs) :
    a.getI32 "factor" = a.factor := rfl
@[attr_eval] theorem ResampleImageAttrs.get_interpolate (a : ResampleImageAttrs) :
    a.getI32 "interpolate" = a.interpolate := rfl

end OCG
