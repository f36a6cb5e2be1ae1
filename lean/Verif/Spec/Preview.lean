import Verif.Spec.Picture
/-
C127: what a viewer shows and what a write node writes.
-/

namespace OCG.PreviewSpec

open PictureSpec

variable {F H : Type} [FloatLike F]

/-- The stream holds the image that is written: the same pixels, in the same windows. -/
structure Previews (out : Stream F H) (job : WriteJob F H) : Prop where
  size : job.size = out.pixelBlock.size
  pixels : job.block = out.pixelBlock.block
  x : job.spec.x = out.dataWindow.minX
  y : job.spec.y = out.dataWindow.minY
  width : job.spec.width = out.pixelBlock.size.width
  height : job.spec.height = out.pixelBlock.size.height
  channels : job.spec.numChannels = out.pixelBlock.size.numChannels
  format : job.spec.format = .known out.pixelBlock.block.dtype
  fullX : job.spec.fullX = out.displayWindow.minX
  fullY : job.spec.fullY = out.displayWindow.minY
  fullWidth : job.spec.fullWidth = out.displayWindow.maxX - out.displayWindow.minX
  fullHeight : job.spec.fullHeight = out.displayWindow.maxY - out.displayWindow.minY

/-- The viewer is set to show what the write node writes: everything baked (as it is whenever
the viewer crops), in the colour space of the file and of the type asked for there, and
cropped if the file is. -/
structure SetAlike (lib : NodeLib F H) (frame : F) (view write : Node F) : Prop where
  viewer : view.attrs.nodeType = .viewer
  writer : write.attrs.nodeType = .writeImage
  shows : view.getI32 "enable" = 1
  writes : write.getI32 "enable" ≠ 0 ∧ write.getI32 "execute" ≠ 0
  bakes : view.getI32 "bake_option" = 3 ∨
    view.getI32 "crop_to_format" ≠ 0 ∧ view.getI32 "bake_option" ≠ 0
  space : view.getStr "bake_color_space" = fileSpace (filePath lib write frame)
  type : view.getI32 "bake_pixel_data_type" = write.getI32 "pixel_data_type"
  codes : write.getI32 "crop_on_write" ∈ [0, 1, 2]
  crop : view.getI32 "crop_to_format" ≠ 0 ↔
    CropsFile (write.getI32 "crop_on_write") (filePath lib write frame)

end OCG.PreviewSpec
