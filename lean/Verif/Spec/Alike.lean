import Verif.Spec.FileShows
/-
Pictures that look the same, and files with the same pixels.
-/

namespace OCG.AlikeSpec

open PictureSpec BBoxSpec

variable {F H : Type}

/-- The two pictures have the same windows, channels and pixels. -/
structure LooksLike (P R : Picture F) : Prop where
  data : P.data = R.data
  display : P.display = R.display
  channels : P.channels = R.channels
  pixels : ∀ x y, Has R.data x y → P.at_ x y = R.at_ x y

/-- The windows are not inside out. -/
structure Upright (P : Picture F) : Prop where
  dataX : P.data.minX ≤ P.data.maxX
  dataY : P.data.minY ≤ P.data.maxY
  displayX : P.display.minX ≤ P.display.maxX
  displayY : P.display.minY ≤ P.display.maxY

/-- What is handed to OpenImageIO is the same: the path, the window, the channels, the type and the
whole buffer. -/
structure SamePixels (job job' : WriteJob F H) : Prop where
  path : job.path = job'.path
  x : job.spec.x = job'.spec.x
  y : job.spec.y = job'.spec.y
  width : job.spec.width = job'.spec.width
  height : job.spec.height = job'.spec.height
  channels : job.spec.numChannels = job'.spec.numChannels
  format : job.spec.format = job'.spec.format
  size : job.size = job'.size
  block : job.block = job'.block

/-- The two write nodes store with the same type, which is not left to the picture, and crop alike. -/
structure StoreAlike (n n' : Node F) : Prop where
  known : FileSpec.KnowsType n
  type : n.getI32 "pixel_data_type" = n'.getI32 "pixel_data_type"
  crop : n.getI32 "crop_on_write" = n'.getI32 "crop_on_write"

end OCG.AlikeSpec
