import Verif.Spec.PictureGraph
/-
Graphs without deformers whose nodes can do their work.
-/

namespace OCG.SimpleSpec

open PictureSpec BBoxSpec ImageSpecs

variable {F H : Type} [FloatLike F] [FloatConst F] [HalfLike F H]

/-- The window has pixels and lies between `lo` and `hi`. -/
structure LiesIn (lo hi : Int) (b : BBox) : Prop where
  left : lo ≤ b.minX
  right : b.maxX ≤ hi
  bottom : lo ≤ b.minY
  top : b.maxY ≤ hi
  width : b.minX < b.maxX
  height : b.minY < b.maxY

/-- A picture in linear light with three or four channels, with its windows between `lo` and `hi` and
no deformers waiting. -/
structure Simple (lo hi : Int) (L : Layer F) : Prop where
  moves : L.moves = []
  data : LiesIn lo hi L.still.data
  display : LiesIn lo hi L.still.display
  channels : L.still.channels = 3 ∨ L.still.channels = 4
  space : L.still.space = colorSpaceLinear
  length : ∀ x y, Has L.still.data x y → (L.still.at_ x y).length = L.still.channels

/-- The node can do its work with the given number of inputs, whatever pictures they are. -/
inductive Works (lib : NodeLib F H) (lo hi : Int) (frame : F) (n : Node F) : Nat → Prop
  | null : n.attrs.nodeType = .null → Works lib lo hi frame n 1
  | read {P} : n.attrs.nodeType = .readImage → n.getI32 "enable" ≠ 0 →
      IsFile lib (filePath lib n frame) P → Simple lo hi ⟨P, []⟩ → Works lib lo hi frame n 0
  | grade : n.attrs.nodeType = .grade → Works lib lo hi frame n 1
  | off : n.attrs.nodeType ∈ [.cropImage, .resampleImage, .transform, .lensDistort] →
      n.getI32 "enable" = 0 → Works lib lo hi frame n 1
  | crop : n.attrs.nodeType = .cropImage → n.getI32 "enable" = 1 → n.getI32 "black_outside" ≠ 1 →
      LiesIn lo hi (cropWindow n) → Works lib lo hi frame n 1
  | merge : n.attrs.nodeType = .mergeImage → n.getI32 "enable" = 1 →
      MergeImageMode.ofI32 (n.getI32 "mode") ≠ .uninitialized → Works lib lo hi frame n 2
  | viewerOff : n.attrs.nodeType = .viewer → n.getI32 "enable" = 1 → n.getI32 "bake_option" = 0 →
      Works lib lo hi frame n 1
  | viewerSpace : n.attrs.nodeType = .viewer → n.getI32 "enable" = 1 → n.getI32 "bake_option" = 1 →
      n.getI32 "crop_to_format" = 0 → n.getStr "bake_color_space" = colorSpaceLinear →
      n.getI32 "bake_pixel_data_type" = 0 → Works lib lo hi frame n 1
  | viewer {t} : n.attrs.nodeType = .viewer → n.getI32 "enable" = 1 → n.getI32 "bake_option" = 2 →
      n.getI32 "crop_to_format" = 0 → n.getStr "bake_color_space" = colorSpaceLinear →
      (∀ own, wantedType (n.getI32 "bake_pixel_data_type") own = t) → Works lib lo hi frame n 1
  | write : n.attrs.nodeType = .writeImage → n.getI32 "enable" ≠ 0 →
      (n.getI32 "crop_on_write" = 0 ∨ n.getI32 "crop_on_write" = 1 ∨
        n.getI32 "crop_on_write" = 2) → lib.oiio.hasWriter (filePath lib n frame) = true →
      (CropsFile (n.getI32 "crop_on_write") (filePath lib n frame) → KeepsLength lib.bake.color) →
      Works lib lo hi frame n 1

end OCG.SimpleSpec
