import Verif.Spec.Picture
import Verif.Spec.Resample
import Verif.Spec.Execute
/-
Which pictures the nodes of a graph should show.
-/

namespace OCG.PictureSpec

open BlockSpec BBoxSpec ImageSpecs ComputeSpec GraphSpec OiioSpec

variable {F H : Type} [FloatLike F] [FloatConst F] [HalfLike F H]

/-- A picture and the deformers that are switched on and still to be carried out on it, in order. -/
structure Layer (F : Type) where
  still : Picture F
  moves : List (Deformer F)

/-- The stream has the picture, with its colours carried out, and the deformers waiting. -/
def ShowsLayer (lib : ColorLib F) (s : Stream F H) (L : Layer F) : Prop :=
  Still lib s L.still ∧ s.deformers.filter (fun d => d.enable = 1) = L.moves

/-- The picture with the waiting deformers carried out. -/
def Rests (lib : NodeLib F H) (L : Layer F) (R : Picture F) : Prop :=
  CarriedOut lib.bake.deform L.moves L.still R

/-- A write node that is switched on writes the picture: there is a writer for the format, the size
of the display window is a 32 bit number, and if the file is cropped there is something to crop. -/
structure Writable (lib : NodeLib F H) (frame : F) (n : Node F) (P : Picture F) : Prop where
  crop : n.getI32 "crop_on_write" = 0 ∨ n.getI32 "crop_on_write" = 1 ∨
    n.getI32 "crop_on_write" = 2
  writer : lib.oiio.hasWriter (filePath lib n frame) = true
  width : -2147483648 ≤ P.display.maxX - P.display.minX ∧
    P.display.maxX - P.display.minX ≤ 2147483647
  height : -2147483648 ≤ P.display.maxY - P.display.minY ∧
    P.display.maxY - P.display.minY ≤ 2147483647
  cut : CropsFile (n.getI32 "crop_on_write") (filePath lib n frame) →
    KeepsLength lib.bake.color ∧ ValidSize (sizeFor P.display P.channels)

/-- The picture a node should make of the pictures of its inputs, and the deformers that wait
behind it. -/
inductive Makes (lib : NodeLib F H) (frame : F) (n : Node F) : List (Layer F) → Layer F → Prop
  | null {L} : n.attrs.nodeType = .null → Makes lib frame n [L] L
  | read {P} : n.attrs.nodeType = .readImage → n.getI32 "enable" ≠ 0 →
      IsFile lib (filePath lib n frame) P → Makes lib frame n [] ⟨P, []⟩
  | grade {op P Q ds} : n.attrs.nodeType = .grade → Grades n → IsGradeOf n op → IsGraded op P Q →
      Makes lib frame n [⟨P, ds⟩] ⟨Q, ds⟩
  | gradeOff {L} : n.attrs.nodeType = .grade → ¬ Grades n → Makes lib frame n [L] L
  | transform {P ds} {d : TransformDeformer F} : n.attrs.nodeType = .transform →
      n.getI32 "enable" = 1 → d.getI32 "enable" = 1 → Describes n d.getI32 d.getF32 →
      Makes lib frame n [⟨P, ds⟩] ⟨P, ds ++ [.transform d]⟩
  | lens {P ds} {d : Tde4Deformer F} : n.attrs.nodeType = .lensDistort →
      n.getI32 "enable" = 1 → d.getI32 "enable" = 1 → Describes n d.getI32 d.getF32 →
      StandardCamera d.getF32 → lib.lensAccepts d = true → Makes lib frame n [⟨P, ds⟩] ⟨P, ds ++ [.tde4 d]⟩
  | off {L} : n.attrs.nodeType ∈ [.cropImage, .resampleImage, .transform, .lensDistort] →
      n.getI32 "enable" = 0 → Makes lib frame n [L] L
  | resampleIdle {L} : n.attrs.nodeType = .resampleImage → n.getI32 "enable" = 1 →
      n.getI32 "factor" = 0 → Makes lib frame n [L] L
  | resample {pick P Q ds} : n.attrs.nodeType = .resampleImage → n.getI32 "enable" = 1 →
      n.getI32 "factor" ≠ 0 → n.getI32 "interpolate" = 0 → Picks lib.oiio pick →
      P.space = colorSpaceLinear → P.channels = 4 →
      scaled (P.data.maxX - P.data.minX) (n.getI32 "factor") < 2147483648 →
      scaled (P.data.maxY - P.data.minY) (n.getI32 "factor") < 2147483648 →
      IsResampled pick (n.getI32 "factor") P Q → Makes lib frame n [⟨P, ds⟩] ⟨Q, ds⟩
  | crop {L R Q} : n.attrs.nodeType = .cropImage → n.getI32 "enable" = 1 →
      n.getI32 "black_outside" ≠ 1 → Rests lib L R → R.space = colorSpaceLinear →
      ValidSize (sizeFor (cropWindow n) R.channels) →
      IsCropped (cropWindow n) (decide (n.getI32 "reformat" = 1)) R Q → Makes lib frame n [L] ⟨Q, []⟩
  | merge {K L A B Q} : n.attrs.nodeType = .mergeImage → n.getI32 "enable" = 1 →
      MergeImageMode.ofI32 (n.getI32 "mode") ≠ .uninitialized → Rests lib K A → Rests lib L B →
      L.still.data = B.data →
      (A.channels = 3 ∨ A.channels = 4) → (B.channels = 3 ∨ B.channels = 4) →
      ValidSize (sizeFor ⟨min A.data.minX B.data.minX, min A.data.minY B.data.minY,
        max A.data.maxX B.data.maxX, max A.data.maxY B.data.maxY⟩ 4) →
      IsMerged (MergeImageMode.ofI32 (n.getI32 "mode")) (n.getF32 "mix") A B Q →
      Makes lib frame n [K, L] ⟨Q, []⟩
  | viewer {P Q ds t} : n.attrs.nodeType = .viewer → n.getI32 "enable" = 1 →
      n.getI32 "bake_option" = 2 → n.getI32 "crop_to_format" = 0 →
      n.getStr "bake_color_space" = colorSpaceLinear →
      (∀ own, wantedType (n.getI32 "bake_pixel_data_type") own = t) →
      IsBaked H t P Q → Makes lib frame n [⟨P, ds⟩] ⟨Q, ds⟩
  | viewerSpace {P ds} : n.attrs.nodeType = .viewer → n.getI32 "enable" = 1 →
      n.getI32 "bake_option" = 1 → n.getI32 "crop_to_format" = 0 →
      n.getStr "bake_color_space" = colorSpaceLinear → n.getI32 "bake_pixel_data_type" = 0 →
      P.space = colorSpaceLinear → Makes lib frame n [⟨P, ds⟩] ⟨P, ds⟩
  | viewerOff {L} : n.attrs.nodeType = .viewer → n.getI32 "enable" = 1 →
      n.getI32 "bake_option" = 0 → Makes lib frame n [L] L
  | write {L R} : n.attrs.nodeType = .writeImage → n.getI32 "enable" ≠ 0 →
      n.getI32 "execute" ≠ 0 → Rests lib L R → Writable lib frame n R → Makes lib frame n [L] L
  | writeOff {L} : n.attrs.nodeType = .writeImage →
      n.getI32 "enable" ≠ 0 → n.getI32 "execute" = 0 → Makes lib frame n [L] L

/-- `pic` gives every node upstream of `start` the picture, and the deformers waiting, that it should
make of those of its inputs. -/
def Pictures {C : Type} (lib : NodeLib F H) (srt : EdgeSort) (g : Graph (Node F) C) (start : Nat)
    (frame : F) (pic : Nat → Layer F) : Prop :=
  ∀ i n ins, Upstream g.graph start i → g.nodes[i]? = some n →
    g.graph.findDirectUpstream srt i = .ok ins → Makes lib frame n (ins.map pic) (pic i)

/-- What a write node hands to OpenImageIO for a picture that is stored with the given alpha and the
given type: the pixels in the colour space of the file format and the type asked for, cut to the
display window if asked for; the windows; the compression. -/
structure Written (lib : NodeLib F H) (frame : F) (n : Node F) (alpha : Bool) (own : DType)
    (P : Picture F) (job : WriteJob F H) : Prop where
  path : job.path = filePath lib n frame
  extra : job.extra = compressionAttrs (filePath lib n frame) (settings n)
  pixels : ∃ block, Delivers lib.bake.color alpha (fileSpace (filePath lib n frame))
      (wantedType (n.getI32 "pixel_data_type") own) P block ∧
    (¬ CropsFile (n.getI32 "crop_on_write") (filePath lib n frame) →
      (⟨job.size, job.block⟩ : PixelBlock F H) = block ∧ job.spec.x = P.data.minX ∧
        job.spec.y = P.data.minY) ∧
    (CropsFile (n.getI32 "crop_on_write") (filePath lib n frame) →
      CutOut block P.data ⟨job.size, job.block⟩ P.display ∧ job.spec.x = P.display.minX ∧
        job.spec.y = P.display.minY)
  width : job.spec.width = job.size.width
  height : job.spec.height = job.size.height
  channels : job.spec.numChannels = P.channels
  format : job.spec.format = .known (wantedType (n.getI32 "pixel_data_type") own)
  fullX : job.spec.fullX = P.display.minX
  fullY : job.spec.fullY = P.display.minY
  fullWidth : job.spec.fullWidth = P.display.maxX - P.display.minX
  fullHeight : job.spec.fullHeight = P.display.maxY - P.display.minY

/-- What a write node hands to OpenImageIO for a picture with deformers waiting: the picture with
them carried out, stored with some alpha and type. -/
def WrittenLayer (lib : NodeLib F H) (frame : F) (n : Node F) (L : Layer F) (job : WriteJob F H) :
    Prop :=
  ∃ alpha own R, Rests lib L R ∧ Written lib frame n alpha own R job

end OCG.PictureSpec
