import Verif.Spec.Channels
import Verif.Spec.Idle
import Verif.Spec.Render
/-
C148: nodes that look at a picture, save it or tidy it up, without changing it.
-/

namespace OCG.OnlookSpec

open PictureSpec GraphSpec BuiltSpec IdleSpec ChannelSpec

variable {F H : Type} [FloatLike F] [HalfLike F H]

/-- A node that is not there to change the picture `L` that it is given:
* a node that does nothing;
* a resample node with the factor 0;
* a viewer that bakes nothing, or only the colour space of a linear picture;
* a viewer that bakes the colours of a linear picture of ordinary numbers, with a type that holds
  these numbers;
* a write node, switched to writing or not (if so, it must be able to write the picture);
* a crop of a linear picture of ordinary numbers to the window that it has already, with no deformer
  waiting. -/
inductive Onlooker [Libm single32] (lib : NodeLib F32 F16) (frame : F32) (n : Node F32)
    (L : Layer F32) : Prop
  | idle : Idle n → Onlooker lib frame n L
  | factor : n.attrs.nodeType = .resampleImage → n.getI32 "enable" = 1 → n.getI32 "factor" = 0 →
      Onlooker lib frame n L
  | shows : n.attrs.nodeType = .viewer → n.getI32 "enable" = 1 → n.getI32 "bake_option" = 0 →
      Onlooker lib frame n L
  | space : n.attrs.nodeType = .viewer → n.getI32 "enable" = 1 → n.getI32 "bake_option" = 1 →
      n.getI32 "crop_to_format" = 0 → n.getStr "bake_color_space" = colorSpaceLinear →
      n.getI32 "bake_pixel_data_type" = 0 → L.still.space = colorSpaceLinear →
      Onlooker lib frame n L
  | bakes (t : DType) : n.attrs.nodeType = .viewer → n.getI32 "enable" = 1 →
      n.getI32 "bake_option" = 2 → n.getI32 "crop_to_format" = 0 →
      n.getStr "bake_color_space" = colorSpaceLinear →
      (∀ own, wantedType (n.getI32 "bake_pixel_data_type") own = t) →
      L.still.space = colorSpaceLinear → Proper L.still →
      (∀ x y, BBoxSpec.Has L.still.data x y → ∀ v ∈ L.still.at_ x y, inType F16 t v = v) →
      Onlooker lib frame n L
  | keeps : n.attrs.nodeType = .writeImage → n.getI32 "enable" ≠ 0 → n.getI32 "execute" = 0 →
      Onlooker lib frame n L
  | saves (R : Picture F32) : n.attrs.nodeType = .writeImage → n.getI32 "enable" ≠ 0 →
      n.getI32 "execute" ≠ 0 → Rests lib L R → Writable lib frame n R → Onlooker lib frame n L
  | tidies : n.attrs.nodeType = .cropImage → n.getI32 "enable" = 1 →
      n.getI32 "black_outside" ≠ 1 → cropWindow n = L.still.data →
      (n.getI32 "reformat" = 1 → L.still.display = L.still.data) → L.moves = [] →
      L.still.space = colorSpaceLinear → Proper L.still → Onlooker lib frame n L

/-- The graph `g'` above `start'` is the graph `g` with onlookers put in: `φ` tells at which node of
`g` a node stands, and `pic` are the pictures of the nodes of `g`. -/
def LookedAt [Libm single32] (lib : NodeLib F32 F16) (frame : F32) (pic : Nat → Layer F32)
    (φ : Nat → Nat) (g g' : Graph (Node F32) (Stream F32 F16)) (start' : Nat) : Prop :=
  ∀ j, Upstream g'.graph start' j → SameAt SameSettings (fun i k => φ k = i) g g' (φ j) j ∨
    ∃ b, Passes (fun m => Onlooker lib frame m (pic (φ j))) g' j b ∧ φ b = φ j

end OCG.OnlookSpec
