import Verif.Proofs.Builds
import Verif.Props.CacheRun
/-
Property C130: what a debug build computes, a release build computes too.
-/

namespace OCG.Props
open Spec

section
variable {F H : Type} [FloatLike F] [HalfLike F H]

/-- C130: every operation of the cache. -/
theorem C130_cache {V : Type} (size : V → Nat) (c : Cache V) (ops : List (Cache.Op V)) :
    SameUnlessStopped (Cache.run size .debug c ops) (Cache.run size .release c ops) :=
  run_builds size ops c

/-- C130: cropping and merging images, and images from the `image` crate. -/
theorem C130_images (a b out : Image F H) (crop : BBox) (r o i : Bool) (mode : MergeImageMode)
    (mix : F) (pow : F → F → F) (d : DynImage) :
    SameUnlessStopped (cropImage .debug a crop r o i) (cropImage .release a crop r o i) ∧
    SameUnlessStopped (mergeImages .debug mode a b mix out)
      (mergeImages .release mode a b mix out) ∧
    SameUnlessStopped (fromDynamicImage pow .debug d : Res (PixelBlock F H))
      (fromDynamicImage pow .release d) :=
  ⟨cropImage_builds .., mergeImages_builds .., dynamic_builds ..⟩

/-- C130: lookup tables, with the cache they use. -/
theorem C130_tables [FloatBits F] (hf : ByteHash) (lib : ColorLib F) (src dst : Bytes) (n k : Int)
    (s : Stream F H) (c : Cache (Image F H)) :
    SameUnlessStopped (getTransformLut .debug hf lib src dst n c)
      (getTransformLut .release hf lib src dst n c) ∧
    SameUnlessStopped (getOpsLut .debug hf s n k c) (getOpsLut .release hf s n k c) :=
  ⟨getTransformLut_builds .., getOpsLut_builds ..⟩

omit [HalfLike F H] in
/-- C130: the sizes and contents of the buffers of a plane, and the text of a mesh. -/
theorem C130_planes (g : Plane F) (buf : List F) (ibuf : List Nat) (fmt : F → Bytes)
    (ps uvs : List F) (is : List Nat) :
    SameUnlessStopped (g.countVertex .debug) (g.countVertex .release) ∧
    SameUnlessStopped (g.sizePositions .debug) (g.sizePositions .release) ∧
    SameUnlessStopped (g.sizeUvs .debug) (g.sizeUvs .release) ∧
    SameUnlessStopped (g.sizeTris .debug) (g.sizeTris .release) ∧
    SameUnlessStopped (g.sizeBorder .debug) (g.sizeBorder .release) ∧
    SameUnlessStopped (g.sizeWire .debug) (g.sizeWire .release) ∧
    SameUnlessStopped (g.fillPositions .debug buf) (g.fillPositions .release buf) ∧
    SameUnlessStopped (g.fillUvs .debug buf) (g.fillUvs .release buf) ∧
    SameUnlessStopped (g.fillTris .debug ibuf) (g.fillTris .release ibuf) ∧
    SameUnlessStopped (g.fillBorder .debug ibuf) (g.fillBorder .release ibuf) ∧
    SameUnlessStopped (g.fillWire .debug ibuf) (g.fillWire .release ibuf) ∧
    SameUnlessStopped (Mesh.exportMesh .debug fmt ps uvs is)
      (Mesh.exportMesh .release fmt ps uvs is) :=
  ⟨countVertex_builds .., sizePositions_builds .., sizeUvs_builds .., sizeTris_builds ..,
    sizeBorder_builds .., sizeWire_builds .., fillPositions_builds .., fillUvs_builds ..,
    fillTris_builds .., fillBorder_builds .., fillWire_builds .., exportMesh_builds ..⟩

variable [FloatConst F] [FloatBits F]

/-- C130: every computation of a node gives the same status, stream, cache and files in both
builds, unless the debug build stops. -/
theorem C130_node (lib : NodeLib F H) (n : Node F) (fr : F) (m : Mode) (ins : List (Stream F H))
    (prev : Stream F H) (w : World F H) :
    SameUnlessStopped (n.run .debug lib fr m ins prev w) (n.run .release lib fr m ins prev w) :=
  nodeRun_builds lib n fr m ins prev w

/-- C130: every execution of a graph. -/
theorem C130_execution (lib : NodeLib F H) (srt : EdgeSort) (fuel : Nat)
    (g : Graph (Node F) (Stream F H)) (id : Nat) (frames : List F) (w : World F H) :
    SameUnlessStopped (g.execute (nodeSem .debug lib) srt fuel id frames w)
      (g.execute (nodeSem .release lib) srt fuel id frames w) :=
  execute_builds (nodeSem_builds lib) srt fuel g id frames w

/-- C130: whole sessions: any sequence of edits, executions and cache operations that goes through
in a debug build leads to the same graph, output, cache and files in a release build; and the debug
build stops elsewhere only at an overflow or an assertion. -/
theorem C130_session (lib : NodeLib F H) (srt : EdgeSort) (fuel : Nat) :
    ∀ (actions : List (Action F H)) (s : Graph (Node F) (Stream F H) × World F H),
      SameUnlessStopped (session .debug lib srt fuel actions s)
        (session .release lib srt fuel actions s) := by
  intro actions
  induction actions with
  | nil => intro s; exact .refl _
  | cons a as ih =>
    intro s
    unfold session
    refine .bind ?_ fun s' => ih s'
    cases a with
    | execute id frames => exact .bind (C130_execution ..) fun _ => .refl _
    | cache op => exact .bind (step_builds ..) fun _ => .refl _
    | addNode n =>
      unfold Action.perform Graph.addNode
      dsimp only [nodeSem]
      exact .refl _
    | removeNode id => unfold Action.perform; exact .refl _
    | connect a b slot => unfold Action.perform; exact .refl _
    | disconnect b slot => unfold Action.perform; exact .refl _
    | edit id f => unfold Action.perform; exact .refl _

/-- C130: what was tried out in a debug build is what the release build does. -/
theorem C130_follows (lib : NodeLib F H) (srt : EdgeSort) (fuel : Nat) (actions : List (Action F H))
    (s : Graph (Node F) (Stream F H) × World F H) :
    ReleaseFollows (session .debug lib srt fuel actions s)
      (session .release lib srt fuel actions s) :=
  (C130_session lib srt fuel actions s).follows

end

/-! ### Examples -/

attribute [local instance] finFloat finBits finHalf finPi

/-- A session that reads and crops an image, empties the cache, changes the crop and executes
again. -/
def buildActions : List (Action (Fin 256) (Fin 256)) :=
  [.execute 2 [1], .cache .evictAll,
   .edit 2 fun n => { n with attrs := .cropImage { pixelCrop with reformat := 1 } }, .execute 2 [1]]

/-- It goes through in the debug build, and so in the release build. -/
example : ∃ s, session .debug twoFiles insSort 20 buildActions (readCrop, blankWorld) =
      .ok s ∧
    session .release twoFiles insSort 20 buildActions (readCrop, blankWorld) = .ok s := by
  obtain ⟨s, hs⟩ : ∃ s, session .debug twoFiles insSort 20 buildActions
      (readCrop, blankWorld) = .ok s := ⟨_, rfl⟩
  exact ⟨s, hs, C130_follows _ _ _ _ _ s hs⟩

/-- The alternatives are needed: a node with two inputs stops the debug build only, -/
example : (nodeOf (.resampleImage twiceSize)).run .debug failingResample 1 modeAll
      [onePixel, onePixel] .new blankWorld = .error .assertion ∧
    statusOf ((nodeOf (.resampleImage twiceSize)).run .release failingResample 1 modeAll
      [onePixel, onePixel] .new blankWorld) = some .error :=
  ⟨rfl, by decide +kernel⟩

/-- and so does a rectangle whose width is not an `i32`. -/
example : (⟨-2147483648, 0, 2147483647, 1⟩ : BBox).width .debug = .error .overflow ∧
    (⟨-2147483648, 0, 2147483647, 1⟩ : BBox).width .release = .ok (-1) := by
  decide +kernel

/-- A cache with two inserts and a lookup. -/
example : SameUnlessStopped
    (Cache.run (fun n : Nat => n) .debug ⟨[], 10, 0, 0, 0, 0, 0⟩ [.insert 1 4, .insert 2 7, .get 1])
    (Cache.run (fun n : Nat => n) .release ⟨[], 10, 0, 0, 0, 0, 0⟩
      [.insert 1 4, .insert 2 7, .get 1]) := C130_cache _ _ _

end OCG.Props
