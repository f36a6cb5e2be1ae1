import Verif.Spec.Builds
import Verif.Model.Compute
import Verif.Model.Plane
import Verif.Model.Mesh
import Verif.Model.ColorUtils
import Verif.Model.GraphCpp
/-
The two builds agree, function by function.
-/

namespace OCG
open Spec

namespace Spec.SameUnlessStopped

variable {α β σ : Type}

theorem refl (d : Res α) : SameUnlessStopped d d := .inl rfl

theorem bind {d r : Res α} {f g : α → Res β} (h : SameUnlessStopped d r)
    (hf : ∀ x, SameUnlessStopped (f x) (g x)) : SameUnlessStopped (d >>= f) (r >>= g) := by
  rcases h with h | h | h
  · subst h
    cases d with
    | error e => exact .inl rfl
    | ok x => exact hf x
  · subst h; exact .inr (.inl rfl)
  · subst h; exact .inr (.inr rfl)

theorem ite {c : Prop} [Decidable c] {a b a' b' : Res α} (h : SameUnlessStopped a b)
    (h' : SameUnlessStopped a' b') :
    SameUnlessStopped (if c then a else a') (if c then b else b') := by
  split <;> assumption

theorem forFrom {f g : Nat → σ → Res σ} (h : ∀ i s, SameUnlessStopped (f i s) (g i s)) :
    ∀ (n i : Nat) (s : σ), SameUnlessStopped (forFrom f n i s) (OCG.forFrom g n i s) := by
  intro n
  induction n with
  | zero => intro i s; exact refl _
  | succ n ih => intro i s; exact bind (h i s) fun s => ih _ s

theorem forRange {f g : Nat → σ → Res σ} (h : ∀ i s, SameUnlessStopped (f i s) (g i s)) (n : Nat)
    (s : σ) : SameUnlessStopped (forRange n f s) (OCG.forRange n g s) := forFrom h n 0 s

theorem follows {d r : Res α} (h : SameUnlessStopped d r) : ReleaseFollows d r := by
  intro x hx
  rcases h with h | h | h
  · rw [← h]; exact hx
  · rw [h] at hx; cases hx
  · rw [h] at hx; cases hx

end Spec.SameUnlessStopped

open SameUnlessStopped

/-- Lemmas about single functions are added to this tactic one by one. -/
syntax "builds_known" : tactic
macro_rules | `(tactic| builds_known) => `(tactic| with_reducible exact SameUnlessStopped.refl _)

/-- Goes through a definition in both builds at once. -/
macro "builds" : tactic => `(tactic| (
  repeat' (first
    | with_reducible refine SameUnlessStopped.bind ?_ ?_
    | with_reducible refine SameUnlessStopped.ite ?_ ?_
    | with_reducible refine SameUnlessStopped.forRange ?_ _ _
    | builds_known
    | intro _
    | split)))

theorem i32_builds (x : Int) : SameUnlessStopped (i32 .debug x) (i32 .release x) := by
  unfold i32; split
  · exact refl _
  · exact .inr (.inl rfl)

theorem u32_builds (x : Int) : SameUnlessStopped (u32 .debug x) (u32 .release x) := by
  unfold u32; split
  · exact refl _
  · exact .inr (.inl rfl)

theorem usub_builds (a b : Nat) : SameUnlessStopped (usub .debug a b) (usub .release a b) := by
  unfold usub; split
  · exact refl _
  · exact .inr (.inl rfl)

theorem uadd_builds (a b : Nat) : SameUnlessStopped (uadd .debug a b) (uadd .release a b) := by
  unfold uadd; split
  · exact refl _
  · exact .inr (.inl rfl)

theorem umul_builds (a b : Nat) : SameUnlessStopped (umul .debug a b) (umul .release a b) := by
  unfold umul; split
  · exact refl _
  · exact .inr (.inl rfl)

macro_rules | `(tactic| builds_known) => `(tactic| with_reducible exact i32_builds _)
macro_rules | `(tactic| builds_known) => `(tactic| with_reducible exact u32_builds _)
macro_rules | `(tactic| builds_known) => `(tactic| with_reducible exact usub_builds ..)
macro_rules | `(tactic| builds_known) => `(tactic| with_reducible exact uadd_builds ..)
macro_rules | `(tactic| builds_known) => `(tactic| with_reducible exact umul_builds ..)

/-! ### Rectangles and pixel blocks -/

theorem center_builds (b : BBox) : SameUnlessStopped (b.center .debug) (b.center .release) := by
  unfold BBox.center; builds

theorem width_builds (b : BBox) : SameUnlessStopped (b.width .debug) (b.width .release) := by
  unfold BBox.width; builds

theorem height_builds (b : BBox) : SameUnlessStopped (b.height .debug) (b.height .release) := by
  unfold BBox.height; builds

macro_rules | `(tactic| builds_known) => `(tactic| with_reducible exact width_builds _)
macro_rules | `(tactic| builds_known) => `(tactic| with_reducible exact height_builds _)

theorem area_builds (b : BBox) : SameUnlessStopped (b.area .debug) (b.area .release) := by
  unfold BBox.area; builds

macro_rules | `(tactic| builds_known) => `(tactic| with_reducible exact area_builds _)

theorem rowsNext_builds (b : BBox) (n : Nat) :
    SameUnlessStopped (b.rowsNext .debug n) (b.rowsNext .release n) := by
  unfold BBox.rowsNext; builds

theorem getIndex_builds (w h sx sy x y : Int) :
    SameUnlessStopped (getIndex .debug w h sx sy x y) (getIndex .release w h sx sy x y) := by
  unfold getIndex; builds

macro_rules | `(tactic| builds_known) => `(tactic| with_reducible exact getIndex_builds ..)

theorem size_builds (b : BlockSize) : SameUnlessStopped (b.size .debug) (b.size .release) := by
  unfold BlockSize.size; builds

theorem blockIndex_builds (b : BlockSize) (x y : Int) :
    SameUnlessStopped (b.getIndex .debug x y) (b.getIndex .release x y) := by
  unfold BlockSize.getIndex; builds

theorem getXY_builds (b : BlockSize) (n : Nat) :
    SameUnlessStopped (b.getXY .debug n) (b.getXY .release n) := by
  unfold BlockSize.getXY; builds

macro_rules | `(tactic| builds_known) => `(tactic| with_reducible exact size_builds _)
macro_rules | `(tactic| builds_known) => `(tactic| with_reducible exact blockIndex_builds ..)

theorem copyRows_builds {α : Type} (nc : Int) (data crop diff : BBox) (src : List α) :
    ∀ (n : Nat) (y : Int) (dst : List α),
      SameUnlessStopped (copyRows .debug nc data crop diff src n y dst)
        (copyRows .release nc data crop diff src n y dst) := by
  intro n
  induction n with
  | zero => intro y dst; exact refl _
  | succ n ih =>
    intro y dst
    unfold copyRows
    builds
    exact ih _ _

macro_rules | `(tactic| builds_known) => `(tactic| with_reducible exact copyRows_builds ..)

section
variable {F H : Type} [FloatLike F] [HalfLike F H]

theorem new_builds (b : BlockSize) (t : DataType) :
    SameUnlessStopped (PixelBlock.new .debug b t : Res (PixelBlock F H))
      (PixelBlock.new .release b t) := by
  unfold PixelBlock.new; builds

theorem fromDataBlock_builds (b : BlockSize) (d : DataBlock F H) :
    SameUnlessStopped (PixelBlock.fromDataBlock .debug b d)
      (PixelBlock.fromDataBlock .release b d) := by
  unfold PixelBlock.fromDataBlock; builds

theorem dataResize_builds (b : PixelBlock F H) (s : BlockSize) (t : DataType) :
    SameUnlessStopped (b.dataResize .debug s t) (b.dataResize .release s t) := by
  unfold PixelBlock.dataResize; builds

macro_rules | `(tactic| builds_known) => `(tactic| with_reducible exact new_builds ..)
macro_rules | `(tactic| builds_known) => `(tactic| with_reducible exact fromDataBlock_builds ..)
macro_rules | `(tactic| builds_known) => `(tactic| with_reducible exact dataResize_builds ..)

theorem fromPixelBlock_builds (b : PixelBlock F H) (data crop : BBox) :
    SameUnlessStopped (b.fromPixelBlock .debug data crop) (b.fromPixelBlock .release data crop) := by
  unfold PixelBlock.fromPixelBlock; builds

macro_rules | `(tactic| builds_known) => `(tactic| with_reducible exact fromPixelBlock_builds ..)

/-! ### Images -/

theorem cropImage_builds (i : Image F H) (c : BBox) (a b d : Bool) :
    SameUnlessStopped (cropImage .debug i c a b d)
      (cropImage .release i c a b d) := by
  unfold cropImage; builds

macro_rules | `(tactic| builds_known) => `(tactic| with_reducible exact cropImage_builds ..)

theorem mergePixel_builds (i : Image F H) (x y : Int) :
    SameUnlessStopped (mergePixel .debug i x y)
      (mergePixel .release i x y) := by
  unfold mergePixel; builds

macro_rules | `(tactic| builds_known) => `(tactic| with_reducible exact mergePixel_builds ..)

theorem mergeStep_builds (m : MergeImageMode) (mix : F) (a b : Image F H) (w : BBox) (s i j : Nat)
    (st : List F × Nat) :
    SameUnlessStopped (mergeStep .debug m mix a b w s i j st)
      (mergeStep .release m mix a b w s i j st) := by
  unfold mergeStep; builds

macro_rules | `(tactic| builds_known) => `(tactic| with_reducible exact mergeStep_builds ..)

theorem mergeImages_builds (m : MergeImageMode) (a b : Image F H) (mix : F) (out : Image F H) :
    SameUnlessStopped (mergeImages .debug m a b mix out)
      (mergeImages .release m a b mix out) := by
  unfold mergeImages; builds

macro_rules | `(tactic| builds_known) => `(tactic| with_reducible exact mergeImages_builds ..)

theorem nearest_builds (n : Int) (x : F) :
    SameUnlessStopped (nearest .debug n x)
      (nearest .release n x) := by
  unfold nearest; builds

macro_rules | `(tactic| builds_known) => `(tactic| with_reducible exact nearest_builds ..)

theorem getPixel_builds (n : Nat) (px : List F) (w h sx sy : Int) (x y : F) :
    SameUnlessStopped (getPixel .debug n px w h sx sy x y)
      (getPixel .release n px w h sx sy x y) := by
  unfold getPixel; builds

macro_rules | `(tactic| builds_known) => `(tactic| with_reducible exact getPixel_builds ..)

theorem remapCoord_builds (a b c d : Int) (x : F) :
    SameUnlessStopped (remapCoord .debug a b c d x)
      (remapCoord .release a b c d x) := by
  unfold remapCoord; builds

macro_rules | `(tactic| builds_known) => `(tactic| with_reducible exact remapCoord_builds ..)

theorem remapStep_builds (d : BBox) (cs px : List F) (s : BlockSize) (w : BBox) (ys : Int)
    (a b i j : Nat) (st : List F × Nat) :
    SameUnlessStopped (remapStep .debug d cs px s w ys a b i j st)
      (remapStep .release d cs px s w ys a b i j st) := by
  unfold remapStep; builds

macro_rules | `(tactic| builds_known) => `(tactic| with_reducible exact remapStep_builds ..)

theorem remap_builds (d : BBox) (cs : List F) (src : PixelBlock F H) (w : BBox)
    (dst : PixelBlock F H) :
    SameUnlessStopped (pixelsRemapCoords .debug d cs src w dst)
      (pixelsRemapCoords .release d cs src w dst) := by
  unfold pixelsRemapCoords; builds

macro_rules | `(tactic| builds_known) => `(tactic| with_reducible exact remap_builds ..)

theorem deform_builds [FloatConst F] (lib : DeformLib F) (ds : List (Deformer F)) (d : BBox)
    (src : PixelBlock F H) (w : BBox) (dst : PixelBlock F H) :
    SameUnlessStopped (applyDeformersToPixels .debug lib ds d src w dst)
      (applyDeformersToPixels .release lib ds d src w dst) := by
  unfold applyDeformersToPixels; builds

macro_rules | `(tactic| builds_known) => `(tactic| with_reducible exact deform_builds ..)

theorem bake_builds [FloatConst F] (lib : BakeLib F) (o : BakeOption) (d : BBox) (b : Baked F H)
    (src dst : Bytes) (t : DataType) :
    SameUnlessStopped (bake .debug lib o d b src dst t)
      (bake .release lib o d b src dst t) := by
  unfold bake; builds

macro_rules | `(tactic| builds_known) => `(tactic| with_reducible exact bake_builds ..)

/-! ### The cache -/

section
variable {V : Type} (size : V → Nat)

theorem evict_builds (c : Cache V) :
    SameUnlessStopped (Cache.evict size .debug c)
      (Cache.evict size .release c) := by
  unfold Cache.evict; builds

macro_rules | `(tactic| builds_known) => `(tactic| with_reducible exact evict_builds ..)

theorem evictWhile_builds (n : Nat) : ∀ (fuel : Nat) (c : Cache V),
    SameUnlessStopped (Cache.evictWhile size .debug n fuel c)
      (Cache.evictWhile size .release n fuel c) := by
  intro fuel
  induction fuel with
  | zero => intro c; exact refl _
  | succ fuel ih =>
    intro c
    unfold Cache.evictWhile
    builds
    exact ih _

theorem evictAllLoop_builds : ∀ (fuel : Nat) (c : Cache V),
    SameUnlessStopped (Cache.evictAllLoop size .debug fuel c)
      (Cache.evictAllLoop size .release fuel c) := by
  intro fuel
  induction fuel with
  | zero => intro c; exact refl _
  | succ fuel ih =>
    intro c
    unfold Cache.evictAllLoop
    builds
    exact ih _

macro_rules | `(tactic| builds_known) => `(tactic| with_reducible exact evictWhile_builds ..)
macro_rules | `(tactic| builds_known) => `(tactic| with_reducible exact evictAllLoop_builds ..)

theorem evictAll_builds (c : Cache V) :
    SameUnlessStopped (Cache.evictAll size .debug c)
      (Cache.evictAll size .release c) := by
  unfold Cache.evictAll; builds

macro_rules | `(tactic| builds_known) => `(tactic| with_reducible exact evictAll_builds ..)

theorem evictBytes_builds (c : Cache V) (n : Nat) :
    SameUnlessStopped (Cache.evictBytes size .debug c n)
      (Cache.evictBytes size .release c n) := by
  unfold Cache.evictBytes; builds

macro_rules | `(tactic| builds_known) => `(tactic| with_reducible exact evictBytes_builds ..)

theorem setCapacity_builds (c : Cache V) (n : Nat) :
    SameUnlessStopped (Cache.setCapacity size .debug c n)
      (Cache.setCapacity size .release c n) := by
  unfold Cache.setCapacity; builds

macro_rules | `(tactic| builds_known) => `(tactic| with_reducible exact setCapacity_builds ..)

theorem insert_builds (c : Cache V) (k : Nat) (v : V) :
    SameUnlessStopped (Cache.insert size .debug c k v)
      (Cache.insert size .release c k v) := by
  unfold Cache.insert; builds

macro_rules | `(tactic| builds_known) => `(tactic| with_reducible exact insert_builds ..)

theorem step_builds (c : Cache V) (op : Cache.Op V) :
    SameUnlessStopped (Cache.step size .debug c op)
      (Cache.step size .release c op) := by
  unfold Cache.step; builds

macro_rules | `(tactic| builds_known) => `(tactic| with_reducible exact step_builds ..)

theorem getOrInsert_builds (c : Cache V) (k : Nat) (v : V) :
    SameUnlessStopped (Cache.getOrInsert size .debug c k v)
      (Cache.getOrInsert size .release c k v) := by
  unfold Cache.getOrInsert; builds

macro_rules | `(tactic| builds_known) => `(tactic| with_reducible exact getOrInsert_builds ..)

theorem run_builds : ∀ (ops : List (Cache.Op V)) (c : Cache V),
    SameUnlessStopped (Cache.run size .debug c ops) (Cache.run size .release c ops) := by
  intro ops
  induction ops with
  | nil => intro c; exact refl _
  | cons op ops ih =>
    intro c
    unfold Cache.run
    builds
    exact ih _

end

/-! ### Files and nodes -/

theorem allocate_builds (s : FileSpec F) (i : Image F H) :
    SameUnlessStopped (oiioAllocate .debug s i)
      (oiioAllocate .release s i) := by
  unfold oiioAllocate; builds

macro_rules | `(tactic| builds_known) => `(tactic| with_reducible exact allocate_builds ..)

theorem oiioRead_builds (o : Oiio F H) (path : Bytes) (i : Image F H) :
    SameUnlessStopped (oiioRead .debug o path i)
      (oiioRead .release o path i) := by
  unfold oiioRead; builds

macro_rules | `(tactic| builds_known) => `(tactic| with_reducible exact oiioRead_builds ..)

theorem readImage_builds (o : Oiio F H) (path : Bytes) :
    SameUnlessStopped (readImage .debug o path)
      (readImage .release o path) := by
  unfold readImage; builds

macro_rules | `(tactic| builds_known) => `(tactic| with_reducible exact readImage_builds ..)

theorem writeImage_builds (o : Oiio F H) (i : Image F H) (path : Bytes) (b : Bool) (c : ImageCompression) :
    SameUnlessStopped (writeImage .debug o i path b c)
      (writeImage .release o i path b c) := by
  unfold writeImage; builds

macro_rules | `(tactic| builds_known) => `(tactic| with_reducible exact writeImage_builds ..)

theorem oiioResample_builds (o : Oiio F H) (a b : Image F H) (n : Int) (i : Bool) :
    SameUnlessStopped (oiioResample .debug o a b n i)
      (oiioResample .release o a b n i) := by
  unfold oiioResample; builds

macro_rules | `(tactic| builds_known) => `(tactic| with_reducible exact oiioResample_builds ..)

theorem lookup_builds {X : Type} (use : Bool) (w : World F H) (k : Nat) (hit : X)
    {make make' : Res (Image F H × X)} (h : SameUnlessStopped make make') :
    SameUnlessStopped (lookup .debug use w k hit make) (lookup .release use w k hit make') := by
  unfold lookup
  builds
  all_goals exact h

macro_rules | `(tactic| builds_known) => `(tactic| with_reducible refine lookup_builds _ _ _ _ ?_)

variable [FloatConst F]

theorem readNode_builds (lib : NodeLib F H) (a : ReadImageAttrs) (fr : F) (h : Nat) (m : Mode)
    (prev : Stream F H) (w : World F H) :
    SameUnlessStopped (a.compute .debug lib fr h m prev w)
      (a.compute .release lib fr h m prev w) := by
  unfold ReadImageAttrs.compute
  refine ite (ite (refl _) ?_) (refl _)
  dsimp only
  cases lib.pathKind (Path.expandString lib.shell a.filePath (frameNum fr)) <;> dsimp only <;>
    builds

macro_rules | `(tactic| builds_known) => `(tactic| with_reducible exact readNode_builds ..)

theorem writeProcess_builds (lib : NodeLib F H) (s : Stream F H) (path : Bytes) (fr : F)
    (t : DataType) (cr : CropOnWrite) (c : ImageCompression) :
    SameUnlessStopped (writeProcess .debug lib s path fr t cr c)
      (writeProcess .release lib s path fr t cr c) := by
  unfold writeProcess; builds

macro_rules | `(tactic| builds_known) => `(tactic| with_reducible exact writeProcess_builds ..)

theorem writeNode_builds (lib : NodeLib F H) (a : WriteImageAttrs) (fr : F)
    (ins : List (Stream F H)) (w : World F H) :
    SameUnlessStopped (a.compute .debug lib fr ins w)
      (a.compute .release lib fr ins w) := by
  unfold WriteImageAttrs.compute; builds

macro_rules | `(tactic| builds_known) => `(tactic| with_reducible exact writeNode_builds ..)

theorem mergeProcess_builds (lib : NodeLib F H) (a b : Stream F H) (m : MergeImageMode) (mix : F) :
    SameUnlessStopped (mergeProcess .debug lib a b m mix)
      (mergeProcess .release lib a b m mix) := by
  unfold mergeProcess; builds

macro_rules | `(tactic| builds_known) => `(tactic| with_reducible exact mergeProcess_builds ..)

theorem mergeNode_builds (lib : NodeLib F H) (a : MergeImageAttrs F) (h : Nat)
    (ins : List (Stream F H)) (w : World F H) :
    SameUnlessStopped (a.compute .debug lib h ins w)
      (a.compute .release lib h ins w) := by
  unfold MergeImageAttrs.compute; builds

macro_rules | `(tactic| builds_known) => `(tactic| with_reducible exact mergeNode_builds ..)

theorem resampleProcess_builds (lib : NodeLib F H) (s : Stream F H) (n : Int) (i : Bool) :
    SameUnlessStopped (resampleProcess .debug lib s n i)
      (resampleProcess .release lib s n i) := by
  unfold resampleProcess; builds

macro_rules | `(tactic| builds_known) => `(tactic| with_reducible exact resampleProcess_builds ..)

theorem ensure_builds {c c' : Prop} [Decidable c] [Decidable c'] (hc : c') :
    SameUnlessStopped (ensure c) (ensure c') := by
  unfold ensure
  rw [if_pos hc]
  split
  · exact refl _
  · exact .inr (.inr rfl)

macro_rules
  | `(tactic| builds_known) => `(tactic| with_reducible exact ensure_builds (.inl rfl))

theorem resampleNode_builds (lib : NodeLib F H) (a : ResampleImageAttrs) (h : Nat)
    (ins : List (Stream F H)) (w : World F H) :
    SameUnlessStopped (a.compute .debug lib h ins w)
      (a.compute .release lib h ins w) := by
  unfold ResampleImageAttrs.compute; builds

macro_rules | `(tactic| builds_known) => `(tactic| with_reducible exact resampleNode_builds ..)

theorem cropProcess_builds (lib : NodeLib F H) (s : Stream F H) (c : BBox) (x y z : Bool) :
    SameUnlessStopped (cropProcess .debug lib s c x y z)
      (cropProcess .release lib s c x y z) := by
  unfold cropProcess; builds

macro_rules | `(tactic| builds_known) => `(tactic| with_reducible exact cropProcess_builds ..)

theorem cropNode_builds (lib : NodeLib F H) (a : CropImageAttrs) (h : Nat)
    (ins : List (Stream F H)) (w : World F H) :
    SameUnlessStopped (a.compute .debug lib h ins w)
      (a.compute .release lib h ins w) := by
  unfold CropImageAttrs.compute; builds

macro_rules | `(tactic| builds_known) => `(tactic| with_reducible exact cropNode_builds ..)

theorem viewerProcess_builds (lib : NodeLib F H) (s : Stream F H) (o : BakeOption) (t : DataType)
    (c : Bool) (dst : Bytes) :
    SameUnlessStopped (viewerProcess .debug lib s o t c dst)
      (viewerProcess .release lib s o t c dst) := by
  unfold viewerProcess; builds

macro_rules | `(tactic| builds_known) => `(tactic| with_reducible exact viewerProcess_builds ..)

theorem viewerNode_builds (lib : NodeLib F H) (a : ViewerAttrs) (h : Nat) (ins : List (Stream F H))
    (prev : Stream F H) (w : World F H) :
    SameUnlessStopped (a.compute .debug lib h ins prev w)
      (a.compute .release lib h ins prev w) := by
  unfold ViewerAttrs.compute; builds

macro_rules | `(tactic| builds_known) => `(tactic| with_reducible exact viewerNode_builds ..)

variable [FloatBits F]

theorem nodeRun_builds (lib : NodeLib F H) (n : Node F) (fr : F) (m : Mode)
    (ins : List (Stream F H)) (prev : Stream F H) (w : World F H) :
    SameUnlessStopped (n.run .debug lib fr m ins prev w)
      (n.run .release lib fr m ins prev w) := by
  unfold Node.run; builds

macro_rules | `(tactic| builds_known) => `(tactic| with_reducible exact nodeRun_builds ..)


end

/-! ### Lookup tables, planes and meshes -/

section
variable {F H : Type} [FloatLike F]

theorem lutImageSize_builds (c n : Int) :
    SameUnlessStopped (lutImageSize F .debug c n)
      (lutImageSize F .release c n) := by
  unfold lutImageSize; builds

macro_rules | `(tactic| builds_known) => `(tactic| with_reducible exact lutImageSize_builds ..)

theorem identityLut_builds (img : List F) (e n : Int) :
    SameUnlessStopped (identityLut .debug img e n)
      (identityLut .release img e n) := by
  unfold identityLut; builds

macro_rules | `(tactic| builds_known) => `(tactic| with_reducible exact identityLut_builds ..)

variable [HalfLike F H]

theorem updateF32_builds (b : PixelBlock F H) {f g : List F → Res (List F)}
    (h : ∀ px, SameUnlessStopped (f px) (g px)) :
    SameUnlessStopped (b.updateF32 f) (b.updateF32 g) := by
  unfold PixelBlock.updateF32
  builds
  all_goals exact h _

macro_rules | `(tactic| builds_known) => `(tactic| with_reducible refine updateF32_builds _ ?_)

theorem transformLut_builds (lib : ColorLib F) (c n : Int) (src dst : Bytes) :
    SameUnlessStopped (generateTransformLut .debug lib c n src dst : Res (Image F H))
      (generateTransformLut .release lib c n src dst) := by
  unfold generateTransformLut; builds

macro_rules | `(tactic| builds_known) => `(tactic| with_reducible exact transformLut_builds ..)

theorem cached_builds (c : Cache (Image F H)) (k : Nat) {make make' : Res (Image F H)}
    (h : SameUnlessStopped make make') :
    SameUnlessStopped (cached .debug c k make) (cached .release c k make') := by
  unfold cached
  builds
  all_goals exact h

macro_rules | `(tactic| builds_known) => `(tactic| with_reducible refine cached_builds _ _ ?_)

theorem getTransformLut_builds (hf : ByteHash) (lib : ColorLib F) (src dst : Bytes) (n : Int)
    (c : Cache (Image F H)) :
    SameUnlessStopped (getTransformLut .debug hf lib src dst n c)
      (getTransformLut .release hf lib src dst n c) := by
  unfold getTransformLut; builds

macro_rules | `(tactic| builds_known) => `(tactic| with_reducible exact getTransformLut_builds ..)

theorem opsLut_builds (c n : Int) (ops : List (GradeOp F)) :
    SameUnlessStopped (generateOpsLut .debug c n ops : Res (Image F H))
      (generateOpsLut .release c n ops) := by
  unfold generateOpsLut; builds

macro_rules | `(tactic| builds_known) => `(tactic| with_reducible exact opsLut_builds ..)

theorem getOpsLut_builds [FloatBits F] (hf : ByteHash) (s : Stream F H) (n k : Int)
    (c : Cache (Image F H)) :
    SameUnlessStopped (getOpsLut .debug hf s n k c)
      (getOpsLut .release hf s n k c) := by
  unfold getOpsLut; builds

macro_rules | `(tactic| builds_known) => `(tactic| with_reducible exact getOpsLut_builds ..)

theorem dynamic_builds (pow : F → F → F) (i : DynImage) :
    SameUnlessStopped (fromDynamicImage pow .debug i : Res (PixelBlock F H))
      (fromDynamicImage pow .release i) := by
  unfold fromDynamicImage; builds

macro_rules | `(tactic| builds_known) => `(tactic| with_reducible exact dynamic_builds ..)

theorem countVertex_builds (g : Plane F) :
    SameUnlessStopped (g.countVertex .debug)
      (g.countVertex .release) := by
  unfold Plane.countVertex; builds

macro_rules | `(tactic| builds_known) => `(tactic| with_reducible exact countVertex_builds ..)

theorem sizePositions_builds (g : Plane F) :
    SameUnlessStopped (g.sizePositions .debug)
      (g.sizePositions .release) := by
  unfold Plane.sizePositions; builds

macro_rules | `(tactic| builds_known) => `(tactic| with_reducible exact sizePositions_builds ..)

theorem sizeUvs_builds (g : Plane F) :
    SameUnlessStopped (g.sizeUvs .debug)
      (g.sizeUvs .release) := by
  unfold Plane.sizeUvs; builds

macro_rules | `(tactic| builds_known) => `(tactic| with_reducible exact sizeUvs_builds ..)

theorem sizeTris_builds (g : Plane F) :
    SameUnlessStopped (g.sizeTris .debug)
      (g.sizeTris .release) := by
  unfold Plane.sizeTris; builds

macro_rules | `(tactic| builds_known) => `(tactic| with_reducible exact sizeTris_builds ..)

theorem sizeBorder_builds (g : Plane F) :
    SameUnlessStopped (g.sizeBorder .debug)
      (g.sizeBorder .release) := by
  unfold Plane.sizeBorder; builds

macro_rules | `(tactic| builds_known) => `(tactic| with_reducible exact sizeBorder_builds ..)

theorem sizeWire_builds (g : Plane F) :
    SameUnlessStopped (g.sizeWire .debug)
      (g.sizeWire .release) := by
  unfold Plane.sizeWire; builds

macro_rules | `(tactic| builds_known) => `(tactic| with_reducible exact sizeWire_builds ..)

theorem getIndexes_builds (g : Plane F) (r c : Nat) :
    SameUnlessStopped (g.getIndexes .debug r c)
      (g.getIndexes .release r c) := by
  unfold Plane.getIndexes; builds

macro_rules | `(tactic| builds_known) => `(tactic| with_reducible exact getIndexes_builds ..)

theorem fillPositions_builds (g : Plane F) (buf : List F) :
    SameUnlessStopped (g.fillPositions .debug buf)
      (g.fillPositions .release buf) := by
  unfold Plane.fillPositions; builds

macro_rules | `(tactic| builds_known) => `(tactic| with_reducible exact fillPositions_builds ..)

theorem fillUvs_builds (g : Plane F) (buf : List F) :
    SameUnlessStopped (g.fillUvs .debug buf)
      (g.fillUvs .release buf) := by
  unfold Plane.fillUvs; builds

macro_rules | `(tactic| builds_known) => `(tactic| with_reducible exact fillUvs_builds ..)

theorem fillTris_builds (g : Plane F) (buf : List Nat) :
    SameUnlessStopped (g.fillTris .debug buf)
      (g.fillTris .release buf) := by
  unfold Plane.fillTris; builds

macro_rules | `(tactic| builds_known) => `(tactic| with_reducible exact fillTris_builds ..)

theorem fillBorder_builds (g : Plane F) (buf : List Nat) :
    SameUnlessStopped (g.fillBorder .debug buf)
      (g.fillBorder .release buf) := by
  unfold Plane.fillBorder; builds

macro_rules | `(tactic| builds_known) => `(tactic| with_reducible exact fillBorder_builds ..)

theorem fillWire_builds (g : Plane F) (buf : List Nat) :
    SameUnlessStopped (g.fillWire .debug buf)
      (g.fillWire .release buf) := by
  unfold Plane.fillWire; builds

macro_rules | `(tactic| builds_known) => `(tactic| with_reducible exact fillWire_builds ..)

theorem faceLoop_builds (is : List Nat) (d : Bytes) :
    SameUnlessStopped (Mesh.faceLoop .debug is d)
      (Mesh.faceLoop .release is d) := by
  unfold Mesh.faceLoop; builds

macro_rules | `(tactic| builds_known) => `(tactic| with_reducible exact faceLoop_builds ..)

theorem exportMesh_builds (fmt : F → Bytes) (ps uvs : List F) (is : List Nat) :
    SameUnlessStopped (Mesh.exportMesh .debug fmt ps uvs is)
      (Mesh.exportMesh .release fmt ps uvs is) := by
  unfold Mesh.exportMesh; builds

macro_rules | `(tactic| builds_known) => `(tactic| with_reducible exact exportMesh_builds ..)

end

/-! ### Executions -/

section
variable {N S C Fr : Type}

/-- Two versions of the nodes that agree unless the first stops. -/
structure SameNodes (sem sem' : NodeSem N S C Fr) : Prop where
  hash : sem.hash = sem'.hash
  validate : sem.validate = sem'.validate
  compute : ∀ n fr m ins prev c,
    SameUnlessStopped (sem.compute n fr m ins prev c) (sem'.compute n fr m ins prev c)

variable {sem sem' : NodeSem N S C Fr}

theorem hashPhase_builds (h : SameNodes sem sem') (srt : EdgeSort) (g : Graph N S) (fr : Fr) :
    ∀ (l : List Nat) (m : Graph.IdxMap Nat),
      Graph.hashPhase sem srt g fr l m = Graph.hashPhase sem' srt g fr l m := by
  intro l
  induction l with
  | nil => intro m; rfl
  | cons i is ih => intro m; unfold Graph.hashPhase; simp only [h.hash, ih]

theorem validateLoop_builds (h : SameNodes sem sem') (srt : EdgeSort) (g : Graph N S)
    (hashes : Graph.IdxMap Nat) : ∀ (fuel : Nat) (stack done : List (Nat × Mode)),
      Graph.validateLoop sem srt g hashes fuel stack done =
        Graph.validateLoop sem' srt g hashes fuel stack done := by
  intro fuel
  induction fuel with
  | zero => intro _ _; rfl
  | succ fuel ih =>
    intro stack done
    cases stack with
    | nil => rfl
    | cons x stack => unfold Graph.validateLoop; simp only [h.validate, ih]

theorem computePhase_builds (h : SameNodes sem sem') (srt : EdgeSort) (fr : Fr) :
    ∀ (l : List (Nat × Mode)) (g : Graph N S) (c : C) (m : Graph.IdxMap S),
      SameUnlessStopped (Graph.computePhase sem srt fr l g c m)
        (Graph.computePhase sem' srt fr l g c m) := by
  intro l
  induction l with
  | nil => intro g c m; exact refl _
  | cons x l ih =>
    intro g c m
    obtain ⟨i, mode⟩ := x
    unfold Graph.computePhase
    refine bind (refl _) fun parents => bind (refl _) fun ins => ?_
    cases g.nodes[i]? with
    | none => exact refl _
    | some n =>
      refine bind (h.compute n fr mode ins g.output c) fun r => ?_
      obtain ⟨n', st, out, c'⟩ := r
      dsimp only
      cases Graph.statusError st with
      | some e => exact refl _
      | none => exact ih _ _ _

theorem executeFrame_builds (h : SameNodes sem sem') (srt : EdgeSort) (fuel : Nat) (g : Graph N S)
    (order : List Nat) (fr : Fr) (c : C) :
    SameUnlessStopped (g.executeFrame sem srt fuel order fr c)
      (g.executeFrame sem' srt fuel order fr c) := by
  unfold Graph.executeFrame
  rw [hashPhase_builds h]
  refine bind (refl _) fun hashes => ?_
  cases order with
  | nil => exact refl _
  | cons start rest =>
    dsimp only
    rw [validateLoop_builds h]
    exact bind (refl _) fun v => computePhase_builds h srt fr _ g c _

theorem frameLoop_builds (h : SameNodes sem sem') (srt : EdgeSort) (fuel : Nat)
    (order : List Nat) : ∀ (frames : List Fr) (g : Graph N S) (c : C),
      SameUnlessStopped (Graph.frameLoop sem srt fuel order frames g c)
        (Graph.frameLoop sem' srt fuel order frames g c) := by
  intro frames
  induction frames with
  | nil => intro g c; exact refl _
  | cons fr frames ih =>
    intro g c
    unfold Graph.frameLoop
    refine bind (executeFrame_builds h srt fuel g order fr c) fun r => ?_
    obtain ⟨e, g', c'⟩ := r
    cases e with
    | some e => exact refl _
    | none => exact ih _ _

theorem execute_builds (h : SameNodes sem sem') (srt : EdgeSort) (fuel : Nat) (g : Graph N S)
    (id : Nat) (frames : List Fr) (c : C) :
    SameUnlessStopped (g.execute sem srt fuel id frames c)
      (g.execute sem' srt fuel id frames c) := by
  unfold Graph.execute
  cases g.find id with
  | none => exact refl _
  | some start =>
    exact bind (refl _) fun order => bind (frameLoop_builds h srt fuel order frames g c)
      fun r => refl _

end

section
variable {F H : Type} [FloatLike F] [HalfLike F H] [FloatConst F] [FloatBits F]

theorem nodeSem_builds (lib : NodeLib F H) :
    SameNodes (nodeSem .debug lib) (nodeSem .release lib) where
  hash := rfl
  validate := rfl
  compute n fr m ins prev w :=
    bind (nodeRun_builds lib n fr m ins prev w) fun _ => refl _

end
end OCG
