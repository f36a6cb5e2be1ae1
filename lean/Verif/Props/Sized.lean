import Verif.Proofs.Sized
import Verif.Props.CacheRun
/-
Property C99: images have the pixels they claim to have.
-/

namespace OCG.Props

open SizedSpec

section
variable {F H : Type} [FloatLike F] [HalfLike F H] [FloatConst F]

/-- What is kept about the cache and the written files. -/
structure SizedWorld (p : Profile) (w : World F H) : Prop where
  cache : Cache.Good (fun _ i => Sized p i.pixelBlock i.dataWindow) w.cache
  writes : ∀ j ∈ w.writes, ∃ window, Sized p ⟨j.size, j.block⟩ window ∧
    j.spec.x = window.minX ∧ j.spec.y = window.minY ∧ j.spec.width = j.size.width ∧
    j.spec.height = j.size.height

theorem new_stream_sized (p : Profile) :
    Sized p (Stream.new : Stream F H).pixelBlock (Stream.new : Stream F H).dataWindow :=
  ⟨rfl, rfl, rfl⟩

theorem writeImage_sized {p : Profile} {oiio : Oiio F H} {image : Image F H} {path : Bytes}
    {crop flag : Bool} {c : ImageCompression} {j : WriteJob F H}
    (h : Sized p image.pixelBlock image.dataWindow)
    (e : writeImage p oiio image path crop c = .ok (flag, some j)) :
    ∃ window, Sized p ⟨j.size, j.block⟩ window ∧
      j.spec.x = window.minX ∧ j.spec.y = window.minY ∧ j.spec.width = j.size.width ∧
      j.spec.height = j.size.height := by
  have : ∃ out : Image F H, Sized p out.pixelBlock out.dataWindow ∧
      oiioWrite oiio path out c = .ok (flag, some j) := by
    unfold writeImage at e
    dsimp only at e
    split at e
    · obtain ⟨out, e1, e⟩ := Res.bind_ok.mp e
      exact ⟨out, cropImage_sized e1, e⟩
    · obtain ⟨out, e1, e⟩ := Res.bind_ok.mp e
      cases e1
      refine ⟨_, ?_, e⟩
      exact h
  obtain ⟨out, ho, e⟩ := this
  unfold oiioWrite at e
  split at e
  · obtain ⟨spec, e2, e⟩ := Res.bind_ok.mp e
    cases e
    unfold writeSpec at e2
    obtain ⟨_, -, e2⟩ := Res.bind_ok.mp e2
    obtain ⟨_, -, e2⟩ := Res.bind_ok.mp e2
    cases e2
    exact ⟨out.dataWindow, ho, rfl, rfl, rfl, rfl⟩
  · cases e

variable [FloatBits F]

/-- Every node gives streams with the right number of values when it gets such streams. -/
theorem run_sized {p : Profile} {lib : NodeLib F H} (hk : PictureSpec.KeepsLength lib.bake.color)
    (ho : IntSizes lib.oiio) {n : Node F} {frame : F} {mode : Mode}
    {inputs : List (Stream F H)} {prev out : Stream F H} {w w' : World F H} {st : NodeStatus}
    (hi : ∀ s ∈ inputs, Sized p s.pixelBlock s.dataWindow)
    (hp : Sized p prev.pixelBlock prev.dataWindow) (hw : SizedWorld p w)
    (e : n.run p lib frame mode inputs prev w = .ok (st, out, w')) :
    Sized p out.pixelBlock out.dataWindow ∧ SizedWorld p w' := by
  obtain ⟨id, s, attrs⟩ := n
  have h0 := new_stream_sized (F := F) (H := H) p
  have hm : Sized p (match inputs with
      | [] => (.new : Stream F H)
      | input :: _ => input).pixelBlock (match inputs with
      | [] => (.new : Stream F H)
      | input :: _ => input).dataWindow := by
    cases inputs with
    | nil => exact h0
    | cons i l => exact hi i List.mem_cons_self
  have hl : ∀ {X : Type} {u : Bool} {w1 : World F H} {key : Nat} {hit x : X}
      {make : Res (Image F H × X)} {i : Image F H},
      (∀ i x, make = .ok (i, x) → Sized p i.pixelBlock i.dataWindow) →
      lookup p u w key hit make = .ok (w1, i, x) →
      Sized p i.pixelBlock i.dataWindow ∧ SizedWorld p w1 := by
    intro X u w1 key hit x make i hmk e
    have hwr : w1.writes = w.writes := by
      unfold lookup at e
      split at e
      · split at e
        · cases e; rfl
        · obtain ⟨_, -, e⟩ := Res.bind_ok.mp e
          obtain ⟨_, -, e⟩ := Res.bind_ok.mp e
          cases e; rfl
      · obtain ⟨_, -, e⟩ := Res.bind_ok.mp e
        cases e; rfl
    obtain ⟨k1, k2⟩ := lookup_good (G := fun _ i => Sized p i.pixelBlock i.dataWindow)
      hw.cache hmk e
    exact ⟨k2, k1, by rw [hwr]; exact hw.writes⟩
  cases attrs <;> simp only [Node.run] at e
  case null a =>
    cases inputs with
    | nil => cases e; exact ⟨h0, hw⟩
    | cons i l => cases e; exact ⟨hi _ List.mem_cons_self, hw⟩
  case readImage a =>
    simp only [ReadImageAttrs.compute] at e
    split at e
    · split at e
      · cases e; exact ⟨h0, hw⟩
      · split at e
        · cases e; exact ⟨h0, hw⟩
        · obtain ⟨⟨w1, im, u⟩, e1, e⟩ := Res.bind_ok.mp e
          cases e
          refine hl ?_ e1
          intro i x e
          obtain ⟨i', e2, e⟩ := Res.bind_ok.mp e
          cases e
          exact readImage_sized ho e2
        · split at e <;> cases e
          · exact ⟨h0, hw⟩
          · exact ⟨hp, hw⟩
    · cases e; exact ⟨hp, hw⟩
  case writeImage a =>
    simp only [WriteImageAttrs.compute] at e
    split at e
    · cases e; exact ⟨h0, hw⟩
    · cases inputs with
      | nil => cases e; exact ⟨h0, hw⟩
      | cons i l =>
        have h1 := hi _ List.mem_cons_self
        dsimp only at e
        split at e
        · cases e; exact ⟨h1, hw⟩
        · obtain ⟨⟨f, job⟩, e1, e⟩ := Res.bind_ok.mp e
          cases e
          refine ⟨h1, hw.cache, ?_⟩
          intro j hj
          rcases List.mem_append.mp hj with hj | hj
          · exact hw.writes j hj
          · unfold writeProcess at e1
            dsimp only at e1
            obtain ⟨b, e2, e1⟩ := Res.bind_ok.mp e1
            obtain ⟨cr, -, e1⟩ := Res.bind_ok.mp e1
            cases job with
            | none => cases hj
            | some j' =>
              obtain rfl : j = j' := by simpa using hj
              exact writeImage_sized (bake_sized hk h1 e2) e1
  case grade a =>
    simp only [GradeAttrs.compute] at e
    split at e <;> cases e <;> exact ⟨hm, hw⟩
  case lensDistort a =>
    simp only [LensDistortAttrs.compute] at e
    split at e
    · split at e <;> cases e
      exact ⟨hm, hw⟩
    · cases e
      exact ⟨hm, hw⟩
  case transform a =>
    simp only [TransformAttrs.compute] at e
    cases e
    refine ⟨?_, hw⟩
    by_cases ha : a.enable = 1
    · simp only [if_pos ha]; exact hm
    · simp only [if_neg ha]; exact hm
  case mergeImage a =>
    simp only [MergeImageAttrs.compute] at e
    split at e
    · cases e; exact ⟨h0, hw⟩
    · cases inputs with
      | nil => cases e; exact ⟨h0, hw⟩
      | cons i l =>
        obtain ⟨⟨w1, im, u⟩, e1, e⟩ := Res.bind_ok.mp e
        cases e
        refine hl ?_ e1
        intro im x e
        obtain ⟨i', e2, e⟩ := Res.bind_ok.mp e
        cases e
        unfold mergeProcess at e2
        obtain ⟨_, -, e2⟩ := Res.bind_ok.mp e2
        obtain ⟨_, -, e2⟩ := Res.bind_ok.mp e2
        obtain ⟨⟨f, im'⟩, e3, e2⟩ := Res.bind_ok.mp e2
        cases e2
        refine mergeImages_sized ?_ e3
        exact ⟨rfl, rfl, rfl⟩
  case cropImage a =>
    simp only [CropImageAttrs.compute] at e
    cases inputs with
    | nil => cases e; exact ⟨h0, hw⟩
    | cons i l =>
      dsimp only at e
      split at e
      · cases e; exact ⟨hi _ List.mem_cons_self, hw⟩
      · obtain ⟨⟨w1, im, s1⟩, e1, e⟩ := Res.bind_ok.mp e
        cases e
        refine hl ?_ e1
        intro im x e
        unfold cropProcess at e
        obtain ⟨b, -, e⟩ := Res.bind_ok.mp e
        obtain ⟨c, e3, e⟩ := Res.bind_ok.mp e
        cases e
        exact cropImage_sized e3
  case viewer a =>
    simp only [ViewerAttrs.compute] at e
    split at e
    · cases e; exact ⟨hp, hw⟩
    · split at e
      · obtain ⟨⟨w1, im, s1⟩, e1, e⟩ := Res.bind_ok.mp e
        cases e
        refine hl ?_ e1
        intro im x e
        unfold viewerProcess at e
        obtain ⟨b, e3, e⟩ := Res.bind_ok.mp e
        have hb := bake_sized hk (hm) e3
        dsimp only at e
        split at e
        · obtain ⟨c, e4, e⟩ := Res.bind_ok.mp e
          cases e
          exact cropImage_sized e4
        · cases e; exact hb
      · cases e; exact ⟨hm, hw⟩
  case resampleImage a =>
    simp only [ResampleImageAttrs.compute] at e
    cases inputs with
    | nil => cases e; exact ⟨h0, hw⟩
    | cons i l =>
      have h1 := hi _ List.mem_cons_self
      dsimp only at e
      split at e
      · cases e; exact ⟨h1, hw⟩
      · obtain ⟨u, -, e⟩ := Res.bind_ok.mp e
        split at e
        · obtain ⟨⟨w1, im, s1⟩, e1, e⟩ := Res.bind_ok.mp e
          cases e
          refine hl ?_ e1
          intro im x e
          obtain ⟨⟨f, im'⟩, e3, e⟩ := Res.bind_ok.mp e
          cases e
          exact oiioResample_sized e3
        · cases e; exact ⟨h1, hw⟩

/-- The invariant of all sessions. -/
theorem session_sized {p : Profile} {lib : NodeLib F H} {srt : EdgeSort}
    (hk : PictureSpec.KeepsLength lib.bake.color) (ho : IntSizes lib.oiio)
    (hF : ∀ x : F, InI32 (FloatLike.toI32 x)) {w : World F H} {outs : List (Stream F H)}
    {luts : List (Image F H)} (h : Session p lib srt w outs luts) :
    SizedWorld p w ∧ (∀ s ∈ outs, Sized p s.pixelBlock s.dataWindow) ∧
      ∀ i ∈ luts, Sized p i.pixelBlock i.dataWindow := by
  induction h with
  | start capacity =>
    refine ⟨⟨Cache.good_empty _ rfl, fun j hj => by cases hj⟩, ?_, fun i hi => by cases hi⟩
    intro s hs
    rw [List.mem_singleton.mp hs]
    exact new_stream_sized p
  | capacity n c _ e ih => exact ⟨⟨ih.1.cache.setCapacity e, ih.1.writes⟩, ih.2⟩
  | execute w' fuel g g' id frames status hs hg e ih =>
    obtain ⟨-, k2, k3⟩ := execute_keeps (PN := fun _ => True)
      (PS := fun s => Sized p s.pixelBlock s.dataWindow) (PC := SizedWorld p)
      (fun n fr m ins prev c n' st out c' _ hi hp hc e => by
        simp only [nodeSem] at e
        obtain ⟨⟨st1, o1, w1⟩, e1, e⟩ := Res.bind_ok.mp e
        cases e
        exact ⟨trivial, run_sized hk ho hi hp hc e1⟩)
      srt fuel (fun _ _ => trivial) (ih.2.1 _ hg) id frames ih.1 e
    refine ⟨k3, ?_, ih.2.2⟩
    intro s hs
    rcases List.mem_cons.mp hs with rfl | hs
    · exact k2
    · exact ih.2.1 s hs
  | transformLut src dst n c image _ hn e ih =>
    obtain ⟨k1, k2⟩ := Cache.Good.cached (G := fun _ i => Sized p i.pixelBlock i.dataWindow)
      ih.1.cache (fun i e => transformLut_sized hk hF hn e) e
    refine ⟨⟨k1, ih.1.writes⟩, ih.2.1, ?_⟩
    intro i hi
    rcases List.mem_cons.mp hi with rfl | hi
    · exact k2
    · exact ih.2.2 i hi
  | opsLut s n m c image _ hn e ih =>
    obtain ⟨k1, k2⟩ := Cache.Good.cached (G := fun _ i => Sized p i.pixelBlock i.dataWindow)
      ih.1.cache (fun i e => opsLut_sized hF hn e) e
    refine ⟨⟨k1, ih.1.writes⟩, ih.2.1, ?_⟩
    intro i hi
    rcases List.mem_cons.mp hi with rfl | hi
    · exact k2
    · exact ih.2.2 i hi

omit [FloatLike F] [HalfLike F H] [FloatConst F] [FloatBits F] in
theorem i32_debug {x y : Int} (e : i32 .debug x = .ok y) : y = x ∧ InI32 x := by
  unfold i32 at e
  split at e <;> cases e
  exact ⟨rfl, by assumption⟩

omit [FloatLike F] [HalfLike F H] [FloatConst F] [FloatBits F] in
theorem sized_fits {p : Profile} {b : PixelBlock F H} {window : BBox} (h : Sized p b window)
    (hf : Fits window b.size.numChannels) : Complete b window := by
  obtain ⟨h1, h2, h3⟩ := h
  unfold BBox.width at h2
  unfold BBox.height at h3
  rw [i32_of hf.width] at h2
  rw [i32_of hf.height] at h3
  injection h2 with h2
  injection h3 with h3
  refine ⟨h2.symm, h3.symm, ?_⟩
  unfold BlockSize.size at h1
  rw [← h2, ← h3, i32_of hf.pixels] at h1
  simp only [bind, Except.bind] at h1
  rw [i32_of hf.values] at h1
  simp only [Except.ok.injEq] at h1
  rw [← h1, asUsize_of_nonneg hf.positive, Int.toNat_of_nonneg hf.positive]

omit [FloatLike F] [HalfLike F H] [FloatConst F] [FloatBits F] in
theorem sized_debug {b : PixelBlock F H} {window : BBox} (h : Sized .debug b window)
    (hl : b.block.data.length < usizeMod - 2147483648) : Complete b window := by
  obtain ⟨h1, h2, h3⟩ := h
  obtain ⟨e2, k2⟩ := i32_debug h2
  obtain ⟨e3, k3⟩ := i32_debug h3
  unfold BlockSize.size at h1
  obtain ⟨a, ha, h1⟩ := Res.bind_ok.mp h1
  obtain ⟨c, hc, h1⟩ := Res.bind_ok.mp h1
  obtain ⟨rfl, k4⟩ := i32_debug ha
  obtain ⟨rfl, k5⟩ := i32_debug hc
  simp only [Except.ok.injEq] at h1
  refine ⟨e2, e3, ?_⟩
  rw [← e2, ← e3, ← h1]
  unfold asUsize at h1 ⊢
  split
  · omega
  · rename_i hneg
    rw [if_neg hneg] at h1
    unfold InI32 at k5
    omega

/-- C99 in debug builds: whatever is done with the library, the outputs of the graphs, the images in
the cache and the lookup tables have exactly one value for every channel of every pixel of their
data window, and so have the pixels handed over for writing, for the window in the header.  (The
length excludes buffers that no memory can hold.) -/
theorem C99_debug (lib : NodeLib F H) (srt : EdgeSort)
    (hk : PictureSpec.KeepsLength lib.bake.color) (ho : IntSizes lib.oiio)
    (hF : ∀ x : F, InI32 (FloatLike.toI32 x)) (w : World F H) (outs : List (Stream F H))
    (luts : List (Image F H)) (h : Session .debug lib srt w outs luts) :
    (∀ s ∈ outs, s.pixelBlock.block.data.length < usizeMod - 2147483648 →
      Complete s.pixelBlock s.dataWindow) ∧
    (∀ k i, (k, i) ∈ w.cache.lru → i.pixelBlock.block.data.length < usizeMod - 2147483648 →
      Complete i.pixelBlock i.dataWindow) ∧
    (∀ i ∈ luts, i.pixelBlock.block.data.length < usizeMod - 2147483648 →
      Complete i.pixelBlock i.dataWindow) ∧
    (∀ j ∈ w.writes, j.block.data.length < usizeMod - 2147483648 →
      Complete ⟨j.size, j.block⟩
        ⟨j.spec.x, j.spec.y, j.spec.x + j.spec.width, j.spec.y + j.spec.height⟩) := by
  obtain ⟨h1, h2, h3⟩ := session_sized hk ho hF h
  refine ⟨fun s hs => sized_debug (h2 s hs), fun k i hi => sized_debug (h1.cache _ hi),
    fun i hi => sized_debug (h3 i hi), ?_⟩
  intro j hj hl
  obtain ⟨win, k1, k2, k3, k4, k5⟩ := h1.writes j hj
  obtain ⟨c1, c2, c3⟩ := sized_debug k1 hl
  dsimp only at c1 c2 c3
  refine ⟨?_, ?_, ?_⟩
  · dsimp only; omega
  · dsimp only; omega
  · dsimp only
    rw [c3, k4, k5, c1, c2]
    congr 2 <;> omega

/-- C99 in both builds, for images whose sizes can be computed in 32 bits.  Missing: larger images
in release builds, where it is false (`C99_counterexample`). -/
theorem C99_fits_partial (p : Profile) (lib : NodeLib F H) (srt : EdgeSort)
    (hk : PictureSpec.KeepsLength lib.bake.color) (ho : IntSizes lib.oiio)
    (hF : ∀ x : F, InI32 (FloatLike.toI32 x)) (w : World F H) (outs : List (Stream F H))
    (luts : List (Image F H)) (h : Session p lib srt w outs luts) :
    (∀ s ∈ outs, Fits s.dataWindow s.pixelBlock.size.numChannels →
      Complete s.pixelBlock s.dataWindow) ∧
    (∀ k i, (k, i) ∈ w.cache.lru → Fits i.dataWindow i.pixelBlock.size.numChannels →
      Complete i.pixelBlock i.dataWindow) ∧
    (∀ i ∈ luts, Fits i.dataWindow i.pixelBlock.size.numChannels →
      Complete i.pixelBlock i.dataWindow) := by
  obtain ⟨h1, h2, h3⟩ := session_sized hk ho hF h
  exact ⟨fun s hs => sized_fits (h2 s hs), fun k i hi => sized_fits (h1.cache _ hi),
    fun i hi => sized_fits (h3 i hi)⟩

end

section
attribute [local instance] finFloat finBits finHalf finPi

/-- A session that reads a file, crops it and computes a lookup table, with room in the cache. -/
example : ∃ w s t, Session .debug twoFiles insSort w [s, .new] [t] ∧
    s.dataWindow = ⟨0, 0, 1, 1⟩ ∧ numbersOf t.pixelBlock = [0, 1] ∧ w.cache.lru.length = 3 ∧
    PictureSpec.KeepsLength twoFiles.bake.color ∧ IntSizes twoFiles.oiio ∧
    (∀ x : Fin 256, InI32 (FloatLike.toI32 x)) ∧
    (∀ i : Image (Fin 256) (Fin 256), i.dataWindow = ⟨0, 0, 1, 1⟩ → Fits i.dataWindow 3) := by
  refine ⟨_, _, _, .opsLut (.new : Stream (Fin 256) (Fin 256)) 2 1 _ _
    (.execute _ 5 readCrop _ 2 [1] _ (.start 1000) (by simp [readCrop]) rfl) (by decide) rfl, rfl,
    by decide +kernel, by decide +kernel, fun _ _ _ _ _ _ _ _ => rfl, ?_, by decide +kernel, ?_⟩
  · intro path spec h
    cases h
    dsimp only [twoFiles, plainFile]
    split <;> decide
  · intro i h
    rw [h]
    exact ⟨by decide, by decide, by decide, by decide, by decide⟩

/-- A crop to a square of 65536 pixels a side, away from the image. -/
def hugeCrop : CropImageAttrs :=
  { pixelCrop with
    windowMinX := 65536, windowMinY := 65536, windowMaxX := 131072, windowMaxY := 131072 }

/-- C99 is false in release builds: a crop to a window of 65536 times 65536 pixels away from the
image succeeds and gives an image of that size without any values. -/
theorem C99_counterexample : ∃ out w,
    (nodeOf (.cropImage hugeCrop)).run .release finLib 1 modeAll [onePixel] .new noCache =
      .ok (.valid, out, w) ∧
    out.pixelBlock.size = ⟨65536, 65536, 3⟩ ∧ numbersOf out.pixelBlock = [] ∧
    ¬ Complete out.pixelBlock out.dataWindow := by
  refine ⟨_, _, ran (by decide +kernel), by decide +kernel, by decide +kernel, ?_⟩
  intro h
  have := h.values
  revert this
  decide +kernel

end
end OCG.Props
