import Verif.Props.Sized
import Verif.Props.StreamState
import Verif.Spec.Metadata
/-
Property C104: the metadata of a picture stays with it.
-/

namespace OCG.Props

open SizedSpec MetadataSpec

section
variable {F H : Type} [FloatLike F] [HalfLike F H]

theorem bakeColorspace_metadata {lib : ColorLib F} {b b' : PixelBlock F H} {s s' : ImageSpec F}
    {src dst : Bytes} (e : bakeColorspace lib b s src dst = .ok (b', s')) :
    metadata s' = metadata s := by
  unfold bakeColorspace at e
  obtain ⟨b1, -, e⟩ := Res.bind_ok.mp e
  split at e
  · cases e; rfl
  · obtain ⟨px, -, e⟩ := Res.bind_ok.mp e
    cases e
    split <;> split <;> rfl

theorem cropImage_spec {p : Profile} {i i' : Image F H} {c : BBox} {r b t : Bool}
    (e : cropImage p i c r b t = .ok i') : i'.spec = i.spec := by
  unfold cropImage at e
  obtain ⟨_, -, e⟩ := Res.bind_ok.mp e
  obtain ⟨_, -, e⟩ := Res.bind_ok.mp e
  obtain ⟨_, -, e⟩ := Res.bind_ok.mp e
  obtain ⟨_, -, e⟩ := Res.bind_ok.mp e
  obtain ⟨_, -, e⟩ := Res.bind_ok.mp e
  obtain ⟨_, -, e⟩ := Res.bind_ok.mp e
  cases e; rfl

theorem oiioAllocate_spec {p : Profile} {f : FileSpec F} {i i' : Image F H}
    (e : oiioAllocate p f i = .ok i') : i'.spec = i.spec := by
  unfold oiioAllocate at e
  iterate 12 obtain ⟨_, -, e⟩ := Res.bind_ok.mp e
  cases e; rfl

theorem mergeImages_spec {p : Profile} {mode : MergeImageMode} {a b out i : Image F H} {mix : F}
    {flag : Bool} (e : mergeImages p mode a b mix out = .ok (flag, i)) :
    i.spec = out.spec ∨ i.spec = b.spec := by
  unfold mergeImages at e
  split at e
  · cases e; exact .inl rfl
  · iterate 7 obtain ⟨_, -, e⟩ := Res.bind_ok.mp e
    cases e; exact .inr rfl

theorem readImage_metadata {p : Profile} {oiio : Oiio F H} {path : Bytes} {i : Image F H}
    (e : readImage p oiio path = .ok i) : Known oiio (metadata i.spec) := by
  unfold readImage at e
  obtain ⟨⟨f, im⟩, e1, e⟩ := Res.bind_ok.mp e
  cases e
  unfold oiioRead at e1
  split at e1
  · cases e1; exact .inl rfl
  · rename_i spec hs
    split at e1
    · cases e1; exact .inl rfl
    · obtain ⟨im, -, e1⟩ := Res.bind_ok.mp e1
      cases e1
      exact .inr ⟨path, spec, hs, rfl⟩

variable [FloatConst F]

/-- Baking leaves the metadata alone, but for the colour space. -/
theorem bake_metadata {p : Profile} {lib : BakeLib F} {option : BakeOption} {display : BBox}
    {b b' : Baked F H} {src dst : Bytes} {t : DataType}
    (e : bake p lib option display b src dst t = .ok b') :
    metadata b'.spec = metadata b.spec ∧ b'.stream.imageSpec = b.stream.imageSpec := by
  have hg : ∀ {bl bl' : PixelBlock F H} {s s' : Stream F H},
      bakeStreamColorgrade bl s = .ok (bl', s') → s'.imageSpec = s.imageSpec := by
    intro bl bl' s s' e
    unfold bakeStreamColorgrade at e
    obtain ⟨x, -, e⟩ := Res.bind_ok.mp e
    cases e; rfl
  unfold bake at e
  cases option
  case uninitialized => cases e
  case nothing => cases e; exact ⟨rfl, rfl⟩
  case colorSpace =>
    obtain ⟨⟨x1, s1⟩, e1, e⟩ := Res.bind_ok.mp e
    obtain ⟨x2, -, e⟩ := Res.bind_ok.mp e
    cases e; exact ⟨bakeColorspace_metadata e1, rfl⟩
  case colorSpaceAndGrade =>
    obtain ⟨⟨x1, s1⟩, e1, e⟩ := Res.bind_ok.mp e
    obtain ⟨⟨x2, s⟩, e2, e⟩ := Res.bind_ok.mp e
    obtain ⟨⟨x3, s3⟩, e3, e⟩ := Res.bind_ok.mp e
    obtain ⟨x4, -, e⟩ := Res.bind_ok.mp e
    cases e
    refine ⟨?_, hg e2⟩
    rw [← bakeColorspace_metadata e1, ← bakeColorspace_metadata e3]; rfl
  case all =>
    obtain ⟨⟨x1, s1⟩, e1, e⟩ := Res.bind_ok.mp e
    obtain ⟨⟨x2, s⟩, e2, e⟩ := Res.bind_ok.mp e
    obtain ⟨⟨x3, w3⟩, -, e⟩ := Res.bind_ok.mp e
    obtain ⟨⟨x4, s4⟩, e4, e⟩ := Res.bind_ok.mp e
    obtain ⟨x5, -, e⟩ := Res.bind_ok.mp e
    cases e
    refine ⟨?_, ?_⟩
    · rw [← bakeColorspace_metadata e1, ← bakeColorspace_metadata e4]; rfl
    · have := hg e2
      exact this

variable [FloatBits F]

/-- C104 for most nodes: null, grade, lens distortion, transform, crop, resampling and switched-on
write nodes pass on all that their first input tells about its picture (even the name of the colour
space), whatever the cache holds. -/
theorem C104_keeps {p : Profile} {lib : NodeLib F H} {n : Node F} {frame : F} {mode : Mode}
    {input : Stream F H} {rest : List (Stream F H)} {prev out : Stream F H} {w w' : World F H}
    {st : NodeStatus}
    (ht : n.attrs.nodeType ∈ [.null, .grade, .lensDistort, .transform, .cropImage, .resampleImage] ∨
      (n.attrs.nodeType = .writeImage ∧ n.attrs.getI32 "enable" = 1))
    (e : n.run p lib frame mode (input :: rest) prev w = .ok (st, out, w')) :
    out.imageSpec = input.imageSpec := by
  obtain ⟨id, s, attrs⟩ := n
  cases attrs <;> simp only [Node.run] at e <;> simp [NodeAttrs.nodeType] at ht
  case null a => cases e; rfl
  case writeImage a =>
    simp only [WriteImageAttrs.compute] at e
    have ha : a.enable = 1 := ht
    rw [if_neg (by simp [ha])] at e
    split at e
    · cases e; rfl
    · obtain ⟨r, -, e⟩ := Res.bind_ok.mp e
      cases e; rfl
  case grade a =>
    simp only [GradeAttrs.compute] at e
    split at e <;> cases e <;> rfl
  case lensDistort a =>
    simp only [LensDistortAttrs.compute] at e
    split at e
    · split at e <;> cases e
      rfl
    · cases e
      rfl
  case transform a =>
    simp only [TransformAttrs.compute] at e
    cases e
    dsimp only
    split <;> rfl
  case cropImage a =>
    simp only [CropImageAttrs.compute] at e
    split at e
    · cases e; rfl
    · obtain ⟨⟨w1, im, s1⟩, e1, e⟩ := Res.bind_ok.mp e
      have ho : out.imageSpec = s1.imageSpec := by cases e; rfl
      rw [ho]
      rcases lookup_either e1 with rfl | e2
      · rfl
      · unfold cropProcess at e2
        obtain ⟨b, e3, e2⟩ := Res.bind_ok.mp e2
        obtain ⟨c, -, e2⟩ := Res.bind_ok.mp e2
        cases e2
        exact (bake_metadata e3).2
  case resampleImage a =>
    simp only [ResampleImageAttrs.compute] at e
    split at e
    · cases e; rfl
    · obtain ⟨u, -, e⟩ := Res.bind_ok.mp e
      split at e
      · obtain ⟨r, -, e⟩ := Res.bind_ok.mp e
        cases e; rfl
      · cases e; rfl

/-- C104 for viewers that do not use the cache: only the name of the colour space may change. -/
theorem C104_viewer {p : Profile} {lib : NodeLib F H} {n : Node F} {frame : F} {mode : Mode}
    {input : Stream F H} {rest : List (Stream F H)} {prev out : Stream F H} {w w' : World F H}
    {st : NodeStatus} (ht : n.attrs.nodeType = .viewer) (hen : n.attrs.getI32 "enable" = 1)
    (hc : n.attrs.getI32 "use_cache" = 0)
    (e : n.run p lib frame mode (input :: rest) prev w = .ok (st, out, w')) :
    metadata out.imageSpec = metadata input.imageSpec := by
  obtain ⟨id, s, attrs⟩ := n
  cases attrs <;> simp only [Node.run] at e <;> simp [NodeAttrs.nodeType] at ht
  case viewer a =>
    have ha : a.enable = 1 := hen
    have hu : a.useCache = 0 := hc
    simp only [ViewerAttrs.compute] at e
    rw [if_neg (by simp [ha])] at e
    split at e
    · obtain ⟨⟨w1, im, s1⟩, e1, e⟩ := Res.bind_ok.mp e
      have ho : out.imageSpec = im.spec := by cases e; rfl
      rw [ho]
      unfold lookup at e1
      rw [if_neg (by simp [hu])] at e1
      obtain ⟨⟨i', x'⟩, e2, e1⟩ := Res.bind_ok.mp e1
      cases e1
      unfold viewerProcess at e2
      obtain ⟨b, e3, e2⟩ := Res.bind_ok.mp e2
      have hb : metadata b.spec = metadata input.imageSpec := (bake_metadata e3).1
      dsimp only at e2
      split at e2
      · obtain ⟨c, e4, e2⟩ := Res.bind_ok.mp e2
        cases e2
        rw [cropImage_spec e4]; exact hb
      · cases e2; exact hb
    · cases e; rfl

/-- Merging forgets what was known about both pictures: the result always has plain metadata. -/
theorem C104_merge {p : Profile} {lib : NodeLib F H} {n : Node F} {frame : F} {mode : Mode}
    {inputs : List (Stream F H)} {prev out : Stream F H} {w w' : World F H} {st : NodeStatus}
    (ht : n.attrs.nodeType = .mergeImage)
    (e : n.run p lib frame mode inputs prev w = .ok (st, out, w')) :
    metadata out.imageSpec = plain ∧ out.imageSpec.colorSpace = colorSpaceLinear := by
  obtain ⟨id, s, attrs⟩ := n
  cases attrs <;> simp only [Node.run] at e <;> simp [NodeAttrs.nodeType] at ht
  case mergeImage a =>
    simp only [MergeImageAttrs.compute] at e
    split at e
    · cases e; exact ⟨rfl, rfl⟩
    · cases inputs with
      | nil => cases e; exact ⟨rfl, rfl⟩
      | cons i l =>
        obtain ⟨r, -, e⟩ := Res.bind_ok.mp e
        cases e; exact ⟨rfl, rfl⟩

/-- No node makes up metadata. -/
theorem run_metadata {p : Profile} {lib : NodeLib F H} {n : Node F} {frame : F} {mode : Mode}
    {inputs : List (Stream F H)} {prev out : Stream F H} {w w' : World F H} {st : NodeStatus}
    (hi : ∀ s ∈ inputs, Known lib.oiio (metadata s.imageSpec))
    (hp : Known lib.oiio (metadata prev.imageSpec))
    (hw : Cache.Good (fun _ i => Known lib.oiio (metadata i.spec)) w.cache)
    (e : n.run p lib frame mode inputs prev w = .ok (st, out, w')) :
    Known lib.oiio (metadata out.imageSpec) ∧
      Cache.Good (fun _ i => Known lib.oiio (metadata i.spec)) w'.cache := by
  obtain ⟨id, s, attrs⟩ := n
  have h0 : Known lib.oiio (metadata (Stream.new : Stream F H).imageSpec) := .inl rfl
  have hm : Known lib.oiio (metadata (match inputs with
      | [] => (.new : Stream F H)
      | input :: _ => input).imageSpec) := by
    cases inputs with
    | nil => exact h0
    | cons i l => exact hi i List.mem_cons_self
  have hl : ∀ {X : Type} {u : Bool} {w1 : World F H} {key : Nat} {hit x : X}
      {make : Res (Image F H × X)} {i : Image F H},
      (∀ i x, make = .ok (i, x) → Known lib.oiio (metadata i.spec)) →
      lookup p u w key hit make = .ok (w1, i, x) →
      Known lib.oiio (metadata i.spec) ∧
        Cache.Good (fun _ i => Known lib.oiio (metadata i.spec)) w1.cache := by
    intro X u w1 key hit x make i hmk e
    exact (lookup_good (G := fun _ i => Known lib.oiio (metadata i.spec)) hw hmk e).symm
  have hbake : ∀ {o : BakeOption} {d : BBox} {s : Stream F H} {b : Baked F H} {src dst : Bytes}
      {t : DataType}, Known lib.oiio (metadata s.imageSpec) →
      bake p lib.bake o d s.toBake src dst t = .ok b → Known lib.oiio (metadata b.spec) := by
    intro o d s b src dst t hs e
    rw [(bake_metadata e).1]
    exact hs
  cases attrs <;> simp only [Node.run] at e
  case null a =>
    cases inputs with
    | nil => cases e; exact ⟨h0, hw⟩
    | cons i l => cases e; exact ⟨hi _ List.mem_cons_self, hw⟩
  case readImage a =>
    simp only [ReadImageAttrs.compute] at e
    split at e
    · split at e
      · cases e; exact ⟨h0, hw⟩
      · split at e
        · cases e; exact ⟨h0, hw⟩
        · obtain ⟨⟨w1, im, u⟩, e1, e⟩ := Res.bind_ok.mp e
          cases e
          refine hl ?_ e1
          intro i x e
          obtain ⟨i', e2, e⟩ := Res.bind_ok.mp e
          cases e
          exact readImage_metadata e2
        · split at e <;> cases e
          · exact ⟨h0, hw⟩
          · exact ⟨hp, hw⟩
    · cases e; exact ⟨hp, hw⟩
  case writeImage a =>
    simp only [WriteImageAttrs.compute] at e
    split at e
    · cases e; exact ⟨h0, hw⟩
    · cases inputs with
      | nil => cases e; exact ⟨h0, hw⟩
      | cons i l =>
        have h1 := hi _ List.mem_cons_self
        dsimp only at e
        split at e
        · cases e; exact ⟨h1, hw⟩
        · obtain ⟨⟨f, job⟩, e1, e⟩ := Res.bind_ok.mp e
          cases e
          exact ⟨h1, hw⟩
  case grade a =>
    simp only [GradeAttrs.compute] at e
    split at e <;> cases e <;> exact ⟨hm, hw⟩
  case lensDistort a =>
    simp only [LensDistortAttrs.compute] at e
    split at e
    · split at e <;> cases e
      exact ⟨hm, hw⟩
    · cases e
      exact ⟨hm, hw⟩
  case transform a =>
    simp only [TransformAttrs.compute] at e
    cases e
    refine ⟨?_, hw⟩
    by_cases ha : a.enable = 1
    · simp only [if_pos ha]; exact hm
    · simp only [if_neg ha]; exact hm
  case mergeImage a =>
    simp only [MergeImageAttrs.compute] at e
    split at e
    · cases e; exact ⟨h0, hw⟩
    · cases inputs with
      | nil => cases e; exact ⟨h0, hw⟩
      | cons i l =>
        obtain ⟨⟨w1, im, u⟩, e1, e⟩ := Res.bind_ok.mp e
        have hB : Known lib.oiio (metadata (match l with
            | [] => (.new : Stream F H)
            | b :: _ => b).imageSpec) := by
          cases l with
          | nil => exact h0
          | cons b l => exact hi b (by simp)
        cases e
        refine ⟨h0, (hl ?_ e1).2⟩
        intro im x e
        obtain ⟨i', e2, e⟩ := Res.bind_ok.mp e
        cases e
        unfold mergeProcess at e2
        obtain ⟨_, -, e2⟩ := Res.bind_ok.mp e2
        obtain ⟨bb, eb, e2⟩ := Res.bind_ok.mp e2
        obtain ⟨⟨f, im'⟩, e3, e2⟩ := Res.bind_ok.mp e2
        cases e2
        rcases mergeImages_spec e3 with h | h
        · rw [h]; exact .inl rfl
        · rw [h]; exact hbake hB eb
  case cropImage a =>
    simp only [CropImageAttrs.compute] at e
    cases inputs with
    | nil => cases e; exact ⟨h0, hw⟩
    | cons i l =>
      have h1 := hi _ List.mem_cons_self
      dsimp only at e
      split at e
      · cases e; exact ⟨h1, hw⟩
      · obtain ⟨⟨w1, im, s1⟩, e1, e⟩ := Res.bind_ok.mp e
        cases e
        refine ⟨?_, (hl ?_ e1).2⟩
        · dsimp only
          rcases lookup_either e1 with rfl | e2
          · exact h1
          · unfold cropProcess at e2
            obtain ⟨b, e3, e2⟩ := Res.bind_ok.mp e2
            obtain ⟨c, -, e2⟩ := Res.bind_ok.mp e2
            cases e2
            rw [(bake_metadata e3).2]
            exact h1
        · intro im x e
          unfold cropProcess at e
          obtain ⟨b, eb, e⟩ := Res.bind_ok.mp e
          obtain ⟨c, e3, e⟩ := Res.bind_ok.mp e
          cases e
          rw [cropImage_spec e3]
          exact hbake h1 eb
  case viewer a =>
    simp only [ViewerAttrs.compute] at e
    split at e
    · cases e; exact ⟨hp, hw⟩
    · split at e
      · obtain ⟨⟨w1, im, s1⟩, e1, e⟩ := Res.bind_ok.mp e
        cases e
        refine hl ?_ e1
        intro im x e
        unfold viewerProcess at e
        obtain ⟨b, e3, e⟩ := Res.bind_ok.mp e
        have hb := hbake hm e3
        dsimp only at e
        split at e
        · obtain ⟨c, e4, e⟩ := Res.bind_ok.mp e
          cases e
          rw [cropImage_spec e4]
          exact hb
        · cases e; exact hb
      · cases e; exact ⟨hm, hw⟩
  case resampleImage a =>
    simp only [ResampleImageAttrs.compute] at e
    cases inputs with
    | nil => cases e; exact ⟨h0, hw⟩
    | cons i l =>
      have h1 := hi _ List.mem_cons_self
      dsimp only at e
      split at e
      · cases e; exact ⟨h1, hw⟩
      · obtain ⟨u, -, e⟩ := Res.bind_ok.mp e
        split at e
        · obtain ⟨⟨w1, im, s1⟩, e1, e⟩ := Res.bind_ok.mp e
          cases e
          refine ⟨h1, (hl ?_ e1).2⟩
          intro im x e
          obtain ⟨⟨f, im'⟩, e3, e⟩ := Res.bind_ok.mp e
          cases e
          unfold resampleProcess oiioResample at e3
          obtain ⟨d, e4, e3⟩ := Res.bind_ok.mp e3
          cases e3
          dsimp only
          rw [oiioAllocate_spec e4]
          exact .inl rfl
        · cases e; exact ⟨h1, hw⟩

/-- C104: whatever is done with the library, the metadata of the outputs of the graphs, of the
images in the cache and of the lookup tables is plain or that of a file. -/
theorem C104_session (p : Profile) (lib : NodeLib F H) (srt : EdgeSort) (w : World F H)
    (outs : List (Stream F H)) (luts : List (Image F H)) (h : Session p lib srt w outs luts) :
    (∀ s ∈ outs, Known lib.oiio (metadata s.imageSpec)) ∧
    (∀ k i, (k, i) ∈ w.cache.lru → Known lib.oiio (metadata i.spec)) ∧
    (∀ i ∈ luts, Known lib.oiio (metadata i.spec)) := by
  suffices Cache.Good (fun _ i => Known lib.oiio (metadata i.spec)) w.cache ∧
      (∀ s ∈ outs, Known lib.oiio (metadata s.imageSpec)) ∧
      ∀ i ∈ luts, Known lib.oiio (metadata i.spec) from
    ⟨this.2.1, fun k i hi => this.1 _ hi, this.2.2⟩
  induction h with
  | start capacity =>
    refine ⟨Cache.good_empty _ rfl, ?_, fun i hi => by cases hi⟩
    intro s hs
    rw [List.mem_singleton.mp hs]
    exact .inl rfl
  | capacity n c _ e ih => exact ⟨ih.1.setCapacity e, ih.2⟩
  | execute w' fuel g g' id frames status hs hg e ih =>
    obtain ⟨-, k2, k3⟩ := execute_keeps (PN := fun _ => True)
      (PS := fun s => Known lib.oiio (metadata s.imageSpec))
      (PC := fun w : World F H =>
        Cache.Good (fun _ i => Known lib.oiio (metadata i.spec)) w.cache)
      (fun n fr m ins prev c n' st out c' _ hi hp hc e => by
        simp only [nodeSem] at e
        obtain ⟨⟨st1, o1, w1⟩, e1, e⟩ := Res.bind_ok.mp e
        cases e
        exact ⟨trivial, run_metadata hi hp hc e1⟩)
      srt fuel (fun _ _ => trivial) (ih.2.1 _ hg) id frames ih.1 e
    refine ⟨k3, ?_, ih.2.2⟩
    intro s hs
    rcases List.mem_cons.mp hs with rfl | hs
    · exact k2
    · exact ih.2.1 s hs
  | transformLut src dst n c image _ hn e ih =>
    obtain ⟨k1, k2⟩ := Cache.Good.cached (G := fun _ i => Known lib.oiio (metadata i.spec))
      ih.1 (fun i e => by
        unfold generateTransformLut at e
        obtain ⟨_, -, e⟩ := Res.bind_ok.mp e
        obtain ⟨_, -, e⟩ := Res.bind_ok.mp e
        obtain ⟨_, -, e⟩ := Res.bind_ok.mp e
        obtain ⟨⟨b, s⟩, e1, e⟩ := Res.bind_ok.mp e
        cases e
        rw [bakeColorspace_metadata e1]
        exact .inl rfl) e
    refine ⟨k1, ih.2.1, ?_⟩
    intro i hi
    rcases List.mem_cons.mp hi with rfl | hi
    · exact k2
    · exact ih.2.2 i hi
  | opsLut s n m c image _ hn e ih =>
    obtain ⟨k1, k2⟩ := Cache.Good.cached (G := fun _ i => Known lib.oiio (metadata i.spec))
      ih.1 (fun i e => by
        unfold generateOpsLut at e
        obtain ⟨_, -, e⟩ := Res.bind_ok.mp e
        obtain ⟨_, -, e⟩ := Res.bind_ok.mp e
        obtain ⟨_, -, e⟩ := Res.bind_ok.mp e
        obtain ⟨_, -, e⟩ := Res.bind_ok.mp e
        cases e
        exact .inl rfl) e
    refine ⟨k1, ih.2.1, ?_⟩
    intro i hi
    rcases List.mem_cons.mp hi with rfl | hi
    · exact k2
    · exact ih.2.2 i hi

end

section
attribute [local instance] finFloat finBits finHalf finPi

/-- One pixel of a picture for a wide screen. -/
def widePixel : Stream (Fin 256) (Fin 256) :=
  { onePixel with imageSpec := { onePixel.imageSpec with pixelAspect := 2 } }

/-- A crop, a grade, a transform, a write node and a viewer keep the pixel aspect 2. -/
example : ∀ n ∈ [nodeOf (.cropImage pixelCrop), nodeOf (.grade .new), nodeOf (.transform .new), writeNode],
    ∃ out w, n.run .debug finLib 1 modeAll [widePixel] .new noCache = .ok (.valid, out, w) ∧
      metadata out.imageSpec = ⟨1, 2, .normal, false, 0⟩ := by
  intro n hn
  simp only [List.mem_cons, List.not_mem_nil, or_false] at hn
  rcases hn with rfl | rfl | rfl | rfl <;>
    exact ⟨_, _, ran (by decide +kernel), by decide +kernel⟩

example : ∃ out w, (nodeOf (.viewer { ViewerAttrs.new with useCache := 0 })).run .debug finLib 1
      modeAll [widePixel] .new noCache = .ok (.valid, out, w) ∧
    metadata out.imageSpec = ⟨1, 2, .normal, false, 0⟩ :=
  ⟨_, _, ran (by decide +kernel), by decide +kernel⟩

/-- C104 is false for merging: merging two pictures with pixel aspect 2 gives a picture with pixel
aspect 1, so that a viewer shows it squeezed. -/
theorem C104_counterexample_merge : ∃ out w,
    (nodeOf (.mergeImage .new)).run .debug finLib 1 modeAll [widePixel, widePixel] .new noCache =
      .ok (.valid, out, w) ∧
    widePixel.imageSpec.pixelAspect = 2 ∧ out.imageSpec.pixelAspect = 1 ∧
    numbersOf out.pixelBlock ≠ [] :=
  ⟨_, _, ran (by decide +kernel), rfl, by decide +kernel, by decide +kernel⟩

/-- A session in which a file is read, cropped and shown and a lookup table is made. -/
example : ∃ w s t, Session .debug twoFiles insSort w [s, .new] [t] ∧
    metadata s.imageSpec = ofFile (plainFile 1) ∧ w.cache.lru.length = 3 := by
  refine ⟨_, _, _, .opsLut (.new : Stream (Fin 256) (Fin 256)) 2 1 _ _
    (.execute _ 5 readCrop _ 2 [1] _ (.start 1000) (by simp [readCrop]) rfl) (by decide) rfl,
    by decide +kernel, by decide +kernel⟩

end
end OCG.Props
