import Verif.Spec.Preview
import Verif.Props.PictureGraph
/-
C127: a viewer shows what a write node behind the same node writes.
-/

namespace OCG.Props

open BlockSpec BBoxSpec GraphSpec PictureSpec PreviewSpec
open CacheSpec (IsOff lookup_off_mpr lookup_off_mp)

section
variable {F H : Type} [FloatLike F] [FloatBits F] [FloatConst F] [HalfLike F H]

theorem writeCrop_spec {code : Int} (h : code ∈ ([0, 1, 2] : List Int)) (path : Bytes) :
    writeCrop path (CropOnWrite.ofI32 code) = .ok (decide (CropsFile code path)) := by
  simp only [List.mem_cons, List.not_mem_nil, or_false] at h
  rcases h with h | h | h
  · rw [decide_eq_false (by unfold CropsFile; rw [h]; simp), h]; rfl
  · rw [decide_eq_true (by unfold CropsFile; rw [h]; simp), h]; rfl
  · rw [h]
    show Except.ok (!hasSuffix path dotExr) = _
    congr 1
    rw [Bool.eq_iff_iff]
    simp only [hasSuffix, Bool.not_eq_true', decide_eq_true_eq, ← List.isSuffixOf_iff_suffix,
      Bool.not_eq_true, CropsFile, ending_exr]
    constructor
    · intro h'; exact .inr ⟨trivial, h'⟩
    · rintro (h' | ⟨-, h'⟩)
      · exact absurd h' (by decide)
      · exact h'

theorem writeColorSpace_spec (path : Bytes) : writeColorSpace path = fileSpace path := by
  unfold writeColorSpace fileSpace
  rw [ending_png, jpegEndings_eq]
  have : (dotPng.isSuffixOf path || dotJpegs.any (hasSuffix path)) = true ↔
      ∃ e ∈ dotPng :: dotJpegs, e <:+ path := by
    simp only [Bool.or_eq_true, List.any_eq_true, List.exists_mem_cons_iff, hasSuffix,
      List.isSuffixOf_iff_suffix]
  by_cases h : ∃ e ∈ dotPng :: dotJpegs, e <:+ path
  · rw [if_pos h, if_pos (this.mpr h)]; rfl
  · rw [if_neg h, if_neg (fun h' => h (this.mp h'))]

theorem bake_bakeType (p : Profile) (lib : BakeLib F) (o : BakeOption) (d : BBox) (b : Baked F H)
    (src dst : Bytes) (t : DataType) :
    bake p lib o d b src dst (bakeType t b.block) = bake p lib o d b src dst t := by
  have : bakeType (bakeType t b.block) b.block = bakeType t b.block := by cases t <;> rfl
  unfold bake
  rw [this]

/-- Cropping does not look at what is known about the image. -/
theorem crop_other_spec (p : Profile) (b : PixelBlock F H) (s s' : ImageSpec F) (d w c : BBox) :
    cropImage p ⟨b, s, d, w⟩ c true false false =
      (cropImage p ⟨b, s', d, w⟩ c true false false).map fun i => { i with spec := s } := by
  unfold cropImage
  simp only [bind, Except.bind, Except.map, Bool.false_eq_true, if_false]
  cases b.fromPixelBlock p w c with
  | error e => rfl
  | ok b' =>
    dsimp only
    cases c.width p with
    | error e => rfl
    | ok x =>
      dsimp only
      cases ensure (x = b'.size.width) with
      | error e => rfl
      | ok u =>
        dsimp only
        cases c.height p with
        | error e => rfl
        | ok y =>
          dsimp only
          cases ensure (y = b'.size.height) with
          | error e => rfl
          | ok u => rfl

theorem writeProcess_preview (p : Profile) (lib : NodeLib F H) (input : Stream F H) (path : Bytes)
    (frame : F) (t : DataType) {code : Int} (hc : code ∈ ([0, 1, 2] : List Int))
    (c : ImageCompression) :
    writeProcess p lib input path frame t (CropOnWrite.ofI32 code) c =
      (viewerProcess p lib input .all t
        (decide (CropsFile code (Path.expandString lib.shell path (frameNum frame))))
        (fileSpace (Path.expandString lib.shell path (frameNum frame)))).bind fun r =>
      oiioWrite lib.oiio (Path.expandString lib.shell path (frameNum frame))
        { r.1 with spec := .new } c := by
  unfold writeProcess viewerProcess
  dsimp only
  rw [writeColorSpace_spec, show bakeType t input.pixelBlock = bakeType t input.toBake.block from rfl,
    bake_bakeType, writeCrop_spec hc]
  generalize bake p lib.bake .all input.displayWindow input.toBake input.imageSpec.colorSpace _ t = r
  cases r with
  | error e => rfl
  | ok b =>
    simp only [bind, Except.bind]
    unfold writeImage
    dsimp only
    by_cases h : CropsFile code (Path.expandString lib.shell path (frameNum frame))
    · simp only [decide_eq_true h, if_true]
      rw [crop_other_spec p b.block .new b.spec]
      generalize cropImage p (⟨b.block, b.spec, _, _⟩ : Image F H) _ true false false = r
      cases r <;> rfl
    · simp only [decide_eq_false h, Bool.false_eq_true, if_false]
      rfl

omit [FloatLike F] [FloatBits F] [FloatConst F] [HalfLike F H] in
theorem lookup_off_error {X : Type} {p : Profile} {u : Bool} {v : World F H} (h : IsOff v) {key : Nat}
    {hit : X} {e : Panic} : lookup p u v key hit (.error e : Res (Image F H × X)) = .error e := by
  unfold lookup
  cases u with
  | false => rfl
  | true =>
    obtain ⟨h1, -, -⟩ := CacheSpec.off_get h key
    rw [if_pos rfl]
    cases hg : v.cache.get key with
    | mk c o =>
      rw [hg] at h1
      dsimp only at h1
      subst h1
      rfl

/-- C127: a viewer that is set like the write node shows exactly what is written: the same values in
the same windows.  If showing it panics, so does writing it. -/
theorem C127_nodes (p : Profile) (lib : NodeLib F H) (view write : Node F) (frame : F)
    (mode mode' : Mode) (input : Stream F H) (rest rest' : List (Stream F H)) (prev prev' : Stream F H)
    (w w' : World F H) (h : SetAlike lib frame view write) (hw : IsOff w)
    (hx : lib.oiio.hasWriter (filePath lib write frame) = true) :
    (∀ e, view.run p lib frame mode (input :: rest) prev w = .error e →
      write.run p lib frame mode' (input :: rest') prev' w' = .error e) ∧
    ∀ st out w1, view.run p lib frame mode (input :: rest) prev w = .ok (st, out, w1) →
      st = .valid ∧ w1.writes = w.writes ∧
      ∀ st' same w2, write.run p lib frame mode' (input :: rest') prev' w' = .ok (st', same, w2) →
        st' = .valid ∧ same = input ∧ ∃ job, w2.writes = w'.writes ++ [job] ∧
          job.path = filePath lib write frame ∧ Previews out job := by
  obtain ⟨t1, t2, h1, ⟨h2, h3⟩, h4, h5, h6, h7, h8⟩ := h
  obtain ⟨id, s0, attrs⟩ := view
  cases attrs <;> simp only [NodeAttrs.nodeType, reduceCtorEq] at t1
  rename_i a
  obtain ⟨id', s0', attrs⟩ := write
  cases attrs <;> simp only [NodeAttrs.nodeType, reduceCtorEq] at t2
  rename_i a'
  simp only [filePath, attr_eval] at h1 h2 h3 h4 h5 h6 h7 h8 hx ⊢
  generalize hpath : Path.expandString lib.shell a'.filePath (frameNum frame) = path at *
  have hcrop : decide (a.cropToFormat ≠ 0) = decide (CropsFile a'.cropOnWrite path) :=
    decide_eq_decide.mpr h8
  have hopt : (if decide (a.cropToFormat ≠ 0) = true then BakeOption.all
      else BakeOption.ofI32 a.bakeOption) = .all := by
    rcases h4 with h4 | ⟨h4, -⟩
    · rw [h4]; split <;> rfl
    · rw [if_pos (decide_eq_true h4)]
  have hsome : BakeOption.ofI32 a.bakeOption ≠ .nothing := by
    have h0 : a.bakeOption ≠ 0 := by
      rcases h4 with h4 | ⟨-, h4⟩
      · rw [h4]; decide
      · exact h4
    unfold BakeOption.ofI32
    rw [if_neg h0]
    repeat' split
    all_goals decide
  simp only [Node.run, ViewerAttrs.compute, WriteImageAttrs.compute]
  rw [if_neg (by simpa using h1), if_pos hsome, if_neg h2, if_neg h3, hopt,
    writeProcess_preview p lib input a'.filePath frame _ h7, hpath, hcrop, h5, h6]
  generalize hm : viewerProcess p lib input .all (DataType.ofI32 a'.pixelDataType)
    (decide (CropsFile a'.cropOnWrite path)) (fileSpace path) = make
  cases make with
  | error e =>
    rw [lookup_off_error hw]
    refine ⟨fun e' he => ?_, fun st out w1 h => nomatch h⟩
    cases he
    rfl
  | ok r =>
    obtain ⟨image, stream⟩ := r
    obtain ⟨w1, e1, -, k1⟩ := lookup_off_mpr (p := p) (u := decide (a.useCache ≠ 0))
      (key := _) (hit := input) hw (rfl : (Except.ok (image, stream) : Res _) = _)
    rw [e1]
    constructor
    · intro e' he
      simp [bind, Except.bind] at he
    · intro st out w2 hout
      cases hout
      refine ⟨rfl, k1, ?_⟩
      intro st' same w3 hwr
      obtain ⟨⟨b, o⟩, e2, hwr⟩ := Res.bind_ok.mp hwr
      cases hwr
      refine ⟨rfl, rfl, ?_⟩
      simp only [Except.bind] at e2
      unfold oiioWrite at e2
      rw [if_pos hx] at e2
      obtain ⟨spec, e3, e2⟩ := Res.bind_ok.mp e2
      cases e2
      unfold writeSpec at e3
      obtain ⟨fw, e4, e3⟩ := Res.bind_ok.mp e3
      obtain ⟨fh, e5, e3⟩ := Res.bind_ok.mp e3
      cases e3
      have e4 := (cint_ok.mp e4).2
      have e5 := (cint_ok.mp e5).2
      refine ⟨_, rfl, rfl, ?_⟩
      constructor <;> first | rfl | skip
      · exact e4
      · exact e5

end

/-! ### Examples -/

attribute [local instance] finFloat finBits finHalf finPi

/-- Reading, with a viewer that bakes everything and a write node behind it. -/
def readViewWrite : Graph (Node (Fin 256)) (Stream (Fin 256) (Fin 256)) :=
  ⟨[⟨1, .uninitialized, .readImage readAttrs⟩, ⟨2, .uninitialized, .viewer fullViewer⟩,
    ⟨3, .uninitialized, writeNode.attrs⟩], [1, 2, 3],
    ⟨[some 1, some 2, some 3], [], [⟨0, 2, 0⟩, ⟨0, 1, 0⟩]⟩, .new, .dirty, .uninitialized⟩

theorem readViewWrite_alike : SetAlike linearFiles 1
    (⟨2, .uninitialized, .viewer fullViewer⟩ : Node (Fin 256)) ⟨3, .uninitialized, writeNode.attrs⟩ := by
  refine ⟨rfl, rfl, rfl, ⟨by decide, by decide⟩, .inl rfl, ?_, rfl, by decide, ?_⟩ <;> decide

/-- C127 fails for whole graphs: a viewer that bakes everything does not ask the reading node for
pixels and shows the colour bars of a new graph, while the write node behind the same node writes the
file's white pixel. -/
theorem C127_counterexample : ∃ g1 w1 g2 w2 job,
    Reach (nodeSem .debug linearFiles) insSort false readViewWrite ∧
    readViewWrite.execute (nodeSem .debug linearFiles) insSort 20 2 [1] noCache =
      .ok (.success, g1, w1) ∧
    readViewWrite.execute (nodeSem .debug linearFiles) insSort 20 3 [1] noCache =
      .ok (.success, g2, w2) ∧
    w2.writes = [job] ∧ job.size = ⟨1, 1, 3⟩ ∧ ¬ Previews g1.output job := by
  obtain ⟨g1, w1, e1, k1⟩ : ∃ g1 w1, readViewWrite.execute (nodeSem .debug linearFiles) insSort 20 2 [1]
      noCache = .ok (.success, g1, w1) ∧ g1.output.pixelBlock.size ≠ ⟨1, 1, 3⟩ :=
    ⟨_, _, rfl, by decide +kernel⟩
  obtain ⟨g2, w2, e2, k2⟩ : ∃ g2 w2, readViewWrite.execute (nodeSem .debug linearFiles) insSort 20 3 [1]
      noCache = .ok (.success, g2, w2) ∧ w2.writes.map (·.size) = [⟨1, 1, 3⟩] :=
    ⟨_, _, rfl, by decide +kernel⟩
  obtain ⟨job, hj, k3⟩ : ∃ job, w2.writes = [job] ∧ job.size = ⟨1, 1, 3⟩ := by
    generalize w2.writes = l at k2 ⊢
    rcases l with _ | ⟨job, _ | ⟨j, l⟩⟩
    · cases k2
    · exact ⟨job, rfl, List.head_eq_of_cons_eq k2⟩
    · cases List.tail_eq_of_cons_eq k2
  refine ⟨g1, w1, g2, w2, job, .connect 1 3 0 (.connect 1 2 0 (.add ⟨3, .uninitialized, writeNode.attrs⟩
    (.add ⟨2, .uninitialized, .viewer fullViewer⟩
    (.add ⟨1, .uninitialized, .readImage readAttrs⟩ (.new .new) rfl) rfl) rfl) rfl) rfl, e1, e2,
    hj, k3, ?_⟩
  intro h
  exact k1 (h.size.symm.trans k3)

-- C127: one red pixel.
example : ∃ st out w1 job w2,
    (⟨2, .uninitialized, .viewer fullViewer⟩ : Node (Fin 256)).run .debug linearFiles 1 modeAll
      [onePixel] .new noCache = .ok (st, out, w1) ∧
    (⟨3, .uninitialized, writeNode.attrs⟩ : Node (Fin 256)).run .debug linearFiles 1 modeAll
      [onePixel] .new noCache = .ok (.valid, onePixel, w2) ∧
    w2.writes = [job] ∧ Previews out job := by
  obtain ⟨-, h⟩ := C127_nodes .debug linearFiles _ _ 1 modeAll modeAll onePixel [] [] .new .new noCache
    noCache readViewWrite_alike noCache_off rfl
  have e1 := ran (r := (⟨2, .uninitialized, .viewer fullViewer⟩ : Node (Fin 256)).run .debug
    linearFiles 1 modeAll [onePixel] .new noCache) (st := .valid) (by decide +kernel)
  have e2 := ran (r := (⟨3, .uninitialized, writeNode.attrs⟩ : Node (Fin 256)).run .debug
    linearFiles 1 modeAll [onePixel] .new noCache) (st := .valid) (by decide +kernel)
  obtain ⟨-, -, h⟩ := h _ _ _ e1
  obtain ⟨-, k, job, e, -, h⟩ := h _ _ _ e2
  rw [k] at e2
  exact ⟨_, _, _, job, _, e1, e2, e, h⟩

-- The settings also correspond when both nodes crop.
example : SetAlike linearFiles 1
    (⟨2, .uninitialized, .viewer { fullViewer with cropToFormat := 1, bakeOption := 2 }⟩ :
      Node (Fin 256))
    ⟨3, .uninitialized, .writeImage { WriteImageAttrs.new with
      enable := 1, execute := 1, filePath := [97], cropOnWrite := 2, pixelDataType := 0 }⟩ := by
  refine ⟨rfl, rfl, rfl, ⟨by decide, by decide⟩, .inr ?_, ?_, rfl, by decide, ?_⟩ <;> decide

end OCG.Props
