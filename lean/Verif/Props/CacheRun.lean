import Mathlib.Data.List.Sort
import Verif.Proofs.CacheKeys
import Verif.Proofs.SipHash
import Verif.Props.Oiio
import Verif.Props.Execute
/-
C45: results with a warm cache and results without cache.
-/

namespace OCG.Props

open HashSpec CacheSpec ComputeSpec

set_option linter.unusedSimpArgs false

section
variable {F H : Type} [FloatLike F] [HalfLike F H] [FloatConst F] [FloatBits F]

/-! ### Recording the computations -/

theorem logged_computePhase (p : Profile) (lib : NodeLib F H) (srt : EdgeSort) (frame : F) :
    ∀ (l : List (Nat × Mode)) (g : Graph (Node F) (Stream F H)) (w : World F H)
    (log : List (Call F H)) (m : Graph.IdxMap (Stream F H)) (er : Option ErrorCode)
    (g' : Graph (Node F) (Stream F H)) (w' : World F H),
    Graph.computePhase (nodeSem p lib) srt frame l g w m = .ok (er, g', w') →
    ∃ log', Graph.computePhase (logged p lib) srt frame l g (w, log) m =
      .ok (er, g', (w', log')) := by
  intro l
  induction l with
  | nil => intro g w log m er g' w' h; cases h; exact ⟨log, rfl⟩
  | cons a l ih =>
    obtain ⟨i, mode⟩ := a
    intro g w log m er g' w' h
    unfold Graph.computePhase at h ⊢
    obtain ⟨ps, h1, h⟩ := Res.bind_ok.mp h
    obtain ⟨ins, h2, h⟩ := Res.bind_ok.mp h
    simp only [h1, h2, bind, Except.bind]
    cases hn : g.nodes[i]? with
    | none => rw [hn] at h; cases h
    | some n =>
      rw [hn] at h
      dsimp only at h ⊢
      obtain ⟨⟨n', st, out, w1⟩, h3, h⟩ := Res.bind_ok.mp h
      have hrec : (logged p lib).compute n frame mode ins g.output (w, log) =
          .ok (n', st, out, (w1, log ++ [⟨n, frame, mode, ins, g.output⟩])) := by
        unfold logged
        dsimp only
        rw [h3]
        rfl
      rw [hrec]
      dsimp only at h ⊢
      cases her : Graph.statusError st with
      | some e => rw [her] at h; cases h; exact ⟨_, rfl⟩
      | none =>
        rw [her] at h
        exact ih _ _ _ _ _ _ _ h

theorem logged_frameLoop (p : Profile) (lib : NodeLib F H) (srt : EdgeSort) (fuel : Nat)
    (order : List Nat) : ∀ (fs : List F) (g : Graph (Node F) (Stream F H)) (w : World F H)
    (log : List (Call F H)) (er : Option ErrorCode) (g' : Graph (Node F) (Stream F H))
    (w' : World F H),
    Graph.frameLoop (nodeSem p lib) srt fuel order fs g w = .ok (er, g', w') →
    ∃ log', Graph.frameLoop (logged p lib) srt fuel order fs g (w, log) =
      .ok (er, g', (w', log')) := by
  intro fs
  induction fs with
  | nil => intro g w log er g' w' h; cases h; exact ⟨log, rfl⟩
  | cons f fs ih =>
    intro g w log er g' w' h
    unfold Graph.frameLoop at h ⊢
    obtain ⟨⟨e, g1, w1⟩, h1, h⟩ := Res.bind_ok.mp h
    obtain ⟨log1, e1⟩ : ∃ log', Graph.executeFrame (logged p lib) srt fuel g order f (w, log) =
        .ok (e, g1, (w1, log')) := by
      unfold Graph.executeFrame at h1 ⊢
      obtain ⟨hs, h2, h1⟩ := Res.bind_ok.mp h1
      rw [logged_hashPhase, h2]
      cases order with
      | nil => cases h1
      | cons o os =>
        dsimp only at h1
        obtain ⟨v, h3, h1⟩ := Res.bind_ok.mp h1
        simp only [bind, Except.bind]
        rw [logged_validateLoop, h3]
        exact logged_computePhase p lib srt f _ _ _ _ _ _ _ _ h1
    simp only [e1, bind, Except.bind]
    dsimp only at h
    cases e with
    | some er => cases h; exact ⟨_, rfl⟩
    | none => exact ih _ _ _ _ _ _ h

/-- C45: recording the computations does not change what an execution gives. -/
theorem C45_recording (p : Profile) (lib : NodeLib F H) (srt : EdgeSort) (fuel : Nat)
    (g g' : Graph (Node F) (Stream F H)) (id : Nat) (frames : List F) (w w' : World F H)
    (status : ExecuteStatus)
    (h : Graph.execute (nodeSem p lib) srt fuel g id frames w = .ok (status, g', w')) :
    ∃ log, Graph.execute (logged p lib) srt fuel g id frames (w, []) =
      .ok (status, g', (w', log)) := by
  unfold Graph.execute at h ⊢
  cases hf : g.find id with
  | none => rw [hf] at h; cases h; exact ⟨_, rfl⟩
  | some start =>
    rw [hf] at h
    dsimp only at h ⊢
    obtain ⟨order, h1, h⟩ := Res.bind_ok.mp h
    obtain ⟨⟨e, g1, w1⟩, h2, h⟩ := Res.bind_ok.mp h
    obtain ⟨log, e2⟩ := logged_frameLoop p lib srt fuel order _ _ _ [] _ _ _ h2
    simp only [h1, e2, bind, Except.bind]
    cases e with
    | some er => cases h; exact ⟨_, rfl⟩
    | none => cases h; exact ⟨_, rfl⟩

/-! ### The theorems -/

/-- C45: if two computations that look into the cache do the same work on the same streams, and one
of them, with the cache switched off, gives some status and stream, so does the other.  So the
attributes that are hashed, together with the direction and the path, are all that matter. -/
theorem C45_same_work (p : Profile) (lib : NodeLib F H) (c c' : Call F H) (hc : Caches lib c)
    (hc' : Caches lib c')
    (hs : SameWork lib.shell c.node c'.node c.frame c'.frame (c.inputs.map (·.hash))
      (c'.inputs.map (·.hash)))
    (hin : c.inputs = c'.inputs) (st : NodeStatus) (out : Stream F H)
    (h : Gives p lib c st out) : Gives p lib c' st out := by
  have hu : ∀ {c : Call F H}, Caches lib c → Untouched c.node := by
    intro c hc ht
    obtain ⟨⟨i, st, a⟩, frame, mode, inputs, prev⟩ := c
    cases a <;> simp only [attr_eval, reduceCtorEq] at ht
    exact hc.2.elim
  exact keyed_same (caches_keyed hc) (caches_keyed hc') hs hin (hu hc) (hu hc') h

/-- C45: in a regular set of computations, the hash of a computed stream determines the stream:
its pixels, windows, image spec and everything waiting to be applied. -/
theorem C45_hash_determines_stream (p : Profile) (lib : NodeLib F H) (K : Call F H → Prop)
    (hK : Regular p lib K) (s t : Stream F H) (hs : Produced p lib K s) (ht : Produced p lib K t)
    (h : s.hash = t.hash) : s = t := determined hK hs t ht h

/-- C45 (partial): after any history of executions and capacity changes, an execution that
succeeds gives the same status, the same graph (with its output stream) and the same written files
as without any cache.  Missing: computations outside regular sets, where it is false (see the
counterexamples), and hash collisions. -/
theorem C45_cached_equals_uncached_partial (p : Profile) (lib : NodeLib F H) (srt : EdgeSort)
    (K : Call F H → Prop) (hK : Regular p lib K) (w v w' : World F H)
    (hw : History p lib srt K w) (hv : IsOff v) (hwr : w.writes = v.writes) (fuel : Nat)
    (g g' : Graph (Node F) (Stream F H)) (hg : Produced p lib K g.output) (id : Nat)
    (frames : List F) (status : ExecuteStatus) (log : List (Call F H))
    (h : Graph.execute (logged p lib) srt fuel g id frames (w, []) = .ok (status, g', (w', log)))
    (hlog : ∀ c ∈ log, K c) :
    ∃ v', Graph.execute (nodeSem p lib) srt fuel g id frames v = .ok (status, g', v') ∧
      v'.writes = w'.writes ∧ IsOff v' := by
  have hS := regular_sound hK
  obtain ⟨v', h1, h2, -⟩ := execute_beside hS srt fuel g g' id frames w v w' log status
    ⟨history_good hS srt hw, hv, hwr⟩ hg h hlog
  exact ⟨v', h1, h2.writes.symm, h2.off⟩

/-- C45 (partial): an execution with a warm cache and one with an empty cache of any capacity that
both succeed give the same.  The same cases are missing. -/
theorem C45_warm_equals_cold_partial (p : Profile) (lib : NodeLib F H) (srt : EdgeSort)
    (K : Call F H → Prop) (hK : Regular p lib K) (w w1 w2 : World F H) (capacity : Nat)
    (hw : History p lib srt K w) (fuel : Nat) (g g1 g2 : Graph (Node F) (Stream F H))
    (hg : Produced p lib K g.output) (id : Nat) (frames : List F) (st1 st2 : ExecuteStatus)
    (log1 log2 : List (Call F H))
    (h1 : Graph.execute (logged p lib) srt fuel g id frames (w, []) = .ok (st1, g1, (w1, log1)))
    (h2 : Graph.execute (logged p lib) srt fuel g id frames
      (⟨.withCapacity capacity, w.writes⟩, []) = .ok (st2, g2, (w2, log2)))
    (hlog1 : ∀ c ∈ log1, K c) (hlog2 : ∀ c ∈ log2, K c) :
    st1 = st2 ∧ g1 = g2 ∧ w1.writes = w2.writes := by
  obtain ⟨v1, a1, b1, -⟩ := C45_cached_equals_uncached_partial p lib srt K hK w
    ⟨.withCapacity 0, w.writes⟩ w1 hw ⟨rfl, rfl⟩ rfl fuel g g1 hg id frames st1 log1 h1 hlog1
  obtain ⟨v2, a2, b2, -⟩ := C45_cached_equals_uncached_partial p lib srt K hK
    ⟨.withCapacity capacity, w.writes⟩ ⟨.withCapacity 0, w.writes⟩ w2 (.start _ _) ⟨rfl, rfl⟩ rfl
    fuel g g2 hg id frames st2 log2 h2 hlog2
  rw [a1] at a2
  simp only [Except.ok.injEq, Prod.mk.injEq] at a2
  exact ⟨a2.1, a2.2.1, by rw [← b1, ← b2, a2.2.2]⟩

end

/-! ### Counterexamples -/

section
attribute [local instance] finFloat finBits finHalf finPi

/-- The status of a computation. -/
def statusOf (r : Res (Computed (Fin 256) (Fin 256))) : Option NodeStatus :=
  match r with
  | .ok (st, _, _) => some st
  | .error _ => none

/-- The stream of a computation. -/
def outOf (r : Res (Computed (Fin 256) (Fin 256))) : Stream (Fin 256) (Fin 256) :=
  match r with
  | .ok (_, out, _) => out
  | .error _ => .new

/-- The cache and the files after a computation. -/
def worldOf (r : Res (Computed (Fin 256) (Fin 256))) : World (Fin 256) (Fin 256) :=
  match r with
  | .ok (_, _, w) => w
  | .error _ => ⟨.withCapacity 0, []⟩

/-- The numbers of a floating-point pixel block. -/
def numbersOf (b : PixelBlock (Fin 256) (Fin 256)) : List (Fin 256) :=
  match b.asSliceF32 with
  | .ok d => d
  | .error _ => []

theorem ran {r : Res (Computed (Fin 256) (Fin 256))} {st : NodeStatus} (h : statusOf r = some st) :
    r = .ok (st, outOf r, worldOf r) := by
  match r, h with
  | .ok (_, _, _), h => cases h; rfl

/-- The switched-off cache. -/
def noCache : World (Fin 256) (Fin 256) := ⟨.withCapacity 0, []⟩

/-- A crop to the first pixel. -/
def pixelCrop : CropImageAttrs :=
  { CropImageAttrs.new with
    enable := 1, useCache := 1, windowMinX := 0, windowMinY := 0, windowMaxX := 1, windowMaxY := 1
    reformat := 0, blackOutside := 0, intersect := 0 }

/-- A viewer that bakes everything. -/
def fullViewer : ViewerAttrs :=
  { ViewerAttrs.new with
    enable := 1, useCache := 1, bakeOption := 3, cropToFormat := 0, bakePixelDataType := 0
    bakeColorSpace := colorSpaceLinear }

/-- C45 fails for a crop behind a grade: computing it applies the grade to the pixels and takes it
off the stream, but the second time the image comes from the cache and the grade stays on the
stream.  A viewer then applies it a second time. -/
theorem C45_counterexample_grade : ∃ out1 w1 out2 w2 seen1 seen2 v1 v2,
    (nodeOf (.cropImage pixelCrop)).run .debug finLib 1 modeAll [gradedPixel] .new blankWorld =
      .ok (.valid, out1, w1) ∧
    (nodeOf (.cropImage pixelCrop)).run .debug finLib 1 modeAll [gradedPixel] .new w1 =
      .ok (.valid, out2, w2) ∧
    out1.colorOps.length = 0 ∧ out2.colorOps.length = 1 ∧ out1.hash = out2.hash ∧
    (nodeOf (.viewer fullViewer)).run .debug finLib 1 modeAll [out1] .new noCache =
      .ok (.valid, seen1, v1) ∧
    (nodeOf (.viewer fullViewer)).run .debug finLib 1 modeAll [out2] .new noCache =
      .ok (.valid, seen2, v2) ∧
    numbersOf seen1.pixelBlock = [2, 0, 0] ∧ numbersOf seen2.pixelBlock = [4, 0, 0] :=
  ⟨_, _, _, _, _, _, _, _, ran (by decide +kernel), ran (by decide +kernel), by decide +kernel,
    by decide +kernel, by decide +kernel, ran (by decide +kernel), ran (by decide +kernel),
    by decide +kernel, by decide +kernel⟩

/-- A lens that enlarges the box of the image to the right, differently in the two directions. -/
def unevenLens : NodeLib (Fin 256) (Fin 256) :=
  { finLib with
    bake := { finLib.bake with
      deform := { finLib.bake.deform with
        lens := { finLib.bake.deform.lens with
          boxUndistort := fun _ _ => ⟨2, 2, 255, 255⟩
          boxDistort := fun _ _ => ⟨2, 2, 0, 255⟩ } } } }

/-- A lens distortion with the given direction. -/
def lensNode (direction : Int) : Node (Fin 256) :=
  nodeOf (.lensDistort { LensDistortAttrs.new with enable := 1, direction := direction })

/-- C45 fails after a change of the direction of a lens distortion: the hash is the same, so the
viewer shows the image that was made for the other direction. -/
theorem C45_counterexample_direction : ∃ mid1 mid2 u1 u2 out1 w1 out2 w2 off w3,
    (lensNode 0).run .debug unevenLens 1 modeAll [onePixel] .new noCache = .ok (.valid, mid1, u1) ∧
    (lensNode 1).run .debug unevenLens 1 modeAll [onePixel] .new noCache = .ok (.valid, mid2, u2) ∧
    (nodeOf (.viewer fullViewer)).run .debug unevenLens 1 modeAll [mid1] .new blankWorld =
      .ok (.valid, out1, w1) ∧
    (nodeOf (.viewer fullViewer)).run .debug unevenLens 1 modeAll [mid2] .new w1 =
      .ok (.valid, out2, w2) ∧
    (nodeOf (.viewer fullViewer)).run .debug unevenLens 1 modeAll [mid2] .new noCache =
      .ok (.valid, off, w3) ∧
    out2.dataWindow = ⟨0, 0, 1, 1⟩ ∧ off.dataWindow = ⟨0, 0, 2, 1⟩ :=
  ⟨_, _, _, _, _, _, _, _, _, _, ran (by decide +kernel), ran (by decide +kernel),
    ran (by decide +kernel), ran (by decide +kernel), ran (by decide +kernel), by decide +kernel,
    by decide +kernel⟩

/-- A resampling that fails. -/
def failingResample : NodeLib (Fin 256) (Fin 256) :=
  { finLib with oiio := { finLib.oiio with
      resample := fun _ _ _ _ _ _ old => (false, old)
      resample_length := fun _ _ _ _ _ _ _ => rfl } }

/-- A resampling to twice the size. -/
def twiceSize : ResampleImageAttrs :=
  { ResampleImageAttrs.new with enable := 1, useCache := 1, factor := 1 }

/-- C45 fails for a resampling that does not succeed: computing it gives the status Error, but the
image is stored, and when it comes from the cache the status is Valid. -/
theorem C45_counterexample_resample : ∃ out1 w1 out2 w2,
    (nodeOf (.resampleImage twiceSize)).run .debug failingResample 1 modeAll [onePixel] .new
        blankWorld = .ok (.error, out1, w1) ∧
    (nodeOf (.resampleImage twiceSize)).run .debug failingResample 1 modeAll [onePixel] .new
        w1 = .ok (.valid, out2, w2) :=
  ⟨_, _, _, _, ran (by decide +kernel), ran (by decide +kernel)⟩

/-- The header of a file of floats with three channels. -/
def plainFile (width : Int) : FileSpec (Fin 256) :=
  { shiftedFile with
    x := 0, y := 0, width := width, height := 1, fullX := 0, fullY := 0, fullWidth := width
    fullHeight := 1, format := .known .f32 }

/-- Two files: `a` is one pixel wide, all others are two pixels wide.  Hashes are the real ones. -/
def twoFiles : NodeLib (Fin 256) (Fin 256) :=
  { finLib with
    hash := sipHash
    pathKind := fun _ => .file
    oiio := { fullDisk with
      header := fun path => some (plainFile (if path = [97] then 1 else 2)) } }

/-- A ReadImage node for a file; `enable` may be any number. -/
def readNode (enable : Int) (path : Bytes) : Node (Fin 256) :=
  nodeOf (.readImage { ReadImageAttrs.new with enable := enable, useCache := 1, filePath := path })

/-- C45 fails for a ReadImage node with `enable` neither 0 nor 1: the path is not hashed, so after a
change of the path the node gives the image of the other file. -/
theorem C45_counterexample_path : ∃ out1 w1 out2 w2 off w3,
    (readNode 2 [97]).run .debug twoFiles 1 modeAll [] .new blankWorld = .ok (.valid, out1, w1) ∧
    (readNode 2 [98]).run .debug twoFiles 1 modeAll [] .new w1 = .ok (.valid, out2, w2) ∧
    (readNode 2 [98]).run .debug twoFiles 1 modeAll [] .new noCache = .ok (.valid, off, w3) ∧
    out2.pixelBlock.size = ⟨1, 1, 3⟩ ∧ off.pixelBlock.size = ⟨2, 1, 3⟩ :=
  ⟨_, _, _, _, _, _, ran (by decide +kernel), ran (by decide +kernel), ran (by decide +kernel),
    by decide +kernel, by decide +kernel⟩

/-! ### Examples -/

/-- Reading the file `a`, and cropping it. -/
def readAttrs : ReadImageAttrs :=
  { ReadImageAttrs.new with enable := 1, useCache := 1, filePath := [97] }

/-- A graph of the two nodes. -/
def readCrop : Graph (Node (Fin 256)) (Stream (Fin 256) (Fin 256)) :=
  ⟨[⟨1, .uninitialized, .readImage readAttrs⟩, ⟨2, .uninitialized, .cropImage pixelCrop⟩], [1, 2],
    ⟨[some 1, some 2], [], [⟨0, 1, 0⟩]⟩, .new, .dirty, .uninitialized⟩

/-- Reading, with no input, and cropping a stream with a certain hash that has nothing waiting. -/
def ReadCrop (c : Call (Fin 256) (Fin 256)) : Prop :=
  c.frame = 1 ∧ ((c.node.attrs = .readImage readAttrs ∧ c.inputs = []) ∨
    (c.node.attrs = .cropImage pixelCrop ∧ ∃ s, c.inputs = [s] ∧ Ungraded s ∧ s.deformers = [] ∧
      s.hash = (readNode 1 [97]).hash twoFiles.hash twoFiles.shell 1 []))

theorem readCrop_items (c : Call (Fin 256) (Fin 256)) (h : ReadCrop c) :
    c.node.hashItems twoFiles.shell c.frame (c.inputs.map (·.hash)) =
      if c.node.attrs.nodeType = .readImage then
        (readNode 1 [97]).hashItems twoFiles.shell 1 []
      else
        (nodeOf (.cropImage pixelCrop)).hashItems twoFiles.shell 1
          [(readNode 1 [97]).hash twoFiles.hash twoFiles.shell 1 []] := by
  obtain ⟨⟨i, st, a⟩, frame, mode, inputs, prev⟩ := c
  obtain ⟨hf, ⟨ha, hi⟩ | ⟨ha, s, hi, -, -, hh⟩⟩ := h
  · dsimp only at hf ha hi
    subst hf ha hi
    rfl
  · dsimp only at hf ha hi
    subst hf ha hi
    rw [if_neg (by simp [NodeAttrs.nodeType])]
    simp only [List.map_cons, List.map_nil, hh]
    rfl

theorem readCrop_regular : Regular .debug twoFiles ReadCrop where
  range b := sipHash_lt b
  shell s t _ h := by cases h
  typed c h := by
    obtain ⟨⟨i, st, a⟩, frame, mode, inputs, prev⟩ := c
    obtain ⟨hf, ⟨ha, hi⟩ | ⟨ha, s, hi, -, -, hh⟩⟩ := h
    · dsimp only at ha
      subst ha
      constructor
      · intro name
        rw [Node.getI32_eq]
        simp only [NodeAttrs.getI32, ReadImageAttrs.getI32]
        split <;> decide
      · intro name b hb
        rw [Node.getStr_eq] at hb
        simp only [NodeAttrs.getStr, ReadImageAttrs.getStr] at hb
        split at hb
        · revert b; decide
        · cases hb
    · dsimp only at ha
      subst ha
      constructor
      · intro name
        rw [Node.getI32_eq]
        simp only [NodeAttrs.getI32, CropImageAttrs.getI32]
        split <;> decide
      · intro name b hb
        rw [Node.getStr_eq] at hb
        simp only [NodeAttrs.getStr] at hb
        cases hb
  collision c c' h h' e := by
    have e' : twoFiles.hash (hashBytes _) = twoFiles.hash (hashBytes _) := e
    rw [readCrop_items c h, readCrop_items c' h'] at e' ⊢
    by_cases h1 : c.node.attrs.nodeType = .readImage <;>
    by_cases h2 : c'.node.attrs.nodeType = .readImage
    · rw [if_pos h1, if_pos h2]
    · rw [if_pos h1, if_neg h2] at e'
      exact absurd e' (by decide +kernel)
    · rw [if_neg h1, if_pos h2] at e'
      exact absurd e' (by decide +kernel)
    · rw [if_neg h1, if_neg h2]
  nonzero c h := by
    have e : c.key twoFiles = twoFiles.hash (hashBytes _) := rfl
    rw [readCrop_items c h] at e
    rw [e]
    split <;> decide +kernel
  files c h _ := by
    obtain ⟨⟨i, st, a⟩, frame, mode, inputs, prev⟩ := c
    obtain ⟨hf, ⟨ha, hi⟩ | ⟨ha, s, hi, -, -, hh⟩⟩ := h <;>
    · dsimp only at ha
      subst ha
      exact .inr rfl
  lenses c _ h _ ht := by
    obtain ⟨⟨i, st, a⟩, frame, mode, inputs, prev⟩ := c
    obtain ⟨hf, ⟨ha, hi⟩ | ⟨ha, s, hi, -, -, hh⟩⟩ := h <;>
    · dsimp only at ha
      subst ha
      cases ht
  grades c h ht := by
    obtain ⟨⟨i, st, a⟩, frame, mode, inputs, prev⟩ := c
    obtain ⟨hf, ⟨ha, hi⟩ | ⟨ha, s, hi, -, -, hh⟩⟩ := h <;>
    · dsimp only at ha
      subst ha
      cases ht
  single c h ht := by
    obtain ⟨⟨i, st, a⟩, frame, mode, inputs, prev⟩ := c
    obtain ⟨hf, ⟨ha, hi⟩ | ⟨ha, s, hi, -, -, hh⟩⟩ := h <;>
    · dsimp only at ha
      subst ha
      rcases ht with ht | ht <;> cases ht
  settled c h _ := by
    obtain ⟨⟨i, st, a⟩, frame, mode, inputs, prev⟩ := c
    obtain ⟨hf, ⟨ha, hi⟩ | ⟨ha, s, hi, hu, hd, hh⟩⟩ := h
    · dsimp only at ha
      subst ha
      trivial
    · dsimp only at ha hi
      subst ha hi
      intro t ht
      cases ht
      exact ⟨hu, hd⟩
  resampled c h ht := by
    obtain ⟨⟨i, st, a⟩, frame, mode, inputs, prev⟩ := c
    obtain ⟨hf, ⟨ha, hi⟩ | ⟨ha, s, hi, -, -, hh⟩⟩ := h <;>
    · dsimp only at ha
      subst ha
      cases ht

/-- Running the graph twice: the second time both images come from the cache. -/
theorem readCrop_twice : ∃ g1 w1 log1 g2 w2 log2,
    readCrop.execute (logged .debug twoFiles) insSort 20 2 [1] (blankWorld, []) =
      .ok (.success, g1, (w1, log1)) ∧ (∀ c ∈ log1, ReadCrop c) ∧
    readCrop.execute (logged .debug twoFiles) insSort 20 2 [1] (w1, []) =
      .ok (.success, g2, (w2, log2)) ∧ (∀ c ∈ log2, ReadCrop c) ∧ w2.cache.hits = 2 ∧
      w1.cache.lru.length = 2 ∧ w1.writes = [] := by
  refine ⟨_, _, _, _, _, _, rfl, ?_, rfl, ?_, ?_, ?_, rfl⟩
  · show ∀ c ∈ [_, _], ReadCrop c
    refine List.forall_mem_cons.mpr ⟨?_, List.forall_mem_cons.mpr ⟨?_, by simp⟩⟩
    · exact ⟨rfl, .inl ⟨rfl, rfl⟩⟩
    · exact ⟨rfl, .inr ⟨rfl, _, rfl, ⟨rfl, rfl⟩, rfl, rfl⟩⟩
  · show ∀ c ∈ [_, _], ReadCrop c
    refine List.forall_mem_cons.mpr ⟨?_, List.forall_mem_cons.mpr ⟨?_, by simp⟩⟩
    · exact ⟨rfl, .inl ⟨rfl, rfl⟩⟩
    · exact ⟨rfl, .inr ⟨rfl, _, rfl, ⟨rfl, rfl⟩, rfl, rfl⟩⟩
  · decide +kernel
  · decide +kernel

/-- With the warm cache, the graph gives the same as without cache. -/
example : ∃ w g2 v', History .debug twoFiles insSort ReadCrop w ∧ w.cache.lru.length = 2 ∧
    readCrop.execute (nodeSem .debug twoFiles) insSort 20 2 [1] noCache = .ok (.success, g2, v') ∧
    (∃ w2 log, readCrop.execute (logged .debug twoFiles) insSort 20 2 [1] (w, []) =
      .ok (.success, g2, (w2, log)) ∧ w2.cache.hits = 2) := by
  obtain ⟨g1, w1, log1, g2, w2, log2, e1, l1, e2, l2, hits, hl, hw⟩ := readCrop_twice
  have hist : History .debug twoFiles insSort ReadCrop w1 :=
    .execute _ _ _ _ _ _ _ _ _ (.start 1000 []) .new e1 l1
  obtain ⟨v', e, -, -⟩ := C45_cached_equals_uncached_partial .debug twoFiles insSort ReadCrop
    readCrop_regular w1 noCache w2 hist ⟨rfl, rfl⟩ hw 20 readCrop g2 .new 2 [1] .success log2 e2 l2
  exact ⟨w1, g2, v', hist, hl, e, w2, log2, e2, hits⟩

example : ∃ g1 g2 : Graph (Node (Fin 256)) (Stream (Fin 256) (Fin 256)), ∃ w1 w2 log1 log2,
    readCrop.execute (logged .debug twoFiles) insSort 20 2 [1] (blankWorld, []) =
      .ok (.success, g1, (w1, log1)) ∧
    readCrop.execute (logged .debug twoFiles) insSort 20 2 [1] (w1, []) =
      .ok (.success, g2, (w2, log2)) ∧ g1 = g2 := by
  obtain ⟨g1, w1, log1, g2, w2, log2, e1, l1, e2, l2, hits, hl, hw⟩ := readCrop_twice
  have hist : History .debug twoFiles insSort ReadCrop w1 :=
    .execute _ _ _ _ _ _ _ _ _ (.start 1000 []) .new e1 l1
  refine ⟨g1, g2, w1, w2, log1, log2, e1, e2, ?_⟩
  have e1' : readCrop.execute (logged .debug twoFiles) insSort 20 2 [1]
      (⟨.withCapacity 1000, w1.writes⟩, []) = .ok (.success, g1, (w1, log1)) := by
    rw [hw]; exact e1
  exact (C45_warm_equals_cold_partial .debug twoFiles insSort ReadCrop readCrop_regular w1 w2 w1 1000
    hist 20 readCrop g2 g1 .new 2 [1] .success .success log2 log1 e2 e1' l2 l1).2.1.symm

/-- The file node of the graph. -/
def readCall : Call (Fin 256) (Fin 256) :=
  ⟨⟨1, .valid, .readImage readAttrs⟩, 1, modeAll, [], .new⟩

/-- The same work under another number. -/
example : ∃ out w, Caches twoFiles readCall ∧
    readCall.run .debug twoFiles noCache = .ok (.valid, out, w) ∧
    Gives .debug twoFiles { readCall with node := { readCall.node with id := 7 } } .valid out := by
  have hc : ∀ i, Caches twoFiles { readCall with node := { readCall.node with id := i } } :=
    fun i => ⟨show (1 : Int) ≠ 0 by decide, show modeAll &&& modePixel = modePixel by decide,
      show (1 : Int) ≠ 0 by decide, rfl⟩
  have e : readCall.run .debug twoFiles noCache = _ := ran (st := .valid) (by decide +kernel)
  exact ⟨_, _, hc 1, e, C45_same_work .debug twoFiles readCall _ (hc 1) (hc 7)
    ⟨rfl, fun _ _ => rfl, fun _ _ => rfl, fun _ _ => rfl, fun _ => rfl, rfl⟩ rfl _ _ ⟨_, e⟩⟩

/-- Two streams computed from the file have the same hash. -/
example : ∃ s : Stream (Fin 256) (Fin 256), Produced .debug twoFiles ReadCrop s ∧ s.hash ≠ 0 ∧
    ∀ t, Produced .debug twoFiles ReadCrop t → t.hash = s.hash → t = s := by
  have e : readCall.run .debug twoFiles noCache = _ := ran (st := .valid) (by decide +kernel)
  have hs : Produced .debug twoFiles ReadCrop
      (outOf (readCall.run .debug twoFiles noCache)) :=
    .step readCall .valid _ ⟨rfl, .inl ⟨rfl, rfl⟩⟩ (by simp [readCall]) .new ⟨_, e⟩
  exact ⟨_, hs, by decide +kernel, fun t ht h =>
    C45_hash_determines_stream .debug twoFiles ReadCrop readCrop_regular t _ ht hs h⟩

/-- Recording the executions of the graph. -/
example : ∃ g' w' log, readCrop.execute (nodeSem .debug twoFiles) insSort 20 2 [1] blankWorld =
      .ok (.success, g', w') ∧
    readCrop.execute (logged .debug twoFiles) insSort 20 2 [1] (blankWorld, []) =
      .ok (.success, g', (w', log)) := by
  obtain ⟨g', w', e⟩ : ∃ g' w', readCrop.execute (nodeSem .debug twoFiles) insSort 20 2 [1]
      blankWorld = .ok (.success, g', w') := ⟨_, _, rfl⟩
  obtain ⟨log, h⟩ := C45_recording .debug twoFiles insSort 20 readCrop g' 2 [1] blankWorld w' _ e
  exact ⟨g', w', log, e, h⟩

end
end OCG.Props
