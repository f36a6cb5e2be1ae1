import Verif.Props.Metadata
import Verif.Props.CacheRun
/-
Property C104 for viewers that look into the cache.
-/

namespace OCG.Props

open CacheSpec MetadataSpec HashSpec

section
variable {F H : Type} [FloatLike F] [HalfLike F H] [FloatConst F] [FloatBits F]

/-- What a viewer bakes has the metadata of its input. -/
theorem viewerProcess_metadata {p : Profile} {lib : NodeLib F H} {s s' : Stream F H} {o : BakeOption}
    {t : DataType} {crop : Bool} {dst : Bytes} {im : Image F H}
    (e2 : viewerProcess p lib s o t crop dst = .ok (im, s')) :
    metadata im.spec = metadata s.imageSpec := by
  unfold viewerProcess at e2
  obtain ⟨b, e3, e2⟩ := Res.bind_ok.mp e2
  have hb : metadata b.spec = metadata s.imageSpec := (bake_metadata e3).1
  dsimp only at e2
  split at e2
  · obtain ⟨c, e4, e2⟩ := Res.bind_ok.mp e2
    cases e2
    rw [cropImage_spec e4]; exact hb
  · cases e2; exact hb

/-- C104 for viewers that look into the cache, after any history of regular executions (as in
C45): only the name of the colour space may change, also when the picture is found in the cache. -/
theorem C104_viewer_cached {p : Profile} {lib : NodeLib F H} {srt : EdgeSort}
    {K : Call F H → Prop} (hK : Regular p lib K) {w w' : World F H} (hw : History p lib srt K w)
    {c : Call F H} (hc : K c) (hi : ∀ s ∈ c.inputs, Produced p lib K s)
    (hp : Produced p lib K c.prev) (ht : c.node.attrs.nodeType = .viewer)
    (hen : c.node.getI32 "enable" = 1) {input : Stream F H} {rest : List (Stream F H)}
    (hin : c.inputs = input :: rest) {st : NodeStatus} {out : Stream F H}
    (e : c.run p lib w = .ok (st, out, w')) :
    metadata out.imageSpec = metadata input.imageSpec := by
  have hS := regular_sound hK
  obtain ⟨⟨v, g⟩, -⟩ := run_beside hS.faithful c hc ⟨hi, hp⟩ (hS.settled c hc)
    (hS.resampled c hc) (v := ⟨.withCapacity 0, w.writes⟩)
    ⟨history_good hS srt hw, ⟨rfl, rfl⟩, rfl⟩ e
  obtain ⟨⟨id, s, attrs⟩, frame, mode, inputs, prev⟩ := c
  simp only [Call.run, Node.run] at g
  dsimp only at hin ht
  subst hin
  cases attrs <;> simp [NodeAttrs.nodeType] at ht
  case viewer a =>
    have ha : a.enable = 1 := hen
    simp only [ViewerAttrs.compute] at g
    rw [if_neg (by simp [ha])] at g
    split at g
    · obtain ⟨⟨w1, im, s1⟩, e1, g⟩ := Res.bind_ok.mp g
      have ho : out.imageSpec = im.spec := by cases g; rfl
      rw [ho]
      exact viewerProcess_metadata (lookup_off_mp ⟨rfl, rfl⟩ e1)
    · cases g; rfl

end

section
attribute [local instance] finFloat finBits finHalf finPi

/-- A file with pixel aspect 2; hashes are the real ones. -/
def wideFiles : NodeLib (Fin 256) (Fin 256) :=
  { twoFiles with
    oiio := { fullDisk with header := fun _ => some { plainFile 1 with pixelAspect := 2 } } }

/-- A viewer that bakes colours. -/
def bakingViewer : ViewerAttrs := { ViewerAttrs.new with bakeOption := 2 }

/-- Reading, with no input, and viewing a stream with a certain hash that has nothing waiting. -/
def ReadView (c : Call (Fin 256) (Fin 256)) : Prop :=
  c.frame = 1 ∧ ((c.node.attrs = .readImage readAttrs ∧ c.inputs = []) ∨
    (c.node.attrs = .viewer bakingViewer ∧ ∃ s, c.inputs = [s] ∧ Ungraded s ∧
      s.hash = (readNode 1 [97]).hash wideFiles.hash wideFiles.shell 1 []))

theorem readView_items (c : Call (Fin 256) (Fin 256)) (h : ReadView c) :
    c.node.hashItems wideFiles.shell c.frame (c.inputs.map (·.hash)) =
      if c.node.attrs.nodeType = .readImage then
        (readNode 1 [97]).hashItems wideFiles.shell 1 []
      else
        (nodeOf (.viewer bakingViewer)).hashItems wideFiles.shell 1
          [(readNode 1 [97]).hash wideFiles.hash wideFiles.shell 1 []] := by
  obtain ⟨⟨i, st, a⟩, frame, mode, inputs, prev⟩ := c
  obtain ⟨hf, ⟨ha, hi⟩ | ⟨ha, s, hi, -, hh⟩⟩ := h
  · dsimp only at hf ha hi
    subst hf ha hi
    rfl
  · dsimp only at hf ha hi
    subst hf ha hi
    rw [if_neg (by simp [NodeAttrs.nodeType])]
    simp only [List.map_cons, List.map_nil, hh]
    rfl

theorem readViewNode_regular : Regular .debug wideFiles ReadView where
  range b := sipHash_lt b
  shell s t _ h := by cases h
  typed c h := by
    obtain ⟨⟨i, st, a⟩, frame, mode, inputs, prev⟩ := c
    obtain ⟨hf, ⟨ha, hi⟩ | ⟨ha, s, hi, -, hh⟩⟩ := h
    · dsimp only at ha
      subst ha
      constructor
      · intro name
        rw [Node.getI32_eq]
        simp only [NodeAttrs.getI32, ReadImageAttrs.getI32]
        split <;> decide
      · intro name b hb
        rw [Node.getStr_eq] at hb
        simp only [NodeAttrs.getStr, ReadImageAttrs.getStr] at hb
        split at hb
        · revert b; decide
        · cases hb
    · dsimp only at ha
      subst ha
      constructor
      · intro name
        rw [Node.getI32_eq]
        simp only [NodeAttrs.getI32, ViewerAttrs.getI32]
        split <;> decide
      · intro name b hb
        rw [Node.getStr_eq] at hb
        simp only [NodeAttrs.getStr, ViewerAttrs.getStr] at hb
        split at hb
        · revert b; decide
        · cases hb
  collision c c' h h' e := by
    have e' : wideFiles.hash (hashBytes _) = wideFiles.hash (hashBytes _) := e
    rw [readView_items c h, readView_items c' h'] at e' ⊢
    by_cases h1 : c.node.attrs.nodeType = .readImage <;>
    by_cases h2 : c'.node.attrs.nodeType = .readImage
    · rw [if_pos h1, if_pos h2]
    · rw [if_pos h1, if_neg h2] at e'
      exact absurd e' (by decide +kernel)
    · rw [if_neg h1, if_pos h2] at e'
      exact absurd e' (by decide +kernel)
    · rw [if_neg h1, if_neg h2]
  nonzero c h := by
    have e : c.key wideFiles = wideFiles.hash (hashBytes _) := rfl
    rw [readView_items c h] at e
    rw [e]
    split <;> decide +kernel
  files c h _ := by
    obtain ⟨⟨i, st, a⟩, frame, mode, inputs, prev⟩ := c
    obtain ⟨hf, ⟨ha, hi⟩ | ⟨ha, s, hi, -, hh⟩⟩ := h <;>
    · dsimp only at ha
      subst ha
      exact .inr rfl
  lenses c _ h _ ht := by
    obtain ⟨⟨i, st, a⟩, frame, mode, inputs, prev⟩ := c
    obtain ⟨hf, ⟨ha, hi⟩ | ⟨ha, s, hi, -, hh⟩⟩ := h <;>
    · dsimp only at ha
      subst ha
      cases ht
  grades c h ht := by
    obtain ⟨⟨i, st, a⟩, frame, mode, inputs, prev⟩ := c
    obtain ⟨hf, ⟨ha, hi⟩ | ⟨ha, s, hi, -, hh⟩⟩ := h <;>
    · dsimp only at ha
      subst ha
      cases ht
  single c h ht := by
    obtain ⟨⟨i, st, a⟩, frame, mode, inputs, prev⟩ := c
    obtain ⟨hf, ⟨ha, hi⟩ | ⟨ha, s, hi, -, hh⟩⟩ := h
    · dsimp only at ha
      subst ha
      rcases ht with ht | ht <;> cases ht
    · dsimp only at hi
      subst hi
      rfl
  settled c h _ := by
    obtain ⟨⟨i, st, a⟩, frame, mode, inputs, prev⟩ := c
    obtain ⟨hf, ⟨ha, hi⟩ | ⟨ha, s, hi, hu, hh⟩⟩ := h
    · dsimp only at ha
      subst ha
      trivial
    · dsimp only at ha hi
      subst ha hi
      intro _ t ht
      cases ht
      exact hu
  resampled c h ht := by
    obtain ⟨⟨i, st, a⟩, frame, mode, inputs, prev⟩ := c
    obtain ⟨hf, ⟨ha, hi⟩ | ⟨ha, s, hi, -, hh⟩⟩ := h <;>
    · dsimp only at ha
      subst ha
      cases ht

/-- A graph of the two nodes. -/
def readViewNode : Graph (Node (Fin 256)) (Stream (Fin 256) (Fin 256)) :=
  ⟨[⟨1, .uninitialized, .readImage readAttrs⟩, ⟨2, .uninitialized, .viewer bakingViewer⟩], [1, 2],
    ⟨[some 1, some 2], [], [⟨0, 1, 0⟩]⟩, .new, .dirty, .uninitialized⟩

/-- The stream of the file. -/
def wideStream : Stream (Fin 256) (Fin 256) :=
  outOf ((⟨1, .valid, .readImage readAttrs⟩ : Node (Fin 256)).run .debug wideFiles 1 modeAll [] .new
    noCache)

/-- The viewer on that stream. -/
def viewCall : Call (Fin 256) (Fin 256) :=
  ⟨nodeOf (.viewer bakingViewer), 1, modeAll, [wideStream], .new⟩

theorem wide_produced : Produced .debug wideFiles ReadView wideStream :=
  .step ⟨⟨1, .valid, .readImage readAttrs⟩, 1, modeAll, [], .new⟩ .valid _ ⟨rfl, .inl ⟨rfl, rfl⟩⟩
    (by simp) .new ⟨_, ran (st := .valid) (by decide +kernel)⟩

/-- Running the graph fills the cache; the viewer then finds its picture there and keeps the pixel
aspect. -/
example : ∃ g w log out w', readViewNode.execute (logged .debug wideFiles) insSort 20 2 [1]
      (⟨.withCapacity 1000, []⟩, []) = .ok (.success, g, (w, log)) ∧
    viewCall.run .debug wideFiles w = .ok (.valid, out, w') ∧
    w'.cache.hits = w.cache.hits + 1 ∧ out.imageSpec.pixelAspect = 2 := by
  obtain ⟨g, w, log, e, l, out, w', r, hits⟩ : ∃ g w log,
      readViewNode.execute (logged .debug wideFiles) insSort 20 2 [1] (⟨.withCapacity 1000, []⟩, []) =
        .ok (.success, g, (w, log)) ∧ (∀ c ∈ log, ReadView c) ∧ ∃ out w',
      viewCall.run .debug wideFiles w = .ok (.valid, out, w') ∧
      w'.cache.hits = w.cache.hits + 1 := by
    refine ⟨_, _, _, rfl, ?_, _, _, ran (by decide +kernel), by decide +kernel⟩
    show ∀ c ∈ [_, _], ReadView c
    refine List.forall_mem_cons.mpr ⟨?_, List.forall_mem_cons.mpr ⟨?_, by simp⟩⟩
    · exact ⟨rfl, .inl ⟨rfl, rfl⟩⟩
    · exact ⟨rfl, .inr ⟨rfl, _, rfl, ⟨rfl, rfl⟩, rfl⟩⟩
  have m := C104_viewer_cached (srt := insSort) readViewNode_regular
    (.execute _ _ _ _ _ _ _ _ _ (.start 1000 []) .new e l) (c := viewCall)
    ⟨rfl, .inr ⟨rfl, _, rfl, ⟨by decide +kernel, by decide +kernel⟩, by decide +kernel⟩⟩
    (by intro s hs; simp only [viewCall, List.mem_singleton] at hs; subst hs; exact wide_produced)
    .new rfl rfl (input := wideStream) (rest := []) rfl r
  refine ⟨g, w, log, out, w', e, r, hits, ?_⟩
  have a : (metadata out.imageSpec).pixelAspect = (metadata wideStream.imageSpec).pixelAspect := by
    rw [m]
  have b : (metadata wideStream.imageSpec).pixelAspect = 2 := by decide +kernel
  exact a.trans b

end
end OCG.Props
