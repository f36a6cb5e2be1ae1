import Verif.Props.CacheRun
import Verif.Props.PictureGraph
/-
C87 with the cache switched on.
-/

namespace OCG.Props

open BlockSpec BBoxSpec ImageSpecs PixelSpec ColorSpec PictureSpec ComputeSpec GraphSpec HashSpec
open CacheSpec

set_option linter.unusedSimpArgs false

section
variable {F H : Type} [FloatLike F] [HalfLike F H] [FloatConst F] [FloatBits F]

/-- C87 with a cache in any state that executions and changes of its capacity lead to: an execution
that returns has succeeded, and the output shows the picture.  As in C45 the computations must be
regular, and all of them are recorded in the log. -/
theorem C87_cached_partial (p : Profile) (lib : NodeLib F H) (srt : EdgeSort)
    {K : Call F H → Prop} (hK : Regular p lib K) {w w' : World F H} (hw : History p lib srt K w)
    {g : Graph (Node F) (Stream F H)} {r : Bool} (h : Reach (nodeSem p lib) srt r g)
    (hg : Produced p lib K g.output)
    {id start : Nat} (hid : At g id start) (hs : g.graph.contains start = true)
    {frames : List F} {frame : F} (hlast : frames.getLast? = some frame)
    {pic : F → Nat → Layer F}
    (hp : ∀ fr ∈ frames, Pictures lib srt g start fr (pic fr))
    {fuel : Nat} {st : ExecuteStatus} {g' : Graph (Node F) (Stream F H)} {log : List (Call F H)}
    (hx : g.execute (logged p lib) srt fuel id frames (w, []) = .ok (st, g', (w', log)))
    (hlog : ∀ c ∈ log, K c) :
    st = .success ∧ ShowsLayer lib.bake.color g'.output (pic frame start) := by
  obtain ⟨v', e, -, -⟩ := C45_cached_equals_uncached_partial p lib srt K hK w
    ⟨.withCapacity 0, w.writes⟩ w' hw ⟨rfl, rfl⟩ rfl fuel g g' hg id frames st log hx hlog
  obtain ⟨h1, -, h2⟩ := C87_graph_returns_partial p lib srt h hid hs hlast hp ⟨rfl, rfl⟩ e
  exact ⟨h1, h2⟩

/-- C87, files, with a cache: executing a write node that is switched on hands the picture to
OpenImageIO as the last job. -/
theorem C87_cached_file_partial (p : Profile) (lib : NodeLib F H) (srt : EdgeSort)
    {K : Call F H → Prop} (hK : Regular p lib K) {w w' : World F H} (hw : History p lib srt K w)
    {g : Graph (Node F) (Stream F H)} {r : Bool} (h : Reach (nodeSem p lib) srt r g)
    (hg : Produced p lib K g.output)
    {id start : Nat} (hid : At g id start) (hs : g.graph.contains start = true)
    {frames : List F} {frame : F} (hlast : frames.getLast? = some frame)
    {pic : F → Nat → Layer F}
    (hp : ∀ fr ∈ frames, Pictures lib srt g start fr (pic fr))
    {n : Node F} (hn : g.nodes[start]? = some n) (hnt : n.attrs.nodeType = .writeImage)
    (he : n.getI32 "enable" ≠ 0) (hex : n.getI32 "execute" ≠ 0)
    {fuel : Nat} {st : ExecuteStatus} {g' : Graph (Node F) (Stream F H)} {log : List (Call F H)}
    (hx : g.execute (logged p lib) srt fuel id frames (w, []) = .ok (st, g', (w', log)))
    (hlog : ∀ c ∈ log, K c) :
    ∃ before job, w'.writes = before ++ [job] ∧
      WrittenLayer lib frame n (pic frame start) job := by
  obtain ⟨v', e, hv, -⟩ := C45_cached_equals_uncached_partial p lib srt K hK w
    ⟨.withCapacity 0, w.writes⟩ w' hw ⟨rfl, rfl⟩ rfl fuel g g' hg id frames st log hx hlog
  rw [← hv]
  exact C87_file_partial p lib srt h hid hs hlast hp ⟨rfl, rfl⟩ hn hnt he hex e

end

/-! ### Examples -/

attribute [local instance] finFloat finBits finHalf finPi

/-- A crop with one more pixel on the left. -/
def leftCrop : CropImageAttrs := { pixelCrop with windowMinX := -1, reformat := 1 }

/-- The hash of the stream behind the reading node, and behind the crop. -/
def readKey : Nat := (readNode 1 [97]).hash twoFiles.hash twoFiles.shell 1 []

def cropKey : Nat := (nodeOf (.cropImage leftCrop)).hash twoFiles.hash twoFiles.shell 1 [readKey]

/-- Reading, cropping and writing on frame 1. -/
def ReadCropWrite (c : Call (Fin 256) (Fin 256)) : Prop :=
  c.frame = 1 ∧ ((c.node.attrs = .readImage readAttrs ∧ c.inputs = []) ∨
    (c.node.attrs = .cropImage leftCrop ∧ ∃ s, c.inputs = [s] ∧ Ungraded s ∧ s.deformers = [] ∧
      s.hash = readKey) ∨
    (c.node.attrs = writeNode.attrs ∧ ∃ s, c.inputs = [s] ∧ s.hash = cropKey))

/-- What is hashed for the three nodes. -/
def rcwItems (c : Call (Fin 256) (Fin 256)) : List HashItem :=
  match c.node.attrs with
  | .readImage _ => (readNode 1 [97]).hashItems twoFiles.shell 1 []
  | .cropImage _ => (nodeOf (.cropImage leftCrop)).hashItems twoFiles.shell 1 [readKey]
  | _ => (nodeOf writeNode.attrs).hashItems twoFiles.shell 1 [cropKey]

theorem rcw_items (c : Call (Fin 256) (Fin 256)) (h : ReadCropWrite c) :
    c.node.hashItems twoFiles.shell c.frame (c.inputs.map (·.hash)) = rcwItems c := by
  obtain ⟨⟨i, st, a⟩, frame, mode, inputs, prev⟩ := c
  obtain ⟨hf, ⟨ha, hi⟩ | ⟨ha, s, hi, -, -, hh⟩ | ⟨ha, s, hi, hh⟩⟩ := h
  · dsimp only at hf ha hi
    subst hf ha hi
    rfl
  · dsimp only at hf ha hi
    subst hf ha hi
    simp only [List.map_cons, List.map_nil, hh]
    rfl
  · dsimp only at hf ha hi
    subst hf ha hi
    simp only [List.map_cons, List.map_nil, hh]
    rfl

/-- Facts about all three kinds of calls. -/
theorem rcw_cases {P : Call (Fin 256) (Fin 256) → Prop} (c : Call (Fin 256) (Fin 256))
    (h : ReadCropWrite c)
    (h1 : ∀ i st mode prev, P ⟨⟨i, st, .readImage readAttrs⟩, 1, mode, [], prev⟩)
    (h2 : ∀ i st mode prev s, Ungraded s → s.deformers = [] → s.hash = readKey →
      P ⟨⟨i, st, .cropImage leftCrop⟩, 1, mode, [s], prev⟩)
    (h3 : ∀ i st mode prev s, s.hash = cropKey →
      P ⟨⟨i, st, writeNode.attrs⟩, 1, mode, [s], prev⟩) : P c := by
  obtain ⟨⟨i, st, a⟩, frame, mode, inputs, prev⟩ := c
  obtain ⟨hf, ⟨ha, hi⟩ | ⟨ha, s, hi, hu, hd, hh⟩ | ⟨ha, s, hi, hh⟩⟩ := h
  · dsimp only at hf ha hi
    subst hf ha hi
    exact h1 _ _ _ _
  · dsimp only at hf ha hi
    subst hf ha hi
    exact h2 _ _ _ _ _ hu hd hh
  · dsimp only at hf ha hi
    subst hf ha hi
    exact h3 _ _ _ _ _ hh

theorem rcw_collision (c c' : Call (Fin 256) (Fin 256))
    (e : sipHash (hashBytes (rcwItems c)) = sipHash (hashBytes (rcwItems c'))) :
    rcwItems c = rcwItems c' := by
  unfold rcwItems at e ⊢
  split at e <;> split at e <;> first | rfl | exact absurd e (by decide +kernel)

theorem rcw_regular : Regular .debug linearFiles ReadCropWrite where
  range b := sipHash_lt b
  shell s t _ h := by cases h
  typed c h := by
    refine rcw_cases (P := fun c => Typed c.node) c h ?_ ?_ ?_
    · intro i st mode prev
      constructor
      · intro name
        rw [Node.getI32_eq]
        simp only [NodeAttrs.getI32, ReadImageAttrs.getI32]
        split <;> decide
      · intro name b hb
        rw [Node.getStr_eq] at hb
        simp only [NodeAttrs.getStr, ReadImageAttrs.getStr] at hb
        split at hb
        · revert b; decide
        · cases hb
    · intro i st mode prev s hu hd hh
      constructor
      · intro name
        rw [Node.getI32_eq]
        simp only [NodeAttrs.getI32, CropImageAttrs.getI32]
        split <;> decide
      · intro name b hb
        rw [Node.getStr_eq] at hb
        simp only [NodeAttrs.getStr] at hb
        cases hb
    · intro i st mode prev s hh
      constructor
      · intro name
        rw [Node.getI32_eq]
        simp only [writeNode, NodeAttrs.getI32, WriteImageAttrs.getI32]
        split <;> decide
      · intro name b hb
        rw [Node.getStr_eq] at hb
        simp only [writeNode, NodeAttrs.getStr, WriteImageAttrs.getStr] at hb
        split at hb
        · revert b; decide
        · cases hb
  collision c c' h h' e := by
    have e' : sipHash (hashBytes (c.node.hashItems twoFiles.shell c.frame (c.inputs.map (·.hash)))) =
      sipHash (hashBytes (c'.node.hashItems twoFiles.shell c'.frame (c'.inputs.map (·.hash)))) := e
    show hashBytes (c.node.hashItems twoFiles.shell c.frame (c.inputs.map (·.hash))) =
      hashBytes (c'.node.hashItems twoFiles.shell c'.frame (c'.inputs.map (·.hash)))
    rw [rcw_items c h, rcw_items c' h'] at e' ⊢
    rw [rcw_collision c c' e']
  nonzero c h := by
    have e : c.key linearFiles =
      sipHash (hashBytes (c.node.hashItems twoFiles.shell c.frame (c.inputs.map (·.hash)))) := rfl
    rw [e, rcw_items c h]
    unfold rcwItems
    split <;> decide +kernel
  files c h _ := by
    refine rcw_cases (P := fun c => c.node.getI32 "enable" = 0 ∨ c.node.getI32 "enable" = 1) c h
      (fun _ _ _ _ => .inr rfl) (fun _ _ _ _ _ _ _ _ => .inr rfl) (fun _ _ _ _ _ _ => .inr rfl)
  lenses c _ h _ ht := by
    revert ht
    exact rcw_cases (P := fun c => c.node.attrs.nodeType = .lensDistort → _) c h
      (fun _ _ _ _ h => by cases h) (fun _ _ _ _ _ _ _ _ h => by cases h)
      (fun _ _ _ _ _ _ h => by cases h)
  grades c h ht := by
    revert ht
    exact rcw_cases (P := fun c => c.node.attrs.nodeType = .grade → _) c h
      (fun _ _ _ _ h => by cases h) (fun _ _ _ _ _ _ _ _ h => by cases h)
      (fun _ _ _ _ _ _ h => by cases h)
  single c h ht := by
    revert ht
    exact rcw_cases (P := fun c => c.node.attrs.nodeType = .viewer ∨
        c.node.attrs.nodeType = .resampleImage → _) c h
      (fun _ _ _ _ h => by rcases h with h | h <;> cases h)
      (fun _ _ _ _ _ _ _ _ h => by rcases h with h | h <;> cases h)
      (fun _ _ _ _ _ _ h => by rcases h with h | h <;> cases h)
  settled c h _ := by
    refine rcw_cases (P := Settled) c h (fun _ _ _ _ => trivial) ?_ (fun _ _ _ _ _ _ => trivial)
    intro i st mode prev s hu hd _ t ht
    cases ht
    exact ⟨hu, hd⟩
  resampled c h ht := by
    revert ht
    exact rcw_cases (P := fun c => c.node.attrs.nodeType = .resampleImage → _) c h
      (fun _ _ _ _ h => by cases h) (fun _ _ _ _ _ _ _ _ h => by cases h)
      (fun _ _ _ _ _ _ h => by cases h)

/-- Running the graph twice: the second time both images come from the cache. -/
theorem rcw_twice : ∃ g1 w1 log1 g2 w2 log2,
    readCropWrite.execute (logged .debug linearFiles) insSort 20 3 [1] (blankWorld, []) =
      .ok (.success, g1, (w1, log1)) ∧ (∀ c ∈ log1, ReadCropWrite c) ∧
    readCropWrite.execute (logged .debug linearFiles) insSort 20 3 [1] (w1, []) =
      .ok (.success, g2, (w2, log2)) ∧ (∀ c ∈ log2, ReadCropWrite c) ∧ w2.cache.hits = 2 := by
  refine ⟨_, _, _, _, _, _, rfl, ?_, rfl, ?_, ?_⟩
  · show ∀ c ∈ [_, _, _], ReadCropWrite c
    refine List.forall_mem_cons.mpr ⟨?_, List.forall_mem_cons.mpr ⟨?_,
      List.forall_mem_cons.mpr ⟨?_, by simp⟩⟩⟩
    · exact ⟨rfl, .inl ⟨rfl, rfl⟩⟩
    · exact ⟨rfl, .inr (.inl ⟨rfl, _, rfl, ⟨rfl, rfl⟩, rfl, rfl⟩)⟩
    · exact ⟨rfl, .inr (.inr ⟨rfl, _, rfl, rfl⟩)⟩
  · show ∀ c ∈ [_, _, _], ReadCropWrite c
    refine List.forall_mem_cons.mpr ⟨?_, List.forall_mem_cons.mpr ⟨?_,
      List.forall_mem_cons.mpr ⟨?_, by simp⟩⟩⟩
    · exact ⟨rfl, .inl ⟨rfl, rfl⟩⟩
    · exact ⟨rfl, .inr (.inl ⟨rfl, _, rfl, ⟨rfl, rfl⟩, rfl, rfl⟩)⟩
    · exact ⟨rfl, .inr (.inr ⟨rfl, _, rfl, rfl⟩)⟩
  · decide +kernel

/-- The second time both images come from the cache; the output shows the picture, and the picture
is written. -/
example : ∃ w g' w' log, History .debug linearFiles insSort ReadCropWrite w ∧
    readCropWrite.execute (logged .debug linearFiles) insSort 20 3 [1] (w, []) =
      .ok (.success, g', (w', log)) ∧ w'.cache.hits = 2 ∧
    Shows linearFiles.bake.color g'.output (whitePictures 2) ∧
    ∃ before job, w'.writes = before ++ [job] ∧
      WrittenLayer linearFiles 1 ⟨3, .uninitialized, writeNode.attrs⟩ (whiteLayers 2) job := by
  obtain ⟨g1, w1, log1, g2, w2, log2, e1, l1, e2, l2, hits⟩ := rcw_twice
  have hist : History .debug linearFiles insSort ReadCropWrite w1 :=
    .execute _ _ _ _ _ _ _ _ _ (.start 1000 []) .new e1 l1
  obtain ⟨-, h⟩ := C87_cached_partial .debug linearFiles insSort rcw_regular hist
    readCropWrite_reach .new readCropWrite_at rfl (frames := [1]) (frame := 1) rfl
    (pic := fun _ => whiteLayers) (fun fr _ => whitePictures_ok fr) e2 l2
  exact ⟨w1, g2, w2, log2, hist, e2, hits, layer_shows h,
    C87_cached_file_partial .debug linearFiles insSort rcw_regular hist
      readCropWrite_reach .new readCropWrite_at rfl (frames := [1]) (frame := 1) rfl
      (pic := fun _ => whiteLayers) (fun fr _ => whitePictures_ok fr) rfl rfl (by decide)
      (by decide) e2 l2⟩

end OCG.Props
