import Verif.Proofs.Relate
import Verif.Props.CacheRun
/-
Property C94: executing again shows the current files.
-/

namespace OCG.Props

section
variable {F H : Type} [FloatLike F] [HalfLike F H] [FloatConst F] [FloatBits F]

/-- A computation that never looks at the cache: the work is the same for every world; jobs are
appended. -/
theorem run_uncached (p : Profile) (lib : NodeLib F H) (n : Node F) (frame : F) (mode : Mode)
    (inputs : List (Stream F H)) (prev : Stream F H) (hn : n.getI32 "use_cache" = 0)
    (w : World F H) :
    n.run p lib frame mode inputs prev w =
      (n.run p lib frame mode inputs prev ⟨.withCapacity 0, []⟩).map
        fun r => (r.1, r.2.1, ⟨w.cache, w.writes ++ r.2.2.writes⟩) := by
  have hl : ∀ {X : Type} (w : World F H) (key : Nat) (hit : X) (make : Res (Image F H × X)),
      lookup p false w key hit make = make.map fun r => (w, r.1, r.2) := by
    intro X w key hit make
    unfold lookup
    rw [if_neg (by simp)]
    cases make <;> rfl
  obtain ⟨id, s, attrs⟩ := n
  cases attrs <;> simp only [attr_eval] at hn <;> simp only [Node.run]
  case null a => cases inputs <;> simp [computeNull, Except.map]
  case readImage a =>
    simp only [ReadImageAttrs.compute, hn, ne_eq, not_true_eq_false, decide_false, hl]
    split
    · split
      · simp [Except.map]
      · split
        · simp [Except.map]
        · cases readImage p lib.oiio _ <;> simp [Except.map, bind, Except.bind]
        · split <;> simp [Except.map]
    · simp [Except.map]
  case writeImage a =>
    simp only [WriteImageAttrs.compute]
    split
    · simp [Except.map]
    · cases inputs with
      | nil => simp [Except.map]
      | cons i l =>
        dsimp only
        split
        · simp [Except.map]
        · cases writeProcess p lib i a.filePath frame _ _ _ <;>
            simp [Except.map, bind, Except.bind]
  case grade a =>
    simp only [GradeAttrs.compute]
    split <;> simp [Except.map]
  case lensDistort a =>
    simp only [LensDistortAttrs.compute]
    split
    · split <;> simp [Except.map]
    · simp [Except.map]
  case transform a => simp [TransformAttrs.compute, Except.map]
  case mergeImage a =>
    simp only [MergeImageAttrs.compute, hn, ne_eq, not_true_eq_false, decide_false, hl]
    split
    · simp [Except.map]
    · cases inputs with
      | nil => simp [Except.map]
      | cons i l =>
        dsimp only
        cases mergeProcess p lib i _ _ _ <;> simp [Except.map, bind, Except.bind]
  case cropImage a =>
    simp only [CropImageAttrs.compute, hn, ne_eq, not_true_eq_false, decide_false, hl]
    cases inputs with
    | nil => simp [Except.map]
    | cons i l =>
      dsimp only
      split
      · simp [Except.map]
      · cases cropProcess p lib i _ _ _ _ <;> simp [Except.map, bind, Except.bind]
  case viewer a =>
    simp only [ViewerAttrs.compute, hn, ne_eq, not_true_eq_false, decide_false, hl]
    split
    · simp [Except.map]
    · split
      · cases viewerProcess p lib _ _ _ _ _ <;> simp [Except.map, bind, Except.bind]
      · simp [Except.map]
  case resampleImage a =>
    simp only [ResampleImageAttrs.compute, hn, ne_eq, not_true_eq_false, decide_false, hl]
    cases inputs with
    | nil => simp [Except.map]
    | cons i l =>
      dsimp only
      split
      · simp [Except.map]
      · cases ensure (p = .release ∨ l.length = 0) with
        | error e => simp [Except.map, bind, Except.bind]
        | ok u =>
          simp only [bind, Except.bind]
          split
          · cases resampleProcess p lib i _ _ <;> simp [Except.map]
          · simp [Except.map]

/-- C94: when no node of the graph uses the cache, an execution does what it would do with no cache
at all: whatever earlier executions left in the cache, with whatever files, the result is computed
afresh, and the cache is not touched. -/
theorem C94_uncached (p : Profile) (lib : NodeLib F H) (srt : EdgeSort) (fuel : Nat)
    (g : Graph (Node F) (Stream F H)) (hg : ∀ n ∈ g.nodes, n.getI32 "use_cache" = 0) (id : Nat)
    (frames : List F) (w : World F H) :
    Graph.execute (nodeSem p lib) srt fuel g id frames w =
      (Graph.execute (nodeSem p lib) srt fuel g id frames ⟨.withCapacity 0, []⟩).map
        fun r => (r.1, r.2.1, ⟨w.cache, w.writes ++ r.2.2.writes⟩) := by
  have hm : Matching (nodeSem p lib) (nodeSem p lib)
      (fun a b => a = b ∧ a.getI32 "use_cache" = 0) (fun a b => a = b ∧ True)
      (fun (v v' : World F H) => v.cache = w.cache ∧ v.writes = w.writes ++ v'.writes) := by
    refine ⟨?_, ?_, ?_⟩
    · rintro n _ ⟨rfl, -⟩ fr hs; rfl
    · rintro n _ ⟨rfl, -⟩ ns ns' h mode k
      rw [(forall₂_self_inv h).1]
    · rintro n _ ⟨rfl, h1⟩ ins ins' hins prev _ ⟨rfl, -⟩ c c' ⟨h3, h4⟩ fr mode
      obtain ⟨rfl, -⟩ := forall₂_self_inv hins
      simp only [nodeSem]
      rw [run_uncached p lib n fr mode ins prev h1 c, run_uncached p lib n fr mode ins prev h1 c']
      cases e : n.run p lib fr mode ins prev ⟨.withCapacity 0, []⟩ with
      | error e => rfl
      | ok r =>
        refine ⟨⟨rfl, h1⟩, rfl, ⟨rfl, trivial⟩, h3, ?_⟩
        simp [h4]
  have := execute_related hm srt fuel (g := g) (g' := g)
    ⟨forall₂_self hg, rfl, rfl, ⟨rfl, trivial⟩, rfl, rfl⟩ id frames (c := w)
    (c' := ⟨.withCapacity 0, []⟩) ⟨rfl, by rw [List.append_nil]⟩
  cases e1 : Graph.execute (nodeSem p lib) srt fuel g id frames w <;>
    cases e2 : Graph.execute (nodeSem p lib) srt fuel g id frames ⟨.withCapacity 0, []⟩ <;>
    rw [e1, e2] at this <;> simp only [ResRel] at this
  · rw [this]; rfl
  · rename_i a b
    obtain ⟨st, ⟨n1, i1, gr1, o1, s1, t1⟩, w1⟩ := a
    obtain ⟨st', ⟨n2, i2, gr2, o2, s2, t2⟩, w2⟩ := b
    obtain ⟨h1, ⟨k1, k2, k3, k4, k5, k6⟩, h3, h4⟩ := this
    dsimp only at *
    have k1 := (forall₂_self_inv k1).1
    obtain ⟨k4, -⟩ := k4
    obtain ⟨c1, j1⟩ := w1
    dsimp only at *
    subst h1 k1 k2 k3 k4 k5 k6 h3 h4
    rfl

/-- C94: what a read node finds in the cache it shows, whatever the file holds by now. -/
theorem C94_stale (p : Profile) (lib : NodeLib F H) (n : Node F) (frame : F) (mode : Mode)
    (inputs : List (Stream F H)) (prev : Stream F H) (w : World F H) (image : Image F H)
    (ht : n.attrs.nodeType = .readImage) (hm : mode &&& modePixel = modePixel)
    (he : n.getI32 "enable" ≠ 0) (hu : n.getI32 "use_cache" ≠ 0)
    (hk : lib.pathKind (HashSpec.path lib.shell n frame) = .file)
    (hc : (w.cache.get (n.hash lib.hash lib.shell frame (inputs.map (·.hash)))).2 = some image)
    (oiio : Oiio F H) :
    ∃ out w', n.run p { lib with oiio := oiio } frame mode inputs prev w = .ok (.valid, out, w') ∧
      out.pixelBlock = image.pixelBlock ∧ out.dataWindow = image.dataWindow ∧
      out.displayWindow = image.displayWindow ∧ out.imageSpec = image.spec := by
  obtain ⟨id, s, attrs⟩ := n
  cases attrs <;> simp only [NodeAttrs.nodeType, reduceCtorEq] at ht
  rename_i a
  simp only [HashSpec.path, attr_eval] at he hu hk
  simp only [Node.run, ReadImageAttrs.compute]
  rw [if_pos hm, if_neg he]
  simp only [hk]
  unfold lookup
  rw [if_pos (by simp [hu])]
  generalize Node.hash lib.hash lib.shell ⟨id, s, .readImage a⟩ frame (inputs.map (·.hash)) = key
    at hc ⊢
  cases hg : w.cache.get key with
  | mk c o =>
    rw [hg] at hc
    dsimp only at hc
    subst hc
    exact ⟨_, _, rfl, rfl, rfl, rfl, rfl⟩

end

section
attribute [local instance] finFloat finBits finHalf finPi

/-- The files have changed: every file is two pixels wide. -/
def changedFiles : NodeLib (Fin 256) (Fin 256) :=
  { twoFiles with oiio := { fullDisk with header := fun _ => some (plainFile 2) } }

/-- A graph of a read node for the file `a` only. -/
def readAlone (useCache : Int) : Graph (Node (Fin 256)) (Stream (Fin 256) (Fin 256)) :=
  ⟨[⟨1, .uninitialized, .readImage { readAttrs with useCache := useCache }⟩], [1],
    ⟨[some 1], [], []⟩, .new, .dirty, .uninitialized⟩

/-- The window that an execution shows. -/
def windowOf (r : Res (ExecuteStatus × Graph (Node (Fin 256)) (Stream (Fin 256) (Fin 256)) ×
    World (Fin 256) (Fin 256))) : Option BBox :=
  match r with
  | .ok (.success, g, _) => some g.output.dataWindow
  | _ => none

/-- The world after an execution. -/
def worldAfter (r : Res (ExecuteStatus × Graph (Node (Fin 256)) (Stream (Fin 256) (Fin 256)) ×
    World (Fin 256) (Fin 256))) : World (Fin 256) (Fin 256) :=
  match r with
  | .ok (_, _, w) => w
  | .error _ => noCache

/-- Reading the file `a`, which then changes, and reading again. -/
def readTwice (useCache : Int) : Option BBox × Option BBox :=
  let first := Graph.execute (nodeSem .debug twoFiles) insSort 5 (readAlone useCache) 1 [1] blankWorld
  (windowOf first, windowOf (Graph.execute (nodeSem .debug changedFiles) insSort 5
    (readAlone useCache) 1 [1] (worldAfter first)))

/-- C94 fails with the cache, which read nodes use by default: after the file has changed from one
pixel to two, executing again shows the old file.  Without the cache it shows the new one. -/
theorem C94_counterexample :
    readTwice 1 = (some ⟨0, 0, 1, 1⟩, some ⟨0, 0, 1, 1⟩) ∧
    readTwice 0 = (some ⟨0, 0, 1, 1⟩, some ⟨0, 0, 2, 1⟩) ∧
    (ReadImageAttrs.new).useCache = 1 := by decide +kernel

example : (∀ n ∈ (readAlone 0).nodes, n.getI32 "use_cache" = 0) ∧
    windowOf (Graph.execute (nodeSem .debug twoFiles) insSort 5 (readAlone 0) 1 [1] blankWorld) =
      some ⟨0, 0, 1, 1⟩ := by decide +kernel

example : ∃ image, (readNode 1 [97]).getI32 "use_cache" ≠ 0 ∧
    ((worldOf ((readNode 1 [97]).run .debug twoFiles 1 modeAll [] .new blankWorld)).cache.get
      ((readNode 1 [97]).hash twoFiles.hash twoFiles.shell 1 [])).2 = some image := by
  refine ⟨_, by decide, Option.eq_some_of_isSome (by decide +kernel)⟩

end
end OCG.Props
