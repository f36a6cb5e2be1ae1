import Verif.Spec.ReadFailure
import Verif.Props.CacheRun
/-
Property C93: files that cannot be read.
-/

namespace OCG.Props

open ReadSpec

section
variable {F H : Type} [FloatLike F] [HalfLike F H] [FloatConst F] [FloatBits F]

/-- The path a read node looks at for a frame. -/
def readPath (lib : NodeLib F H) (n : Node F) (frame : F) : Bytes :=
  Path.expandString lib.shell (n.getStr "file_path") (frameNum frame)

omit [HalfLike F H] [FloatConst F] [FloatBits F] in
theorem read_unreadable [HalfLike F H] (p : Profile) (oiio : Oiio F H) (path : Bytes)
    (h : ¬ Readable oiio path) : readImage p oiio path = .ok .empty := by
  unfold readImage oiioRead
  cases hh : oiio.header path with
  | none => rfl
  | some spec =>
    dsimp only
    rw [if_pos]
    · rfl
    · by_contra hc
      exact h ⟨spec, hh, by omega⟩

/-- C93: a read node asked for pixels warns exactly when it is switched off or its path does not
exist; it then shows the colour bars of a new stream and leaves the cache alone. -/
theorem C93_warning_iff (p : Profile) (lib : NodeLib F H) (n : Node F) (frame : F)
    (mode : Mode) (inputs : List (Stream F H)) (prev : Stream F H) (w w' : World F H)
    (st : NodeStatus) (out : Stream F H) (ht : n.attrs.nodeType = .readImage)
    (hm : mode &&& modePixel = modePixel)
    (e : n.run p lib frame mode inputs prev w = .ok (st, out, w')) :
    (st = .warning ∨ st = .valid) ∧
    (st = .warning ↔ n.getI32 "enable" = 0 ∨ lib.pathKind (readPath lib n frame) = .missing) ∧
    (st = .warning → out = .new ∧ w' = w) := by
  obtain ⟨id, s, attrs⟩ := n
  cases attrs <;> simp only [NodeAttrs.nodeType, reduceCtorEq] at ht
  rename_i a
  simp only [Node.run, ReadImageAttrs.compute] at e
  simp only [readPath, attr_eval]
  rw [if_pos hm] at e
  split at e
  · simp_all
  · rename_i he
    split at e
    · rename_i hk
      simp only [Except.ok.injEq, Prod.mk.injEq] at e
      simp [← e.1, e.2.1.symm, e.2.2.symm, hk]
    · rename_i hk
      obtain ⟨r, -, e⟩ := Res.bind_ok.mp e
      simp only [Except.ok.injEq, Prod.mk.injEq] at e
      simp [← e.1, hk, he]
    · rename_i hk
      split at e <;>
      · simp only [Except.ok.injEq, Prod.mk.injEq] at e
        simp [← e.1, hk, he]

/-- C93 fails for a file that exists but cannot be read: the node is Valid and shows an image
without a single pixel.  (Cache off, or nothing cached under the node's hash.) -/
theorem C93_unreadable (p : Profile) (lib : NodeLib F H) (n : Node F) (frame : F)
    (mode : Mode) (inputs : List (Stream F H)) (prev : Stream F H) (w w' : World F H)
    (st : NodeStatus) (out : Stream F H) (ht : n.attrs.nodeType = .readImage)
    (hm : mode &&& modePixel = modePixel) (he : n.getI32 "enable" ≠ 0)
    (hk : lib.pathKind (readPath lib n frame) = .file)
    (hr : ¬ Readable lib.oiio (readPath lib n frame))
    (hc : n.getI32 "use_cache" = 0 ∨
      (w.cache.get (n.hash lib.hash lib.shell frame (inputs.map (·.hash)))).2 = none)
    (e : n.run p lib frame mode inputs prev w = .ok (st, out, w')) :
    st = .valid ∧ NoPixels out := by
  obtain ⟨id, s, attrs⟩ := n
  cases attrs <;> simp only [NodeAttrs.nodeType, reduceCtorEq] at ht
  rename_i a
  simp only [readPath, attr_eval] at he hk hr hc
  simp only [Node.run, ReadImageAttrs.compute] at e
  rw [if_pos hm, if_neg he] at e
  simp only [hk, read_unreadable p lib.oiio _ hr] at e
  obtain ⟨⟨w1, img, _⟩, e1, e⟩ := Res.bind_ok.mp e
  have himg : img = .empty := by
    unfold lookup at e1
    by_cases hu : a.useCache = 0
    · rw [if_neg (by simp [hu])] at e1
      cases e1
      rfl
    · rw [if_pos (by simp [hu])] at e1
      have hc := hc.resolve_left hu
      generalize Node.hash lib.hash lib.shell ⟨id, s, .readImage a⟩ frame
        (inputs.map (·.hash)) = key at hc e1
      cases hg : w.cache.get key with
      | mk c o =>
        rw [hg] at hc e1
        dsimp only at hc
        subst hc
        dsimp only at e1
        obtain ⟨⟨i, _⟩, e2, e1⟩ := Res.bind_ok.mp e1
        cases e2
        obtain ⟨c', -, e1⟩ := Res.bind_ok.mp e1
        cases e1
        rfl
  cases e
  subst himg
  exact ⟨rfl, rfl, rfl, rfl, rfl, rfl, rfl⟩

end

/-- C93 fails for a folder: the node is Valid and leaves whatever the graph computed last. -/
theorem C93_folder {F H : Type} [FloatLike F] [HalfLike F H] [FloatConst F] [FloatBits F]
    (p : Profile) (lib : NodeLib F H) (n : Node F) (frame : F)
    (mode : Mode) (inputs : List (Stream F H)) (prev : Stream F H) (w : World F H)
    (ht : n.attrs.nodeType = .readImage) (he : n.getI32 "enable" = 1)
    (hk : lib.pathKind (readPath lib n frame) = .other) :
    n.run p lib frame mode inputs prev w = .ok (.valid, prev, w) := by
  obtain ⟨id, s, attrs⟩ := n
  cases attrs <;> simp only [NodeAttrs.nodeType, reduceCtorEq] at ht
  rename_i a
  simp only [readPath, attr_eval] at he hk
  simp only [Node.run, ReadImageAttrs.compute, hk, he]
  simp

section
attribute [local instance] finFloat finBits finHalf finPi

/-- A library where every path is a file with a single channel. -/
def greyFiles : NodeLib (Fin 256) (Fin 256) :=
  { twoFiles with
    oiio := { fullDisk with header := fun _ => some { plainFile 1 with numChannels := 1 } } }

/-- A library where every path is a folder. -/
def onlyFolders : NodeLib (Fin 256) (Fin 256) := { twoFiles with pathKind := fun _ => .other }

example : statusOf ((readNode 1 [97]).run .debug finLib 1 modeAll [] .new noCache) = some .warning ∧
    statusOf ((readNode 1 [97]).run .debug twoFiles 1 modeAll [] .new noCache) = some .valid ∧
    statusOf ((readNode 0 [97]).run .debug twoFiles 1 modeAll [] .new noCache) = some .warning := by
  decide +kernel

example : ∃ out w', (readNode 1 [97]).run .debug finLib 1 modeAll [] .new noCache =
      .ok (.warning, out, w') ∧
    ((readNode 1 [97]).getI32 "enable" = 0 ∨
      finLib.pathKind (readPath finLib (readNode 1 [97]) 1) = .missing) ∧ out = .new := by
  have e := ran (r := (readNode 1 [97]).run .debug finLib 1 modeAll [] .new noCache)
    (st := .warning) (by decide +kernel)
  have h := C93_warning_iff .debug finLib _ _ _ _ _ _ _ _ _ rfl (by decide) e
  exact ⟨_, _, e, h.2.1.mp rfl, (h.2.2 rfl).1⟩

example : ∃ out w', (readNode 1 [97]).run .debug greyFiles 1 modeAll [] .new noCache =
    .ok (.valid, out, w') ∧ NoPixels out := by
  have e := ran (r := (readNode 1 [97]).run .debug greyFiles 1 modeAll [] .new noCache)
    (st := .valid) (by decide +kernel)
  refine ⟨_, _, e, (C93_unreadable .debug greyFiles _ _ _ _ _ _ _ _ _ rfl (by decide) (by decide)
    rfl ?_ (.inr (by decide +kernel)) e).2⟩
  rintro ⟨spec, h, h3⟩
  cases h
  exact absurd h3 (by decide)

example : (readNode 1 [97]).run .debug onlyFolders 1 modeAll [] onePixel noCache =
    .ok (.valid, onePixel, noCache) :=
  C93_folder .debug onlyFolders _ _ _ _ _ _ rfl rfl rfl

/-- C93, a failure outlives its cause: once a file could not be read, a node with caching gives the
empty image also after the file has become readable, while the same node without a cache shows the
file. -/
theorem C93_counterexample_remembered : ∃ out1 w1 out2 w2 out3 w3,
    (readNode 1 [97]).run .debug greyFiles 1 modeAll [] .new blankWorld = .ok (.valid, out1, w1) ∧
    (readNode 1 [97]).run .debug twoFiles 1 modeAll [] .new w1 = .ok (.valid, out2, w2) ∧
    (readNode 1 [97]).run .debug twoFiles 1 modeAll [] .new noCache = .ok (.valid, out3, w3) ∧
    out2.dataWindow = ⟨0, 0, 0, 0⟩ ∧ out3.dataWindow = ⟨0, 0, 1, 1⟩ := by
  have e1 := ran (r := (readNode 1 [97]).run .debug greyFiles 1 modeAll [] .new blankWorld)
    (st := .valid) (by decide +kernel)
  have e2 := ran (r := (readNode 1 [97]).run .debug twoFiles 1 modeAll [] .new
    (worldOf ((readNode 1 [97]).run .debug greyFiles 1 modeAll [] .new blankWorld)))
    (st := .valid) (by decide +kernel)
  have e3 := ran (r := (readNode 1 [97]).run .debug twoFiles 1 modeAll [] .new noCache)
    (st := .valid) (by decide +kernel)
  exact ⟨_, _, _, _, _, _, e1, e2, e3, by decide +kernel, by decide +kernel⟩

end
end OCG.Props
