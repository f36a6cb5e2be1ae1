import Verif.Spec.CacheRun
import Verif.Proofs.CacheGood
import Verif.Proofs.AttrEval
import Verif.Props.Bake
import Verif.Props.NodeHash
/-
Computations with and without the cache.
-/

namespace OCG.CacheSpec

open HashSpec ComputeSpec

set_option linter.unusedSimpArgs false

variable {F H : Type} [FloatLike F] [HalfLike F H] [FloatConst F] [FloatBits F]

section
variable {X : Type} {p : Profile} {u : Bool} {key : Nat} {hit : X} {make : Res (Image F H × X)}

omit [FloatLike F] [HalfLike F H] [FloatConst F] [FloatBits F] in
theorem off_get {v : World F H} (h : IsOff v) (k : Nat) :
    (v.cache.get k).2 = none ∧ (v.cache.get k).1.lru = [] ∧ (v.cache.get k).1.capacity = 0 := by
  unfold Cache.get
  rw [h.empty]
  exact ⟨rfl, rfl, h.capacity⟩

omit [FloatLike F] [HalfLike F H] [FloatConst F] [FloatBits F] in
/-- With the cache off, the value is always computed. -/
theorem lookup_off_mpr {v : World F H} (h : IsOff v) {i : Image F H} {x : X}
    (e : make = .ok (i, x)) :
    ∃ v', lookup p u v key hit make = .ok (v', i, x) ∧ IsOff v' ∧ v'.writes = v.writes := by
  unfold lookup
  cases u with
  | false => exact ⟨v, by simp [e, bind, Except.bind], h, rfl⟩
  | true =>
    obtain ⟨h1, h2, h3⟩ := off_get h key
    rw [if_pos rfl]
    cases hg : v.cache.get key with
    | mk c o =>
      rw [hg] at h1 h2 h3
      dsimp only at h1 h2 h3
      subst h1
      refine ⟨⟨c, v.writes⟩, ?_, ⟨h2, h3⟩, rfl⟩
      simp [e, bind, Except.bind, Cache.insert, h3]

omit [FloatLike F] [HalfLike F H] [FloatConst F] [FloatBits F] in
theorem lookup_off_mp {v v' : World F H} (h : IsOff v) {i : Image F H} {x : X}
    (e : lookup p u v key hit make = .ok (v', i, x)) : make = .ok (i, x) := by
  unfold lookup at e
  cases u with
  | false =>
    rw [if_neg (by simp)] at e
    obtain ⟨⟨i', x'⟩, e1, e⟩ := Res.bind_ok.mp e
    simp only [Except.ok.injEq, Prod.mk.injEq] at e
    rw [e1, e.2.1, e.2.2]
  | true =>
    obtain ⟨h1, h2, h3⟩ := off_get h key
    rw [if_pos rfl] at e
    cases hg : v.cache.get key with
    | mk c o =>
      rw [hg] at h1 h2 h3 e
      dsimp only at h1 h2 h3
      subst h1
      dsimp only at e
      obtain ⟨⟨i', x'⟩, e1, e⟩ := Res.bind_ok.mp e
      obtain ⟨c', e2, e⟩ := Res.bind_ok.mp e
      simp only [Except.ok.injEq, Prod.mk.injEq] at e
      rw [e1, e.2.1, e.2.2]

omit [FloatLike F] [HalfLike F H] [FloatConst F] [FloatBits F] in
/-- With a cache of good entries, the value is computed or a good one. -/
theorem lookup_good {G : Nat → Image F H → Prop} {w w' : World F H} (h : w.cache.Good G)
    (hm : u = true → ∀ i x, make = .ok (i, x) → G key i) {i : Image F H} {x : X}
    (e : lookup p u w key hit make = .ok (w', i, x)) :
    w'.cache.Good G ∧ w'.writes = w.writes ∧
      (make = .ok (i, x) ∨ (u = true ∧ G key i ∧ x = hit)) := by
  unfold lookup at e
  cases u with
  | false =>
    rw [if_neg (by simp)] at e
    obtain ⟨⟨i', x'⟩, e1, e⟩ := Res.bind_ok.mp e
    simp only [Except.ok.injEq, Prod.mk.injEq] at e
    obtain ⟨rfl, rfl, rfl⟩ := e
    exact ⟨h, rfl, .inl e1⟩
  | true =>
    obtain ⟨h1, h2⟩ := h.get key
    rw [if_pos rfl] at e
    split at e
    · rename_i c image hg
      rw [hg] at h1 h2
      simp only [Except.ok.injEq, Prod.mk.injEq] at e
      obtain ⟨rfl, rfl, rfl⟩ := e
      exact ⟨h1, rfl, .inr ⟨rfl, h2 _ rfl, rfl⟩⟩
    · rename_i c hg
      rw [hg] at h1
      obtain ⟨⟨i', x'⟩, e1, e⟩ := Res.bind_ok.mp e
      obtain ⟨c', e2, e⟩ := Res.bind_ok.mp e
      simp only [Except.ok.injEq, Prod.mk.injEq] at e
      obtain ⟨rfl, rfl, rfl⟩ := e
      exact ⟨h1.insert (hm rfl _ _ e1) e2, rfl, .inl e1⟩

end

/-- The image carries the picture of the stream, and for reading and viewing nodes its spec. -/
structure Shows (t : NodeType) (i : Image F H) (s : Stream F H) : Prop where
  pixels : i.pixelBlock = s.pixelBlock
  data : i.dataWindow = s.dataWindow
  display : i.displayWindow = s.displayWindow
  spec : t = .readImage ∨ t = .viewer → i.spec = s.imageSpec

/-- The computation does not look at the world; it may hand over files. -/
def Plain (p : Profile) (lib : NodeLib F H) (c : Call F H) : Prop :=
  (∃ e, ∀ w, c.run p lib w = .error e) ∨
  ∃ st out jobs, ∀ w, c.run p lib w = .ok (st, out, ⟨w.cache, w.writes ++ jobs⟩)

/-- The computation looks into the cache for an image (if `u`), and finishes with it. -/
structure Looks (p : Profile) (lib : NodeLib F H) (c : Call F H) (X : Type) (u : Bool) (hit : X)
    (make : Res (Image F H × X)) (fin : Image F H → X → NodeStatus × Stream F H) : Prop where
  run : ∀ w, c.run p lib w = (lookup p u w (c.key lib) hit make >>= fun r =>
    .ok ((fin r.2.1 r.2.2).1, (fin r.2.1 r.2.2).2, r.1))
  caches : u = true → Caches lib c
  shows : ∀ i x, make = .ok (i, x) → Shows c.node.attrs.nodeType i (fin i x).2
  settle : Settled c → (c.node.attrs.nodeType = .resampleImage → ∀ out, ¬ Gives p lib c .error out) →
    ∀ i i' x, make = .ok (i', x) → Shows c.node.attrs.nodeType i (fin i' x).2 →
      fin i hit = fin i' x

omit [FloatLike F] [HalfLike F H] [FloatConst F] [FloatBits F] in
theorem isOff_zero : IsOff (⟨.withCapacity 0, []⟩ : World F H) := ⟨rfl, rfl⟩

theorem Looks.gives {p : Profile} {lib : NodeLib F H} {c : Call F H} {X : Type} {u : Bool} {hit : X}
    {make : Res (Image F H × X)} {fin : Image F H → X → NodeStatus × Stream F H}
    (h : Looks p lib c X u hit make fin) {st : NodeStatus} {out : Stream F H} :
    Gives p lib c st out ↔ ∃ i x, make = .ok (i, x) ∧ fin i x = (st, out) := by
  constructor
  · rintro ⟨w, e⟩
    rw [h.run] at e
    obtain ⟨⟨v, i, x⟩, e1, e⟩ := Res.bind_ok.mp e
    simp only [Except.ok.injEq, Prod.mk.injEq] at e
    exact ⟨i, x, lookup_off_mp isOff_zero e1, Prod.ext e.1 e.2.1⟩
  · rintro ⟨i, x, e1, e2⟩
    obtain ⟨v, e3, -, -⟩ := lookup_off_mpr (p := p) (u := u) (key := c.key lib) (hit := hit)
      (isOff_zero (F := F) (H := H)) e1
    refine ⟨v, ?_⟩
    rw [h.run, e3]
    dsimp only [bind, Except.bind]
    rw [e2]

theorem settle_resample {p : Profile} {lib : NodeLib F H} {c : Call F H}
    {u : Bool} {make : Res (Image F H × NodeStatus)}
    {fin : Image F H → NodeStatus → NodeStatus × Stream F H}
    (run : ∀ w, c.run p lib w = (lookup p u w (c.key lib) .valid make >>= fun r =>
      .ok ((fin r.2.1 r.2.2).1, (fin r.2.1 r.2.2).2, r.1)))
    (hfin : ∀ i x, (fin i x).1 = x) (h : ∀ out, ¬ Gives p lib c .error out)
    (hm : ∀ i x, make = .ok (i, x) → x = .error ∨ x = .valid) (i : Image F H) (x : NodeStatus)
    (e : make = .ok (i, x)) : x = .valid := by
  rcases hm i x e with rfl | rfl
  · exfalso
    obtain ⟨v, e3, -, -⟩ := lookup_off_mpr (p := p) (u := u) (key := c.key lib) (hit := .valid)
      (isOff_zero (F := F) (H := H)) e
    refine h (fin i .error).2 ⟨v, ?_⟩
    rw [run, e3]
    dsimp only [bind, Except.bind]
    rw [hfin]
  · rfl

theorem plain_ok {p : Profile} {lib : NodeLib F H} {c : Call F H} {st : NodeStatus}
    {out : Stream F H} (h : ∀ w, c.run p lib w = .ok (st, out, w)) : Plain p lib c :=
  .inr ⟨st, out, [], fun w => by rw [h, List.append_nil]⟩

/-- The stream of a ReadImage node for an image. -/
def readFin (key : Nat) (image : Image F H) (_ : Unit) : NodeStatus × Stream F H :=
  (.valid,
    { (Stream.new : Stream F H) with
      dataWindow := image.dataWindow, displayWindow := image.displayWindow
      hash := key, pixelBlock := image.pixelBlock, imageSpec := image.spec })

/-- The image of a ReadImage node. -/
def readMake (p : Profile) (lib : NodeLib F H) (path : Bytes) : Res (Image F H × Unit) := do
  let image ← readImage p lib.oiio path
  .ok (image, ())

theorem looks_read (p : Profile) (lib : NodeLib F H) (id : Nat) (st : NodeStatus)
    (a : ReadImageAttrs) (frame : F) (mode : Mode) (inputs : List (Stream F H))
    (prev : Stream F H) (hm : mode &&& modePixel = modePixel) (he : ¬ a.enable = 0)
    (hk : lib.pathKind (Path.expandString lib.shell a.filePath (frameNum frame)) = .file) :
    Looks p lib ⟨⟨id, st, .readImage a⟩, frame, mode, inputs, prev⟩ Unit (decide (a.useCache ≠ 0))
      () (readMake p lib (Path.expandString lib.shell a.filePath (frameNum frame)))
      (readFin (Call.key lib ⟨⟨id, st, .readImage a⟩, frame, mode, inputs, prev⟩)) := by
  refine ⟨?_, ?_, ?_, ?_⟩
  · intro w
    simp only [Call.run, Node.run, ReadImageAttrs.compute, if_pos hm, if_neg he, hk]
    rfl
  · intro hu
    simp only [Caches, path, attr_eval]
    exact ⟨of_decide_eq_true hu, hm, he, hk⟩
  · intro i x _
    exact ⟨rfl, rfl, rfl, fun _ => rfl⟩
  · intro _ _ i i' x _ hs
    simp only [readFin, hs.pixels, hs.data, hs.display, hs.spec (.inl rfl)]

/-- The stream of a MergeImage node for an image. -/
def mergeFin (key : Nat) (rest : List (Stream F H)) (image : Image F H) (_ : Unit) :
    NodeStatus × Stream F H :=
  (if rest = [] then .warning else .valid,
    { (Stream.new : Stream F H) with
      dataWindow := image.dataWindow, displayWindow := image.displayWindow
      hash := key, pixelBlock := image.pixelBlock })

/-- The image of a MergeImage node. -/
def mergeMake (p : Profile) (lib : NodeLib F H) (s : Stream F H) (rest : List (Stream F H))
    (mode : MergeImageMode) (mix : F) : Res (Image F H × Unit) := do
  let image ← mergeProcess p lib s (match rest with
    | [] => .new
    | b :: _ => b) mode mix
  .ok (image, ())

theorem looks_merge (p : Profile) (lib : NodeLib F H) (id : Nat) (st : NodeStatus)
    (a : MergeImageAttrs F) (frame : F) (mode : Mode) (s : Stream F H) (rest : List (Stream F H))
    (prev : Stream F H) (he : a.enable = 1) :
    Looks p lib ⟨⟨id, st, .mergeImage a⟩, frame, mode, s :: rest, prev⟩ Unit
      (decide (a.useCache ≠ 0)) () (mergeMake p lib s rest (MergeImageMode.ofI32 a.mode) a.mix)
      (mergeFin (Call.key lib ⟨⟨id, st, .mergeImage a⟩, frame, mode, s :: rest, prev⟩) rest) := by
  refine ⟨?_, ?_, ?_, ?_⟩
  · intro w
    simp only [Call.run, Node.run, MergeImageAttrs.compute, he, ne_eq, not_true_eq_false,
      if_false]
    rfl
  · intro hu
    simp only [Caches, attr_eval]
    exact ⟨of_decide_eq_true hu, he, by simp⟩
  · intro i x _
    exact ⟨rfl, rfl, rfl, fun h => by simp [attr_eval] at h⟩
  · intro _ _ i i' x _ hs
    simp only [mergeFin, hs.pixels, hs.data, hs.display]

/-- The stream of a CropImage node for an image. -/
def cropFin (key : Nat) (image : Image F H) (stream : Stream F H) : NodeStatus × Stream F H :=
  (.valid,
    { stream with
      hash := key, dataWindow := image.dataWindow, displayWindow := image.displayWindow
      pixelBlock := image.pixelBlock })

theorem looks_crop (p : Profile) (lib : NodeLib F H) (id : Nat) (st : NodeStatus)
    (a : CropImageAttrs) (frame : F) (mode : Mode) (s : Stream F H) (rest : List (Stream F H))
    (prev : Stream F H) (he : a.enable = 1) :
    Looks p lib ⟨⟨id, st, .cropImage a⟩, frame, mode, s :: rest, prev⟩ (Stream F H)
      (decide (a.useCache ≠ 0)) s
      (cropProcess p lib s ⟨a.windowMinX, a.windowMinY, a.windowMaxX, a.windowMaxY⟩
        (a.reformat = 1) (a.blackOutside = 1) (a.intersect = 1))
      (cropFin (Call.key lib ⟨⟨id, st, .cropImage a⟩, frame, mode, s :: rest, prev⟩)) := by
  refine ⟨?_, ?_, ?_, ?_⟩
  · intro w
    simp only [Call.run, Node.run, CropImageAttrs.compute, he, ne_eq, not_true_eq_false,
      if_false]
    rfl
  · intro hu
    simp only [Caches, attr_eval]
    exact ⟨of_decide_eq_true hu, he, by simp⟩
  · intro i x _
    exact ⟨rfl, rfl, rfl, fun h => by simp [attr_eval] at h⟩
  · intro hset _ i i' x hx hs
    simp only [Settled, attr_eval, List.head?_cons, Option.mem_def, Option.some.injEq,
      forall_eq'] at hset
    obtain ⟨⟨h1, h2⟩, h3⟩ := hset
    unfold cropProcess at hx
    obtain ⟨b, e1, hx⟩ := Res.bind_ok.mp hx
    obtain ⟨im, e2, hx⟩ := Res.bind_ok.mp hx
    simp only [Except.ok.injEq, Prod.mk.injEq] at hx
    have hr := Props.C83_resets _ _ _ _ _ _ _ _ _ e1
    have hxs : x = s := by
      rw [← hx.2, hr.1]
      simp only [Stream.toBake]
      rw [← h1, ← h2, ← h3]
    subst hxs
    simp only [cropFin, hs.pixels, hs.data, hs.display]

/-- The input of a Viewer node. -/
def viewerInput (inputs : List (Stream F H)) : Stream F H :=
  match inputs with
  | [] => .new
  | input :: _ => input

/-- The bake option of a Viewer node. -/
def viewerOption (a : ViewerAttrs) : BakeOption :=
  if decide (a.cropToFormat ≠ 0) then .all else BakeOption.ofI32 a.bakeOption

/-- The stream of a Viewer node for an image. -/
def viewerFin (key : Nat) (option : BakeOption) (image : Image F H) (stream : Stream F H) :
    NodeStatus × Stream F H :=
  (.valid,
    { (if option = .all then { stream with deformers := [] } else stream) with
      hash := key, dataWindow := image.dataWindow, displayWindow := image.displayWindow
      pixelBlock := image.pixelBlock, imageSpec := image.spec })

theorem looks_viewer (p : Profile) (lib : NodeLib F H) (id : Nat) (st : NodeStatus)
    (a : ViewerAttrs) (frame : F) (mode : Mode) (inputs : List (Stream F H))
    (prev : Stream F H) (he : a.enable = 1) (ho : ¬ BakeOption.ofI32 a.bakeOption = .nothing) :
    Looks p lib ⟨⟨id, st, .viewer a⟩, frame, mode, inputs, prev⟩ (Stream F H)
      (decide (a.useCache ≠ 0)) (viewerInput inputs)
      (viewerProcess p lib (viewerInput inputs) (viewerOption a)
        (DataType.ofI32 a.bakePixelDataType) (decide (a.cropToFormat ≠ 0)) a.bakeColorSpace)
      (viewerFin (Call.key lib ⟨⟨id, st, .viewer a⟩, frame, mode, inputs, prev⟩)
        (viewerOption a)) := by
  refine ⟨?_, ?_, ?_, ?_⟩
  · intro w
    simp only [Call.run, Node.run, ViewerAttrs.compute, he, ho, ne_eq, not_true_eq_false,
      if_false, not_false_eq_true, if_true]
    rfl
  · intro hu
    simp only [Caches, attr_eval]
    exact ⟨of_decide_eq_true hu, he, fun h => ho ((Props.ofI32_nothing _).mpr h)⟩
  · intro i x _
    exact ⟨rfl, rfl, rfl, fun _ => rfl⟩
  · intro hset _ i i' x hx hsh
    simp only [Settled, attr_eval] at hset
    have hun : a.cropToFormat ≠ 0 ∨ a.bakeOption ≠ 1 → Ungraded (viewerInput inputs) := by
      intro h
      cases inputs with
      | nil => exact ⟨rfl, rfl⟩
      | cons t rest => exact hset h t rfl
    generalize viewerInput inputs = s at *
    unfold viewerProcess at hx
    obtain ⟨b, e1, hx⟩ := Res.bind_ok.mp hx
    dsimp only at hx
    obtain ⟨im, hx⟩ : ∃ im, (.ok (im, b.stream) : Res (Image F H × Stream F H)) =
        .ok (i', x) := by
      split at hx
      · obtain ⟨im, e2, hx⟩ := Res.bind_ok.mp hx
        exact ⟨im, hx⟩
      · exact ⟨_, hx⟩
    simp only [Except.ok.injEq, Prod.mk.injEq] at hx
    have hr := Props.C83_resets _ _ _ _ _ _ _ _ _ e1
    have hx2 := hx.2
    simp only [viewerFin, hsh.pixels, hsh.data, hsh.display, hsh.spec (.inr rfl)]
    unfold viewerOption at hr ⊢
    by_cases hc : a.cropToFormat = 0
    · simp only [hc, ne_eq, not_true_eq_false, decide_false, Bool.false_eq_true,
        if_false] at hr ⊢
      subst hx2
      unfold BakeOption.ofI32 at hr ⊢
      by_cases h0 : a.bakeOption = 0
      · exact absurd ((Props.ofI32_nothing _).mpr h0) ho
      by_cases h1 : a.bakeOption = 1
      · simp only [h1, if_true, if_false, Int.reduceEq, Remaining, reduceCtorEq] at hr ⊢
        rw [hr.1]
        rfl
      obtain ⟨g1, g2⟩ := hun (.inr h1)
      by_cases h2 : a.bakeOption = 2
      · simp only [h2, if_true, if_false, Int.reduceEq, Remaining, reduceCtorEq] at hr ⊢
        rw [hr.1]
        simp only [Stream.toBake]
        rw [← g1, ← g2]
      by_cases h3 : a.bakeOption = 3
      · simp only [h3, if_true, if_false, Int.reduceEq, Remaining, reduceCtorEq] at hr ⊢
        rw [hr.1]
        simp only [Stream.toBake]
        rw [← g1, ← g2]
      · simp only [h0, h1, h2, h3, if_false, Remaining] at hr
    · simp only [hc, ne_eq, not_false_eq_true, decide_true, if_true] at hr ⊢
      obtain ⟨h1, h2⟩ := hun (.inl hc)
      rw [← hx2, hr.1]
      simp only [Stream.toBake]
      rw [← h1, ← h2]

/-- The stream of a ResampleImage node for an image. -/
def resampleFin (key : Nat) (s : Stream F H) (image : Image F H) (x : NodeStatus) :
    NodeStatus × Stream F H :=
  (x,
    { s with
      dataWindow := image.dataWindow, displayWindow := image.displayWindow
      pixelBlock := image.pixelBlock, hash := key })

/-- The image and status of a ResampleImage node. -/
def resampleMake (p : Profile) (lib : NodeLib F H) (s : Stream F H) (factor : Int)
    (interpolate : Bool) : Res (Image F H × NodeStatus) := do
  let (ok, image) ← resampleProcess p lib s factor interpolate
  .ok (image, if ok = false then NodeStatus.error else NodeStatus.valid)

theorem looks_resample (p : Profile) (lib : NodeLib F H) (id : Nat) (st : NodeStatus)
    (a : ResampleImageAttrs) (frame : F) (mode : Mode) (s : Stream F H)
    (rest : List (Stream F H)) (prev : Stream F H) (he : a.enable = 1)
    (hd : p = .release ∨ rest.length = 0) (hf : ¬ a.factor = 0) :
    Looks p lib ⟨⟨id, st, .resampleImage a⟩, frame, mode, s :: rest, prev⟩ NodeStatus
      (decide (a.useCache ≠ 0)) .valid
      (resampleMake p lib s a.factor (decide (a.interpolate ≠ 0)))
      (resampleFin (Call.key lib ⟨⟨id, st, .resampleImage a⟩, frame, mode, s :: rest, prev⟩) s) := by
  have hrun : ∀ w, Call.run p lib ⟨⟨id, st, .resampleImage a⟩, frame, mode, s :: rest, prev⟩ w =
      (lookup p (decide (a.useCache ≠ 0)) w (Call.key lib
        ⟨⟨id, st, .resampleImage a⟩, frame, mode, s :: rest, prev⟩) NodeStatus.valid
        (resampleMake p lib s a.factor (decide (a.interpolate ≠ 0))) >>= fun r =>
        .ok ((resampleFin (Call.key lib
          ⟨⟨id, st, .resampleImage a⟩, frame, mode, s :: rest, prev⟩) s r.2.1 r.2.2).1,
          (resampleFin (Call.key lib
          ⟨⟨id, st, .resampleImage a⟩, frame, mode, s :: rest, prev⟩) s r.2.1 r.2.2).2, r.1)) := by
    intro w
    simp only [Call.run, Node.run, ResampleImageAttrs.compute, he, hf, ne_eq,
      not_true_eq_false, if_false, not_false_eq_true, if_true, ensure, if_pos hd]
    rfl
  refine ⟨hrun, ?_, ?_, ?_⟩
  · intro hu
    simp only [Caches, attr_eval]
    exact ⟨of_decide_eq_true hu, he, by simp, hf⟩
  · intro i x _
    exact ⟨rfl, rfl, rfl, fun h => by simp [attr_eval] at h⟩
  · intro _ hre i i' x hx hs
    have hok : ∀ i x, resampleMake p lib s a.factor (decide (a.interpolate ≠ 0)) = .ok (i, x) →
        x = .error ∨ x = .valid := by
      intro i x e
      obtain ⟨⟨ok, im⟩, e1, e⟩ := Res.bind_ok.mp e
      simp only [Except.ok.injEq, Prod.mk.injEq] at e
      rw [← e.2]
      split <;> simp
    have := settle_resample (p := p) (lib := lib) hrun (fun _ _ => rfl) (hre rfl) hok _ _ hx
    subst this
    simp only [resampleFin, hs.pixels, hs.data, hs.display]

/-- Every computation is of one of the two kinds. -/
theorem run_shape (p : Profile) (lib : NodeLib F H) (c : Call F H) :
    Plain p lib c ∨ ∃ X u hit make fin, Looks p lib c X u hit make fin := by
  obtain ⟨⟨id, st, attrs⟩, frame, mode, inputs, prev⟩ := c
  cases attrs
  case null a =>
    left
    cases inputs with
    | nil => exact plain_ok fun w => rfl
    | cons s rest => exact plain_ok fun w => rfl
  case readImage a =>
    by_cases hm : mode &&& modePixel = modePixel
    · by_cases he : a.enable = 0
      · exact .inl (plain_ok fun w => by
          simp only [Call.run, Node.run, ReadImageAttrs.compute, if_pos hm, if_pos he]; rfl)
      · cases hk : lib.pathKind (Path.expandString lib.shell a.filePath (frameNum frame)) with
        | missing =>
          exact .inl (plain_ok fun w => by
            simp only [Call.run, Node.run, ReadImageAttrs.compute, if_pos hm, if_neg he, hk]; rfl)
        | other =>
          by_cases h1 : a.enable = 1
          · exact .inl (plain_ok fun w => by
              simp only [Call.run, Node.run, ReadImageAttrs.compute, if_pos hm, if_neg he, hk, h1,
                ne_eq, not_true_eq_false, if_false]; rfl)
          · exact .inl (plain_ok fun w => by
              simp only [Call.run, Node.run, ReadImageAttrs.compute, if_pos hm, if_neg he, hk, h1,
                ne_eq, not_false_eq_true, if_true]; rfl)
        | file =>
          exact .inr ⟨_, _, _, _, _, looks_read p lib id st a frame mode inputs prev hm he hk⟩
    · exact .inl (plain_ok fun w => by
        simp only [Call.run, Node.run, ReadImageAttrs.compute, if_neg hm]; rfl)
  case writeImage a =>
    left
    by_cases he : a.enable = 0
    · exact plain_ok fun w => by
        simp only [Call.run, Node.run, WriteImageAttrs.compute, if_pos he]; rfl
    · cases inputs with
      | nil =>
        exact plain_ok fun w => by
          simp only [Call.run, Node.run, WriteImageAttrs.compute, if_neg he]; rfl
      | cons s rest =>
        by_cases hx : a.execute = 0
        · exact plain_ok fun w => by
            simp only [Call.run, Node.run, WriteImageAttrs.compute, if_neg he, if_pos hx]; rfl
        · cases hw : writeProcess p lib s a.filePath frame (DataType.ofI32 a.pixelDataType)
            (CropOnWrite.ofI32 a.cropOnWrite) a.compression with
          | error e =>
            exact .inl ⟨e, fun w => by
              simp only [Call.run, Node.run, WriteImageAttrs.compute, if_neg he, if_neg hx, hw]
              rfl⟩
          | ok r =>
            exact .inr ⟨.valid, s, r.2.toList, fun w => by
              simp only [Call.run, Node.run, WriteImageAttrs.compute, if_neg he, if_neg hx, hw]
              rfl⟩
  case grade a =>
    left
    by_cases hg : a.enable = 1 ∧
      (a.processR ≠ 0 ∨ a.processG ≠ 0 ∨ a.processB ≠ 0 ∨ a.processA ≠ 0)
    · exact plain_ok fun w => by
        simp only [Call.run, Node.run, GradeAttrs.compute, if_pos hg]
        rfl
    · exact plain_ok fun w => by
        simp only [Call.run, Node.run, GradeAttrs.compute, if_neg hg]
        rfl
  case lensDistort a =>
    left
    by_cases he : a.enable = 1
    · by_cases hl : lib.lensAccepts a.deformer = true
      · exact plain_ok fun w => by
          simp only [Call.run, Node.run, LensDistortAttrs.compute, if_pos he, if_pos hl]
          rfl
      · exact .inl ⟨.explicit, fun w => by
          simp only [Call.run, Node.run, LensDistortAttrs.compute, if_pos he, if_neg hl]⟩
    · exact plain_ok fun w => by
        simp only [Call.run, Node.run, LensDistortAttrs.compute, if_neg he]
        rfl
  case transform a => exact .inl (plain_ok fun w => rfl)
  case mergeImage a =>
    by_cases he : a.enable = 1
    · cases inputs with
      | nil =>
        exact .inl (plain_ok fun w => by
          simp only [Call.run, Node.run, MergeImageAttrs.compute, he, ne_eq, not_true_eq_false,
            if_false]; rfl)
      | cons s rest =>
        exact .inr ⟨_, _, _, _, _, looks_merge p lib id st a frame mode s rest prev he⟩
    · exact .inl (plain_ok fun w => by
        simp only [Call.run, Node.run, MergeImageAttrs.compute, he, ne_eq, not_false_eq_true,
          if_true]; rfl)
  case cropImage a =>
    cases inputs with
    | nil => exact .inl (plain_ok fun w => rfl)
    | cons s rest =>
      by_cases he : a.enable = 1
      · exact .inr ⟨_, _, _, _, _, looks_crop p lib id st a frame mode s rest prev he⟩
      · exact .inl (plain_ok fun w => by
          simp only [Call.run, Node.run, CropImageAttrs.compute, he, ne_eq, not_false_eq_true,
            if_true]; rfl)
  case viewer a =>
    by_cases he : a.enable = 1
    · by_cases ho : BakeOption.ofI32 a.bakeOption = .nothing
      · cases inputs with
        | nil =>
          exact .inl (plain_ok fun w => by
            simp only [Call.run, Node.run, ViewerAttrs.compute, he, ho, ne_eq, not_true_eq_false,
              if_false]; rfl)
        | cons s rest =>
          exact .inl (plain_ok fun w => by
            simp only [Call.run, Node.run, ViewerAttrs.compute, he, ho, ne_eq, not_true_eq_false,
              if_false]; rfl)
      · exact .inr ⟨_, _, _, _, _, looks_viewer p lib id st a frame mode inputs prev he ho⟩
    · exact .inl (plain_ok fun w => by
        simp only [Call.run, Node.run, ViewerAttrs.compute, he, ne_eq, not_false_eq_true,
          if_true]; rfl)
  case resampleImage a =>
    cases inputs with
    | nil => exact .inl (plain_ok fun w => rfl)
    | cons s rest =>
      by_cases he : a.enable = 1
      · by_cases hd : p = .release ∨ rest.length = 0
        · by_cases hf : a.factor = 0
          · exact .inl (plain_ok fun w => by
              simp only [Call.run, Node.run, ResampleImageAttrs.compute, he, hf, ne_eq,
                not_true_eq_false, if_false, ensure, if_pos hd]
              rfl)
          · exact .inr ⟨_, _, _, _, _, looks_resample p lib id st a frame mode s rest prev he hd hf⟩
        · exact .inl (.inl ⟨.assertion, fun w => by
            simp only [Call.run, Node.run, ResampleImageAttrs.compute, he, ne_eq,
              not_true_eq_false, if_false, ensure, if_neg hd]
            rfl⟩)
      · exact .inl (plain_ok fun w => by
          simp only [Call.run, Node.run, ResampleImageAttrs.compute, he, ne_eq, not_false_eq_true,
            if_true]; rfl)

end OCG.CacheSpec
