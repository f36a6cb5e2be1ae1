import Verif.Spec.Recall
import Verif.Proofs.Recall
import Verif.Props.Again
/-
Property C141: what is in the cache is not computed again.
-/

namespace OCG.Props

open AgainSpec GraphSpec CacheSpec RecallSpec

section
variable {F H : Type} [FloatLike F] [HalfLike F H] [FloatConst F] [FloatBits F]

/-- C141: after a computation, the same computation in a cache that still holds everything gives the
same status and stream, whatever is now in the files; nothing is missing from the cache. -/
theorem C141_node {p : Profile} {lib lib' : NodeLib F H} (ho : OtherFiles lib lib') (c : Call F H)
    (hr : Repeatable p lib c) {w w' v : World F H} (hc : w.cache.capacity ≠ 0) {st : NodeStatus}
    {out : Stream F H} (e : c.run p lib w = .ok (st, out, w')) (hv : Holds w'.cache v.cache) :
    ∃ v' jobs, c.run p lib' v = .ok (st, out, v') ∧ OnlyHits v.cache v'.cache ∧
      w'.writes = w.writes ++ jobs ∧ v'.writes = v.writes ++ jobs :=
  (run_recalled ho c hr (v := v) hc e).2 hv

theorem looks_stored {p : Profile} {lib : NodeLib F H} {c : Call F H} {X : Type} {u : Bool} {hit : X}
    {make : Res (Image F H × X)} {fin : Image F H → X → NodeStatus × Stream F H}
    (h : Looks p lib c X u hit make fin) (hu : u = true)
    (hf : ∀ i x, (fin i x).2.pixelBlock = i.pixelBlock ∧ (fin i x).2.dataWindow = i.dataWindow ∧
      (fin i x).2.displayWindow = i.displayWindow) {w w' : World F H}
    (hc : w.cache.capacity ≠ 0) {st : NodeStatus} {out : Stream F H}
    (e : c.run p lib w = .ok (st, out, w')) :
    ∃ i, (w'.cache.get (c.key lib)).2 = some i ∧ i.pixelBlock = out.pixelBlock ∧
      i.dataWindow = out.dataWindow ∧ i.displayWindow = out.displayWindow := by
  rw [h.run] at e
  obtain ⟨⟨w1, i, x⟩, e1, e⟩ := Res.bind_ok.mp e
  simp only [Except.ok.injEq, Prod.mk.injEq] at e
  obtain ⟨-, rfl, rfl⟩ := e
  obtain ⟨h1, h2, h3⟩ := hf i x
  exact ⟨i, (lookup_grows e1).2.2.2 hu hc, h1.symm, h2.symm, h3.symm⟩

/-- C141: a computation that looks into a cache with room for anything leaves something there under
its hash. -/
theorem C141_stored {p : Profile} {lib : NodeLib F H} (c : Call F H) (hk : Caches lib c)
    {w w' : World F H} (hc : w.cache.capacity ≠ 0) {st : NodeStatus} {out : Stream F H}
    (e : c.run p lib w = .ok (st, out, w')) :
    ∃ i, (w'.cache.get (c.key lib)).2 = some i ∧ i.pixelBlock = out.pixelBlock ∧
      i.dataWindow = out.dataWindow ∧ i.displayWindow = out.displayWindow := by
  obtain ⟨⟨id, s, attrs⟩, frame, mode, inputs, prev⟩ := c
  obtain ⟨hu, hk⟩ := hk
  cases attrs
  case readImage a =>
    simp only [HashSpec.path, attr_eval] at hu hk
    obtain ⟨h1, h2, h3⟩ := hk
    exact looks_stored (looks_read p lib id s a frame mode inputs prev h1 h2 h3) (decide_eq_true hu)
      (fun _ _ => ⟨rfl, rfl, rfl⟩) hc e
  case mergeImage a =>
    simp only [attr_eval] at hu hk
    obtain ⟨h1, h2⟩ := hk
    cases inputs with
    | nil => exact absurd rfl h2
    | cons t rest =>
      exact looks_stored (looks_merge p lib id s a frame mode t rest prev h1) (decide_eq_true hu)
        (fun _ _ => ⟨rfl, rfl, rfl⟩) hc e
  case cropImage a =>
    simp only [attr_eval] at hu hk
    obtain ⟨h1, h2⟩ := hk
    cases inputs with
    | nil => exact absurd rfl h2
    | cons t rest =>
      exact looks_stored (looks_crop p lib id s a frame mode t rest prev h1) (decide_eq_true hu)
        (fun _ _ => ⟨rfl, rfl, rfl⟩) hc e
  case resampleImage a =>
    simp only [attr_eval] at hu hk
    obtain ⟨h1, h2, h3⟩ := hk
    cases inputs with
    | nil => exact absurd rfl h2
    | cons t rest =>
      by_cases hd : p = .release ∨ rest.length = 0
      · exact looks_stored (looks_resample p lib id s a frame mode t rest prev h1 hd h3)
          (decide_eq_true hu) (fun _ _ => ⟨rfl, rfl, rfl⟩) hc e
      · simp only [Call.run, Node.run, ResampleImageAttrs.compute, h1, ne_eq, not_true_eq_false,
          if_false, ensure, if_neg hd] at e
        cases e
  case viewer a =>
    simp only [attr_eval] at hu hk
    obtain ⟨h1, h2⟩ := hk
    exact looks_stored (looks_viewer p lib id s a frame mode inputs prev h1
      (fun h => h2 ((ofI32_nothing _).mp h))) (decide_eq_true hu)
      (fun _ _ => ⟨rfl, rfl, rfl⟩) hc e
  all_goals exact hk.elim

/-- C141: executing only adds to the cache, unless something is dropped from it to make room. -/
theorem C141_grows (p : Profile) (lib : NodeLib F H) (srt : EdgeSort) (fuel : Nat)
    (g g' : Graph (Node F) (Stream F H)) (id : Nat) (frames : List F) (w w' : World F H)
    (status : ExecuteStatus)
    (h : Graph.execute (nodeSem p lib) srt fuel g id frames w = .ok (status, g', w')) :
    w.cache.evictions ≤ w'.cache.evictions ∧
      (w'.cache.evictions = w.cache.evictions → Holds w.cache w'.cache) :=
  have k := execute_grows p lib srt fuel g g' id frames w w' status h
  ⟨k.evictions, k.holds⟩

/-- C141 (partial): what was computed is not computed again.  After executing a graph, and any
number of other executions of this or other graphs, if nothing was dropped from the cache, then
executing the graph again finds everything in the cache: no file is read, so that even changed files
give the same status, output and jobs, and the cache counts only hits.  Missing: computations that
are not repeatable, see the counterexamples of C45. -/
theorem C141_again_partial (p : Profile) {lib lib' : NodeLib F H} (ho : OtherFiles lib lib')
    (srt : EdgeSort) (fuel : Nat) {g g' : Graph (Node F) (Stream F H)} {r : Bool}
    (h : Reach (nodeSem p lib) srt r g) (ha : SameSetup g g') {id start : Nat} (hid : At g id start)
    (hs : g.graph.contains start = true) {frame : F} (hp : ShowsFiles lib g start frame)
    (frames : List F) {w w1 v : World F H} {st : ExecuteStatus} {g1 : Graph (Node F) (Stream F H)}
    {log : List (Call F H)} (hc : w.cache.capacity ≠ 0)
    (e : Graph.execute (logged p lib) srt fuel g id (frame :: frames) (w, []) =
      .ok (st, g1, (w1, log)))
    (hlog : ∀ c ∈ log, Repeatable p lib c) (hl : Later p srt w1 v)
    (hev : v.cache.evictions = w.cache.evictions) :
    ∃ g2 v' jobs, Graph.execute (nodeSem p lib') srt fuel g' id (frame :: frames) v =
        .ok (st, g2, v') ∧ g2.output = g1.output ∧ OnlyHits v.cache v'.cache ∧
      w1.writes = w.writes ++ jobs ∧ v'.writes = v.writes ++ jobs := by
  obtain ⟨k1, k2⟩ := execute_again ho srt fuel g g1 id (frame :: frames) w w1 log st hc e hlog
  have k3 := later_grows hl
  have h1 := k1.evictions
  have h2 := k3.evictions
  obtain ⟨v', e2, k4, jobs, k5, k6⟩ := k2 (by omega) v (k3.holds (by omega))
  have hp' : ShowsFiles lib' g start frame := by
    refine ⟨hp.leaves, hp.inputs, fun i n hu hn hi => ?_⟩
    have := hp.own i n hu hn hi
    refine ⟨this.1, ?_⟩
    rw [ho.pathKind, ho.shell]
    exact this.2
  have k := alike_of_inv p lib' srt fuel h.inv ha hid hs hp' frames v
  rw [e2] at k
  cases e3 : Graph.execute (nodeSem p lib') srt fuel g' id (frame :: frames) v with
  | error x => rw [e3] at k; cases k
  | ok x =>
    rw [e3] at k
    obtain ⟨st2, g2, v2⟩ := x
    obtain ⟨i1, i2, i3⟩ := k
    dsimp only at i1 i2 i3
    subst i1 i3
    exact ⟨g2, v', jobs, rfl, i2.symm, k4, k5, k6⟩

end

section
attribute [local instance] finFloat finBits finHalf finPi

/-- The files after they were deleted and replaced by ones that cannot be read. -/
def brokenFiles : NodeLib (Fin 256) (Fin 256) :=
  { twoFiles with oiio := { twoFiles.oiio with header := fun _ => none } }

theorem brokenFiles_other : OtherFiles twoFiles brokenFiles :=
  ⟨rfl, rfl, rfl, rfl, rfl, rfl, rfl, rfl, rfl⟩

theorem readCrop_repeatable {c : Call (Fin 256) (Fin 256)} (h : ReadCrop c) :
    Repeatable .debug twoFiles c := by
  refine ⟨?_, readCrop_regular.settled c h, readCrop_regular.resampled c h⟩
  obtain ⟨⟨i, st, a⟩, frame, mode, inputs, prev⟩ := c
  obtain ⟨hf, ⟨ha, hi⟩ | ⟨ha, s, hi, -, -, hh⟩⟩ := h <;>
  · dsimp only at ha
    subst ha
    first
      | (intro _; show (1 : Int) ≠ 0; decide)
      | (intro ht; cases ht)

/-- Both pictures are put into the cache; then the file is broken.  The graph shows the cropped pixel
again, although reading it now would fail. -/
example : ∃ g1 w1 g2 v', readCrop.execute (nodeSem .debug twoFiles) insSort 20 2 [1] blankWorld =
      .ok (.success, g1, w1) ∧
    g1.execute (nodeSem .debug brokenFiles) insSort 20 2 [1] w1 = .ok (.success, g2, v') ∧
    g2.output = g1.output ∧ v'.cache.misses = 2 ∧ v'.cache.hits = 2 ∧
    ∀ g w, readCrop.execute (nodeSem .debug brokenFiles) insSort 20 2 [1] blankWorld ≠
      .ok (.success, g, w) := by
  obtain ⟨g1, w1, log1, g2, w2, e0, e1, l1, hev, hm, e2, hits⟩ : ∃ g1 w1 log1 g2 w2,
      readCrop.execute (nodeSem .debug twoFiles) insSort 20 2 [1] blankWorld =
        .ok (.success, g1, w1) ∧
      readCrop.execute (logged .debug twoFiles) insSort 20 2 [1] (blankWorld, []) =
        .ok (.success, g1, (w1, log1)) ∧ (∀ c ∈ log1, ReadCrop c) ∧ w1.cache.evictions = 0 ∧
      w1.cache.misses = 2 ∧
      g1.execute (nodeSem .debug brokenFiles) insSort 20 2 [1] w1 = .ok (.success, g2, w2) ∧
      w2.cache.hits = 2 := by
    refine ⟨_, _, _, _, _, rfl, rfl, ?_, by decide +kernel, by decide +kernel, rfl,
      by decide +kernel⟩
    show ∀ c ∈ [_, _], ReadCrop c
    refine List.forall_mem_cons.mpr ⟨?_, List.forall_mem_cons.mpr ⟨?_, by simp⟩⟩
    · exact ⟨rfl, .inl ⟨rfl, rfl⟩⟩
    · exact ⟨rfl, .inr ⟨rfl, _, rfl, ⟨rfl, rfl⟩, rfl, rfl⟩⟩
  have hreach : Reach (nodeSem .debug twoFiles) insSort false readCrop :=
    .connect 1 2 0 (.add ⟨2, .uninitialized, .cropImage pixelCrop⟩
      (.add ⟨1, .uninitialized, .readImage readAttrs⟩ (.new .new) rfl) rfl) rfl
  obtain ⟨g3, v', jobs, e3, h1, h2, -⟩ := C141_again_partial .debug brokenFiles_other insSort 20 hreach
    (executed_same (.step twoFiles .refl e0)) (start := 1) ⟨rfl, by decide⟩ rfl (readCrop_files 1) []
    (by decide) e1 (fun c hc => readCrop_repeatable (l1 c hc)) .refl hev
  rw [e2] at e3
  cases e3
  refine ⟨g1, w1, g2, w2, e0, e2, h1, h2.misses.trans hm, hits, ?_⟩
  have : (match readCrop.execute (nodeSem .debug brokenFiles) insSort 20 2 [1] blankWorld with
      | .ok (.success, _, _) => true
      | _ => false) = false := by decide +kernel
  intro g w h
  rw [h] at this
  cases this

/-- The file node puts its picture into the cache. -/
example : ∃ out w' i, readCall.run .debug twoFiles blankWorld = .ok (.valid, out, w') ∧
    (w'.cache.get (readCall.key twoFiles)).2 = some i ∧ i.pixelBlock = out.pixelBlock ∧
    ∃ v', readCall.run .debug brokenFiles w' = .ok (.valid, out, v') := by
  have hk : Caches twoFiles readCall := ⟨show (1 : Int) ≠ 0 by decide,
    show modeAll &&& modePixel = modePixel by decide, show (1 : Int) ≠ 0 by decide, rfl⟩
  have e : readCall.run .debug twoFiles blankWorld = _ := ran (st := .valid) (by decide +kernel)
  obtain ⟨i, h1, h2, -⟩ := C141_stored readCall hk (by decide) e
  obtain ⟨v', jobs, h3, -⟩ := C141_node brokenFiles_other readCall
    (readCrop_repeatable ⟨rfl, .inl ⟨rfl, rfl⟩⟩) (by decide) e (fun _ _ h => h)
  exact ⟨_, _, i, e, h1, h2, v', h3⟩

end
end OCG.Props
