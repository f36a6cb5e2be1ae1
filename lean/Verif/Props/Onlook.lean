import Verif.Spec.Onlook
import Verif.Props.Precomp
/-
Property C148: looking at pictures, saving them and tidying them up on the way changes nothing.
-/

namespace OCG.Props

open GraphSpec PictureSpec RenderSpec FileSpec BBoxSpec BlockSpec ImageSpecs CacheSpec
open IdleSpec BuiltSpec PixelSpec ColorSpec ChannelSpec PlainSpec IeeeSpec OnlookSpec ComputeSpec

section
variable [Libm single32]

theorem makes_settings {lib : NodeLib F32 F16} {fr : F32} {n n' : Node F32} (hn : SameSettings n n')
    {Ls : List (Layer F32)} {L : Layer F32} (k : Makes lib fr n Ls L) : Makes lib fr n' Ls L :=
  makes_saved (jobs := []) ⟨rfl, rfl, rfl, rfl, rfl, by simp, fun _ _ => ⟨rfl, rfl, rfl⟩⟩ hn
    (by simp) k

/-- C148 for one node: an onlooker makes the picture that it is given. -/
theorem C148_node {lib : NodeLib F32 F16} {frame : F32} {n : Node F32} {L : Layer F32}
    (h : Onlooker lib frame n L) : Makes lib frame n [L] L := by
  obtain ⟨P, ds⟩ := L
  cases h with
  | idle h =>
    rcases h with h | ⟨h1, h2⟩
    · exact .null h
    · by_cases hg : n.attrs.nodeType = .grade
      · exact .gradeOff hg (fun k => by have := k.1; omega)
      · refine .off ?_ h1
        simp only [List.mem_cons, List.not_mem_nil, or_false] at h2 ⊢
        tauto
  | factor h1 h2 h3 => exact .resampleIdle h1 h2 h3
  | shows h1 h2 h3 => exact .viewerOff h1 h2 h3
  | space h1 h2 h3 h4 h5 h6 h7 => exact .viewerSpace h1 h2 h3 h4 h5 h6 h7
  | bakes t h1 h2 h3 h4 h5 h6 h7 h8 h9 =>
    refine .viewer h1 h2 h3 h4 h5 h6 ⟨rfl, rfl, rfl, h7, fun x y hxy => ?_⟩
    obtain ⟨a1, a2⟩ := h8.plain x y hxy
    have e : (P.at_ x y).map (inType F16 t) = P.at_ x y :=
      (List.map_congr_left fun v hv => h9 x y hxy v hv).trans (List.map_id _)
    rw [e]
    exact settled_self (.inr h8.channels) a1 a2
  | keeps h1 h2 h3 => exact .writeOff h1 h2 h3
  | saves R h1 h2 h3 h4 h5 => exact .write h1 h2 h3 h4 h5
  | tidies h1 h2 h3 h4 h5 h6 h7 h8 =>
    obtain rfl : ds = [] := h6
    refine .crop h1 h2 h3 (rests_refl lib P) h7 (by rw [h4]; exact h8.size)
      ⟨h4.symm, ?_, rfl, rfl, fun x y hxy => ?_⟩
    · by_cases hr : n.getI32 "reformat" = 1
      · rw [decide_eq_true hr, h4]; exact h5 hr
      · rw [decide_eq_false hr]; rfl
    · rw [h4] at hxy
      obtain ⟨a1, a2⟩ := h8.plain x y hxy
      have e : P.pixel x y = P.at_ x y := if_pos hxy
      rw [e]
      exact settled_self (.inr h8.channels) a1 a2

/-- C148 for pictures: with onlookers put in, all nodes make the same pictures. -/
theorem C148_pictures {p p' : Profile} {lib : NodeLib F32 F16} {srt srt' : EdgeSort}
    {g g' : Graph (Node F32) (Stream F32 F16)} {r r' : Bool} (h : Reach (nodeSem p lib) srt r g)
    (h' : Reach (nodeSem p' lib) srt' r' g') (hu : UniqueSlots g) (hu' : UniqueSlots g')
    {φ : Nat → Nat} {start' : Nat} (hs : g.graph.contains (φ start') = true)
    (hs' : g'.graph.contains start' = true) {fr : F32} {pic : Nat → Layer F32}
    (hp : Pictures lib srt g (φ start') fr pic) (hφ : LookedAt lib fr pic φ g g' start') :
    Pictures lib srt' g' start' fr (fun j => pic (φ j)) := by
  have up : ∀ j, Upstream g'.graph start' j → Upstream g.graph (φ start') (φ j) := by
    intro j hj
    induction hj with
    | refl => exact .refl
    | step k f ih =>
      rename_i c a
      by_cases hac : a = c
      · rw [hac]; exact ih
      rcases hφ c k with q | ⟨b, q, e⟩
      · obtain ⟨⟨e1, e2, e3⟩, e4, rfl, rfl⟩ := f
        obtain ⟨i, rfl, q3, -⟩ := q.back _ _ e4 hac
        exact .step ih ⟨_, q3, rfl, rfl⟩
      · rw [q.2.2.2 a f, e]; exact ih
  intro j m' ins hj hm' hins
  have cj : g'.graph.contains j = true := h'.inv.sound.upstream_live hs' hj
  have k := up j hj
  rcases hφ j hj with q | ⟨b, q, e⟩
  · obtain ⟨m, m'', e1, e2, e3⟩ := q.nodes
    rw [hm'] at e2
    obtain rfl := Option.some.inj e2
    have ci : g.graph.contains (φ j) = true := h.inv.sound.upstream_live hs k
    have par := sameAt_parents h h' hu hu' q ci cj
    have hd := h.inv.sound.direct srt ci
    rw [h'.inv.sound.direct srt' cj] at hins
    have e4 : (parents srt g.graph (φ j)).map pic = ins.map (fun j => pic (φ j)) := by
      rw [← Except.ok.inj hins]
      generalize parents srt g.graph (φ j) = as at par
      generalize parents srt' g'.graph j = bs at par
      clear hd hins
      induction par with
      | nil => rfl
      | cons a b ih => simp only [List.map_cons, ih, a]
    rw [← e4]
    exact makes_settings e3 (hp _ m _ k e1 hd)
  · obtain ⟨⟨m, e1, e2⟩, -⟩ := id q
    rw [hm'] at e1
    obtain rfl := Option.some.inj e1
    rw [h'.inv.sound.direct srt' cj] at hins
    have e4 := passes_parents (srt := srt') h'.inv.sound q
    rw [← Except.ok.inj hins, e4, List.map_cons, List.map_nil, e]
    exact C148_node e2

/-- C148: a graph, and the same graph with onlookers put in anywhere.  Executing the one and the other
succeeds, and shows the same picture with the same deformers waiting. -/
theorem C148_execution {p p' : Profile} {lib : NodeLib F32 F16} {srt srt' : EdgeSort}
    {g g' : Graph (Node F32) (Stream F32 F16)} {r r' : Bool} (h : Reach (nodeSem p lib) srt r g)
    (h' : Reach (nodeSem p' lib) srt' r' g') (hu : UniqueSlots g) (hu' : UniqueSlots g')
    {frames : List F32} {frame : F32} (hlast : frames.getLast? = some frame)
    {pic : F32 → Nat → Layer F32} {φ : Nat → Nat} {id id' start start' : Nat}
    (hstart : φ start' = start) (hid : At g id start) (hs : g.graph.contains start = true)
    (hid' : At g' id' start') (hs' : g'.graph.contains start' = true)
    (hp : ∀ fr ∈ frames, Pictures lib srt g start fr (pic fr))
    (hφ : ∀ fr ∈ frames, LookedAt lib fr (pic fr) φ g g' start')
    {w w' w1 w1' : World F32 F16} (hw : IsOff w) (hw' : IsOff w') {fuel fuel' : Nat}
    {st st' : ExecuteStatus} {g1 g1' : Graph (Node F32) (Stream F32 F16)}
    (e : g.execute (nodeSem p lib) srt fuel id frames w = .ok (st, g1, w1))
    (e' : g'.execute (nodeSem p' lib) srt' fuel' id' frames w' = .ok (st', g1', w1')) :
    st = .success ∧ st' = .success ∧ ShowsLayer lib.bake.color g1.output (pic frame start) ∧
      ShowsLayer lib.bake.color g1'.output (pic frame start) := by
  subst hstart
  obtain ⟨a1, -, a2⟩ := C87_graph_returns_partial p lib srt h hid hs hlast hp hw e
  obtain ⟨b1, -, b2⟩ := C87_graph_returns_partial p' lib srt' h' hid' hs' hlast
    (pic := fun fr j => pic fr (φ j))
    (fun fr hfr => C148_pictures h h' hu hu' hs hs' (hp fr hfr) (hφ fr hfr)) hw' e'
  exact ⟨a1, b1, a2, b2⟩

/-- C148 if nodes on all ways from a node to another are equally many: then executing does return. -/
theorem C148_leveled {p p' : Profile} {lib : NodeLib F32 F16} {srt srt' : EdgeSort}
    {g g' : Graph (Node F32) (Stream F32 F16)} {r r' : Bool} (h : Reach (nodeSem p lib) srt r g)
    (h' : Reach (nodeSem p' lib) srt' r' g') (hu : UniqueSlots g) (hu' : UniqueSlots g')
    {frames : List F32} {frame : F32} (hlast : frames.getLast? = some frame)
    {pic : F32 → Nat → Layer F32} {φ : Nat → Nat} {id' start start' : Nat}
    (hstart : φ start' = start) (hs : g.graph.contains start = true)
    (hid' : At g' id' start') (hs' : g'.graph.contains start' = true)
    (hl : Leveled g'.graph start')
    (hp : ∀ fr ∈ frames, Pictures lib srt g start fr (pic fr))
    (hφ : ∀ fr ∈ frames, LookedAt lib fr (pic fr) φ g g' start')
    {w : World F32 F16} (hw : IsOff w) :
    ∃ enough, ∀ fuel, enough ≤ fuel → ∃ g1 w1,
      g'.execute (nodeSem p' lib) srt' fuel id' frames w = .ok (.success, g1, w1) ∧
      ShowsLayer lib.bake.color g1.output (pic frame start) := by
  subst hstart
  obtain ⟨enough, k⟩ := C87_graph_partial p' lib srt' h' hid' hs' hl hlast
    (pic := fun fr j => pic fr (φ j))
    (fun fr hfr => C148_pictures h h' hu hu' hs hs' (hp fr hfr) (hφ fr hfr)) hw
  refine ⟨enough, fun fuel hf => ?_⟩
  obtain ⟨g1, w1, a1, -, a2⟩ := k fuel hf
  exact ⟨g1, w1, a1, a2⟩

/-- C148 for files: a write node behind onlookers hands the same picture to OpenImageIO as without
them. -/
theorem C148_file {p p' : Profile} {lib : NodeLib F32 F16} {srt srt' : EdgeSort}
    {g g' : Graph (Node F32) (Stream F32 F16)} {r r' : Bool} (h : Reach (nodeSem p lib) srt r g)
    (h' : Reach (nodeSem p' lib) srt' r' g') (hu : UniqueSlots g) (hu' : UniqueSlots g')
    {frames : List F32} {frame : F32} (hlast : frames.getLast? = some frame)
    {pic : F32 → Nat → Layer F32} {φ : Nat → Nat} {id id' start start' : Nat}
    (hstart : φ start' = start) (hid : At g id start) (hs : g.graph.contains start = true)
    (hid' : At g' id' start') (hs' : g'.graph.contains start' = true)
    (hp : ∀ fr ∈ frames, Pictures lib srt g start fr (pic fr))
    (hφ : ∀ fr ∈ frames, LookedAt lib fr (pic fr) φ g g' start')
    {n n' : Node F32} (hn : g.nodes[start]? = some n) (hW : Writes n)
    (hn' : g'.nodes[start']? = some n') (hsame : SameSettings n n')
    {w w' w1 w1' : World F32 F16} (hw : IsOff w) (hw' : IsOff w') {fuel fuel' : Nat}
    {st st' : ExecuteStatus} {g1 g1' : Graph (Node F32) (Stream F32 F16)}
    (e : g.execute (nodeSem p lib) srt fuel id frames w = .ok (st, g1, w1))
    (e' : g'.execute (nodeSem p' lib) srt' fuel' id' frames w' = .ok (st', g1', w1')) :
    ∃ before before' job job', w1.writes = before ++ [job] ∧ w1'.writes = before' ++ [job'] ∧
      WrittenLayer lib frame n (pic frame start) job ∧
      WrittenLayer lib frame n (pic frame start) job' := by
  subst hstart
  obtain ⟨hW1, hW2, hW3⟩ := hW
  obtain ⟨before, job, a1, a2⟩ := C87_file_partial p lib srt h hid hs hlast hp hw hn hW1 hW2 hW3 e
  obtain ⟨id, s, attrs⟩ := n
  obtain ⟨id2, s2, attrs'⟩ := n'
  obtain rfl : attrs = attrs' := hsame
  obtain ⟨before', job', b1, b2⟩ := C87_file_partial p' lib srt' h' hid' hs' hlast
    (pic := fun fr j => pic fr (φ j))
    (fun fr hfr => C148_pictures h h' hu hu' hs hs' (hp fr hfr) (hφ fr hfr)) hw' hn' hW1 hW2 hW3 e'
  refine ⟨before, before', job, job', a1, b1, a2, ?_⟩
  obtain ⟨alpha, own, R, c1, c2⟩ := b2
  exact ⟨alpha, own, R, c1, ⟨c2.path, c2.extra, c2.pixels, c2.width, c2.height, c2.channels, c2.format,
    c2.fullX, c2.fullY, c2.fullWidth, c2.fullHeight⟩⟩

end

/-! ### Examples -/

attribute [local instance] IeeeConvertExamples.someLibm

/-- A viewer that bakes the colours with a type. -/
def viewNode (id : Nat) (type : Int) : Node F32 :=
  ⟨id, .uninitialized, .viewer { ViewerAttrs.new with bakeOption := 2, bakePixelDataType := type }⟩

/-- A crop to one pixel. -/
def tidyNode (id : Nat) : Node F32 :=
  ⟨id, .uninitialized, .cropImage { CropImageAttrs.new with
    enable := 1, windowMinX := 0, windowMinY := 0, windowMaxX := 1, windowMaxY := 1,
    reformat := 1, blackOutside := 0 }⟩

/-- Reading, looking, cropping to what is there, cropping to a wider window, and writing. -/
def readLookWideWrite : Graph (Node F32) (Stream F32 F16) :=
  ⟨[readNamed 1 [98], viewNode 2 1, tidyNode 3, widenNode 4, { writeHalf with id := 5 }], [1, 2, 3, 4, 5],
    ⟨[some 1, some 2, some 3, some 4, some 5], [], [⟨3, 4, 0⟩, ⟨2, 3, 0⟩, ⟨1, 2, 0⟩, ⟨0, 1, 0⟩]⟩, .new, .dirty, .uninitialized⟩

theorem readLookWideWrite_reach (px : List F16) :
    Reach (nodeSem .debug (halfFiles px)) insSort false readLookWideWrite := by
  have h0 : Reach (nodeSem .debug (halfFiles px)) insSort false _ := .new .new
  have h1 := Reach.add (g' := ⟨[readNamed 1 [98]], [1], ⟨[some 1], [], []⟩, .new, .dirty, .uninitialized⟩)
    (readNamed 1 [98]) h0 rfl
  have h2 := Reach.add (g' := ⟨[readNamed 1 [98], viewNode 2 1], [1, 2], ⟨[some 1, some 2], [], []⟩, .new, .dirty, .uninitialized⟩)
    (viewNode 2 1) h1 rfl
  have h3 := Reach.add (g' := ⟨[readNamed 1 [98], viewNode 2 1, tidyNode 3], [1, 2, 3], ⟨[some 1, some 2, some 3], [], []⟩, .new, .dirty, .uninitialized⟩)
    (tidyNode 3) h2 rfl
  have h4 := Reach.add (g' := ⟨[readNamed 1 [98], viewNode 2 1, tidyNode 3, widenNode 4], [1, 2, 3, 4], ⟨[some 1, some 2, some 3, some 4], [], []⟩, .new, .dirty, .uninitialized⟩)
    (widenNode 4) h3 rfl
  have h5 := Reach.add (g' := ⟨[readNamed 1 [98], viewNode 2 1, tidyNode 3, widenNode 4, { writeHalf with id := 5 }], [1, 2, 3, 4, 5], ⟨[some 1, some 2, some 3, some 4, some 5], [], []⟩, .new, .dirty, .uninitialized⟩)
    ({ writeHalf with id := 5 }) h4 rfl
  have h6 := Reach.connect (g' := ⟨[readNamed 1 [98], viewNode 2 1, tidyNode 3, widenNode 4, { writeHalf with id := 5 }], [1, 2, 3, 4, 5], ⟨[some 1, some 2, some 3, some 4, some 5], [], [⟨0, 1, 0⟩]⟩, .new, .dirty, .uninitialized⟩)
    1 2 0 h5 rfl
  have h7 := Reach.connect (g' := ⟨[readNamed 1 [98], viewNode 2 1, tidyNode 3, widenNode 4, { writeHalf with id := 5 }], [1, 2, 3, 4, 5], ⟨[some 1, some 2, some 3, some 4, some 5], [], [⟨1, 2, 0⟩, ⟨0, 1, 0⟩]⟩, .new, .dirty, .uninitialized⟩)
    2 3 0 h6 rfl
  have h8 := Reach.connect (g' := ⟨[readNamed 1 [98], viewNode 2 1, tidyNode 3, widenNode 4, { writeHalf with id := 5 }], [1, 2, 3, 4, 5], ⟨[some 1, some 2, some 3, some 4, some 5], [], [⟨2, 3, 0⟩, ⟨1, 2, 0⟩, ⟨0, 1, 0⟩]⟩, .new, .dirty, .uninitialized⟩)
    3 4 0 h7 rfl
  have h9 := Reach.connect (g' := ⟨[readNamed 1 [98], viewNode 2 1, tidyNode 3, widenNode 4, { writeHalf with id := 5 }], [1, 2, 3, 4, 5], ⟨[some 1, some 2, some 3, some 4, some 5], [], [⟨3, 4, 0⟩, ⟨2, 3, 0⟩, ⟨1, 2, 0⟩, ⟨0, 1, 0⟩]⟩, .new, .dirty, .uninitialized⟩)
    4 5 0 h8 rfl
  exact h9

theorem readWideWrite_slots : UniqueSlots readWideWrite := by
  intro a a' b s h1 h2
  simp only [Conn, readWideWrite, List.mem_cons, Edge.mk.injEq, List.not_mem_nil, or_false] at h1 h2
  omega

theorem readLookWideWrite_slots : UniqueSlots readLookWideWrite := by
  intro a a' b s h1 h2
  simp only [Conn, readLookWideWrite, List.mem_cons, Edge.mk.injEq, List.not_mem_nil, or_false] at h1 h2
  omega

theorem readLookWideWrite_at : At readLookWideWrite 5 4 := by
  refine ⟨rfl, fun j hj => ?_⟩
  rcases j with _ | _ | _ | _ | j <;> first | decide | omega

/-- At which node of `readWideWrite` a node of `readLookWideWrite` stands. -/
def lookedAt (j : Nat) : Nat := j - 2

theorem redFloats_half (b : Bool) : ∀ v ∈ redFloats b, inType F16 .f16 v = v := by
  revert b
  decide +kernel

theorem wide_viewed (fr : F32) : Onlooker (halfFiles (redPixel true)) fr (viewNode 2 1)
    (wideLayers true 0) :=
  .bakes .f16 rfl rfl rfl rfl rfl (fun _ => rfl) rfl (wide_proper true 0)
    (fun _ _ _ => redFloats_half true)

theorem wide_tidied (fr : F32) : Onlooker (halfFiles (redPixel true)) fr (tidyNode 3)
    (wideLayers true 0) :=
  .tidies rfl rfl (by decide) rfl (fun _ => rfl) rfl rfl (wide_proper true 0)

theorem wide_lookedAt (fr : F32) : LookedAt (halfFiles (redPixel true)) fr (wideLayers true) lookedAt
    readWideWrite readLookWideWrite 4 := by
  intro j hj
  have hj : j < 5 := by
    clear * - hj
    induction hj with
    | refl => decide
    | step _ f _ =>
      obtain ⟨e, he, rfl, rfl⟩ := f
      simp only [readLookWideWrite, List.mem_cons, List.not_mem_nil, or_false] at he
      rcases he with rfl | rfl | rfl | rfl <;> decide
  rcases j with _ | _ | _ | _ | _ | j
  · refine .inl ⟨⟨_, _, rfl, rfl, rfl⟩, ?_, ?_⟩
    · intro a slot h _
      have h : Conn readWideWrite a 0 slot := h
      simp only [Conn, readWideWrite, List.mem_cons, Edge.mk.injEq, List.not_mem_nil, or_false] at h
      omega
    · intro b slot h _
      simp only [Conn, readLookWideWrite, List.mem_cons, Edge.mk.injEq, List.not_mem_nil, or_false] at h
      omega
  · refine .inr ⟨0, ⟨⟨_, rfl, wide_viewed fr⟩, ⟨_, .tail _ (.tail _ (.tail _ (.head _))), rfl, rfl⟩,
      by decide, ?_⟩, rfl⟩
    rintro b ⟨⟨x, y, z⟩, he, rfl, h⟩
    simp only [readLookWideWrite, List.mem_cons, Edge.mk.injEq, List.not_mem_nil, or_false] at he h ⊢
    omega
  · refine .inr ⟨1, ⟨⟨_, rfl, wide_tidied fr⟩, ⟨_, .tail _ (.tail _ (.head _)), rfl, rfl⟩,
      by decide, ?_⟩, rfl⟩
    rintro b ⟨⟨x, y, z⟩, he, rfl, h⟩
    simp only [readLookWideWrite, List.mem_cons, Edge.mk.injEq, List.not_mem_nil, or_false] at he h ⊢
    omega
  · refine .inl ⟨⟨_, _, rfl, rfl, rfl⟩, ?_, ?_⟩
    · intro a slot h _
      have h : Conn readWideWrite a 1 slot := h
      simp only [Conn, readWideWrite, List.mem_cons, Edge.mk.injEq, List.not_mem_nil, or_false] at h
      obtain ⟨rfl, rfl⟩ : a = 0 ∧ slot = 0 := by omega
      exact ⟨2, rfl, .tail _ (.head _), by decide⟩
    · intro b slot h _
      simp only [Conn, readLookWideWrite, List.mem_cons, Edge.mk.injEq, List.not_mem_nil, or_false] at h
      obtain ⟨rfl, rfl⟩ : b = 2 ∧ slot = 0 := by omega
      exact ⟨0, rfl, .tail _ (.head _), by decide⟩
  · refine .inl ⟨⟨_, _, rfl, rfl, rfl⟩, ?_, ?_⟩
    · intro a slot h _
      have h : Conn readWideWrite a 2 slot := h
      simp only [Conn, readWideWrite, List.mem_cons, Edge.mk.injEq, List.not_mem_nil, or_false] at h
      obtain ⟨rfl, rfl⟩ : a = 1 ∧ slot = 0 := by omega
      exact ⟨3, rfl, .head _, by decide⟩
    · intro b slot h _
      simp only [Conn, readLookWideWrite, List.mem_cons, Edge.mk.injEq, List.not_mem_nil, or_false] at h
      obtain ⟨rfl, rfl⟩ : b = 3 ∧ slot = 0 := by omega
      exact ⟨1, rfl, .head _, by decide⟩
  · omega

/-- The hypotheses of C148 are met: a pixel is looked at and cropped to itself before it is widened and
written. -/
example : ∃ g1 w1 g2 w2 L job job',
    readWideWrite.execute (nodeSem .debug (halfFiles (redPixel true))) insSort 20 3 [1] copyWorld =
      .ok (.success, g1, w1) ∧
    readLookWideWrite.execute (nodeSem .debug (halfFiles (redPixel true))) insSort 20 5 [1] copyWorld =
      .ok (.success, g2, w2) ∧
    ShowsLayer (halfFiles (redPixel true)).bake.color g1.output L ∧
    ShowsLayer (halfFiles (redPixel true)).bake.color g2.output L ∧
    job ∈ w1.writes ∧ job' ∈ w2.writes ∧
    WrittenLayer (halfFiles (redPixel true)) 1 writeHalf L job ∧
    WrittenLayer (halfFiles (redPixel true)) 1 writeHalf L job' := by
  obtain ⟨g1, w1, e1⟩ : ∃ g1 w1, readWideWrite.execute (nodeSem .debug (halfFiles (redPixel true)))
      insSort 20 3 [1] copyWorld = .ok (.success, g1, w1) := ⟨_, _, rfl⟩
  obtain ⟨g2, w2, e2⟩ : ∃ g1 w1, readLookWideWrite.execute (nodeSem .debug (halfFiles (redPixel true)))
      insSort 20 5 [1] copyWorld = .ok (.success, g1, w1) := ⟨_, _, rfl⟩
  obtain ⟨-, -, h1, h2⟩ := C148_execution (readWideWrite_reach _) (readLookWideWrite_reach _)
    readWideWrite_slots readLookWideWrite_slots (frames := [1]) (frame := 1) rfl
    (pic := fun _ => wideLayers true) (φ := lookedAt) (start := 2) (start' := 4) rfl readWideWrite_at
    rfl readLookWideWrite_at rfl (fun fr _ => wideWrite_pictures true fr)
    (fun fr _ => wide_lookedAt fr) ⟨rfl, rfl⟩ ⟨rfl, rfl⟩ e1 e2
  obtain ⟨b, b', job, job', k1, k2, k3, k4⟩ := C148_file (readWideWrite_reach _)
    (readLookWideWrite_reach _)
    readWideWrite_slots readLookWideWrite_slots (frames := [1]) (frame := 1) rfl
    (pic := fun _ => wideLayers true) (φ := lookedAt) (start := 2) (start' := 4) rfl readWideWrite_at
    rfl readLookWideWrite_at rfl (fun fr _ => wideWrite_pictures true fr)
    (fun fr _ => wide_lookedAt fr) (n := writeHalf) rfl ⟨rfl, by decide, by decide⟩ rfl rfl
    ⟨rfl, rfl⟩ ⟨rfl, rfl⟩ e1 e2
  exact ⟨g1, w1, g2, w2, _, job, job', e1, e2, h1, h2, by rw [k1]; simp, by rw [k2]; simp, k3, k4⟩

/-- The graph is arranged in levels. -/
example : ∃ enough, ∀ fuel, enough ≤ fuel → ∃ g1 w1,
    readLookWideWrite.execute (nodeSem .debug (halfFiles (redPixel true))) insSort fuel 5 [1] copyWorld =
      .ok (.success, g1, w1) ∧
    ShowsLayer (halfFiles (redPixel true)).bake.color g1.output (wideLayers true 2) :=
  C148_leveled (readWideWrite_reach _) (readLookWideWrite_reach _)
    readWideWrite_slots readLookWideWrite_slots (frames := [1]) (frame := 1) rfl
    (pic := fun _ => wideLayers true) (φ := lookedAt) (start := 2) (start' := 4) rfl rfl
    readLookWideWrite_at rfl
    ⟨fun j => 4 - j, by
      rintro u v - ⟨⟨x, y, z⟩, he, rfl, rfl⟩ -
      simp only [readLookWideWrite, List.mem_cons, Edge.mk.injEq, List.not_mem_nil, or_false] at he ⊢
      omega⟩
    (fun fr _ => wideWrite_pictures true fr) (fun fr _ => wide_lookedAt fr) ⟨rfl, rfl⟩

/-- Reading, looking at bytes, and writing. -/
def readByteWrite (type : Int) : Graph (Node F32) (Stream F32 F16) :=
  ⟨[readNamed 1 [98], viewNode 2 type, writeHalf], [1, 2, 3],
    ⟨[some 1, some 2, some 3], [], [⟨1, 2, 0⟩, ⟨0, 1, 0⟩]⟩, .new, .dirty, .uninitialized⟩

/-- C148 needs a type that holds the values: a viewer that stores bytes takes away everything beyond
white, and less bright values are written. -/
theorem C148_counterexample_bytes :
    writtenCodes ((readByteWrite 1).execute (nodeSem .debug (halfFiles (litPixel true))) insSort 20 3
      [1] copyWorld) = some [[16384, 16384, 16384, 0x3c00]] ∧
    writtenCodes ((readByteWrite 2).execute (nodeSem .debug (halfFiles (litPixel true))) insSort 20 3
      [1] copyWorld) = some [[0x3c00, 0x3c00, 0x3c00, 0x3c00]] := by
  constructor <;> decide +kernel

end OCG.Props
