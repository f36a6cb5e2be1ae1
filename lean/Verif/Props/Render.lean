import Verif.Proofs.Render
import Verif.Spec.Render
import Verif.Props.PictureCached
import Verif.Props.Again
import Verif.Props.Path
/-
C124: rendering a range of frames writes the picture of every frame.
-/

namespace OCG.Props

open GraphSpec PictureSpec RenderSpec AgainSpec PathSpec
open CacheSpec HashSpec

section
variable {F H : Type} [FloatLike F] [HalfLike F H] [FloatConst F] [FloatBits F]

/-- A write node that makes a picture hands it to OpenImageIO. -/
theorem writes_picture (p : Profile) {lib : NodeLib F H} {n : Node F} {frame : F} (mode : Mode)
    (prev : Stream F H) (w : World F H) (hn : Writes n) {Ps : List (Layer F)} {Q : Layer F}
    (h : Makes lib frame n Ps Q) {inputs : List (Stream F H)}
    (hi : List.Forall₂ (ShowsLayer lib.bake.color) inputs Ps) :
    ∃ s job, n.run p lib frame mode inputs prev w =
        .ok (.valid, s, { w with writes := w.writes ++ [job] }) ∧ ShowsLayer lib.bake.color s Q ∧
      WrittenLayer lib frame n Q job := by
  obtain ⟨hnt, he, hex⟩ := hn
  have hW : ∃ s R, inputs = [s] ∧ ShowsLayer lib.bake.color s Q ∧ Rests lib Q R ∧
      Writable lib frame n R := by
    cases h with
    | write _ _ _ hR hW =>
      obtain ⟨s, e, hs⟩ := forall₂_one hi
      exact ⟨s, _, e, hs, hR, hW⟩
    | writeOff _ _ h => exact absurd h hex
    | off ht => rw [hnt] at ht; simp at ht
    | viewer ht | viewerOff ht | null ht | read ht | grade ht | gradeOff ht | crop ht | merge ht
    | transform ht | lens ht | viewerSpace ht | resampleIdle ht | resample ht =>
      rw [hnt] at ht; cases ht
  obtain ⟨s, R, rfl, hs, hR, hW⟩ := hW
  obtain ⟨job, block, ej, h1, h2, h3, h4, h5, h6, h7, h8, h9, h10, h11, h12, h13⟩ :=
    C86_write p lib n frame mode s [] prev w hnt he hex hW.crop hW.writer
      (rests_appears hs hR) hW.width hW.height hW.cut
  exact ⟨s, job, ej, hs, _, _, R, hR, ⟨h1, h2, ⟨block, h3, h4, h5⟩, h6, h7, h8, h9, h10, h11, h12,
    h13⟩⟩

omit [FloatConst F] [FloatBits F] [HalfLike F H] in
theorem writes_same {n n' : Node F} (h : SameNode n n') : Writes n → Writes n' := by
  obtain ⟨_, _, _⟩ := n
  obtain ⟨_, _, _⟩ := n'
  obtain ⟨rfl, rfl⟩ := h
  exact fun h => h

omit [FloatBits F] in
theorem written_same {lib : NodeLib F H} {frame : F} {n n' : Node F} (h : SameNode n n')
    {P : Layer F} {job : WriteJob F H}
    (hW : WrittenLayer lib frame n P job) : WrittenLayer lib frame n' P job := by
  obtain ⟨alpha, own, R, hR, hW⟩ := hW
  obtain ⟨_, _, _⟩ := n
  obtain ⟨_, _, _⟩ := n'
  obtain ⟨rfl, rfl⟩ := h
  exact ⟨alpha, own, R, hR, hW.path, hW.extra, hW.pixels, hW.width, hW.height, hW.channels,
    hW.format, hW.fullX, hW.fullY, hW.fullWidth, hW.fullHeight⟩

/-- Nodes that do not write leave the list of files. -/
theorem quiet_writes {p : Profile} {lib : NodeLib F H} {n : Node F} {frame : F} {mode : Mode}
    {inputs : List (Stream F H)} {prev : Stream F H} {w w' : World F H} {st : NodeStatus}
    {out : Stream F H} (hq : ¬ Writes n)
    (e : n.run p lib frame mode inputs prev w = .ok (st, out, w')) : w'.writes = w.writes := by
  by_cases ht : n.attrs.nodeType = .writeImage
  · rw [C65_no_write p lib n frame mode inputs prev w w' st out ht ?_ e]
    by_contra h
    rw [not_or] at h
    exact hq ⟨ht, h.2, h.1⟩
  · exact C65_only_write_nodes p lib n frame mode inputs prev w w' st out ht e

theorem render_steps {p : Profile} {lib : NodeLib F H} {srt : EdgeSort}
    {g : Graph (Node F) (Stream F H)} (hg : Sound g) {start : Nat}
    (hs : g.graph.contains start = true) {frame : F} {pic : Nat → Layer F}
    (hp : Pictures lib srt g start frame pic) {n : Node F} (hn : g.nodes[start]? = some n)
    (hW : Writes n)
    (hq : ∀ i m, Upstream g.graph start i → i ≠ start → g.nodes[i]? = some m → ¬ Writes m)
    (before : List (WriteJob F H)) :
    StepsTo (nodeSem p lib) srt g start frame SameNode
      (fun w => IsOff w ∧ w.writes = before)
      (fun w => IsOff w ∧ ∃ job, w.writes = before ++ [job] ∧
        WrittenLayer lib frame n (pic start) job)
      (fun i s => ShowsLayer lib.bake.color s (pic i)) := by
  constructor
  · intro i m n0 n1 vals prev w hne hreq hn0 hR hF hw
    obtain ⟨hu, hm⟩ := pixels_requested hg hs hp hreq
    have hmk := makes_same hR (hp i n0 _ hu hn0 (hg.direct srt (hg.upstream_live hs hu)))
    obtain ⟨out, w', e, hw', hQ⟩ := C87_node p lib n1 frame m prev w hm hw.1 hmk
      (inputs := vals) (by
        rw [List.forall₂_map_right_iff]
        exact List.Forall₂.flip hF)
    have hnw : ¬ Writes n1 := fun h => hq i n0 hu hne hn0 (writes_same ⟨hR.1.symm, hR.2.symm⟩ h)
    exact ⟨{ n1 with status := .valid }, .valid, out, w',
      by simp only [nodeSem, e, bind, Except.bind], by simp [Fails], hR, hQ, hw',
      (quiet_writes hnw e).trans hw.2⟩
  · intro n0 n1 vals prev w hn0 hR hF hw
    rw [hn] at hn0
    cases hn0
    have hmk := makes_same hR (hp start n _ .refl hn (hg.direct srt hs))
    obtain ⟨s, job, e, h1, h2⟩ := writes_picture p modeAll prev w (writes_same hR hW)
      hmk (inputs := vals) (by
        rw [List.forall₂_map_right_iff]
        exact List.Forall₂.flip hF)
    exact ⟨{ n1 with status := .valid }, .valid, s, { w with writes := w.writes ++ [job] },
      by simp only [nodeSem, e, bind, Except.bind], by simp [Fails], hR, h1,
      ⟨hw.1.1, hw.1.2⟩, job, by dsimp only; rw [hw.2],
      written_same ⟨hR.1.symm, hR.2.symm⟩ h2⟩

theorem render_frames {p : Profile} {lib : NodeLib F H} {srt : EdgeSort}
    {g : Graph (Node F) (Stream F H)} (hg : Sound g) {start : Nat}
    (hs : g.graph.contains start = true) {pic : F → Nat → Layer F}
    {n : Node F} (hn : g.nodes[start]? = some n) (hW : Writes n)
    (hq : ∀ i m, Upstream g.graph start i → i ≠ start → g.nodes[i]? = some m → ¬ Writes m)
    {order d : List Nat} (hi : SInv g.graph start order ⟨[], d⟩) (ht : Topo g.graph order)
    {fuel : Nat} (hf : (order.length + 1) ^ order.length < fuel) :
    ∀ (frames : List F), (∀ fr ∈ frames, Pictures lib srt g start fr (pic fr)) →
    ∀ (g1 : Graph (Node F) (Stream F H)) (w : World F H), Alike SameNode g g1 → IsOff w →
    ∃ g' w' jobs, Graph.frameLoop (nodeSem p lib) srt fuel order frames g1 w = .ok (none, g', w') ∧
      IsOff w' ∧ w'.writes = w.writes ++ jobs ∧
      List.Forall₂ (fun fr job => WrittenLayer lib fr n (pic fr start) job)
        frames jobs := by
  intro frames
  induction frames with
  | nil => intro _ g1 w _ hw; exact ⟨g1, w, [], rfl, hw, by simp, .nil⟩
  | cons f fs ih =>
    intro hp g1 w ha hw
    obtain ⟨g2, w2, e, ha2, ⟨hw2, job, h1, h2⟩, -⟩ := frame_to hg hs
      (sameNode_asks p lib)
      (fun i hu n0 n hn0 hR => makes_validates p
        (makes_same hR (hp f List.mem_cons_self i n0 _ hu hn0
          (hg.direct srt (hg.upstream_live hs hu))))) hi ht fuel hf
      (render_steps hg hs (hp f List.mem_cons_self) hn hW hq w.writes) g1 w ha ⟨hw, rfl⟩
    obtain ⟨g', w', jobs, e', h3, h4, h5⟩ := ih (fun fr h => hp fr (List.mem_cons_of_mem _ h)) g2
      w2 ha2 hw2
    refine ⟨g', w', job :: jobs, ?_, h3, by rw [h4, h1]; simp, .cons h2 h5⟩
    unfold Graph.frameLoop
    rw [e]
    exact e'

theorem render_execution (p : Profile) (lib : NodeLib F H) (srt : EdgeSort)
    {g : Graph (Node F) (Stream F H)} {r : Bool} (h : Reach (nodeSem p lib) srt r g)
    {id start : Nat} (hid : At g id start) (hs : g.graph.contains start = true)
    {frames : List F} {pic : F → Nat → Layer F}
    (hp : ∀ fr ∈ frames, Pictures lib srt g start fr (pic fr))
    {n : Node F} (hn : g.nodes[start]? = some n) (hW : Writes n)
    (hq : ∀ i m, Upstream g.graph start i → i ≠ start → g.nodes[i]? = some m → ¬ Writes m)
    {order d : List Nat} (ho : g.graph.findAllUpstream srt start = .ok order)
    (hi : SInv g.graph start order ⟨[], d⟩) (ht : Topo g.graph order) {fuel : Nat}
    (hf : (order.length + 1) ^ order.length < fuel) {w : World F H} (hw : IsOff w) :
    ∃ g' w' jobs, g.execute (nodeSem p lib) srt fuel id frames w = .ok (.success, g', w') ∧
      w'.writes = w.writes ++ jobs ∧
      List.Forall₂ (fun fr job => WrittenLayer lib fr n (pic fr start) job)
        frames jobs := by
  obtain ⟨g1, w1, jobs, e, -, h1, h2⟩ := render_frames (p := p) h.inv.sound hs hn hW hq hi ht hf
    frames hp g w ⟨rfl, fun _ n hn => ⟨n, hn, rfl, rfl⟩⟩ hw
  refine ⟨{ g1 with state := .clean, status := .success }, w1, jobs, ?_, h1, h2⟩
  unfold Graph.execute
  rw [find_at.mpr hid]
  dsimp only
  simp only [ho, e, bind, Except.bind]

/-- C124: rendering a write node of a graph arranged in levels, with caching off, succeeds and
writes one file for every frame, in the order of the frames: at the path of the frame, the picture
that the graph makes at that frame.  Missing, as in C87: nodes whose pictures are not described
there, such as resampling with interpolation. -/
theorem C124_render_leveled_partial (p : Profile) (lib : NodeLib F H) (srt : EdgeSort)
    {g : Graph (Node F) (Stream F H)} {r : Bool} (h : Reach (nodeSem p lib) srt r g)
    {id start : Nat} (hid : At g id start) (hs : g.graph.contains start = true)
    (hl : Leveled g.graph start) {frames : List F} {pic : F → Nat → Layer F}
    (hp : ∀ fr ∈ frames, Pictures lib srt g start fr (pic fr))
    {n : Node F} (hn : g.nodes[start]? = some n) (hW : Writes n)
    (hq : ∀ i m, Upstream g.graph start i → i ≠ start → g.nodes[i]? = some m → ¬ Writes m)
    {w : World F H} (hw : IsOff w) :
    ∃ enough, ∀ fuel, enough ≤ fuel → ∃ g' w' jobs,
      g.execute (nodeSem p lib) srt fuel id frames w = .ok (.success, g', w') ∧
      w'.writes = w.writes ++ jobs ∧
      List.Forall₂ (fun fr job => WrittenLayer lib fr n (pic fr start) job)
        frames jobs := by
  obtain ⟨L, hL⟩ := hl
  obtain ⟨order, d, e, hi, ht⟩ := leveled_topo srt h.inv.ends (contains_lt_bound hs) L hL
  exact ⟨(order.length + 1) ^ order.length + 1, fun fuel hf =>
    render_execution p lib srt h hid hs hp hn hW hq e hi ht (by omega) hw⟩

/-- C124 for all graphs: a rendering that returns has succeeded and written one file for every
frame.  The same nodes are missing. -/
theorem C124_render_partial (p : Profile) (lib : NodeLib F H) (srt : EdgeSort)
    {g : Graph (Node F) (Stream F H)} {r : Bool} (h : Reach (nodeSem p lib) srt r g)
    {id start : Nat} (hid : At g id start) (hs : g.graph.contains start = true)
    {frames : List F} {pic : F → Nat → Layer F}
    (hp : ∀ fr ∈ frames, Pictures lib srt g start fr (pic fr))
    {n : Node F} (hn : g.nodes[start]? = some n) (hW : Writes n)
    (hq : ∀ i m, Upstream g.graph start i → i ≠ start → g.nodes[i]? = some m → ¬ Writes m)
    {w w' : World F H} (hw : IsOff w) {fuel : Nat} {st : ExecuteStatus}
    {g' : Graph (Node F) (Stream F H)}
    (hx : g.execute (nodeSem p lib) srt fuel id frames w = .ok (st, g', w')) :
    st = .success ∧ ∃ jobs, w'.writes = w.writes ++ jobs ∧
      List.Forall₂ (fun fr job => WrittenLayer lib fr n (pic fr start) job)
        frames jobs := by
  obtain ⟨order, d, e, hi⟩ := order_of_reach h hs
  by_cases hne : frames = []
  · subst hne
    unfold Graph.execute at hx
    rw [find_at.mpr hid] at hx
    simp only [e, bind, Except.bind, Graph.frameLoop] at hx
    cases hx
    exact ⟨rfl, [], by simp, .nil⟩
  · have ht := execute_topo h.inv.sound hid hs hne hx e hi
    obtain ⟨g1, w1, jobs, e1, h1, h2⟩ := render_execution p lib srt h hid hs hp hn hW hq e hi ht
      (fuel := max fuel ((order.length + 1) ^ order.length + 1)) (by omega) hw
    rw [execute_more (Nat.le_max_left fuel ((order.length + 1) ^ order.length + 1)) hx] at e1
    cases e1
    exact ⟨rfl, jobs, h1, h2⟩

/-- C124 with the cache, for histories as in C45.  The same nodes are missing. -/
theorem C124_render_cached_partial (p : Profile) (lib : NodeLib F H) (srt : EdgeSort)
    {K : Call F H → Prop} (hK : Regular p lib K) {w w' : World F H} (hw : History p lib srt K w)
    {g : Graph (Node F) (Stream F H)} {r : Bool} (h : Reach (nodeSem p lib) srt r g)
    (hg : Produced p lib K g.output)
    {id start : Nat} (hid : At g id start) (hs : g.graph.contains start = true)
    {frames : List F} {pic : F → Nat → Layer F}
    (hp : ∀ fr ∈ frames, Pictures lib srt g start fr (pic fr))
    {n : Node F} (hn : g.nodes[start]? = some n) (hW : Writes n)
    (hq : ∀ i m, Upstream g.graph start i → i ≠ start → g.nodes[i]? = some m → ¬ Writes m)
    {fuel : Nat} {st : ExecuteStatus} {g' : Graph (Node F) (Stream F H)} {log : List (Call F H)}
    (hx : g.execute (logged p lib) srt fuel id frames (w, []) = .ok (st, g', (w', log)))
    (hlog : ∀ c ∈ log, K c) :
    st = .success ∧ ∃ jobs, w'.writes = w.writes ++ jobs ∧
      List.Forall₂ (fun fr job => WrittenLayer lib fr n (pic fr start) job)
        frames jobs := by
  obtain ⟨v', e, hv, -⟩ := C45_cached_equals_uncached_partial p lib srt K hK w
    ⟨.withCapacity 0, w.writes⟩ w' hw ⟨rfl, rfl⟩ rfl fuel g g' hg id frames st log hx hlog
  obtain ⟨h1, jobs, h2, h3⟩ := C124_render_partial p lib srt h hid hs hp hn hW hq ⟨rfl, rfl⟩ e
  exact ⟨h1, jobs, by rw [← hv]; exact h2, h3⟩

omit [FloatConst F] [FloatBits F] in
theorem last_of_frames {A : Type} {P : A → WriteJob F H → Prop} {path : A → Bytes}
    (hP : ∀ a job, P a job → job.path = path a) : ∀ {as : List A} {jobs : List (WriteJob F H)},
    List.Forall₂ P as jobs → as.Pairwise (fun a b => path a ≠ path b) → ∀ before, ∀ a ∈ as,
    ∃ job, lastFor (before ++ jobs) (path a) = some job ∧ P a job := by
  intro as jobs h
  induction h with
  | nil => intro _ _ a ha; cases ha
  | @cons b job bs jobs hb hbs ih =>
    intro hd before a ha
    rw [List.pairwise_cons] at hd
    rcases List.mem_cons.mp ha with rfl | ha
    · refine ⟨job, ?_, hb⟩
      have : jobs.reverse.find? (fun j => decide (j.path = path a)) = none := by
        rw [List.find?_eq_none]
        intro j hj
        obtain ⟨c, hc, hcj⟩ := (List.forall₂_iff_get.mp hbs |> fun h => by
          obtain ⟨i, hi, e⟩ := List.getElem_of_mem (List.mem_reverse.mp hj)
          exact ⟨bs[i]'(by rw [h.1]; exact hi), List.getElem_mem _, by
            have := h.2 i (by rw [h.1]; exact hi) hi
            simpa [e] using this⟩ : ∃ c ∈ bs, P c j)
        simp only [decide_eq_true_eq, hP c j hcj]
        exact fun e => hd.1 c hc e.symm
      unfold lastFor
      rw [List.reverse_append, List.reverse_cons, List.find?_append, List.find?_append, this]
      simp [hP a job hb]
    · obtain ⟨j, h1, h2⟩ := ih hd.2 (before ++ [job]) a ha
      exact ⟨j, by simpa using h1, h2⟩

/-- C124: no frame overwrites another: when the file name has up to nine `#` and the numbers of the
frames differ, then in the end there is, for every frame, the picture of that frame.  Missing: names
with ten or more `#`, for which it is false. -/
theorem C124_all_there_partial (lib : NodeLib F H) {n : Node F} {frames : List F} {pic : F → Layer F}
    {before jobs : List (WriteJob F H)}
    (hj : List.Forall₂ (fun fr job => WrittenLayer lib fr n (pic fr) job)
      frames jobs)
    {pre post : Bytes} {k : Nat}
    (hr : FirstRun ((lib.shell (n.getStr "file_path")).getD (n.getStr "file_path")) pre k post)
    (hk : k ≤ 9) (hd : frames.Pairwise (fun a b => frameNum a ≠ frameNum b)) :
    ∀ fr ∈ frames, ∃ job,
      lastFor (before ++ jobs) (filePath lib n fr) = some job ∧
      WrittenLayer lib fr n (pic fr) job := by
  intro fr hfr
  exact last_of_frames
    (P := fun fr job => WrittenLayer lib fr n (pic fr) job)
    (path := fun fr => filePath lib n fr) (fun a job h => by obtain ⟨_, _, _, _, h⟩ := h; exact h.path) hj
    (hd.imp fun h e => h (C21_frames_distinct_partial _ _ _ _ pre post k hr hk e)) before fr hfr

omit [FloatBits F] in
/-- Without a `#` in the name, or with more than nine, all frames are written to one file, and only
the last one is there in the end. -/
theorem C124_counterexample_overwritten (lib : NodeLib F H) {n : Node F} {frames : List F}
    {pic : F → Layer F} {before jobs : List (WriteJob F H)} {last : F}
    (hj : List.Forall₂ (fun fr job => WrittenLayer lib fr n (pic fr) job)
      (frames ++ [last]) jobs)
    (hr : 35 ∉ (lib.shell (n.getStr "file_path")).getD (n.getStr "file_path")) :
    ∀ fr ∈ frames ++ [last], ∃ job,
      lastFor (before ++ jobs) (filePath lib n fr) = some job ∧
      WrittenLayer lib last n (pic last) job := by
  intro fr _
  have hl := (List.forall₂_drop_append _ _ _ hj.flip).flip
  rw [← List.take_append_drop frames.length jobs]
  generalize jobs.drop frames.length = l at hl
  cases hl with
  | @cons _ job _ _ hb hnil =>
    cases hnil
    refine ⟨job, ?_, hb⟩
    obtain ⟨alpha, own, R, -, hb⟩ := hb
    have : job.path = filePath lib n fr := by
      rw [hb.path]
      unfold filePath
      rw [C20_no_hash _ _ _ hr, C20_no_hash _ _ _ hr]
    unfold lastFor
    rw [← List.append_assoc, List.reverse_append]
    simp [this]

/-- C124: rendering frames together or each by itself, in any order and with anything rendered in
between, writes the same files: without use of the cache, what a rendering of some frames hands to
OpenImageIO is, one after the other, what renderings of the single frames hand over, whatever the
state of the cache and whatever was written before. -/
theorem C124_together (p : Profile) (lib : NodeLib F H) (srt : EdgeSort) (fuel : Nat)
    {g : Graph (Node F) (Stream F H)} {r : Bool} (h : Reach (nodeSem p lib) srt r g)
    (hu : ∀ n ∈ g.nodes, n.getI32 "use_cache" = 0) {id start : Nat}
    (hid : At g id start) (hs : g.graph.contains start = true) :
    ∀ (frames : List F), (∀ fr ∈ frames, ShowsFiles lib g start fr) →
    ∀ (g0 g1 : Graph (Node F) (Stream F H)) (w w1 : World F H), Executed p srt g g0 →
    g0.execute (nodeSem p lib) srt fuel id frames w = .ok (.success, g1, w1) →
    ∃ jobs : List (List (WriteJob F H)), w1.writes = w.writes ++ jobs.flatten ∧
      List.Forall₂ (fun fr js => ∀ w', ∃ g2,
        g.execute (nodeSem p lib) srt fuel id [fr] w' =
          .ok (.success, g2, ⟨w'.cache, w'.writes ++ js⟩)) frames jobs := by
  intro frames
  induction frames with
  | nil =>
    intro _ g0 g1 w w1 he e
    have ha := executed_same he
    have hid0 : At g0 id start := ⟨by rw [← ha.ids]; exact hid.1, fun j hj => by
      rw [← ha.ids]; exact hid.2 j hj⟩
    unfold Graph.execute at e
    rw [find_at.mpr hid0] at e
    dsimp only at e
    obtain ⟨order, -, e⟩ := Res.bind_ok.mp e
    simp only [bind, Except.bind, Graph.frameLoop] at e
    cases e
    exact ⟨[], by simp, .nil⟩
  | cons f fs ih =>
    intro hp g0 g1 w w1 he e
    have ha := executed_same he
    have hid0 : At g0 id start := ⟨by rw [← ha.ids]; exact hid.1, fun j hj => by
      rw [← ha.ids]; exact hid.2 j hj⟩
    have hknown : ¬ Unknown g0 id := by
      unfold Unknown
      rw [not_not]
      exact List.mem_of_getElem? hid0.1
    have hsplit := C42_frames_in_order (nodeSem p lib) srt fuel g0 id [f] fs w hknown
    rw [List.singleton_append, e] at hsplit
    obtain ⟨⟨st2, g2, w2⟩, e1, e2⟩ := Res.bind_ok.mp hsplit.symm
    dsimp only at e2
    split at e2
    · rename_i hst
      subst hst
      cases e3 : Graph.execute (nodeSem p lib) srt fuel g2 id fs w2 with
      | error x => rw [e3] at e2; cases e2
      | ok y =>
        rw [e3] at e2
        obtain ⟨st3, g3, w3⟩ := y
        simp only [Except.map, Except.ok.injEq, Prod.mk.injEq] at e2
        obtain ⟨rfl, -, rfl⟩ := e2
        obtain ⟨jobs, h1, h2⟩ := ih (fun fr h => hp fr (List.mem_cons_of_mem _ h)) g2 g3 w2 w3
          (.step lib he e1) e3
        have k := C117_alike p lib srt fuel h ha hid hs (hp f List.mem_cons_self) [] w
        rw [e1] at k
        cases e4 : Graph.execute (nodeSem p lib) srt fuel g id [f] w with
        | error x => rw [e4] at k; cases k
        | ok y =>
          rw [e4] at k
          obtain ⟨st4, g4, w4⟩ := y
          obtain ⟨k1, k2, k3⟩ := k
          dsimp only at k1 k2 k3
          subst k1 k3
          obtain ⟨js, -, e5, -, -⟩ := C117_again p lib srt fuel h .refl hu hid hs
            (hp f List.mem_cons_self) [] w w e4
          refine ⟨js :: jobs, by rw [h1, e5]; simp, .cons (fun w' => ?_) h2⟩
          obtain ⟨js', g5, e6, e7, -⟩ := C117_again p lib srt fuel h .refl hu hid hs
            (hp f List.mem_cons_self) [] w w' e4
          rw [e5] at e6
          simp only [World.mk.injEq, List.append_cancel_left_eq, true_and] at e6
          subst e6
          exact ⟨g5, e7⟩
    · rename_i hst
      cases e2
      exact absurd rfl hst

end

/-! ### Examples -/

attribute [local instance] finFloat finBits finHalf finPi

/-- Writing to `a#.exr`. -/
def writeNumbered : Node (Fin 256) :=
  ⟨3, .uninitialized, .writeImage { WriteImageAttrs.new with
    enable := 1, execute := 1, filePath := [97, 35, 46, 101, 120, 114], cropOnWrite := 0,
    pixelDataType := 0 }⟩

/-- Cropping to two pixels. -/
def twoPixelCrop : CropImageAttrs := { pixelCrop with useCache := 0, windowMinX := -1, reformat := 1 }

/-- Reading, cropping to a wider window, writing one file for each frame. -/
def readCropNumbered : Graph (Node (Fin 256)) (Stream (Fin 256) (Fin 256)) :=
  ⟨[⟨1, .uninitialized, .readImage { readAttrs with useCache := 0 }⟩,
    ⟨2, .uninitialized, .cropImage twoPixelCrop⟩,
    writeNumbered], [1, 2, 3],
    ⟨[some 1, some 2, some 3], [], [⟨1, 2, 0⟩, ⟨0, 1, 0⟩]⟩, .new, .dirty, .uninitialized⟩

theorem readCropNumbered_reach :
    Reach (nodeSem .debug linearFiles) insSort false readCropNumbered :=
  .connect 2 3 0 (.connect 1 2 0 (.add writeNumbered
    (.add ⟨2, .uninitialized, .cropImage twoPixelCrop⟩
    (.add ⟨1, .uninitialized, .readImage { readAttrs with useCache := 0 }⟩ (.new .new) rfl) rfl) rfl) rfl) rfl

theorem numbered_pictures (frame : Fin 256) :
    Pictures linearFiles insSort readCropNumbered 2 frame whiteLayers := by
  intro i n ins hu hn hins
  rcases i with _ | _ | _ | i
  · cases hn
    cases hins
    exact .read rfl (by decide) (linear_file _)
  · cases hn
    cases hins
    exact .crop rfl rfl (by decide) (rests_refl _ _) rfl
      (show BlockSpec.ValidSize ⟨2, 1, 3⟩ by unfold BlockSpec.ValidSize; decide) whites_cropped
  · cases hn
    cases hins
    exact .write rfl (by decide) (by decide) (rests_refl _ _) ⟨.inl rfl, rfl, by decide, by decide,
      fun h => absurd h (by rintro (h | ⟨h, -⟩) <;> exact absurd h (by decide))⟩
  · cases hn

theorem numbered_at : At readCropNumbered 3 2 := by
  refine ⟨rfl, ?_⟩
  intro j hj
  rcases j with _ | _ | j <;> first | decide | omega

theorem numbered_quiet (i : Nat) (m : Node (Fin 256)) (hne : i ≠ 2)
    (hm : readCropNumbered.nodes[i]? = some m) : ¬ Writes m := by
  rintro ⟨h, -, -⟩
  rcases i with _ | _ | _ | i
  · cases hm; cases h
  · cases hm; cases h
  · exact hne rfl
  · cases hm

/-- Two frames, two files; the picture of each is there in the end. -/
example : ∃ g' w', readCropNumbered.execute (nodeSem .debug linearFiles) insSort 20 3 [1, 2]
      noCache = .ok (.success, g', w') ∧
    ∀ fr ∈ ([1, 2] : List (Fin 256)), ∃ job,
      lastFor w'.writes (filePath linearFiles writeNumbered fr) = some job ∧
      WrittenLayer linearFiles fr writeNumbered (whiteLayers 2) job := by
  have e : ∃ g' w', readCropNumbered.execute (nodeSem .debug linearFiles) insSort 20 3 [1, 2]
      noCache = .ok (.success, g', w') := ⟨_, _, rfl⟩
  obtain ⟨g', w', e⟩ := e
  obtain ⟨-, jobs, h1, h2⟩ := C124_render_partial .debug linearFiles insSort readCropNumbered_reach
    numbered_at rfl (frames := [1, 2]) (pic := fun _ => whiteLayers)
    (fun fr _ => numbered_pictures fr) (n := writeNumbered) rfl ⟨rfl, by decide, by decide⟩
    (fun i m _ hne hm => numbered_quiet i m hne hm) noCache_off e
  refine ⟨g', w', e, ?_⟩
  rw [h1]
  exact C124_all_there_partial linearFiles (pic := fun _ => whiteLayers 2) h2 (pre := [97]) (k := 1)
    (post := [46, 101, 120, 114]) ⟨rfl, by decide, by decide, by decide⟩ (by decide) (by decide)

example : (filePath linearFiles writeNumbered 1, filePath linearFiles writeNumbered 2) =
    ([97, 49, 46, 101, 120, 114], [97, 50, 46, 101, 120, 114]) := by decide +kernel

example : ∃ enough, ∀ fuel, enough ≤ fuel → ∃ g' w' jobs,
    readCropNumbered.execute (nodeSem .debug linearFiles) insSort fuel 3 [1, 2] noCache =
      .ok (.success, g', w') ∧ w'.writes = noCache.writes ++ jobs ∧
    List.Forall₂ (fun fr job =>
      WrittenLayer linearFiles fr writeNumbered (whiteLayers 2) job) [1, 2] jobs :=
  C124_render_leveled_partial .debug linearFiles insSort readCropNumbered_reach numbered_at rfl
    ⟨fun i => 2 - i, by
      rintro u v _ ⟨e, he, rfl, rfl⟩ _
      change e ∈ ([⟨1, 2, 0⟩, ⟨0, 1, 0⟩] : List Edge) at he
      simp only [List.mem_cons, List.not_mem_nil, or_false] at he
      rcases he with rfl | rfl <;> rfl⟩
    (pic := fun _ => whiteLayers) (fun fr _ => numbered_pictures fr) rfl
    ⟨rfl, by decide, by decide⟩ (fun i m _ hne hm => numbered_quiet i m hne hm) noCache_off

/-- `readCropWrite` writes to `a.exr`, whatever the frame. -/
example : ∃ g' w', readCropWrite.execute (nodeSem .debug linearFiles) insSort 20 3 [1, 2]
      noCache = .ok (.success, g', w') ∧
    ∃ job,
      lastFor w'.writes (filePath linearFiles ⟨3, .uninitialized, writeNode.attrs⟩ 1) = some job ∧
      WrittenLayer linearFiles 2 ⟨3, .uninitialized, writeNode.attrs⟩ (whiteLayers 2) job := by
  have e : ∃ g' w', readCropWrite.execute (nodeSem .debug linearFiles) insSort 20 3 [1, 2]
      noCache = .ok (.success, g', w') := ⟨_, _, rfl⟩
  obtain ⟨g', w', e⟩ := e
  obtain ⟨-, jobs, h1, h2⟩ := C124_render_partial .debug linearFiles insSort readCropWrite_reach
    readCropWrite_at rfl (frames := [1, 2]) (pic := fun _ => whiteLayers)
    (fun fr _ => whitePictures_ok fr) (n := ⟨3, .uninitialized, writeNode.attrs⟩) rfl
    ⟨rfl, by decide, by decide⟩
    (fun i m _ hne hm => by
      rintro ⟨h, -, -⟩
      rcases i with _ | _ | _ | i
      · cases hm; cases h
      · cases hm; cases h
      · exact hne rfl
      · cases hm) noCache_off e
  refine ⟨g', w', e, ?_⟩
  rw [h1]
  exact C124_counterexample_overwritten linearFiles (frames := [1]) (last := 2)
    (pic := fun _ => whiteLayers 2) h2 (by decide) 1 (by decide)

/-- With the cache: the second time both images come from it. -/
example : ∃ w g' w' log, History .debug linearFiles insSort ReadCropWrite w ∧
    readCropWrite.execute (logged .debug linearFiles) insSort 20 3 [1] (w, []) =
      .ok (.success, g', (w', log)) ∧ w'.cache.hits = 2 ∧ ∃ jobs, w'.writes = w.writes ++ jobs ∧
    List.Forall₂ (fun fr job =>
      WrittenLayer linearFiles fr ⟨3, .uninitialized, writeNode.attrs⟩ (whiteLayers 2) job)
      [1] jobs := by
  obtain ⟨g1, w1, log1, g2, w2, log2, e1, l1, e2, l2, hits⟩ := rcw_twice
  have hist : History .debug linearFiles insSort ReadCropWrite w1 :=
    .execute _ _ _ _ _ _ _ _ _ (.start 1000 []) .new e1 l1
  obtain ⟨-, h⟩ := C124_render_cached_partial .debug linearFiles insSort rcw_regular hist
    readCropWrite_reach .new readCropWrite_at rfl (frames := [1])
    (pic := fun _ => whiteLayers) (fun fr _ => whitePictures_ok fr)
    (n := ⟨3, .uninitialized, writeNode.attrs⟩) rfl ⟨rfl, by decide, by decide⟩
    (fun i m _ hne hm => by
      rintro ⟨h, -, -⟩
      rcases i with _ | _ | _ | i
      · cases hm; cases h
      · cases hm; cases h
      · exact hne rfl
      · cases hm) e2 l2
  exact ⟨w1, g2, w2, log2, hist, e2, hits, h⟩

theorem numbered_upstream {i : Nat} (h : Upstream readCropNumbered.graph 2 i) :
    i = 0 ∨ i = 1 ∨ i = 2 := by
  induction h with
  | refl => exact .inr (.inr rfl)
  | step _ hf _ =>
    obtain ⟨e, he, rfl, -⟩ := hf
    simp only [readCropNumbered, List.mem_cons, List.not_mem_nil, or_false] at he
    rcases he with rfl | rfl <;> simp

theorem numbered_files (frame : Fin 256) : ShowsFiles linearFiles readCropNumbered 2 frame := by
  have feeds : ∀ {a b : Nat}, Feeds readCropNumbered.graph a b → a + 1 = b := by
    rintro a b ⟨e, he, rfl, rfl⟩
    simp only [readCropNumbered, List.mem_cons, List.not_mem_nil, or_false] at he
    rcases he with rfl | rfl <;> rfl
  refine ⟨fun i n hu hn => ?_, fun i n _ _ => ⟨fun _ a b ha hb => ?_, fun a b c ha hb _ => ?_⟩,
    fun i n hu hn _ => ?_⟩
  · rcases numbered_upstream hu with rfl | rfl | rfl <;> cases hn <;> rintro ⟨⟩
  · have h1 := feeds ha
    have h2 := feeds hb
    omega
  · have h1 := feeds ha
    have h2 := feeds hb
    omega
  · rcases numbered_upstream hu with rfl | rfl | rfl <;> cases hn <;>
      refine ⟨by rintro ⟨⟩, ?_⟩
    · intro a _ _ h
      cases h
    · rintro a ⟨⟩
    · rintro a ⟨⟩

example : ∃ g' w', readCropNumbered.execute (nodeSem .debug linearFiles) insSort 20 3 [1, 2]
      noCache = .ok (.success, g', w') ∧ ∃ jobs : List (List (WriteJob (Fin 256) (Fin 256))),
    w'.writes = noCache.writes ++ jobs.flatten ∧ List.Forall₂ (fun fr js => ∀ w', ∃ g2,
      readCropNumbered.execute (nodeSem .debug linearFiles) insSort 20 3 [fr] w' =
        .ok (.success, g2, ⟨w'.cache, w'.writes ++ js⟩)) [1, 2] jobs := by
  have e : ∃ g' w', readCropNumbered.execute (nodeSem .debug linearFiles) insSort 20 3 [1, 2]
      noCache = .ok (.success, g', w') := ⟨_, _, rfl⟩
  obtain ⟨g', w', e⟩ := e
  exact ⟨g', w', e, C124_together .debug linearFiles insSort 20 readCropNumbered_reach (by decide)
    numbered_at rfl [1, 2] (fun fr _ => numbered_files fr) _ g' noCache w' .refl e⟩

end OCG.Props
