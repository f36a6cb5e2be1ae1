import Verif.Spec.Again
import Verif.Proofs.Again
import Verif.Props.Rerun
import Verif.Props.PictureGraph
/-
Property C117: executing does not depend on what was executed before.
-/

namespace OCG.Props

open AgainSpec GraphSpec CacheSpec

section
variable {F H : Type} [FloatLike F] [HalfLike F H] [FloatConst F] [FloatBits F]

theorem few_parents {N S : Type} {g : Graph N S} (hg : Sound g) (srt : EdgeSort) {i : Nat}
    (h : ∀ a b, Feeds g.graph a i → Feeds g.graph b i → a = b) :
    (parents srt g.graph i).length ≤ 1 := by
  have hn : (parents srt g.graph i).Nodup := news_nodup _ _
  have hm := fun u => (hg.mem_parents srt (u := u) (v := i)).mp
  generalize parents srt g.graph i = l at *
  rcases l with _ | ⟨a, _ | ⟨b, l⟩⟩
  · simp
  · simp
  · have := h a b (hm a (by simp)).1 (hm b (by simp)).1
    simp [this] at hn

theorem two_parents {N S : Type} {g : Graph N S} (hg : Sound g) (srt : EdgeSort) {i : Nat}
    (h : ∀ a b c, Feeds g.graph a i → Feeds g.graph b i → Feeds g.graph c i →
      a = b ∨ a = c ∨ b = c) :
    (parents srt g.graph i).length ≤ 2 := by
  have hn : (parents srt g.graph i).Nodup := news_nodup _ _
  have hm := fun u => (hg.mem_parents srt (u := u) (v := i)).mp
  generalize parents srt g.graph i = l at *
  rcases l with _ | ⟨a, _ | ⟨b, _ | ⟨c, l⟩⟩⟩
  · simp
  · simp
  · simp
  · rcases h a b c (hm a (by simp)).1 (hm b (by simp)).1 (hm c (by simp)).1 with e | e | e <;>
      simp [e] at hn

omit [FloatConst F] [FloatBits F] in
/-- A node that leaves pixels to its inputs asks for them, if it was asked. -/
theorem validate_pixels {α : Type} {n : Node F} (hl : LeavesPixels n) {m : Mode}
    (hm : m &&& modePixel = modePixel) {ns : List α}
    (h1 : n.attrs.nodeType ≠ .mergeImage → ns.length ≤ 1) (h2 : ns.length ≤ 2) {modes : List Mode}
    (h : n.validate m ns = .ok modes) : ∀ m' ∈ modes, m' &&& modePixel = modePixel := by
  have hall : m &&& modeAll &&& modePixel = modePixel := by
    rw [Nat.and_assoc]; exact hm
  have hfirst : ns.length ≤ 1 → ∀ m' ∈ validateFirst m ns, m' &&& modePixel = modePixel := by
    intro hk m' hm'
    rcases ns with _ | ⟨a, _ | ⟨b, l⟩⟩
    · cases hm'
    · simp only [validateFirst, List.map_nil, List.mem_singleton] at hm'
      rw [hm']; exact hall
    · simp at hk
  obtain ⟨id, st, attrs⟩ := n
  cases attrs
  case mergeImage a =>
    simp only [Node.validate] at h
    cases h
    rcases ns with _ | ⟨a, _ | ⟨b, _ | ⟨c, l⟩⟩⟩
    · simp [validateMerge]
    · intro m' hm'
      simp only [validateMerge, List.mem_singleton] at hm'
      rw [hm']; exact hall
    · intro m' hm'
      simp only [validateMerge, List.map_nil, List.mem_cons, List.not_mem_nil, or_false,
        or_self] at hm'
      rw [hm']; exact hall
    · simp at h2
  case viewer a =>
    have hk := h1 (by simp [NodeAttrs.nodeType])
    have hv := hl rfl
    simp only [attr_eval] at hv
    rcases ns with _ | ⟨b, _ | ⟨c, l⟩⟩
    · simp only [Node.validate, ViewerAttrs.validate] at h
      cases h
      simp
    · have hcase : modes = [modeAll] ∨ modes = [m &&& modeAll] ∨
          modes = [m &&& (modeAll - modeColorSpace)] ∨
          modes = [m &&& (modeAll - modeColorSpace - modeColor)] := by
        simp only [Node.validate, ViewerAttrs.validate] at h
        by_cases he : a.enable = 0
        · simp only [he, if_true] at h
          exact .inl (Except.ok.inj h).symm
        · simp only [he, if_false] at h
          rcases hv with hv | hv | ⟨hv, hw | hw⟩
          · exact absurd hv he
          · simp only [hv] at h
            exact .inr (.inl (Except.ok.inj h).symm)
          · simp only [hv, hw] at h
            exact .inr (.inr (.inl (Except.ok.inj h).symm))
          · simp only [hv, hw] at h
            exact .inr (.inr (.inr (Except.ok.inj h).symm))
      rcases hcase with rfl | rfl | rfl | rfl <;> intro m' hm' <;>
        rw [List.mem_singleton.mp hm']
      · rfl
      · exact hall
      · rw [Nat.and_assoc]; exact hm
      · rw [Nat.and_assoc]; exact hm
    · simp at hk
  all_goals
    simp only [Node.validate] at h
    cases h
    exact hfirst (h1 (by simp [NodeAttrs.nodeType]))

/-- In a graph that shows its files, every node is asked for pixels. -/
theorem showsFiles_pixels {p : Profile} {lib lib' : NodeLib F H} {srt : EdgeSort}
    {g : Graph (Node F) (Stream F H)} (hg : Sound g) {start : Nat}
    (hs : g.graph.contains start = true) {frame : F} (hp : ShowsFiles lib g start frame) {i : Nat}
    {m : Mode} (h : Requested (nodeSem p lib') srt g start i m) :
    Upstream g.graph start i ∧ m &&& modePixel = modePixel := by
  induction h with
  | start => exact ⟨.refl, rfl⟩
  | @input i m n h ins ns modes j m' _ hn hins hns hv hz ih =>
    obtain ⟨hu, hm⟩ := ih
    rw [hg.direct srt (hg.upstream_live hs hu)] at hins
    cases hins
    refine ⟨.step hu ((hg.mem_parents srt).mp (List.of_mem_zip hz).1).1, ?_⟩
    have hlen : ns.length = (parents srt g.graph i).length := by
      have := congrArg List.length hns
      simpa using this.symm
    obtain ⟨k1, k2⟩ := hp.inputs i n hu hn
    exact validate_pixels (hp.leaves i n hu hn) hm
      (fun ht => by rw [hlen]; exact few_parents hg srt (k1 ht))
      (by rw [hlen]; exact two_parents hg srt k2) hv m' (List.of_mem_zip hz).2

/-- A node with a picture of its own does not look at the output left from before. -/
theorem ownPicture_run {p : Profile} {lib : NodeLib F H} {frame : F} {n : Node F}
    (h : OwnPicture lib frame n) {mode : Mode} (hm : mode &&& modePixel = modePixel)
    (inputs : List (Stream F H)) (x y : Stream F H) (w : World F H) :
    n.run p lib frame mode inputs x w = n.run p lib frame mode inputs y w := by
  obtain ⟨h1, h2⟩ := h
  obtain ⟨id, st, attrs⟩ := n
  cases attrs
  case readImage a =>
    simp only [Node.run, ReadImageAttrs.compute, hm, if_true]
    by_cases he : a.enable = 1
    · cases hk : lib.pathKind (Path.expandString lib.shell a.filePath (frameNum frame)) with
      | other => exact absurd hk (h2 a rfl he)
      | missing => rfl
      | file => rfl
    · simp only [ne_eq, he, not_false_eq_true, if_true]
  case viewer a =>
    have := h1 rfl
    simp only [attr_eval] at this
    simp only [Node.run, ViewerAttrs.compute, this, ne_eq, not_true_eq_false, if_false]
  all_goals rfl

theorem output_of_inv (p : Profile) (lib : NodeLib F H) (srt : EdgeSort) (fuel : Nat)
    {g : Graph (Node F) (Stream F H)} {r : Bool} (h : Inv g r)
    {id start : Nat} (hid : At g id start) (hs : g.graph.contains start = true) {frame : F}
    (hp : ShowsFiles lib g start frame) (frames : List F) (x : Stream F H) (w : World F H) :
    Graph.execute (nodeSem p lib) srt fuel { g with output := x } id (frame :: frames) w =
      Graph.execute (nodeSem p lib) srt fuel g id (frame :: frames) w := by
  have hg : Sound g := h.sound
  obtain ⟨order, d, ho, hi, -⟩ := findAll_spec srt h.ends (contains_lt_bound hs)
    (fun _ _ => True) trivial (fun _ _ _ _ _ _ _ => trivial)
  have hh := hi.final_head
  cases order with
  | nil => cases hh
  | cons o order =>
    cases hh
    refine execute_output _ srt fuel g hid frame frames x w ho fun i mode n hr hn hd => ?_
    obtain ⟨hu, hm⟩ := showsFiles_pixels hg hs hp hr
    have hown : ∀ a, Feeds g.graph a i → a = i := by
      intro a ha
      by_contra hne
      rw [hg.direct srt (hg.upstream_live hs hu)] at hd
      have : a ∈ parents srt g.graph i := (hg.mem_parents srt).mpr ⟨ha, hne⟩
      rw [Except.ok.inj hd] at this
      cases this
    simp only [nodeSem]
    rw [ownPicture_run (hp.own i n hu hn hown) hm [] x g.output w]

/-- C117: what was shown before does not matter: executing a graph that shows its files gives the
same, whatever picture is left as its output. -/
theorem C117_output (p : Profile) (lib : NodeLib F H) (srt : EdgeSort) (fuel : Nat)
    {g : Graph (Node F) (Stream F H)} {r : Bool} (h : Reach (nodeSem p lib) srt r g)
    {id start : Nat} (hid : At g id start) (hs : g.graph.contains start = true) {frame : F}
    (hp : ShowsFiles lib g start frame) (frames : List F) (x : Stream F H) (w : World F H) :
    Graph.execute (nodeSem p lib) srt fuel { g with output := x } id (frame :: frames) w =
      Graph.execute (nodeSem p lib) srt fuel g id (frame :: frames) w :=
  output_of_inv p lib srt fuel h.inv hid hs hp frames x w

theorem execute_flags (p : Profile) (lib : NodeLib F H) (srt : EdgeSort) (fuel : Nat)
    (g : Graph (Node F) (Stream F H)) (id : Nat) (frames : List F) (w : World F H) (s : GraphState)
    (t : ExecuteStatus) :
    ResRel (fun r r' => r.1 = r'.1 ∧ r.2.1.output = r'.2.1.output ∧ r.2.2 = r'.2.2)
      (Graph.execute (nodeSem p lib) srt fuel { g with state := s, status := t } id frames w)
      (Graph.execute (nodeSem p lib) srt fuel g id frames w) := by
  unfold Graph.execute
  have : ({ g with state := s, status := t } : Graph (Node F) (Stream F H)).find id = g.find id := rfl
  rw [this]
  cases g.find id with
  | none => exact ⟨rfl, rfl, rfl⟩
  | some start =>
    dsimp only
    cases g.graph.findAllUpstream srt start with
    | error e => rfl
    | ok order =>
      simp only [bind, Except.bind]
      rw [frameLoop_flags]
      cases Graph.frameLoop (nodeSem p lib) srt fuel order frames g w with
      | error e => rfl
      | ok r =>
        obtain ⟨e, g1, w1⟩ := r
        cases e <;> exact ⟨rfl, rfl, rfl⟩

/-- Nodes that differ in their status only behave alike. -/
theorem sameNode_matching (p : Profile) (lib : NodeLib F H) :
    Matching (nodeSem p lib) (nodeSem p lib) SameNode (fun s s' : Stream F H => s = s' ∧ True)
      (fun w w' : World F H => w = w') := by
  refine ⟨?_, ?_, ?_⟩
  · rintro ⟨id, st, attrs⟩ ⟨id', st', attrs'⟩ ⟨h1, h2⟩ fr hs
    dsimp only at h1 h2
    subst h1 h2
    rfl
  · intro n n' h ns ns' hF mode k
    exact sameNode_asks p lib n n' mode k ns ns' h hF
  · rintro ⟨id, st, attrs⟩ ⟨id', st', attrs'⟩ ⟨h1, h2⟩ ins ins' hF prev prev' ⟨rfl, -⟩ w _ rfl fr m
    dsimp only at h1 h2
    subst h1 h2
    obtain ⟨rfl, -⟩ := forall₂_self_inv hF
    simp only [nodeSem]
    have : Node.run p lib (⟨id, st, attrs⟩ : Node F) fr m ins prev w =
        Node.run p lib ⟨id, st', attrs⟩ fr m ins prev w := rfl
    rw [this]
    cases Node.run p lib (⟨id, st', attrs⟩ : Node F) fr m ins prev w with
    | error e => rfl
    | ok r => exact ⟨⟨rfl, rfl⟩, rfl, ⟨rfl, trivial⟩, rfl⟩

theorem alike_of_inv (p : Profile) (lib : NodeLib F H) (srt : EdgeSort) (fuel : Nat)
    {g g' : Graph (Node F) (Stream F H)} {r : Bool} (h : Inv g r)
    (ha : SameSetup g g') {id start : Nat} (hid : At g id start)
    (hs : g.graph.contains start = true) {frame : F} (hp : ShowsFiles lib g start frame)
    (frames : List F) (w : World F H) :
    ResRel (fun r r' => r.1 = r'.1 ∧ r.2.1.output = r'.2.1.output ∧ r.2.2 = r'.2.2)
      (Graph.execute (nodeSem p lib) srt fuel g id (frame :: frames) w)
      (Graph.execute (nodeSem p lib) srt fuel g' id (frame :: frames) w) := by
  have k1 := output_of_inv p lib srt fuel h hid hs hp frames g'.output w
  have k2 := execute_flags p lib srt fuel { g with output := g'.output } id (frame :: frames) w
    g'.state g'.status
  have k3 := execute_related (sameNode_matching p lib) srt fuel
    (g := { g with output := g'.output, state := g'.state, status := g'.status }) (g' := g')
    ⟨ha.nodes, ha.ids, ha.graph, ⟨rfl, trivial⟩, rfl, rfl⟩ id (frame :: frames) (c := w) (c' := w) rfl
  rw [k1] at k2
  dsimp only at k2
  cases e1 : Graph.execute (nodeSem p lib) srt fuel g id (frame :: frames) w <;>
    cases e2 : Graph.execute (nodeSem p lib) srt fuel
      { g with output := g'.output, state := g'.state, status := g'.status } id (frame :: frames) w <;>
    cases e3 : Graph.execute (nodeSem p lib) srt fuel g' id (frame :: frames) w <;>
    rw [e1, e2] at k2 <;> rw [e2, e3] at k3 <;> simp only [ResRel] at k2 k3 ⊢
  · rw [← k2, k3]
  · exact ⟨k2.1.symm.trans k3.1, k2.2.1.symm.trans k3.2.1.output.1, k2.2.2.symm.trans k3.2.2⟩

/-- C117: an execution depends on the nodes, their settings, their connections, the files and the
cache: two graphs that agree in these give the same status, output, jobs and cache. -/
theorem C117_alike (p : Profile) (lib : NodeLib F H) (srt : EdgeSort) (fuel : Nat)
    {g g' : Graph (Node F) (Stream F H)} {r : Bool} (h : Reach (nodeSem p lib) srt r g)
    (ha : SameSetup g g') {id start : Nat} (hid : At g id start)
    (hs : g.graph.contains start = true) {frame : F} (hp : ShowsFiles lib g start frame)
    (frames : List F) (w : World F H) :
    ResRel (fun r r' => r.1 = r'.1 ∧ r.2.1.output = r'.2.1.output ∧ r.2.2 = r'.2.2)
      (Graph.execute (nodeSem p lib) srt fuel g id (frame :: frames) w)
      (Graph.execute (nodeSem p lib) srt fuel g' id (frame :: frames) w) :=
  alike_of_inv p lib srt fuel h.inv ha hid hs hp frames w

/-- Executing changes neither nodes nor settings nor connections. -/
theorem executed_same {p : Profile} {srt : EdgeSort} {g g' : Graph (Node F) (Stream F H)}
    (h : Executed p srt g g') : SameSetup g g' := by
  have key : g'.nodes.map (fun n => (n.id, n.attrs)) = g.nodes.map (fun n => (n.id, n.attrs)) ∧
      g'.ids = g.ids ∧ g'.graph = g.graph := by
    induction h with
    | refl => exact ⟨rfl, rfl, rfl⟩
    | @step g1 g2 fuel id frames w w' st lib _ he ih =>
      obtain ⟨k1, -, k2, -⟩ := execute_same _ _ _ _ _ _ _ _ _ _ he
      refine ⟨.trans ?_ ih.1, k1.trans ih.2.1, k2.trans ih.2.2⟩
      refine execute_keys ?_ _ _ _ _ _ _ _ _ _ he
      intro n fr m ins prev c n' st out c' hc
      simp only [nodeSem] at hc
      obtain ⟨x, -, hc⟩ := Res.bind_ok.mp hc
      cases hc
      rfl
  obtain ⟨k1, k2, k3⟩ := key
  refine ⟨?_, k2.symm, k3.symm⟩
  generalize g.nodes = l at k1 ⊢
  generalize g'.nodes = l' at k1 ⊢
  induction l generalizing l' with
  | nil =>
    cases l' with
    | nil => exact .nil
    | cons b l' => cases k1
  | cons a l ih =>
    cases l' with
    | nil => cases k1
    | cons b l' =>
      simp only [List.map_cons, List.cons.injEq, Prod.mk.injEq] at k1
      exact .cons ⟨k1.1.1.symm, k1.1.2.symm⟩ (ih l' k1.2)

/-- C117: executing again without changes shows the same: after any executions in between, of any
nodes and frames and with whatever files there were, a graph without use of the cache gives the same
status, the same output and the same files as when it was fresh. -/
theorem C117_again (p : Profile) (lib : NodeLib F H) (srt : EdgeSort) (fuel : Nat)
    {g g' : Graph (Node F) (Stream F H)} {r : Bool} (h : Reach (nodeSem p lib) srt r g)
    (he : Executed p srt g g') (hu : ∀ n ∈ g.nodes, n.getI32 "use_cache" = 0) {id start : Nat}
    (hid : At g id start) (hs : g.graph.contains start = true) {frame : F}
    (hp : ShowsFiles lib g start frame) (frames : List F) (w w' : World F H)
    {st : ExecuteStatus} {g1 : Graph (Node F) (Stream F H)} {w1 : World F H}
    (e : Graph.execute (nodeSem p lib) srt fuel g id (frame :: frames) w = .ok (st, g1, w1)) :
    ∃ jobs g2, w1 = ⟨w.cache, w.writes ++ jobs⟩ ∧
      Graph.execute (nodeSem p lib) srt fuel g' id (frame :: frames) w' =
        .ok (st, g2, ⟨w'.cache, w'.writes ++ jobs⟩) ∧ g2.output = g1.output := by
  have ha := executed_same he
  rw [C94_uncached p lib srt fuel g hu] at e
  have k := C117_alike p lib srt fuel h ha hid hs hp frames w'
  rw [C94_uncached p lib srt fuel g hu] at k
  cases e0 : Graph.execute (nodeSem p lib) srt fuel g id (frame :: frames)
      ⟨.withCapacity 0, []⟩ with
  | error x => rw [e0] at e; cases e
  | ok x =>
    rw [e0] at e k
    cases e2 : Graph.execute (nodeSem p lib) srt fuel g' id (frame :: frames) w' with
    | error y => rw [e2] at k; cases k
    | ok y =>
      rw [e2] at k
      obtain ⟨k1, k2, k3⟩ := k
      obtain ⟨st0, g0, w0⟩ := x
      obtain ⟨st2, g2, w2⟩ := y
      cases e
      dsimp only at k1 k2 k3
      refine ⟨w0.writes, g2, rfl, ?_, k2.symm⟩
      rw [← k1, ← k3]

/-! ### with the cache -/

omit [FloatLike F] [HalfLike F H] [FloatConst F] [FloatBits F] in
theorem lookup_offs {X : Type} {p : Profile} {u : Bool} {v v' : World F H} (h : IsOff v)
    (h' : IsOff v') (key : Nat) (hit : X) (make : Res (Image F H × X)) :
    ResRel (fun a b => a.2 = b.2 ∧ IsOff a.1 ∧ IsOff b.1 ∧ a.1.writes = v.writes ∧
        b.1.writes = v'.writes)
      (lookup p u v key hit make) (lookup p u v' key hit make) := by
  cases hm : make with
  | ok r =>
    obtain ⟨a, e1, h1, k1⟩ := lookup_off_mpr (p := p) (u := u) (key := key) (hit := hit) h hm
    obtain ⟨b, e2, h2, k2⟩ := lookup_off_mpr (p := p) (u := u) (key := key) (hit := hit) h' hm
    rw [hm] at e1 e2
    rw [e1, e2]
    exact ⟨rfl, h1, h2, k1, k2⟩
  | error e =>
    unfold lookup
    cases u with
    | false => rfl
    | true =>
      have h1 := (off_get h key).1
      have h2 := (off_get h' key).1
      rw [if_pos rfl, if_pos rfl]
      cases hg : v.cache.get key with
      | mk c o =>
        cases hg' : v'.cache.get key with
        | mk c' o' =>
          rw [hg] at h1
          rw [hg'] at h2
          dsimp only at h1 h2
          subst h1 h2
          rfl

/-- The results of a computation in two worlds without cache. -/
def OffRel (w w' : World F H) (r r' : Computed F H) : Prop :=
  r.1 = r'.1 ∧ r.2.1 = r'.2.1 ∧ IsOff r.2.2 ∧ IsOff r'.2.2 ∧
    ∃ jobs, r.2.2.writes = w.writes ++ jobs ∧ r'.2.2.writes = w'.writes ++ jobs

/-- Without a cache, the work does not depend on the world. -/
theorem run_offs (p : Profile) (lib : NodeLib F H) (n : Node F) (frame : F) (mode : Mode)
    (inputs : List (Stream F H)) (prev : Stream F H) {w w' : World F H} (h : IsOff w)
    (h' : IsOff w') :
    ResRel (OffRel w w') (n.run p lib frame mode inputs prev w)
      (n.run p lib frame mode inputs prev w') := by
  have hsame : ∀ (st : NodeStatus) (s : Stream F H), OffRel w w' (st, s, w) (st, s, w') :=
    fun st s => ⟨rfl, rfl, h, h', [], by simp, by simp⟩
  have hok : ∀ (st : NodeStatus) (s : Stream F H),
      ResRel (OffRel w w') (.ok (st, s, w)) (.ok (st, s, w')) := hsame
  have hlook : ∀ {X : Type} {u : Bool} {key : Nat} {hit : X} {make : Res (Image F H × X)}
      {k k' : World F H × Image F H × X → Res (Computed F H)},
      (∀ a b i x, (∀ (st : NodeStatus) (s : Stream F H), OffRel w w' (st, s, a) (st, s, b)) →
        ResRel (OffRel w w') (k (a, i, x)) (k' (b, i, x))) →
      ResRel (OffRel w w') (lookup p u w key hit make >>= k) (lookup p u w' key hit make >>= k') := by
    intro X u key hit make k k' hk
    refine ResRel.bind (lookup_offs h h' key hit make) ?_
    rintro ⟨a, i, x⟩ ⟨b, i', x'⟩ ⟨e, h1, h2, k1, k2⟩
    cases e
    exact hk a b i x fun st s => ⟨rfl, rfl, h1, h2, [], by rw [List.append_nil]; exact k1,
      by rw [List.append_nil]; exact k2⟩
  obtain ⟨id, s, attrs⟩ := n
  cases attrs <;> simp only [Node.run]
  case null a => cases inputs <;> exact hok _ _
  case readImage a =>
    simp only [ReadImageAttrs.compute]
    split
    · split
      · exact hok _ _
      · split
        · exact hok _ _
        · exact hlook fun a b i x ha => ha _ _
        · split <;> exact hok _ _
    · exact hok _ _
  case writeImage a =>
    simp only [WriteImageAttrs.compute]
    split
    · exact hok _ _
    · cases inputs with
      | nil => exact hok _ _
      | cons i l =>
        dsimp only
        split
        · exact hok _ _
        · refine ResRel.bind (ResRel.of_eq rfl) ?_
          rintro ⟨a, job⟩ _ rfl
          exact ⟨rfl, rfl, ⟨h.1, h.2⟩, ⟨h'.1, h'.2⟩, job.toList, rfl, rfl⟩
  case grade a =>
    simp only [GradeAttrs.compute]
    split <;> exact hok _ _
  case lensDistort a =>
    simp only [LensDistortAttrs.compute]
    split
    · split
      · exact hok _ _
      · rfl
    · exact hok _ _
  case transform a => exact hok _ _
  case mergeImage a =>
    simp only [MergeImageAttrs.compute]
    split
    · exact hok _ _
    · cases inputs with
      | nil => exact hok _ _
      | cons i l => exact hlook fun a b i x ha => ha _ _
  case cropImage a =>
    simp only [CropImageAttrs.compute]
    cases inputs with
    | nil => exact hok _ _
    | cons i l =>
      dsimp only
      split
      · exact hok _ _
      · exact hlook fun a b i x ha => ha _ _
  case viewer a =>
    simp only [ViewerAttrs.compute]
    split
    · exact hok _ _
    · split
      · exact hlook fun a b i x ha => ha _ _
      · exact hok _ _
  case resampleImage a =>
    simp only [ResampleImageAttrs.compute]
    cases inputs with
    | nil => exact hok _ _
    | cons i l =>
      dsimp only
      split
      · exact hok _ _
      · refine ResRel.bind (ResRel.of_eq rfl) ?_
        rintro u _ rfl
        split
        · exact hlook fun a b i x ha => ha _ _
        · exact hok _ _

/-- Executions in two worlds without cache. -/
theorem execute_offs (p : Profile) (lib : NodeLib F H) (srt : EdgeSort) (fuel : Nat)
    (g : Graph (Node F) (Stream F H)) (id : Nat) (frames : List F) {w w' : World F H}
    (h : IsOff w) (h' : IsOff w') :
    ResRel (fun r r' => r.1 = r'.1 ∧ r.2.1.output = r'.2.1.output ∧
        ∃ jobs, r.2.2.writes = w.writes ++ jobs ∧ r'.2.2.writes = w'.writes ++ jobs)
      (Graph.execute (nodeSem p lib) srt fuel g id frames w)
      (Graph.execute (nodeSem p lib) srt fuel g id frames w') := by
  have hm : Matching (nodeSem p lib) (nodeSem p lib) (fun a b => a = b ∧ True)
      (fun a b => a = b ∧ True)
      (fun (v v' : World F H) => IsOff v ∧ IsOff v' ∧
        ∃ jobs, v.writes = w.writes ++ jobs ∧ v'.writes = w'.writes ++ jobs) := by
    refine ⟨?_, ?_, ?_⟩
    · rintro n _ ⟨rfl, -⟩ fr hs; rfl
    · rintro n _ ⟨rfl, -⟩ ns ns' h mode k
      rw [(forall₂_self_inv h).1]
    · rintro n _ ⟨rfl, h1⟩ ins ins' hins prev _ ⟨rfl, -⟩ c c' ⟨h3, h4, jobs, h5, h6⟩ fr mode
      obtain ⟨rfl, -⟩ := forall₂_self_inv hins
      simp only [nodeSem]
      refine ResRel.bind (run_offs p lib n fr mode ins prev h3 h4) ?_
      rintro ⟨st, out, v⟩ ⟨st', out', v'⟩ ⟨k1, k2, k3, k4, more, k5, k6⟩
      dsimp only at k1 k2 k3 k4 k5 k6
      subst k1 k2
      exact ⟨⟨rfl, trivial⟩, rfl, ⟨rfl, trivial⟩, k3, k4, jobs ++ more,
        by rw [k5, h5, List.append_assoc], by rw [k6, h6, List.append_assoc]⟩
  have := execute_related hm srt fuel (g := g) (g' := g)
    ⟨forall₂_self fun _ _ => trivial, rfl, rfl, ⟨rfl, trivial⟩, rfl, rfl⟩ id frames (c := w)
    (c' := w') ⟨h, h', [], by simp, by simp⟩
  cases e1 : Graph.execute (nodeSem p lib) srt fuel g id frames w <;>
    cases e2 : Graph.execute (nodeSem p lib) srt fuel g id frames w' <;>
    rw [e1, e2] at this <;> simp only [ResRel] at this ⊢
  · exact this
  · exact ⟨this.1, this.2.1.output.1, this.2.2.2.2⟩

/-- C117 with the cache (partial): after any executions in between and with the cache of any history
of regular executions, a graph that shows its files gives the same status, the same output and the
same files as when it was fresh and the cache was empty.  Missing: computations outside regular
sets, as for C45. -/
theorem C117_cached_partial (p : Profile) (lib : NodeLib F H) (srt : EdgeSort) (fuel : Nat)
    {K : Call F H → Prop} (hK : Regular p lib K)
    {g g' : Graph (Node F) (Stream F H)} {r : Bool} (h : Reach (nodeSem p lib) srt r g)
    (he : Executed p srt g g') (hg : Produced p lib K g.output) (hg' : Produced p lib K g'.output)
    {id start : Nat} (hid : At g id start) (hs : g.graph.contains start = true) {frame : F}
    (hp : ShowsFiles lib g start frame) (frames : List F) {w w' : World F H}
    (hw : History p lib srt K w) (hw' : History p lib srt K w') {st st' : ExecuteStatus}
    {g1 g2 : Graph (Node F) (Stream F H)} {w1 w2 : World F H} {log log' : List (Call F H)}
    (e : Graph.execute (logged p lib) srt fuel g id (frame :: frames) (w, []) =
      .ok (st, g1, (w1, log)))
    (e' : Graph.execute (logged p lib) srt fuel g' id (frame :: frames) (w', []) =
      .ok (st', g2, (w2, log')))
    (hlog : ∀ c ∈ log, K c) (hlog' : ∀ c ∈ log', K c) :
    st' = st ∧ g2.output = g1.output ∧
      ∃ jobs, w1.writes = w.writes ++ jobs ∧ w2.writes = w'.writes ++ jobs := by
  obtain ⟨v1, a1, b1, -⟩ := C45_cached_equals_uncached_partial p lib srt K hK w
    ⟨.withCapacity 0, w.writes⟩ w1 hw ⟨rfl, rfl⟩ rfl fuel g g1 hg id _ st log e hlog
  obtain ⟨v2, a2, b2, -⟩ := C45_cached_equals_uncached_partial p lib srt K hK w'
    ⟨.withCapacity 0, w'.writes⟩ w2 hw' ⟨rfl, rfl⟩ rfl fuel g' g2 hg' id _ st' log' e' hlog'
  have k1 := C117_alike p lib srt fuel h (executed_same he) hid hs hp frames
    ⟨.withCapacity 0, w.writes⟩
  have k2 := execute_offs p lib srt fuel g' id (frame :: frames)
    (w := ⟨.withCapacity 0, w.writes⟩) (w' := ⟨.withCapacity 0, w'.writes⟩) ⟨rfl, rfl⟩ ⟨rfl, rfl⟩
  rw [a1] at k1
  rw [a2] at k2
  cases e3 : Graph.execute (nodeSem p lib) srt fuel g' id (frame :: frames)
      ⟨.withCapacity 0, w.writes⟩ with
  | error x => rw [e3] at k1; cases k1
  | ok x =>
    rw [e3] at k1 k2
    obtain ⟨i1, i2, i3⟩ := k1
    obtain ⟨j1, j2, jobs, j3, j4⟩ := k2
    dsimp only at i1 i2 i3 j1 j2 j3 j4
    exact ⟨j1.symm.trans i1.symm, j2.symm.trans i2.symm, jobs, by rw [← b1, i3, j3],
      by rw [← b2, j4]⟩

end

section
attribute [local instance] finFloat finBits finHalf finPi

/-- Reading, doubling the red channel, and a viewer, all without the cache. -/
def readGradeView (option : Int) : Graph (Node (Fin 256)) (Stream (Fin 256) (Fin 256)) :=
  ⟨[⟨1, .uninitialized, .readImage { readAttrs with useCache := 0 }⟩,
    ⟨2, .uninitialized, .grade { GradeAttrs.new with multiplyR := 2 }⟩,
    ⟨3, .uninitialized, .viewer { fullViewer with useCache := 0, bakeOption := option }⟩],
    [1, 2, 3], ⟨[some 1, some 2, some 3], [], [⟨1, 2, 0⟩, ⟨0, 1, 0⟩]⟩, .new, .dirty,
    .uninitialized⟩

theorem readGradeView_reach (option : Int) :
    Reach (nodeSem .debug linearFiles) insSort false (readGradeView option) :=
  .connect 2 3 0 (.connect 1 2 0
    (.add ⟨3, .uninitialized, .viewer { fullViewer with useCache := 0, bakeOption := option }⟩
    (.add ⟨2, .uninitialized, .grade { GradeAttrs.new with multiplyR := 2 }⟩
    (.add ⟨1, .uninitialized, .readImage { readAttrs with useCache := 0 }⟩ (.new .new) rfl) rfl)
    rfl) rfl) rfl

/-- The red values of the output of an execution. -/
def numbersAfter (r : Res (ExecuteStatus × Graph (Node (Fin 256)) (Stream (Fin 256) (Fin 256)) ×
    World (Fin 256) (Fin 256))) : List (Fin 256) :=
  match r with
  | .ok (.success, g, _) => numbersOf g.output.pixelBlock
  | _ => []

/-- The graph after an execution. -/
def graphAfter (g : Graph (Node (Fin 256)) (Stream (Fin 256) (Fin 256)))
    (r : Res (ExecuteStatus × Graph (Node (Fin 256)) (Stream (Fin 256) (Fin 256)) ×
    World (Fin 256) (Fin 256))) : Graph (Node (Fin 256)) (Stream (Fin 256) (Fin 256)) :=
  match r with
  | .ok (_, g, _) => g
  | .error _ => g

/-- The graph after its viewer was executed. -/
def shownOnce (option : Int) : Graph (Node (Fin 256)) (Stream (Fin 256) (Fin 256)) :=
  graphAfter (readGradeView option) (Graph.execute (nodeSem .debug linearFiles) insSort 20
    (readGradeView option) 3 [1] noCache)

/-- C117 fails for a viewer that bakes everything: reading gives the picture that was last shown,
and every execution grades it once more. -/
theorem C117_counterexample :
    (∀ n ∈ (readGradeView 3).nodes, n.getI32 "use_cache" = 0) ∧
    (numbersAfter (Graph.execute (nodeSem .debug linearFiles) insSort 20 (readGradeView 3) 3 [1]
      noCache)).take 3 = [30, 15, 15] ∧
    (numbersAfter (Graph.execute (nodeSem .debug linearFiles) insSort 20 (shownOnce 3) 3 [1]
      noCache)).take 3 = [60, 15, 15] := by decide +kernel

theorem readGradeView_upstream {option : Int} {i : Nat}
    (h : Upstream (readGradeView option).graph 2 i) : i = 0 ∨ i = 1 ∨ i = 2 := by
  induction h with
  | refl => exact .inr (.inr rfl)
  | step _ hf _ =>
    obtain ⟨e, he, rfl, -⟩ := hf
    simp only [readGradeView, List.mem_cons, List.not_mem_nil, or_false] at he
    rcases he with rfl | rfl <;> simp

theorem readGradeView_files (frame : Fin 256) :
    ShowsFiles linearFiles (readGradeView 2) 2 frame := by
  have hfeed : ∀ a i, Feeds (readGradeView 2).graph a i → i = a + 1 := by
    rintro a i ⟨e, he, rfl, rfl⟩
    simp only [readGradeView, List.mem_cons, List.not_mem_nil, or_false] at he
    rcases he with rfl | rfl <;> rfl
  refine ⟨?_, ?_, ?_⟩
  · intro i n hu hn
    rcases readGradeView_upstream hu with rfl | rfl | rfl <;> cases hn
    · intro h; cases h
    · intro h; cases h
    · intro _; exact .inr (.inr ⟨rfl, .inr rfl⟩)
  · intro i n hu hn
    refine ⟨fun _ a b ha hb => ?_, fun a b c ha hb _ => .inl ?_⟩ <;>
    · have h1 := hfeed _ _ ha
      have h2 := hfeed _ _ hb
      omega
  · intro i n hu hn hi
    rcases readGradeView_upstream hu with rfl | rfl | rfl <;> cases hn
    · refine ⟨nofun, ?_⟩
      intro a ha _
      cases ha
      intro h; cases h
    · exact absurd (hi 0 ⟨⟨0, 1, 0⟩, by simp [readGradeView], rfl, rfl⟩) (by decide)
    · exact absurd (hi 1 ⟨⟨1, 2, 0⟩, by simp [readGradeView], rfl, rfl⟩) (by decide)

theorem shownOnce_executed : Executed .debug insSort (readGradeView 2) (shownOnce 2) := by
  obtain ⟨st, w', e⟩ : ∃ st w', Graph.execute (nodeSem .debug linearFiles) insSort 20
      (readGradeView 2) 3 [1] noCache = .ok (st, shownOnce 2, w') := ⟨_, _, rfl⟩
  exact .step linearFiles .refl e

/-- The viewer shows the doubled white pixel again, although it is left in the graph. -/
example : ∃ st g1 w1 g2 w2,
    Graph.execute (nodeSem .debug linearFiles) insSort 20 (readGradeView 2) 3 [1] noCache =
      .ok (st, g1, w1) ∧
    Graph.execute (nodeSem .debug linearFiles) insSort 20 (shownOnce 2) 3 [1] noCache =
      .ok (st, g2, w2) ∧ g2.output = g1.output ∧ numbersOf g1.output.pixelBlock = [2, 1, 1] := by
  obtain ⟨st, g1, w1, e, hn⟩ : ∃ st g1 w1, Graph.execute (nodeSem .debug linearFiles) insSort 20
      (readGradeView 2) 3 [1] noCache = .ok (st, g1, w1) ∧
      numbersOf g1.output.pixelBlock = [2, 1, 1] :=
    ⟨_, _, _, rfl, by decide +kernel⟩
  obtain ⟨jobs, g2, -, e2, ho⟩ := C117_again .debug linearFiles insSort 20 (readGradeView_reach 2)
    shownOnce_executed (by decide) (start := 2) ⟨rfl, by decide⟩ rfl (readGradeView_files 1) [] noCache
    noCache e
  exact ⟨st, g1, w1, g2, _, e, e2, ho, hn⟩

/-- The graphs before and after have different outputs, and give the same. -/
example : SameSetup (readGradeView 2) (shownOnce 2) ∧
    (readGradeView 2).output.dataWindow ≠ (shownOnce 2).output.dataWindow ∧
    Graph.execute (nodeSem .debug linearFiles) insSort 20
      { readGradeView 2 with output := (shownOnce 2).output } 3 [1] noCache =
    Graph.execute (nodeSem .debug linearFiles) insSort 20 (readGradeView 2) 3 [1] noCache :=
  ⟨executed_same shownOnce_executed, by decide +kernel,
    C117_output .debug linearFiles insSort 20 (readGradeView_reach 2) (start := 2)
      ⟨rfl, by decide⟩ rfl (readGradeView_files 1) [] _ noCache⟩

theorem readCrop_files (frame : Fin 256) : ShowsFiles twoFiles readCrop 1 frame := by
  have hup : ∀ i, Upstream readCrop.graph 1 i → i = 0 ∨ i = 1 := by
    intro i h
    induction h with
    | refl => exact .inr rfl
    | step _ hf _ =>
      obtain ⟨e, he, rfl, -⟩ := hf
      simp only [readCrop, List.mem_singleton] at he
      subst he
      exact .inl rfl
  have hfeed : ∀ a i, Feeds readCrop.graph a i → i = a + 1 := by
    rintro a i ⟨e, he, rfl, rfl⟩
    simp only [readCrop, List.mem_singleton] at he
    subst he
    rfl
  refine ⟨?_, ?_, ?_⟩
  · intro i n hu hn
    rcases hup i hu with rfl | rfl <;> cases hn <;> (intro h; cases h)
  · intro i n hu hn
    refine ⟨fun _ a b ha hb => ?_, fun a b c ha hb _ => .inl ?_⟩ <;>
    · have h1 := hfeed _ _ ha
      have h2 := hfeed _ _ hb
      omega
  · intro i n hu hn hi
    rcases hup i hu with rfl | rfl <;> cases hn
    · refine ⟨nofun, ?_⟩
      intro a ha _
      cases ha
      intro h; cases h
    · exact absurd (hi 0 ⟨⟨0, 1, 0⟩, by simp [readCrop], rfl, rfl⟩) (by decide)

/-- The second execution takes both pictures from the cache and shows the same. -/
example : ∃ g1 g2 : Graph (Node (Fin 256)) (Stream (Fin 256) (Fin 256)), ∃ w1 w2 log1 log2,
    readCrop.execute (logged .debug twoFiles) insSort 20 2 [1] (blankWorld, []) =
      .ok (.success, g1, (w1, log1)) ∧
    g1.execute (logged .debug twoFiles) insSort 20 2 [1] (w1, []) =
      .ok (.success, g2, (w2, log2)) ∧ w2.cache.hits = 2 ∧ g2.output = g1.output := by
  obtain ⟨g1, w1, log1, g2, w2, log2, e0, e1, l1, e2, l2, hits⟩ : ∃ g1 w1 log1 g2 w2 log2,
      readCrop.execute (nodeSem .debug twoFiles) insSort 20 2 [1] blankWorld =
        .ok (.success, g1, w1) ∧
      readCrop.execute (logged .debug twoFiles) insSort 20 2 [1] (blankWorld, []) =
        .ok (.success, g1, (w1, log1)) ∧ (∀ c ∈ log1, ReadCrop c) ∧
      g1.execute (logged .debug twoFiles) insSort 20 2 [1] (w1, []) =
        .ok (.success, g2, (w2, log2)) ∧ (∀ c ∈ log2, ReadCrop c) ∧ w2.cache.hits = 2 := by
    refine ⟨_, _, _, _, _, _, rfl, rfl, ?_, rfl, ?_, by decide +kernel⟩
    · show ∀ c ∈ [_, _], ReadCrop c
      refine List.forall_mem_cons.mpr ⟨?_, List.forall_mem_cons.mpr ⟨?_, by simp⟩⟩
      · exact ⟨rfl, .inl ⟨rfl, rfl⟩⟩
      · exact ⟨rfl, .inr ⟨rfl, _, rfl, ⟨rfl, rfl⟩, rfl, rfl⟩⟩
    · show ∀ c ∈ [_, _], ReadCrop c
      refine List.forall_mem_cons.mpr ⟨?_, List.forall_mem_cons.mpr ⟨?_, by simp⟩⟩
      · exact ⟨rfl, .inl ⟨rfl, rfl⟩⟩
      · exact ⟨rfl, .inr ⟨rfl, _, rfl, ⟨rfl, rfl⟩, rfl, rfl⟩⟩
  have hist : History .debug twoFiles insSort ReadCrop w1 :=
    .execute _ _ _ _ _ _ _ _ _ (.start 1000 []) .new e1 l1
  have hout : Produced .debug twoFiles ReadCrop g1.output := by
    obtain ⟨-, -, -, h⟩ := execute_beside (regular_sound readCrop_regular) insSort 20 readCrop g1 2
      [1] blankWorld ⟨.withCapacity 0, blankWorld.writes⟩ w1 log1 .success
      ⟨Cache.good_empty _ rfl, ⟨rfl, rfl⟩, rfl⟩ .new e1 l1
    exact h
  have hreach : Reach (nodeSem .debug twoFiles) insSort false readCrop :=
    .connect 1 2 0 (.add ⟨2, .uninitialized, .cropImage pixelCrop⟩
      (.add ⟨1, .uninitialized, .readImage readAttrs⟩ (.new .new) rfl) rfl) rfl
  have := C117_cached_partial .debug twoFiles insSort 20 readCrop_regular hreach
    (.step twoFiles .refl e0) .new hout (start := 1) ⟨rfl, by decide⟩ rfl (readCrop_files 1) []
    (.start 1000 []) hist e1 e2 l1 l2
  exact ⟨g1, g2, w1, w2, log1, log2, e1, e2, hits, this.2.1⟩

end
end OCG.Props
