import Verif.Spec.Replace
import Verif.Props.Alike
import Verif.Props.Sheet
/-
C160: a part of a graph can be exchanged for another part that shows the same.
-/

namespace OCG.Props

open GraphSpec ChannelSpec LocalSpec PictureSpec ImageSpecs ComputeSpec BBoxSpec BlockSpec ColorSpec
open PixelSpec PlainSpec IeeeSpec OiioSpec RenderSpec FileSpec AlikeSpec ReplaceSpec
open CacheSpec (IsOff)
open Ieee hiding floor ceil round

section
variable {F H : Type} [FloatLike F] [HalfLike F H]

/-- There is one picture in a file. -/
theorem isFile_unique {lib : NodeLib F H} {path : Bytes} {P R : Picture F} (hP : IsFile lib path P)
    (hR : IsFile lib path R) : LooksLike P R ∧ P.space = R.space := by
  obtain ⟨spec, t, k, v, -, h2, -, h4, -, h6, h7, h8, h9, h10, ⟨raw, r1, r2, r3⟩, -, h13⟩ := hP
  obtain ⟨spec', t', k', v', -, i2, -, i4, -, i6, i7, i8, i9, i10, ⟨raw', s1, s2, s3⟩, -, i13⟩ := hR
  obtain rfl := Option.some.inj (h2.symm.trans i2)
  have ht := h4.symm.trans i4
  injection ht with ht
  subst ht
  have hc : P.channels = R.channels := by omega
  have hd : P.data = R.data := h7.trans i7.symm
  rw [← hc, ← hd] at i10 s1 s3 i13
  have : k = k' := by omega
  subst this
  rw [r1] at s1
  have hraw : raw = raw' := by
    have := Except.ok.inj s1
    injection this with _ this
    injection this
  subst hraw
  have hv : v = v' := by
    by_cases hs : spec.colorSpace = colorSpaceLinear
    · rw [r2 hs, s2 hs]
    · rw [r3 hs, s3 hs]
  subst hv
  exact ⟨⟨hd, h8.trans i8.symm, hc, fun x y hxy =>
    graded_unique (h13 x y (hd ▸ hxy)) (i13 x y (hd ▸ hxy))⟩, h9.trans i9.symm⟩

variable [FloatConst F]

/-- What a node makes depends on its settings only. -/
theorem makes_attrs {lib : NodeLib F H} {fr : F} {n n' : Node F} (h : n.attrs = n'.attrs)
    {Ls : List (Layer F)} {L : Layer F} (hm : Makes lib fr n Ls L) : Makes lib fr n' Ls L := by
  obtain ⟨i, s, a⟩ := n
  obtain ⟨i', s', a'⟩ := n'
  dsimp only at h
  subst h
  cases hm with
  | null h => exact .null h
  | read h1 h2 h3 => exact .read h1 h2 h3
  | grade h1 h2 h3 h4 => exact .grade h1 h2 ⟨h3.1, h3.2.1, h3.2.2⟩ h4
  | gradeOff h1 h2 => exact .gradeOff h1 h2
  | transform h1 h2 h3 h4 => exact .transform h1 h2 h3 ⟨h4.1, h4.2⟩
  | lens h1 h2 h3 h4 h5 h6 => exact .lens h1 h2 h3 ⟨h4.1, h4.2⟩ h5 h6
  | off h1 h2 => exact .off h1 h2
  | resampleIdle h1 h2 h3 => exact .resampleIdle h1 h2 h3
  | resample h1 h2 h3 h4 h5 h6 h7 h8 h9 h10 => exact .resample h1 h2 h3 h4 h5 h6 h7 h8 h9 h10
  | crop h1 h2 h3 h4 h5 h6 h7 => exact .crop h1 h2 h3 h4 h5 h6 h7
  | merge h1 h2 h3 h4 h5 h6 h7 h8 h9 h10 => exact .merge h1 h2 h3 h4 h5 h6 h7 h8 h9 h10
  | viewer h1 h2 h3 h4 h5 h6 h7 => exact .viewer h1 h2 h3 h4 h5 h6 h7
  | viewerSpace h1 h2 h3 h4 h5 h6 h7 => exact .viewerSpace h1 h2 h3 h4 h5 h6 h7
  | viewerOff h1 h2 h3 => exact .viewerOff h1 h2 h3
  | write h1 h2 h3 h4 h5 => exact .write h1 h2 h3 h4 ⟨h5.1, h5.2, h5.3, h5.4, h5.5⟩
  | writeOff h1 h2 h3 => exact .writeOff h1 h2 h3

end

section
variable {H : Type} [HalfLike F32 H] [Libm single32]

theorem sameLayer_in {L M : Layer F32} (h : SameLayer L M) : SameLayerIn (fun _ => True) L M :=
  ⟨⟨h.still.data, h.still.display, h.still.channels, h.space, fun x y hx c _ => by
    rw [h.still.pixels x y (h.still.data ▸ hx)]⟩, h.moves⟩

theorem sameIn_layer {L M : Layer F32} (h : SameLayerIn (fun _ => True) L M) : SameLayer L M :=
  ⟨⟨h.1.data, h.1.display, h.1.channels, fun x y hx =>
    List.ext_getElem? fun c => h.1.values x y (h.1.data ▸ hx) c trivial⟩, h.1.space, h.2⟩

/-- C160 for one node: of layers that are the same a node makes layers that are the same. -/
theorem C160_node {lib : NodeLib F32 H} {fr : F32} {n n' : Node F32} (hn : n.attrs = n'.attrs)
    {Ls Ls' : List (Layer F32)} {L L' : Layer F32} (h : Makes lib fr n Ls L)
    (h' : Makes lib fr n' Ls' L') (hin : List.Forall₂ SameLayer Ls Ls')
    (hp : ∀ K ∈ Ls, Proper K.still) (hp' : ∀ K ∈ Ls', Proper K.still) (hL : Proper L.still)
    (hL' : Proper L'.still) : SameLayer L L' := by
  have h' : Makes lib fr n Ls' L' := makes_attrs hn.symm h'
  refine sameIn_layer (makes_channels (H := H) ⟨rfl, fun _ _ _ _ _ _ _ => rfl⟩ (fun _ _ => trivial) h h'
    (hin.imp fun _ _ => sameLayer_in) hp hp' hL hL' fun ht => ?_)
  obtain ⟨k1, k2⟩ := isFile_unique (read_isFile ht h) (read_isFile ht h')
  exact ⟨k1.data, k1.display, k1.channels, k2, fun x y hx c _ => by
    rw [k1.pixels x y (k1.data ▸ hx)]⟩

omit [HalfLike F32 H] in
theorem replaced_proper {srt srt' : EdgeSort} {g g' : Graph (Node F32) (Stream F32 H)}
    {pic pic' : Nat → Layer F32} {i j : Nat} (h : Replaced srt srt' g g' pic pic' i j) :
    Proper (pic i).still ∧ Proper (pic' j).still := by
  cases h with
  | part _ h1 h2 => exact ⟨h1, h2⟩
  | same _ _ _ _ _ _ _ h1 h2 => exact ⟨h1, h2⟩

/-- C160: if the parts that were exchanged show the same, so do all nodes behind them. -/
theorem C160_pictures {lib : NodeLib F32 H} {srt srt' : EdgeSort}
    {g g' : Graph (Node F32) (Stream F32 H)} (hg : Sound g) (hg' : Sound g') {start start' : Nat}
    (hs : g.graph.contains start = true) (hs' : g'.graph.contains start' = true) {frame : F32}
    {pic pic' : Nat → Layer F32} (hp : Pictures lib srt g start frame pic)
    (hp' : Pictures lib srt' g' start' frame pic') {i j : Nat}
    (h : Replaced srt srt' g g' pic pic' i j) (hi : Upstream g.graph start i)
    (hj : Upstream g'.graph start' j) : SameLayer (pic i) (pic' j) := by
  induction h with
  | part h1 => exact h1
  | @same i j n n' ins ins' hn hn' ha e e' hl hk p1 p2 ih =>
    have up : ∀ u ∈ ins, Upstream g.graph start u := by
      intro u hu
      have := hg.direct srt (hg.upstream_live hs hi)
      rw [e] at this
      rw [Except.ok.inj this] at hu
      exact .step hi ((hg.mem_parents srt).mp hu).1
    have up' : ∀ u ∈ ins', Upstream g'.graph start' u := by
      intro u hu
      have := hg'.direct srt' (hg'.upstream_live hs' hj)
      rw [e'] at this
      rw [Except.ok.inj this] at hu
      exact .step hj ((hg'.mem_parents srt').mp hu).1
    refine C160_node ha (hp i n ins hi hn e) (hp' j n' ins' hj hn' e') ?_ ?_ ?_ p1 p2
    · rw [List.forall₂_map_left_iff, List.forall₂_map_right_iff, List.forall₂_iff_get]
      refine ⟨hl, fun k k1 k2 => ?_⟩
      exact ih k _ _ (List.getElem?_eq_getElem k1) (List.getElem?_eq_getElem k2)
        (up _ (List.getElem_mem k1)) (up' _ (List.getElem_mem k2))
    · intro K hK
      obtain ⟨u, hu, rfl⟩ := List.mem_map.mp hK
      obtain ⟨k, k1, rfl⟩ := List.getElem_of_mem hu
      exact (replaced_proper (hk k _ _ (List.getElem?_eq_getElem k1)
        (List.getElem?_eq_getElem (by omega)))).1
    · intro K hK
      obtain ⟨u, hu, rfl⟩ := List.mem_map.mp hK
      obtain ⟨k, k1, rfl⟩ := List.getElem_of_mem hu
      exact (replaced_proper (hk k _ _ (List.getElem?_eq_getElem (by omega))
        (List.getElem?_eq_getElem k1))).2

/-- C160: what a graph without cycles shows is determined: there are no two ways for the nodes to make
their pictures. -/
theorem C160_unique {p : Profile} {lib : NodeLib F32 H} {srt : EdgeSort}
    {g : Graph (Node F32) (Stream F32 H)} {r : Bool} (h : Reach (nodeSem p lib) srt r g)
    {start : Nat} (hs : g.graph.contains start = true) {rank : Nat → Nat}
    (hr : ∀ u v, Upstream g.graph start v → Feeds g.graph u v → u ≠ v → rank u < rank v)
    {frame : F32} {pic pic' : Nat → Layer F32} (hp : Pictures lib srt g start frame pic)
    (hp' : Pictures lib srt g start frame pic')
    (ho : ∀ i, Upstream g.graph start i → Proper (pic i).still ∧ Proper (pic' i).still) {i : Nat}
    (hu : Upstream g.graph start i) : SameLayer (pic i) (pic' i) := by
  have hg := h.inv.sound
  have key : ∀ k i, rank i < k → Upstream g.graph start i → Replaced srt srt g g pic pic' i i := by
    intro k
    induction k with
    | zero => exact fun i hk => absurd hk (Nat.not_lt_zero _)
    | succ k ih =>
      intro i hk hu
      have hlive := hg.upstream_live hs hu
      obtain ⟨n, hni⟩ : ∃ n, g.nodes[i]? = some n :=
        ⟨_, List.getElem?_eq_getElem (hg.live i hlive)⟩
      refine .same hni hni rfl (hg.direct srt hlive) (hg.direct srt hlive) rfl
        (fun l a b ha hb => ?_) (ho i hu).1 (ho i hu).2
      obtain rfl := Option.some.inj (ha.symm.trans hb)
      obtain ⟨hf, hne⟩ := (hg.mem_parents srt).mp (List.mem_of_getElem? ha)
      have := hr a i hu hf hne
      exact ih a (by omega) (.step hu hf)
  exact C160_pictures hg hg hs hs hp hp' (key _ i (Nat.lt_succ_self _) hu) hu hu

/-- A write node that writes has a picture with everything carried out. -/
theorem makes_write {lib : NodeLib F32 H} {fr : F32} {n : Node F32} {Ls : List (Layer F32)}
    {L : Layer F32} (hW : Writes n) (h : Makes lib fr n Ls L) : ∃ R, Rests lib L R := by
  obtain ⟨ht, he, hx⟩ := hW
  cases h with
  | write _ _ _ hr => exact ⟨_, hr⟩
  | writeOff _ _ h => exact absurd h hx
  | _ => first | exact (type_clash ht (by assumption) (by decide)).elim | (simp [ht] at *; done)

/-- C160 for executions: two graphs, of which one has other parts that show the same, write the same
files. -/
theorem C160_rendered (p p' : Profile) (lib : NodeLib F32 H) (srt srt' : EdgeSort)
    {g₁ g₂ : Graph (Node F32) (Stream F32 H)} {r r' : Bool} (h : Reach (nodeSem p lib) srt r g₁)
    (h' : Reach (nodeSem p' lib) srt' r' g₂)
    {id id' start start' : Nat} (hid : At g₁ id start) (hid' : At g₂ id' start')
    (hs : g₁.graph.contains start = true) (hs' : g₂.graph.contains start' = true)
    {frames : List F32} {pic pic' : F32 → Nat → Layer F32}
    (hp : ∀ fr ∈ frames, Pictures lib srt g₁ start fr (pic fr))
    (hp' : ∀ fr ∈ frames, Pictures lib srt' g₂ start' fr (pic' fr))
    {n n' : Node F32} (hn : g₁.nodes[start]? = some n) (hn' : g₂.nodes[start']? = some n')
    (hW : Writes n) (ha : n.attrs = n'.attrs) (hk : KnowsType n)
    (hq : ∀ i m, Upstream g₁.graph start i → i ≠ start → g₁.nodes[i]? = some m → ¬ Writes m)
    (hq' : ∀ i m, Upstream g₂.graph start' i → i ≠ start' → g₂.nodes[i]? = some m → ¬ Writes m)
    (hl : ∀ fr ∈ frames, Linear (filePath lib n fr))
    (hrep : ∀ fr ∈ frames, Replaced srt srt' g₁ g₂ (pic fr) (pic' fr) start start')
    (hU : ∀ fr ∈ frames, ∀ R, Rests lib (pic fr start) R → Upright R)
    {w v w' v' : World F32 H} (hoff : IsOff w) (hoff' : IsOff v) {fuel fuel' : Nat}
    {st st' : ExecuteStatus} {g₁' g₂' : Graph (Node F32) (Stream F32 H)}
    (hx : g₁.execute (nodeSem p lib) srt fuel id frames w = .ok (st, g₁', w'))
    (hx' : g₂.execute (nodeSem p' lib) srt' fuel' id' frames v = .ok (st', g₂', v')) :
    st = st' ∧ ∃ jobs jobs', w'.writes = w.writes ++ jobs ∧ v'.writes = v.writes ++ jobs' ∧
      jobs.length = frames.length ∧ List.Forall₂ SamePixels jobs jobs' := by
  have sg := h.inv.sound
  have sg' := h'.inv.sound
  obtain ⟨i, s, a⟩ := n
  obtain ⟨i', s', a'⟩ := n'
  dsimp only at ha
  subst ha
  have hW' : Writes (⟨i', s', a⟩ : Node F32) := hW
  have rest : ∀ fr ∈ frames, ∃ R, Rests lib (pic fr start) R := fun fr hf =>
    makes_write hW (hp fr hf start _ _ .refl hn (sg.direct srt hs))
  have rest' : ∀ fr ∈ frames, ∃ R, Rests lib (pic' fr start') R := fun fr hf =>
    makes_write hW' (hp' fr hf start' _ _ .refl hn' (sg'.direct srt' hs'))
  classical
  refine C159_rendered p p' lib srt srt' h h' hid hid' hs hs' hp hp' hn hn' hW hW' hq hq'
    (fun fr hf => ⟨hl fr hf, rfl⟩) ⟨hk, rfl, rfl⟩
    (R := fun fr => if hf : fr ∈ frames then (rest fr hf).choose else (pic fr 0).still)
    (fun fr hf => ?_) hoff hoff' hx hx'
  rw [dif_pos hf]
  have k := (rest fr hf).choose_spec
  obtain ⟨R', k'⟩ := rest' fr hf
  refine ⟨hU fr hf _ k, ⟨_, k, rfl, rfl, rfl, fun _ _ _ => rfl⟩, R', k', ?_⟩
  have sl := C160_pictures sg sg' hs hs' (hp fr hf) (hp' fr hf) (hrep fr hf) .refl .refl
  obtain ⟨o1, o2⟩ := replaced_proper (hrep fr hf)
  unfold Rests at k k'
  rw [← sl.moves] at k'
  obtain ⟨q, -, -⟩ := sameIn_rests o1 o2 (sameLayer_in sl).1 k k'
  exact ⟨q.data.symm, q.display.symm, q.channels.symm, fun x y hx =>
    (List.ext_getElem? fun c => q.values x y hx c trivial).symm⟩

end

/-! ### Examples -/

section
attribute [local instance] zeroLibm

theorem pair_proper : Proper pair := ⟨.inr rfl, pair_size, pair_plain⟩

/-- What is put together from the halves is the same layer as the picture. -/
theorem cut_same {frame : F32} {A B Q : Picture F32}
    (hA : Makes pairFiles frame cropLeft [⟨pair, []⟩] ⟨A, []⟩)
    (hB : Makes pairFiles frame cropRight [⟨pair, []⟩] ⟨B, []⟩)
    (hQ : Makes pairFiles frame sumNode [⟨A, []⟩, ⟨B, []⟩] ⟨Q, []⟩) :
    SameLayer ⟨Q, []⟩ ⟨pair, []⟩ ∧ Proper Q := by
  obtain ⟨d1, d2, d3, d4⟩ := cut_whole hA hB hQ
  obtain ⟨-, -, m⟩ := makes_merge (n := sumNode) rfl rfl hQ
  refine ⟨⟨⟨d1, d2, d3, d4⟩, m.space, rfl⟩, .inr d3, ?_, fun x y hxy => ?_⟩
  · rw [d1, d3]
    exact pair_size
  · rw [d1] at hxy
    rw [d4 x y hxy, d3]
    exact pair_plain x y hxy

/-- Cutting the left half out of either. -/
example : ∃ A B Q A' : Picture F32, Makes pairFiles 1 cropLeft [⟨pair, []⟩] ⟨A, []⟩ ∧
    Makes pairFiles 1 cropRight [⟨pair, []⟩] ⟨B, []⟩ ∧
    Makes pairFiles 1 sumNode [⟨A, []⟩, ⟨B, []⟩] ⟨Q, []⟩ ∧
    Makes pairFiles 1 { cropLeft with id := 9 } [⟨Q, []⟩] ⟨A', []⟩ ∧ SameLayer ⟨A', []⟩ ⟨A, []⟩ := by
  obtain ⟨A, B, Q, hA, hB, hQ⟩ := cut_made 1
  obtain ⟨s, pQ⟩ := cut_same hA hB hQ
  obtain ⟨A', k⟩ := cropped_exists ⟨0, 0, 1, 1⟩ false (P := Q) (.inr pQ.channels) pQ.plain
  have c4 : Q.channels = 4 := s.still.channels
  have hA' : Makes pairFiles 1 { cropLeft with id := 9 } [⟨Q, []⟩] ⟨A', []⟩ :=
    .crop rfl rfl (by decide) (rests_nothing _ _) s.space (by rw [c4]; exact half_sizes.1) k
  obtain ⟨a1, a2, a3⟩ := half_made (c := cropLeft) rfl pair_plain rfl rfl hA
  obtain ⟨b1, b2, b3⟩ := half_made (c := { cropLeft with id := 9 }) c4 pQ.plain rfl rfl hA'
  refine ⟨A, B, Q, A', hA, hB, hQ, hA', C160_node (n := { cropLeft with id := 9 }) (n' := cropLeft) rfl hA' hA (.cons s .nil)
    (fun K hK => ?_) (fun K hK => ?_) ⟨.inr b2, ?_, b3⟩ ⟨.inr a2, ?_, a3⟩⟩
  · rw [List.mem_singleton.mp hK]
    exact pQ
  · rw [List.mem_singleton.mp hK]
    exact pair_proper
  · dsimp only
    rw [b1, b2]
    exact half_sizes.1
  · dsimp only
    rw [a1, a2]
    exact half_sizes.1

theorem cut_replaced {A B Q : Picture F32}
    (hA : Makes pairFiles 1 cropLeft [⟨pair, []⟩] ⟨A, []⟩)
    (hB : Makes pairFiles 1 cropRight [⟨pair, []⟩] ⟨B, []⟩)
    (hQ : Makes pairFiles 1 sumNode [⟨A, []⟩, ⟨B, []⟩] ⟨Q, []⟩) :
    Replaced insSort insSort cutGraph copyGraph (cutPic A B Q) (fun _ => ⟨pair, []⟩) 2 2 := by
  obtain ⟨s, pQ⟩ := cut_same hA hB hQ
  refine .same (n := writeHalf) (n' := writeHalf) (ins := [4]) (ins' := [1]) rfl rfl rfl rfl rfl rfl
    (fun k a b ha hb => ?_) pQ pair_proper
  rcases k with _ | k
  · cases ha
    cases hb
    exact .part s pQ pair_proper
  · cases ha

/-- Whatever is found to be the pictures of the graph that copies (in ordinary numbers), it is the
picture of the file. -/
example (pic : Nat → Layer F32) (h : Pictures pairFiles insSort copyGraph 2 1 pic)
    (ho : ∀ i, Upstream copyGraph.graph 2 i → Proper (pic i).still) :
    SameLayer (pic 2) ⟨pair, []⟩ := by
  refine C160_unique copyPair_reach rfl (rank := id) ?_ h (copyPair_pictures 1)
    (fun i hi => ⟨ho i hi, pair_proper⟩) .refl
  rintro u v - ⟨e, he, rfl, rfl⟩ -
  simp only [copyGraph, List.mem_cons, List.not_mem_nil, or_false] at he
  rcases he with rfl | rfl <;> decide

/-- The write nodes get the same. -/
example : ∃ A B Q, Pictures pairFiles insSort cutGraph 2 1 (cutPic A B Q) ∧
    SameLayer (cutPic A B Q 2) ⟨pair, []⟩ := by
  obtain ⟨A, B, Q, hA, hB, hQ⟩ := cut_made 1
  exact ⟨A, B, Q, cutGraph_pictures hA hB hQ,
    C160_pictures cutGraph_reach.inv.sound copyPair_reach.inv.sound rfl rfl
      (cutGraph_pictures hA hB hQ) (copyPair_pictures 1) (cut_replaced hA hB hQ) .refl .refl⟩

/-- Cutting and joining exchanged for doing nothing: the files are the same. -/
example : ∃ g w g' w' job job',
    cutGraph.execute (nodeSem .debug pairFiles) insSort 20 3 [1] copyWorld = .ok (.success, g, w) ∧
    copyGraph.execute (nodeSem .release pairFiles) insSort 20 3 [1] copyWorld =
      .ok (.success, g', w') ∧ w.writes = [job] ∧ w'.writes = [job'] ∧ SamePixels job job' := by
  obtain ⟨g, w, e⟩ := written_ok cutGraph_facts
  obtain ⟨g', w', e'⟩ := written_ok copyPair_facts
  obtain ⟨A, B, Q, hA, hB, hQ⟩ := cut_made 1
  obtain ⟨-, jobs, jobs', h1, h2, h3, h4⟩ := C160_rendered .debug .release pairFiles insSort insSort
    cutGraph_reach copyPair_reach (id := 3) (id' := 3) (start := 2) (start' := 2) (frames := [1])
    (by
      refine ⟨rfl, fun j hj => ?_⟩
      rcases j with _ | _ | j <;> first | decide | omega) copyGraph_at rfl rfl
    (pic := fun _ => cutPic A B Q) (pic' := fun _ _ => ⟨pair, []⟩) (fun fr hfr => by
      obtain rfl := List.mem_singleton.mp hfr
      exact cutGraph_pictures hA hB hQ) (fun fr _ => copyPair_pictures fr)
    (n := writeHalf) (n' := writeHalf) rfl rfl ⟨rfl, by decide, by decide⟩ rfl (.inr (.inl rfl))
    (by
      intro i m _ hi hm
      rcases i with _ | _ | _ | _ | _ | i
      · cases hm; rintro ⟨⟨⟩, -⟩
      · cases hm; rintro ⟨⟨⟩, -⟩
      · exact absurd rfl hi
      · cases hm; rintro ⟨⟨⟩, -⟩
      · cases hm; rintro ⟨⟨⟩, -⟩
      · cases hm)
    (by
      intro i m _ hi hm
      rcases i with _ | _ | _ | i
      · cases hm; rintro ⟨⟨⟩, -⟩
      · cases hm; rintro ⟨⟨⟩, -⟩
      · exact absurd rfl hi
      · cases hm)
    (fun fr hfr => by
      obtain rfl := List.mem_singleton.mp hfr
      unfold Linear
      decide +kernel)
    (fun fr _ => cut_replaced hA hB hQ)
    (fun fr _ R hR => by
      obtain ⟨d1, d2, -, -⟩ := cut_whole hA hB hQ
      obtain ⟨e1, e2, -⟩ := carriedOut_unique (rests_nothing pairFiles Q) hR
      rw [d1] at e1
      rw [d2] at e2
      constructor <;> simp [e1, e2])
    ⟨rfl, rfl⟩ ⟨rfl, rfl⟩ e e'
  cases h4 with
  | nil => cases h3
  | cons h5 h6 =>
    cases h6 with
    | nil => exact ⟨g, w, g', w', _, _, e, e', h1, h2, h5⟩
    | cons => cases h3

end

end OCG.Props
