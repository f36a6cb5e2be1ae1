import Verif.Spec.Simple
import Verif.Props.Replace
/-
C162: every graph without deformers whose nodes can do their work shows a picture.
-/

namespace OCG.Props

open GraphSpec PictureSpec ImageSpecs ComputeSpec BBoxSpec BlockSpec ColorSpec RenderSpec FileSpec
open SimpleSpec
open CacheSpec (IsOff)

section
variable {F H : Type} [FloatLike F] [FloatConst F] [HalfLike F H]

theorem within_size {lo hi : Int} (hb : 4 * ((hi - lo) * (hi - lo)) ≤ 2147483647) {b : BBox}
    (h : LiesIn lo hi b) {n : Nat} (hn : n = 3 ∨ n = 4) : ValidSize (sizeFor b n) := by
  obtain ⟨h1, h2, h3, h4, h5, h6⟩ := h
  refine ⟨by simp only [sizeFor]; omega, by simp only [sizeFor]; omega,
    by simp only [sizeFor]; omega, ?_⟩
  simp only [sizeFor]
  have a : (b.maxX - b.minX) * (b.maxY - b.minY) ≤ (hi - lo) * (hi - lo) :=
    mul_le_mul (by omega) (by omega) (by omega) (by omega)
  have a0 : 0 ≤ (b.maxX - b.minX) * (b.maxY - b.minY) := mul_nonneg (by omega) (by omega)
  generalize (b.maxX - b.minX) * (b.maxY - b.minY) = m at *
  generalize (hi - lo) * (hi - lo) = k at *
  rcases hn with rfl | rfl <;> push_cast <;> omega

theorem simple_rests {lib : NodeLib F H} {lo hi : Int} {L : Layer F} (h : Simple lo hi L) :
    Rests lib L L.still := by
  obtain ⟨P, ds⟩ := L
  obtain rfl : ds = [] := h.moves
  exact rests_nothing lib P

theorem gradeOf_exists {n : Node F} (ht : n.attrs.nodeType = .grade) : ∃ op, IsGradeOf n op := by
  obtain ⟨id, st, attrs⟩ := n
  cases attrs <;> simp only [NodeAttrs.nodeType, reduceCtorEq] at ht
  rename_i a
  refine ⟨a.op, rfl, ⟨?_, ?_⟩⟩
  · simp only [AttrSpec.names, NodeAttrs.nodeType, attr_eval, List.forall_mem_cons]
    refine ⟨fun h => absurd rfl h, ?_⟩
    repeat' first
      | (intro x hx; cases hx)
      | refine ⟨fun _ => rfl, ?_⟩
  · simp only [AttrSpec.names, NodeAttrs.nodeType, attr_eval, List.forall_mem_cons]
    repeat' first
      | (intro x hx; cases hx)
      | refine ⟨rfl, ?_⟩

theorem simple_pixel {lo hi : Int} {L : Layer F} (h : Simple lo hi L) (x y : Int) :
    (L.still.pixel x y).length = L.still.channels := by
  unfold Picture.pixel
  split
  · exact h.length x y (by assumption)
  · simp

/-- C162 for one node: a node that can do its work makes a picture, and a simple one. -/
theorem C162_node {lib : NodeLib F H} {lo hi : Int} (hb : 4 * ((hi - lo) * (hi - lo)) ≤ 2147483647)
    {frame : F} {n : Node F} {Ls : List (Layer F)} (h : Works lib lo hi frame n Ls.length)
    (hL : ∀ K ∈ Ls, Simple lo hi K) : ∃ L, Makes lib frame n Ls L ∧ Simple lo hi L := by
  generalize hk : Ls.length = k at h
  have one : k = 1 → ∃ K, Ls = [K] ∧ Simple lo hi K := by
    rintro rfl
    obtain ⟨K, rfl⟩ := List.length_eq_one_iff.mp hk
    exact ⟨K, rfl, hL K (List.mem_singleton.mpr rfl)⟩
  cases h with
  | null t =>
    obtain ⟨K, rfl, s⟩ := one rfl
    exact ⟨K, .null t, s⟩
  | read t e f s =>
    obtain rfl := List.length_eq_zero_iff.mp hk
    exact ⟨_, .read t e f, s⟩
  | grade t =>
    obtain ⟨⟨P, ds⟩, rfl, s⟩ := one rfl
    by_cases g : Grades n
    · obtain ⟨op, ho⟩ := gradeOf_exists t
      have hn : Channels P.channels := .inr s.channels
      have : ∀ x y, ∃ o, Carried P.channels [op] (P.at_ x y) o ∧ o.length = (P.at_ x y).length :=
        fun x y => by
          obtain ⟨o, h4, h5, -⟩ := C47_every_pixel [op] (P.at_ x y) hn
          exact ⟨o, (C47_in_order _ _ _ hn.pos').mp h4, h5⟩
      choose f hf using this
      exact ⟨⟨⟨P.data, P.display, P.channels, P.space, f⟩, ds⟩,
        .grade t g ho ⟨rfl, rfl, rfl, rfl, fun x y _ => (hf x y).1⟩,
        s.moves, s.data, s.display, s.channels, s.space, fun x y hx =>
          (hf x y).2.trans (s.length x y hx)⟩
    · exact ⟨_, .gradeOff t g, s⟩
  | off t e =>
    obtain ⟨K, rfl, s⟩ := one rfl
    exact ⟨K, .off t e, s⟩
  | crop t e b w =>
    obtain ⟨K, rfl, s⟩ := one rfl
    have : ∀ x y, ∃ o, PictureSpec.Settled K.still.channels (K.still.pixel x y) o ∧
        o.length = K.still.channels := fun x y =>
      graded_total (.inr s.channels) _ _ (simple_pixel s x y)
    choose f hf using this
    refine ⟨⟨⟨cropWindow n, if decide (n.getI32 "reformat" = 1) then cropWindow n else K.still.display,
      K.still.channels, K.still.space, f⟩, []⟩, .crop t e b (simple_rests s) s.space
        (within_size hb w s.channels) ⟨rfl, rfl, rfl, rfl, fun x y _ => (hf x y).1⟩,
        rfl, w, ?_, s.channels, s.space, fun x y _ => (hf x y).2⟩
    dsimp only
    split
    · exact w
    · exact s.display
  | merge t e m =>
    obtain ⟨K, L, rfl⟩ := List.length_eq_two.mp hk
    have sK := hL K (by simp)
    have sL := hL L (by simp)
    have w : LiesIn lo hi ⟨min K.still.data.minX L.still.data.minX,
        min K.still.data.minY L.still.data.minY, max K.still.data.maxX L.still.data.maxX,
        max K.still.data.maxY L.still.data.maxY⟩ := by
      obtain ⟨a1, a2, a3, a4, a5, a6⟩ := sK.data
      obtain ⟨b1, b2, b3, b4, b5, b6⟩ := sL.data
      constructor <;> dsimp only <;> omega
    obtain ⟨Q, q⟩ := merged_exists (MergeImageMode.ofI32 (n.getI32 "mode")) (n.getF32 "mix") K.still
      L.still sL.channels
    refine ⟨⟨Q, []⟩, .merge t e m (simple_rests sK) (simple_rests sL) rfl sK.channels sL.channels
      (within_size hb w (.inr rfl)) q, rfl, ?_, ?_, ?_, q.space, fun x y hx => ?_⟩
    · dsimp only
      rw [q.data]
      exact w
    · dsimp only
      rw [q.display]
      exact sL.display
    · dsimp only
      rw [q.channels]
      exact sL.channels
    · obtain ⟨v, g, l, -⟩ := q.pixels x y hx
      dsimp only
      rw [q.channels]
      exact graded_length (.inr sL.channels) l g
  | viewerOff t e o =>
    obtain ⟨K, rfl, s⟩ := one rfl
    exact ⟨K, .viewerOff t e o, s⟩
  | viewerSpace t e o c b d =>
    obtain ⟨⟨P, ds⟩, rfl, s⟩ := one rfl
    exact ⟨_, .viewerSpace t e o c b d s.space, s⟩
  | @viewer ty t e o c b d =>
    obtain ⟨⟨P, ds⟩, rfl, s⟩ := one rfl
    have : ∀ x y, ∃ v, Has P.data x y →
        PictureSpec.Settled P.channels ((P.at_ x y).map (inType H ty)) v ∧ v.length = P.channels := by
      intro x y
      by_cases hx : Has P.data x y
      · obtain ⟨v, k⟩ := graded_total (n := P.channels) (.inr s.channels) Mat4.identity []
          (v := (P.at_ x y).map (inType H ty)) (by rw [List.length_map]; exact s.length x y hx)
        exact ⟨v, fun _ => k⟩
      · exact ⟨[], fun h => absurd h hx⟩
    choose f hf using this
    exact ⟨⟨⟨P.data, P.display, P.channels, colorSpaceLinear, f⟩, ds⟩,
      .viewer t e o c b d ⟨rfl, rfl, rfl, rfl, fun x y hx => (hf x y hx).1⟩,
      s.moves, s.data, s.display, s.channels, rfl, fun x y hx => (hf x y hx).2⟩
  | write t e c o kl =>
    obtain ⟨K, rfl, s⟩ := one rfl
    by_cases x : n.getI32 "execute" = 0
    · exact ⟨K, .writeOff t e x, s⟩
    · refine ⟨K, .write t e x (simple_rests s) ⟨c, o, ?_, ?_, fun hc =>
        ⟨kl hc, within_size hb s.display s.channels⟩⟩, s⟩
      all_goals
        obtain ⟨c1, c2, c3, c4, c5, c6⟩ := s.display
        have : hi - lo ≤ (hi - lo) * (hi - lo) := le_mul_of_one_le_right (by omega) (by omega)
        constructor <;> linarith

/-- C162: if the nodes upstream can do their work and there are no cycles (every node ranks above its
inputs), there are pictures that the graph shows. -/
theorem C162_pictures {lib : NodeLib F H} {lo hi : Int}
    (hb : 4 * ((hi - lo) * (hi - lo)) ≤ 2147483647) [FloatBits F] (p : Profile) {srt : EdgeSort}
    {g : Graph (Node F) (Stream F H)} {r : Bool} (h : Reach (nodeSem p lib) srt r g)
    {start : Nat} (hs : g.graph.contains start = true) {rank : Nat → Nat}
    (hr : ∀ u v, Upstream g.graph start v → Feeds g.graph u v → u ≠ v → rank u < rank v) {frame : F}
    (hw : ∀ i n ins, Upstream g.graph start i → g.nodes[i]? = some n →
      g.graph.findDirectUpstream srt i = .ok ins → Works lib lo hi frame n ins.length) :
    ∃ pic, Pictures lib srt g start frame pic ∧
      ∀ i, Upstream g.graph start i → Simple lo hi (pic i) := by
  have hg := h.inv.sound
  have below : ∀ i ins, Upstream g.graph start i → g.graph.findDirectUpstream srt i = .ok ins →
      ∀ u ∈ ins, Upstream g.graph start u ∧ rank u < rank i := by
    intro i ins hu hins u hm
    have := hg.direct srt (hg.upstream_live hs hu)
    rw [hins] at this
    rw [Except.ok.inj this] at hm
    obtain ⟨hf, hn⟩ := (hg.mem_parents srt).mp hm
    exact ⟨.step hu hf, hr u i hu hf hn⟩
  have key : ∀ k, ∃ pic : Nat → Layer F, ∀ i, Upstream g.graph start i →
      rank i < k → Simple lo hi (pic i) ∧ ∀ n ins, g.nodes[i]? = some n →
        g.graph.findDirectUpstream srt i = .ok ins → Makes lib frame n (ins.map pic) (pic i) := by
    intro k
    induction k with
    | zero => exact ⟨fun _ => ⟨⟨⟨0, 0, 0, 0⟩, ⟨0, 0, 0, 0⟩, 0, [], fun _ _ => []⟩, []⟩,
        fun i _ h => absurd h (Nat.not_lt_zero _)⟩
    | succ k ih =>
      obtain ⟨pic, hp⟩ := ih
      have next : ∀ i, ∃ L, Upstream g.graph start i → rank i = k →
          Simple lo hi L ∧ ∀ n ins, g.nodes[i]? = some n →
            g.graph.findDirectUpstream srt i = .ok ins → Makes lib frame n (ins.map pic) L := by
        intro i
        by_cases hu : Upstream g.graph start i
        · by_cases hk : rank i = k
          · have hlive := hg.upstream_live hs hu
            have hni := List.getElem?_eq_getElem (hg.live i hlive)
            have hd := hg.direct srt hlive
            obtain ⟨L, l1, l2⟩ := C162_node (Ls := List.map pic _) hb
              (by rw [List.length_map]; exact hw i _ _ hu hni hd) (by
                intro K hK
                obtain ⟨u, hm, rfl⟩ := List.mem_map.mp hK
                obtain ⟨b1, b2⟩ := below i _ hu hd u hm
                exact (hp u b1 (by omega)).1)
            refine ⟨L, fun _ _ => ⟨l2, fun n ins hn hins => ?_⟩⟩
            obtain rfl := Option.some.inj (hni.symm.trans hn)
            obtain rfl := Except.ok.inj (hd.symm.trans hins)
            exact l1
          · exact ⟨pic i, fun _ h => absurd h hk⟩
        · exact ⟨pic i, fun h => absurd h hu⟩
      choose f hf using next
      refine ⟨fun i => if rank i < k then pic i else f i, fun i hu hk => ?_⟩
      have same : ∀ ins, g.graph.findDirectUpstream srt i = .ok ins →
          ins.map (fun i => if rank i < k then pic i else f i) =
            ins.map pic := by
        intro ins hins
        refine List.map_congr_left fun u hm => ?_
        have := (below i ins hu hins u hm).2
        exact if_pos (by omega)
      by_cases hlt : rank i < k
      · simp only [if_pos hlt]
        refine ⟨(hp i hu hlt).1, fun n ins hn hins => ?_⟩
        rw [same ins hins]
        exact (hp i hu hlt).2 n ins hn hins
      · simp only [if_neg hlt]
        obtain ⟨k1, k2⟩ := hf i hu (by omega)
        refine ⟨k1, fun n ins hn hins => ?_⟩
        rw [same ins hins]
        exact k2 n ins hn hins
  obtain ⟨pic, hp⟩ := key ((Finset.range g.nodes.length).sup rank + 1)
  have top : ∀ i, Upstream g.graph start i → rank i < (Finset.range g.nodes.length).sup rank + 1 :=
    fun i hu => Nat.lt_succ_of_le
      (Finset.le_sup (f := rank) (Finset.mem_range.mpr (hg.live i (hg.upstream_live hs hu))))
  exact ⟨pic, fun i n ins hu hn hins => (hp i hu (top i hu)).2 n ins hn hins,
    fun i hu => (hp i hu (top i hu)).1⟩

/-- An order of execution ranks the nodes. -/
theorem topo_rank {g : Graph (Node F) (Stream F H)} {start : Nat} {order d : List Nat}
    (hi : SInv g.graph start order ⟨[], d⟩) (ht : Topo g.graph order) (u v : Nat)
    (hv : Upstream g.graph start v) (hf : Feeds g.graph u v) (hn : u ≠ v) :
    order.length - order.idxOf u < order.length - order.idxOf v := by
  have h1 := ht v ((hi.final_mem v).mpr hv) u hf hn
  have h2 := List.idxOf_lt_length_of_mem ((hi.final_mem u).mpr (.step hv hf))
  omega

/-- C162 for graphs that are arranged in levels: executing them succeeds, and the output shows a
picture that the nodes make. -/
theorem C162_levels {lib : NodeLib F H} {lo hi : Int}
    (hb : 4 * ((hi - lo) * (hi - lo)) ≤ 2147483647) [FloatBits F] (p : Profile) {srt : EdgeSort}
    {g : Graph (Node F) (Stream F H)} {r : Bool} (h : Reach (nodeSem p lib) srt r g)
    {id start : Nat} (hid : At g id start) (hs : g.graph.contains start = true)
    (hl : Leveled g.graph start) {frames : List F} {frame : F} (hlast : frames.getLast? = some frame)
    (hwk : ∀ fr ∈ frames, ∀ i m ins, Upstream g.graph start i → g.nodes[i]? = some m →
      g.graph.findDirectUpstream srt i = .ok ins → Works lib lo hi fr m ins.length)
    {w : World F H} (hw : IsOff w) :
    ∃ enough, ∀ fuel, enough ≤ fuel → ∃ g' w' pic,
      g.execute (nodeSem p lib) srt fuel id frames w = .ok (.success, g', w') ∧ IsOff w' ∧
      Pictures lib srt g start frame pic ∧ Simple lo hi (pic start) ∧
      ShowsLayer lib.bake.color g'.output (pic start) := by
  obtain ⟨L, hL⟩ := hl
  obtain ⟨order, d, -, hi', ht⟩ := leveled_topo srt h.inv.ends (contains_lt_bound hs) L hL
  have ex : ∀ fr, ∃ pic, fr ∈ frames → Pictures lib srt g start fr pic ∧
      ∀ i, Upstream g.graph start i → Simple lo hi (pic i) := by
    intro fr
    by_cases hf : fr ∈ frames
    · obtain ⟨pic, k⟩ := C162_pictures hb p h hs (topo_rank hi' ht) (hwk fr hf)
      exact ⟨pic, fun _ => k⟩
    · exact ⟨fun _ => ⟨⟨⟨0, 0, 0, 0⟩, ⟨0, 0, 0, 0⟩, 0, [], fun _ _ => []⟩, []⟩, fun h => absurd h hf⟩
  choose pic hpic using ex
  obtain ⟨enough, k⟩ := C87_graph_partial p lib srt h hid hs ⟨L, hL⟩ hlast (pic := pic)
    (fun fr hf => (hpic fr hf).1) hw
  refine ⟨enough, fun fuel hf => ?_⟩
  obtain ⟨g', w', e1, e2, e3⟩ := k fuel hf
  obtain ⟨h1, h2⟩ := hpic frame (List.mem_of_getLast? hlast)
  exact ⟨g', w', pic frame, e1, e2, h1, h2 _ .refl, e3⟩


/-- C162 for executions: a graph without deformers whose nodes can do their work writes a file for every
frame, and every file shows a picture that the nodes make. -/
theorem C162_rendered {lib : NodeLib F H} {lo hi : Int}
    (hb : 4 * ((hi - lo) * (hi - lo)) ≤ 2147483647) [FloatBits F] (p : Profile) {srt : EdgeSort}
    {g : Graph (Node F) (Stream F H)} {r : Bool} (h : Reach (nodeSem p lib) srt r g)
    {id start : Nat} (hid : At g id start) (hs : g.graph.contains start = true)
    {frames : List F} {n : Node F} (hn : g.nodes[start]? = some n) (hW : Writes n)
    (hq : ∀ i m, Upstream g.graph start i → i ≠ start → g.nodes[i]? = some m → ¬ Writes m)
    (hl : ∀ fr ∈ frames, Linear (filePath lib n fr))
    (hwk : ∀ fr ∈ frames, ∀ i m ins, Upstream g.graph start i → g.nodes[i]? = some m →
      g.graph.findDirectUpstream srt i = .ok ins → Works lib lo hi fr m ins.length)
    {w w' : World F H} (hw : IsOff w) {fuel : Nat} {st : ExecuteStatus}
    {g' : Graph (Node F) (Stream F H)}
    (hx : g.execute (nodeSem p lib) srt fuel id frames w = .ok (st, g', w')) :
    st = .success ∧ ∃ jobs, w'.writes = w.writes ++ jobs ∧
      List.Forall₂ (fun fr job => job.path = filePath lib n fr ∧ ∃ own pic,
        Pictures lib srt g start fr pic ∧ Simple lo hi (pic start) ∧
        ∃ R, Rests lib (pic start) R ∧ FileShows (wantedType (n.getI32 "pixel_data_type") own)
          (window n (filePath lib n fr) R) R job) frames jobs := by
  obtain ⟨order, d, e, hi'⟩ := order_of_reach h hs
  have ex : ∀ fr, ∃ pic, fr ∈ frames → Pictures lib srt g start fr pic ∧
      ∀ i, Upstream g.graph start i → Simple lo hi (pic i) := by
    intro fr
    by_cases hf : fr ∈ frames
    · have ht := execute_topo h.inv.sound hid hs (List.ne_nil_of_mem hf) hx e hi'
      obtain ⟨pic, k⟩ := C162_pictures hb p h hs (topo_rank hi' ht) (hwk fr hf)
      exact ⟨pic, fun _ => k⟩
    · exact ⟨fun _ => ⟨⟨⟨0, 0, 0, 0⟩, ⟨0, 0, 0, 0⟩, 0, [], fun _ _ => []⟩, []⟩, fun h => absurd h hf⟩
  choose pic hpic using ex
  obtain ⟨h1, jobs, h2, h3⟩ := C138_rendered p lib srt h hid hs (pic := pic)
    (fun fr hf => (hpic fr hf).1) hn hW hq hl hw hx
  refine ⟨h1, jobs, h2, ?_⟩
  have all : ∀ {l : List F} {js : List (WriteJob F H)}, List.Forall₂ (fun fr job => job.path = filePath lib n fr ∧
      ∃ own R, Rests lib (pic fr start) R ∧ FileShows (wantedType (n.getI32 "pixel_data_type") own)
        (window n (filePath lib n fr) R) R job) l js → (∀ fr ∈ l, fr ∈ frames) →
      List.Forall₂ (fun fr job => job.path = filePath lib n fr ∧ ∃ own pic,
        Pictures lib srt g start fr pic ∧ Simple lo hi (pic start) ∧
        ∃ R, Rests lib (pic start) R ∧ FileShows (wantedType (n.getI32 "pixel_data_type") own)
          (window n (filePath lib n fr) R) R job) l js := by
    intro l js k
    induction k with
    | nil => exact fun _ => .nil
    | cons a _ ih =>
      intro hm
      obtain ⟨a1, own, R, a2, a3⟩ := a
      obtain ⟨b1, b2⟩ := hpic _ (hm _ (List.mem_cons_self ..))
      exact .cons ⟨a1, own, _, b1, b2 _ .refl, R, a2, a3⟩
        (ih fun fr hf => hm fr (List.mem_cons_of_mem _ hf))
  exact all h3 fun _ hf => hf

end

/-! ### Examples -/

section
attribute [local instance] zeroLibm

theorem pair_simple : Simple 0 2 ⟨pair, []⟩ :=
  ⟨rfl, by constructor <;> decide, by constructor <;> decide, .inr rfl, rfl, fun x y h => (pair_plain x y h).1⟩

/-- The sum of a picture with itself. -/
example : ∃ L, Makes pairFiles 1 sumNode [⟨pair, []⟩, ⟨pair, []⟩] L ∧ Simple 0 2 L :=
  C162_node (by decide) (.merge rfl rfl (by decide)) (by
    intro K hK
    simp only [List.mem_cons, List.not_mem_nil, or_false, or_self] at hK
    rw [hK]
    exact pair_simple)

/-- The nodes of the graph that cuts a picture in the middle and joins the halves can do their work. -/
theorem cut_works (i : Nat) (n : Node F32) (ins : List Nat) (hn : cutGraph.nodes[i]? = some n)
    (hi : cutGraph.graph.findDirectUpstream insSort i = .ok ins) :
    Works pairFiles 0 2 1 n ins.length := by
  rcases i with _ | _ | _ | _ | _ | i
  · cases hn
    cases hi
    exact .read rfl (by decide) (pair_file _) pair_simple
  · cases hn
    cases hi
    exact .crop rfl rfl (by decide) (by constructor <;> decide)
  · cases hn
    cases hi
    refine .write rfl (by decide) (.inl rfl) rfl ?_
    rintro (h | ⟨h, -⟩) <;> cases h
  · cases hn
    cases hi
    exact .crop rfl rfl (by decide) (by constructor <;> decide)
  · cases hn
    cases hi
    exact .merge rfl rfl (by decide)
  · cases hn

theorem cutGraph_at : At cutGraph 3 2 := by
  refine ⟨rfl, fun j hj => ?_⟩
  rcases j with _ | _ | j <;> first | decide | omega

/-- The write node ranks above the merge node, which ranks above the crop nodes. -/
theorem cut_ranks (u v : Nat) (hf : Feeds cutGraph.graph u v) :
    [0, 1, 3, 1, 2].getD u 0 < [0, 1, 3, 1, 2].getD v 0 ∧
      [3, 2, 0, 2, 1].getD u 0 = [3, 2, 0, 2, 1].getD v 0 + 1 := by
  obtain ⟨e, he, rfl, rfl⟩ := hf
  simp only [cutGraph, List.mem_cons, List.not_mem_nil, or_false] at he
  rcases he with rfl | rfl | rfl | rfl | rfl <;> decide

/-- So there are pictures that it shows. -/
example : ∃ pic, Pictures pairFiles insSort cutGraph 2 1 pic ∧
    ∀ i, Upstream cutGraph.graph 2 i → Simple 0 2 (pic i) :=
  C162_pictures (by decide) .debug cutGraph_reach rfl (rank := fun i => [0, 1, 3, 1, 2].getD i 0)
    (fun u v _ hf _ => (cut_ranks u v hf).1) fun i n ins _ hn hi => cut_works i n ins hn hi

/-- Executing it succeeds and shows such a picture. -/
example : ∃ fuel g w pic, cutGraph.execute (nodeSem .debug pairFiles) insSort fuel 3 [1] copyWorld =
    .ok (.success, g, w) ∧ Pictures pairFiles insSort cutGraph 2 1 pic ∧
    ShowsLayer pairFiles.bake.color g.output (pic 2) := by
  obtain ⟨fuel, k⟩ := C162_levels (lo := 0) (hi := 2) (by decide) .debug cutGraph_reach cutGraph_at rfl
    ⟨fun i => [3, 2, 0, 2, 1].getD i 0, fun u v _ hf _ => (cut_ranks u v hf).2⟩ (frames := [1])
    (frame := 1) rfl (fun fr hfr i n ins _ hn hi => by
      obtain rfl := List.mem_singleton.mp hfr
      exact cut_works i n ins hn hi) (w := copyWorld) ⟨rfl, rfl⟩
  obtain ⟨g, w, pic, h1, -, h2, -, h3⟩ := k fuel (Nat.le_refl _)
  exact ⟨fuel, g, w, pic, h1, h2, h3⟩

/-- And the file it writes shows one of them. -/
example : ∃ g w job own pic R,
    cutGraph.execute (nodeSem .debug pairFiles) insSort 20 3 [1] copyWorld = .ok (.success, g, w) ∧
    w.writes = [job] ∧ Pictures pairFiles insSort cutGraph 2 1 pic ∧ Rests pairFiles (pic 2) R ∧
    FileShows (wantedType (writeHalf.getI32 "pixel_data_type") own)
      (window writeHalf (filePath pairFiles writeHalf 1) R) R job := by
  obtain ⟨g, w, e⟩ := written_ok cutGraph_facts
  obtain ⟨-, jobs, h1, h2⟩ := C162_rendered (lo := 0) (hi := 2) (by decide) .debug cutGraph_reach cutGraph_at rfl
    (n := writeHalf) rfl ⟨rfl, by decide, by decide⟩
    (by
      intro i m _ hi hm
      rcases i with _ | _ | _ | _ | _ | i
      · cases hm; rintro ⟨⟨⟩, -⟩
      · cases hm; rintro ⟨⟨⟩, -⟩
      · exact absurd rfl hi
      · cases hm; rintro ⟨⟨⟩, -⟩
      · cases hm; rintro ⟨⟨⟩, -⟩
      · cases hm)
    (fun fr hfr => by
      obtain rfl := List.mem_singleton.mp hfr
      unfold Linear
      decide +kernel)
    (fun fr hfr i n ins _ hn hi => by
      obtain rfl := List.mem_singleton.mp hfr
      exact cut_works i n ins hn hi)
    ⟨rfl, rfl⟩ e
  cases h2 with
  | cons h3 h4 =>
    cases h4
    obtain ⟨-, own, pic, a, -, R, b, c⟩ := h3
    exact ⟨g, w, _, own, pic, R, e, h1, a, b, c⟩

end

end OCG.Props
