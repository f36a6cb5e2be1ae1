import Verif.Spec.Local
import Verif.Props.PictureGraph
/-
C131: a change in a part of the sources changes only that part of the result.
-/

namespace OCG.Props

open GraphSpec LocalSpec PictureSpec ImageSpecs ComputeSpec BBoxSpec BlockSpec ColorSpec PixelSpec
open CacheSpec (IsOff)

section
variable {F H : Type} [FloatLike F]

theorem sameInside_pixel {K : Int → Int → Prop} {P Q : Picture F} (h : SameInside K P Q) {x y : Int}
    (hk : K x y) : P.pixel x y = Q.pixel x y := by
  unfold Picture.pixel
  rw [← h.data, ← h.channels]
  split
  · exact h.pixels x y hk ‹_›
  · rfl

theorem sameInside_value {K : Int → Int → Prop} {P Q : Picture F} (h : SameInside K P Q) {x y : Int}
    (hk : K x y) : P.value x y = Q.value x y := by
  funext c
  unfold Picture.value
  rw [sameInside_pixel h hk]

theorem carried_once_unique {n : Int} {op : GradeOp F} {v a b : List F} (h : Carried n [op] v a)
    (h' : Carried n [op] v b) : a = b := by
  rw [carried_iff] at h h'
  rw [h] at h'
  exact Except.ok.inj h'

variable [FloatConst F] [HalfLike F H]

/-- Pictures without deformers rest as they are. -/
theorem sameInside_rests {K : Int → Int → Prop} {lib lib' : NodeLib F H} {L L' : Layer F}
    {R R' : Picture F} (h : SameInside K L.still L'.still) (h1 : L.moves = []) (h2 : L'.moves = [])
    (hR : Rests lib L R) (hR' : Rests lib' L' R') : SameInside K R R' := by
  unfold Rests at hR hR'
  rw [h1] at hR
  rw [h2] at hR'
  obtain ⟨d1, e1⟩ := hR.still (fun d hd => nomatch hd)
  obtain ⟨d2, e2⟩ := hR'.still (fun d hd => nomatch hd)
  refine ⟨by rw [d1, d2, h.data], by rw [hR.display, hR'.display, h.display],
    by rw [hR.channels, hR'.channels, h.channels], by rw [hR.space, hR'.space, h.space],
    fun x y hk hx => ?_⟩
  rw [d1] at hx
  rw [e1 x y hx, e2 x y (h.data ▸ hx), h.pixels x y hk hx]

/-- The layers have no deformers waiting, and pictures that are the same in `K`. -/
def SameLayerOn (K : Int → Int → Prop) (L L' : Layer F) : Prop :=
  SameInside K L.still L'.still ∧ L.moves = [] ∧ L'.moves = []

theorem type_clash {n : Node F} {a b : NodeType} (h : n.attrs.nodeType = a)
    (h' : n.attrs.nodeType = b) (hne : a ≠ b) : False := hne (h.symm.trans h')

theorem read_isFile {lib : NodeLib F H} {fr : F} {n : Node F} {Ls : List (Layer F)} {L : Layer F}
    (ht : n.attrs.nodeType = .readImage) (h : Makes lib fr n Ls L) :
    IsFile lib (filePath lib n fr) L.still := by
  cases h <;> first
    | assumption
    | exact (type_clash ht (by assumption) (by decide)).elim
    | (simp [ht] at *; done)

/-- A node that does not move pixels makes pictures that are the same in `K` of pictures that are the
same in `K`. -/
theorem makes_local {K : Int → Int → Prop} {lib lib' : NodeLib F H} {fr : F} {n : Node F}
    {Ls Ls' : List (Layer F)} {L L' : Layer F} (hp : PixelByPixel n) (h1 : Makes lib fr n Ls L)
    (h2 : Makes lib' fr n Ls' L') (hin : List.Forall₂ (SameLayerOn K) Ls Ls')
    (hr : n.attrs.nodeType = .readImage → SameInside K L.still L'.still) : SameLayerOn K L L' := by
  have one : ∀ {A B : Layer F}, List.Forall₂ (SameLayerOn K) [A] [B] → SameLayerOn K A B :=
    fun h => (List.forall₂_cons.mp h).1
  cases h1 with
  | null ht =>
    cases h2 <;> first
      | exact one hin
      | exact (type_clash ht (by assumption) (by decide)).elim
      | (simp [ht] at *; done)
  | read ht =>
    cases h2 <;> first
      | exact ⟨hr ht, rfl, rfl⟩
      | exact (type_clash ht (by assumption) (by decide)).elim
      | (simp [ht] at *; done)
  | grade ht hg ho hQ =>
    cases h2 with
    | grade ht' hg' ho' hQ' =>
      obtain ⟨h3, h4, h5⟩ := one hin
      dsimp only at h3 h4 h5
      rw [gradeOf_unique ht ho' ho] at hQ'
      refine ⟨⟨by rw [hQ.data, hQ'.data, h3.data], by rw [hQ.display, hQ'.display, h3.display],
        by rw [hQ.channels, hQ'.channels, h3.channels], by rw [hQ.space, hQ'.space, h3.space],
        fun x y hk hx => ?_⟩, h4, h5⟩
      dsimp only at hx
      rw [hQ.data] at hx
      have a := hQ.pixels x y hx
      have b := hQ'.pixels x y (h3.data ▸ hx)
      rw [← h3.channels, ← h3.pixels x y hk hx] at b
      exact carried_once_unique a b
    | gradeOff _ hg' => exact absurd hg hg'
    | _ => first | exact (type_clash ht (by assumption) (by decide)).elim | (simp [ht] at *; done)
  | gradeOff ht hg =>
    cases h2 with
    | grade _ hg' => exact absurd hg' hg
    | gradeOff => exact one hin
    | _ => first | exact (type_clash ht (by assumption) (by decide)).elim | (simp [ht] at *; done)
  | transform ht he => exact absurd he (hp.1 (.inl ht))
  | lens ht he => exact absurd he (hp.1 (.inr ht))
  | resample ht he hf => exact absurd (hp.2 ht) (by simp [he, hf])
  | off ht he =>
    cases h2 with
    | off => exact one hin
    | transform _ he' => exact absurd (he.symm.trans he') (by decide)
    | lens _ he' => exact absurd (he.symm.trans he') (by decide)
    | resample _ he' => exact absurd (he.symm.trans he') (by decide)
    | resampleIdle _ he' => exact absurd (he.symm.trans he') (by decide)
    | crop _ he' => exact absurd (he.symm.trans he') (by decide)
    | null ht' => simp [ht'] at ht
    | read ht' => simp [ht'] at ht
    | grade ht' => simp [ht'] at ht
    | gradeOff ht' => simp [ht'] at ht
    | merge ht' => simp [ht'] at ht
    | viewer ht' => simp [ht'] at ht
    | viewerSpace ht' => simp [ht'] at ht
    | viewerOff ht' => simp [ht'] at ht
    | write ht' => simp [ht'] at ht
    | writeOff ht' => simp [ht'] at ht
  | resampleIdle ht he hf =>
    cases h2 with
    | resampleIdle => exact one hin
    | off _ he' => exact absurd (he.symm.trans he') (by decide)
    | resample _ _ hf' => exact absurd hf hf'
    | _ => first | exact (type_clash ht (by assumption) (by decide)).elim | (simp [ht] at *; done)
  | crop ht he hb hR hs hv hQ =>
    cases h2 with
    | crop ht' he' hb' hR' hs' hv' hQ' =>
      obtain ⟨h3, h4, h5⟩ := one hin
      have h6 := sameInside_rests h3 h4 h5 hR hR'
      refine ⟨⟨by rw [hQ.data, hQ'.data], by rw [hQ.display, hQ'.display, h6.display],
        by rw [hQ.channels, hQ'.channels, h6.channels], by rw [hQ.space, hQ'.space, h6.space],
        fun x y hk hx => ?_⟩, rfl, rfl⟩
      dsimp only at hx
      rw [hQ.data] at hx
      have a := hQ.pixels x y hx
      have b := hQ'.pixels x y hx
      rw [← h6.channels, ← sameInside_pixel h6 hk] at b
      exact graded_unique a b
    | off _ he' => exact absurd (he.symm.trans he') (by decide)
    | _ => first | exact (type_clash ht (by assumption) (by decide)).elim | (simp [ht] at *; done)
  | merge ht he hm hA hB hd ca cb hv hQ =>
    cases h2 with
    | merge ht' he' hm' hA' hB' hd' ca' cb' hv' hQ' =>
      obtain ⟨⟨h3, h4, h5⟩, h6⟩ := List.forall₂_cons.mp hin
      obtain ⟨h7, h8, h9⟩ := one h6
      have kA := sameInside_rests h3 h4 h5 hA hA'
      have kB := sameInside_rests h7 h8 h9 hB hB'
      refine ⟨⟨by rw [hQ.data, hQ'.data, kA.data, kB.data],
        by rw [hQ.display, hQ'.display, kB.display],
        by rw [hQ.channels, hQ'.channels, kB.channels], by rw [hQ.space, hQ'.space],
        fun x y hk hx => ?_⟩, rfl, rfl⟩
      obtain ⟨v, s1, l1, e1⟩ := hQ.pixels x y hx
      obtain ⟨v', s2, l2, e2⟩ := hQ'.pixels x y (by
        have : Has _ x y := hx
        dsimp only at this
        rwa [hQ.data, kA.data, kB.data, ← hQ'.data] at this)
      rw [← kB.channels] at s2 l2 e2
      rw [← sameInside_value kA hk, ← sameInside_value kB hk] at e2
      have : v = v' := by
        apply List.ext_getElem?
        intro c
        by_cases hc : c < v.length
        · rw [e1 c (by omega), e2 c (by omega)]
        · rw [List.getElem?_eq_none (by omega), List.getElem?_eq_none (by omega)]
      rw [this] at s1
      exact graded_unique s1 s2
    | _ => first | exact (type_clash ht (by assumption) (by decide)).elim | (simp [ht] at *; done)
  | viewer ht he hb hc hs ht2 hQ =>
    cases h2 with
    | viewer ht' he' hb' hc' hs' ht2' hQ' =>
      obtain ⟨h3, h4, h5⟩ := one hin
      dsimp only at h3 h4 h5
      have := (ht2 .f32).symm.trans (ht2' .f32)
      subst this
      refine ⟨⟨by rw [hQ.data, hQ'.data, h3.data], by rw [hQ.display, hQ'.display, h3.display],
        by rw [hQ.channels, hQ'.channels, h3.channels], by rw [hQ.space, hQ'.space],
        fun x y hk hx => ?_⟩, h4, h5⟩
      dsimp only at hx
      rw [hQ.data] at hx
      have a := hQ.pixels x y hx
      have b := hQ'.pixels x y (h3.data ▸ hx)
      rw [← h3.channels, ← h3.pixels x y hk hx] at b
      exact graded_unique a b
    | viewerSpace _ _ hb' => exact absurd (hb.symm.trans hb') (by decide)
    | viewerOff _ _ hb' => exact absurd (hb.symm.trans hb') (by decide)
    | _ => first | exact (type_clash ht (by assumption) (by decide)).elim | (simp [ht] at *; done)
  | viewerSpace ht he hb =>
    cases h2 with
    | viewer _ _ hb' => exact absurd (hb.symm.trans hb') (by decide)
    | viewerSpace => exact one hin
    | viewerOff _ _ hb' => exact absurd (hb.symm.trans hb') (by decide)
    | _ => first | exact (type_clash ht (by assumption) (by decide)).elim | (simp [ht] at *; done)
  | viewerOff ht he hb =>
    cases h2 with
    | viewer _ _ hb' => exact absurd (hb.symm.trans hb') (by decide)
    | viewerSpace _ _ hb' => exact absurd (hb.symm.trans hb') (by decide)
    | viewerOff => exact one hin
    | _ => first | exact (type_clash ht (by assumption) (by decide)).elim | (simp [ht] at *; done)
  | write ht =>
    cases h2 <;> first
      | exact one hin
      | exact (type_clash ht (by assumption) (by decide)).elim
      | (simp [ht] at *; done)
  | writeOff ht =>
    cases h2 <;> first
      | exact one hin
      | exact (type_clash ht (by assumption) (by decide)).elim
      | (simp [ht] at *; done)


/-- C131: images of linear light that are the same in `K` are read as pictures that are the same in
`K`. -/
theorem C131_file {K : Int → Int → Prop} {lib lib' : NodeLib F H} {path : Bytes} {P P' : Picture F}
    (h : SameFileOn K lib lib' path) (hP : IsFile lib path P) (hP' : IsFile lib' path P') :
    SameInside K P P' := by
  obtain ⟨spec, t, k, v, -, h2, h3, h4, h5, h6, h7, h8, h9, h10, ⟨raw, r1, r2, -⟩, h12, h13⟩ := hP
  obtain ⟨spec', t', k', v', -, i2, i3, i4, i5, i6, i7, i8, i9, i10, ⟨raw', s1, s2, -⟩, i12, i13⟩ := hP'
  have := Option.some.inj ((h2.symm.trans h.header).trans i2)
  subst this
  have := h4.symm.trans i4
  injection this with this
  subst this
  have hl := h.linear spec h2
  have hc : P.channels = P'.channels := by omega
  have hd : P.data = P'.data := h7.trans i7.symm
  rw [← hc, ← hd] at i10 s1
  have : k = k' := by omega
  subst this
  have := r2 hl
  subst this
  have := s2 hl
  subst this
  refine ⟨hd, h8.trans i8.symm, hc, h9.trans i9.symm, fun x y hk hx => ?_⟩
  have a := h13 x y hx
  have b := i13 x y (hd ▸ hx)
  rw [← hc, ← hd] at b
  have e : pixelAt P.data P.channels v x y = pixelAt P.data P.channels v' x y := by
    obtain ⟨f, hf⟩ := convert_map (F := F) (H := H) t
    rw [hf] at r1 s1
    have q1 : List.map f _ = v := congrArg (fun b : PixelBlock F H => match b with
      | ⟨_, ⟨.f32, d⟩⟩ => d | _ => []) (Except.ok.inj r1)
    have q2 : List.map f _ = v' := congrArg (fun b : PixelBlock F H => match b with
      | ⟨_, ⟨.f32, d⟩⟩ => d | _ => []) (Except.ok.inj s1)
    rw [← q1, ← q2]
    unfold pixelAt
    refine picked_pixel fun c hcc => ?_
    have hs : sizeFor P.data P.channels = ⟨spec.width, spec.height, P.channels⟩ := by
      rw [h7]; unfold sizeFor; dsimp only; rw [BlockSize.mk.injEq]
      exact ⟨by omega, by omega, rfl⟩
    obtain ⟨g1, g2, g3, g4⟩ := hx
    rw [h7] at g1 g2 g3 g4
    dsimp only at g1 g2 g3 g4
    have := h.pixels spec t h2 h4 P.channels (List.replicate k (whiteElem t))
      (x - (spec.x + spec.fullX)) (y - (spec.y + spec.fullY)) c (by omega) (by omega) (by omega)
      (by omega) (by omega) (by exact_mod_cast hcc) (by
        rw [show spec.x + spec.fullX + (x - (spec.x + spec.fullX)) = x by omega,
          show spec.y + spec.fullY + (y - (spec.y + spec.fullY)) = y by omega]; exact hk)
    unfold channelAt at this
    rw [hs, List.getElem?_map, List.getElem?_map]
    have hi : (((y - (spec.y + spec.fullY)) * spec.width + (x - (spec.x + spec.fullX))) *
        (P.channels : Int) + (c : Int)).toNat =
        ((y - P.data.minY) * (P.data.maxX - P.data.minX) + (x - P.data.minX)).toNat * P.channels
          + c := by
      rw [h7]
      dsimp only
      rw [show spec.x + spec.width + spec.fullX - (spec.x + spec.fullX) = spec.width by omega]
      have hn : 0 ≤ (y - (spec.y + spec.fullY)) * spec.width :=
        Int.mul_nonneg (by omega) (by omega)
      generalize (y - (spec.y + spec.fullY)) * spec.width = m at hn
      have : 0 ≤ m + (x - (spec.x + spec.fullX)) := by omega
      generalize m + (x - (spec.x + spec.fullX)) = m at this
      obtain ⟨m, rfl⟩ := Int.eq_ofNat_of_zero_le this
      norm_cast
    rw [← hi, this]
  rw [← e] at b
  exact graded_unique a b

/-- C131: in a graph whose nodes do not move pixels, sources that are the same in `K` make pictures
that are the same in `K`. -/
theorem C131_pictures {K : Int → Int → Prop} {lib lib' : NodeLib F H} {srt : EdgeSort}
    {g : Graph (Node F) (Stream F H)} (hg : Sound g) {start : Nat}
    (hs : g.graph.contains start = true) {order d : List Nat}
    (hi : SInv g.graph start order ⟨[], d⟩) (ht : Topo g.graph order) {frame : F}
    {pic pic' : Nat → Layer F} (hp : Pictures lib srt g start frame pic)
    (hp' : Pictures lib' srt g start frame pic')
    (hn : ∀ i n, Upstream g.graph start i → g.nodes[i]? = some n → PixelByPixel n)
    (hr : ∀ i n, Upstream g.graph start i → g.nodes[i]? = some n → n.attrs.nodeType = .readImage →
      filePath lib n frame = filePath lib' n frame ∧ SameFileOn K lib lib' (filePath lib n frame)) :
    ∀ i, Upstream g.graph start i → SameLayerOn K (pic i) (pic' i) := by
  have key : ∀ k i, order.length - order.idxOf i ≤ k → Upstream g.graph start i →
      SameLayerOn K (pic i) (pic' i) := by
    intro k
    induction k with
    | zero =>
      intro i hk hu
      have := List.idxOf_lt_length_of_mem ((hi.final_mem i).mpr hu)
      omega
    | succ k ih =>
      intro i hk hu
      have hlive := hg.upstream_live hs hu
      obtain ⟨n, hni⟩ : ∃ n, g.nodes[i]? = some n := by
        exact ⟨_, List.getElem?_eq_getElem (hg.live i hlive)⟩
      have a := hp i n _ hu hni (hg.direct srt hlive)
      have b := hp' i n _ hu hni (hg.direct srt hlive)
      refine makes_local (hn i n hu hni) a b ?_ ?_
      · rw [List.forall₂_map_left_iff, List.forall₂_map_right_iff, List.forall₂_same]
        intro u hmem
        obtain ⟨hf, hne⟩ := (hg.mem_parents srt).mp hmem
        have := ht i ((hi.final_mem i).mpr hu) u hf hne
        have h2 := List.idxOf_lt_length_of_mem ((hi.final_mem u).mpr (.step hu hf))
        exact ih u (by omega) (.step hu hf)
      · intro hnt
        obtain ⟨e, hsf⟩ := hr i n hu hni hnt
        have fa := read_isFile hnt a
        have fb := read_isFile hnt b
        rw [← e] at fb
        exact C131_file hsf fa fb
  exact fun i hu => key _ i (Nat.le_refl _) hu

variable [FloatBits F] in
/-- C131: two executions of a graph whose nodes do not move pixels, over disks with sources that are
the same in `K`, put out pictures that are the same in `K`. -/
theorem C131_execution (p : Profile) {K : Int → Int → Prop} (lib lib' : NodeLib F H) (srt : EdgeSort)
    {g : Graph (Node F) (Stream F H)} {r r' : Bool} (h : Reach (nodeSem p lib) srt r g)
    (h' : Reach (nodeSem p lib') srt r' g)
    {id start : Nat} (hid : At g id start) (hs : g.graph.contains start = true)
    {frames : List F} {frame : F} (hlast : frames.getLast? = some frame)
    {pic pic' : F → Nat → Layer F}
    (hp : ∀ fr ∈ frames, Pictures lib srt g start fr (pic fr))
    (hp' : ∀ fr ∈ frames, Pictures lib' srt g start fr (pic' fr))
    (hn : ∀ i n, Upstream g.graph start i → g.nodes[i]? = some n → PixelByPixel n)
    (hr : ∀ i n, Upstream g.graph start i → g.nodes[i]? = some n → n.attrs.nodeType = .readImage →
      filePath lib n frame = filePath lib' n frame ∧ SameFileOn K lib lib' (filePath lib n frame))
    {w1 w2 w3 w4 : World F H} (hw : IsOff w1) (hw' : IsOff w3) {fuel fuel' : Nat}
    {st st' : ExecuteStatus} {g1 g2 : Graph (Node F) (Stream F H)}
    (hx : g.execute (nodeSem p lib) srt fuel id frames w1 = .ok (st, g1, w2))
    (hx' : g.execute (nodeSem p lib') srt fuel' id frames w3 = .ok (st', g2, w4)) :
    ∃ P P', Still lib.bake.color g1.output P ∧ Still lib'.bake.color g2.output P' ∧
      SameInside K P P' := by
  obtain ⟨order, d, e, hi⟩ := order_of_reach h hs
  have ht := execute_topo h.inv.sound hid hs (fun e => by rw [e] at hlast; cases hlast) hx e hi
  have hf : frame ∈ frames := List.mem_of_getLast? hlast
  obtain ⟨-, -, a⟩ := C87_graph_returns_partial p lib srt h hid hs hlast hp hw hx
  obtain ⟨-, -, b⟩ := C87_graph_returns_partial p lib' srt h' hid hs hlast hp' hw' hx'
  exact ⟨_, _, a.1, b.1, (C131_pictures h.inv.sound hs hi ht (hp frame hf) (hp' frame hf) hn hr
    start .refl).1⟩

end

/-! ### Examples -/

attribute [local instance] finFloat finBits finHalf finPi

/-- A file of two white pixels in linear light; the red of the second one is something else. -/
def stripFiles (b : Fin 256) : NodeLib (Fin 256) (Fin 256) :=
  { twoFiles with
    oiio := { twoFiles.oiio with
      header := fun _ => some { plainFile 2 with colorSpace := colorSpaceLinear }
      pixels := fun _ _ t size old => match t, old with
        | .f32, old => old.set size.numChannels.toNat b
        | _, old => old
      pixels_length := fun _ _ t _ old => by
        cases t <;> first | rfl | exact List.length_set } }

/-- Reading, and cropping to a wider window. -/
def readWiden : Graph (Node (Fin 256)) (Stream (Fin 256) (Fin 256)) :=
  ⟨[⟨1, .uninitialized, .readImage readAttrs⟩,
    ⟨2, .uninitialized, .cropImage { pixelCrop with windowMinX := -1, windowMaxX := 2, reformat := 1 }⟩],
    [1, 2], ⟨[some 1, some 2], [], [⟨0, 1, 0⟩]⟩, .new, .dirty, .uninitialized⟩

theorem readWiden_reach (b : Fin 256) :
    Reach (nodeSem .debug (stripFiles b)) insSort false readWiden :=
  .connect 1 2 0 (.add ⟨2, .uninitialized, .cropImage { pixelCrop with
    windowMinX := -1, windowMaxX := 2, reformat := 1 }⟩
    (.add ⟨1, .uninitialized, .readImage readAttrs⟩ (.new .new) rfl) rfl) rfl

theorem readWiden_at : At readWiden 2 1 := by
  refine ⟨rfl, ?_⟩
  intro j hj
  rcases j with _ | j <;> first | decide | omega

/-- The two pixels, and the two pixels with a black one on their left. -/
def stripLayers (b : Fin 256) (i : Nat) : Layer (Fin 256) :=
  ⟨if i = 0 then ⟨⟨0, 0, 2, 1⟩, ⟨0, 0, 2, 1⟩, 3, colorSpaceLinear,
      fun x _ => if x = 0 then [1, 1, 1] else [b, 1, 1]⟩
    else ⟨⟨-1, 0, 2, 1⟩, ⟨-1, 0, 2, 1⟩, 3, colorSpaceLinear,
      fun x _ => if x = 0 then [1, 1, 1] else if x = 1 then [b, 1, 1] else [0, 0, 0]⟩, []⟩

theorem strip_file (b : Fin 256) (path : Bytes) :
    IsFile (stripFiles b) path (stripLayers b 0).still := by
  refine ⟨_, .f32, 6, [1, 1, 1, b, 1, 1], rfl, rfl, by constructor <;> decide, rfl, .inl rfl, rfl,
    rfl, rfl, rfl, rfl, ⟨[1, 1, 1, b, 1, 1], rfl, ?_, ?_⟩, rfl, ?_⟩
  · intro _; rfl
  · intro _; rfl
  · rintro x y ⟨h1, h2, h3, h4⟩
    have hy : y = 0 := by change (0 : Int) ≤ y at h3; change y < 1 at h4; omega
    have hx : x = 0 ∨ x = 1 := by change (0 : Int) ≤ x at h1; change x < 2 at h2; omega
    subst hy
    rcases hx with rfl | rfl
    · exact ⟨[1, 1, 1], by revert b; decide +kernel, .nil _⟩
    · exact ⟨[b, 1, 1], by revert b; decide +kernel, .nil _⟩

theorem strip_cropped (b : Fin 256) :
    IsCropped ⟨-1, 0, 2, 1⟩ true (stripLayers b 0).still (stripLayers b 1).still := by
  refine ⟨rfl, rfl, rfl, rfl, ?_⟩
  rintro x y ⟨h1, h2, h3, h4⟩
  have hy : y = 0 := by change (0 : Int) ≤ y at h3; change y < 1 at h4; omega
  have hx : x = -1 ∨ x = 0 ∨ x = 1 := by change (-1 : Int) ≤ x at h1; change x < 2 at h2; omega
  subst hy
  rcases hx with rfl | rfl | rfl
  · exact ⟨[0, 0, 0], by revert b; decide +kernel, .nil _⟩
  · exact ⟨[1, 1, 1], by revert b; decide +kernel, .nil _⟩
  · exact ⟨[b, 1, 1], by revert b; decide +kernel, .nil _⟩

theorem stripPictures_ok (b frame : Fin 256) :
    Pictures (stripFiles b) insSort readWiden 1 frame (stripLayers b) := by
  intro i n ins _ hn hins
  rcases i with _ | _ | i
  · cases hn
    cases hins
    exact .read rfl (by decide) (strip_file b _)
  · cases hn
    cases hins
    exact .crop rfl rfl (by decide) (rests_refl _ _) rfl
      (show ValidSize ⟨3, 1, 3⟩ by unfold ValidSize; decide) (strip_cropped b)
  · cases hn

/-- The files are the same in the first column. -/
theorem strip_same (b b' : Fin 256) (path : Bytes) :
    SameFileOn (fun x _ => x = 0) (stripFiles b) (stripFiles b') path := by
  refine ⟨rfl, fun spec h => by cases h; rfl, fun spec t h1 h2 channels init x y c k1 k2 k3 k4 k5 k6
    k7 => ?_⟩
  cases h1
  cases h2
  have hy : y = 0 := by change y < 1 at k4; omega
  have hx : x = 0 := by change (0 : Int) + 0 + x = 0 at k7; omega
  subst hy hx
  have key : ∀ l : List (Fin 256), (l.set channels.toNat b)[((0 * 2 + 0) * channels + c).toNat]? =
      (l.set channels.toNat b')[((0 * 2 + 0) * channels + c).toNat]? := fun l => by
    rw [List.getElem?_set_ne (by omega), List.getElem?_set_ne (by omega)]
  exact key init

/-- The hypotheses of C131 are met: reading and cropping two files that differ in the second
column. -/
example : ∃ g1 w1 g2 w2 P P',
    readWiden.execute (nodeSem .debug (stripFiles 5)) insSort 20 2 [1] noCache =
      .ok (.success, g1, w1) ∧
    readWiden.execute (nodeSem .debug (stripFiles 6)) insSort 20 2 [1] noCache =
      .ok (.success, g2, w2) ∧
    Still (stripFiles 5).bake.color g1.output P ∧ Still (stripFiles 6).bake.color g2.output P' ∧
    SameInside (fun x _ => x = 0) P P' := by
  obtain ⟨g1, w1, e1⟩ : ∃ g1 w1, readWiden.execute (nodeSem .debug (stripFiles 5)) insSort 20 2 [1]
      noCache = .ok (.success, g1, w1) := ⟨_, _, rfl⟩
  obtain ⟨g2, w2, e2⟩ : ∃ g1 w1, readWiden.execute (nodeSem .debug (stripFiles 6)) insSort 20 2 [1]
      noCache = .ok (.success, g1, w1) := ⟨_, _, rfl⟩
  obtain ⟨P, P', h⟩ := C131_execution .debug (K := fun x _ => x = 0) (stripFiles 5) (stripFiles 6)
    insSort (readWiden_reach 5) (readWiden_reach 6) readWiden_at rfl (frames := [1]) (frame := 1) rfl
    (pic := fun _ => stripLayers 5) (pic' := fun _ => stripLayers 6)
    (fun fr _ => stripPictures_ok 5 fr) (fun fr _ => stripPictures_ok 6 fr)
    (by
      intro i n _ hn
      rcases i with _ | _ | i
      · cases hn; exact ⟨by decide, by decide⟩
      · cases hn; exact ⟨by decide, by decide⟩
      · cases hn)
    (fun i n _ _ _ => ⟨rfl, strip_same 5 6 _⟩) noCache_off noCache_off e1 e2
  exact ⟨g1, w1, g2, w2, P, P', e1, e2, h⟩

/-- The pictures do differ, in the second column. -/
example : (stripLayers 5 1).still.at_ 1 0 ≠ (stripLayers 6 1).still.at_ 1 0 := by decide

end OCG.Props
