import Verif.Spec.Moved
import Verif.Props.Local
/-
C132: where a picture lies does not matter.
-/

namespace OCG.Props

open GraphSpec LocalSpec MovedSpec PictureSpec ImageSpecs ComputeSpec BBoxSpec BlockSpec ColorSpec PixelSpec
open CacheSpec (IsOff)

section
variable {F H : Type} [FloatLike F]

theorem has_moved {dx dy : Int} {w : BBox} {x y : Int} :
    Has (moved dx dy w) (x + dx) (y + dy) ↔ Has w x y := by
  unfold Has moved
  dsimp only
  constructor <;> (rintro ⟨a, b, c, d⟩; refine ⟨?_, ?_, ?_, ?_⟩ <;> omega)

theorem moved_pixel {dx dy : Int} {P Q : Picture F} (h : Moved dx dy P Q) (x y : Int) :
    Q.pixel (x + dx) (y + dy) = P.pixel x y := by
  unfold Picture.pixel
  rw [h.data, h.channels]
  by_cases hx : Has P.data x y
  · rw [if_pos hx, if_pos (has_moved.mpr hx), h.pixels x y hx]
  · rw [if_neg hx, if_neg (fun k => hx (has_moved.mp k))]

theorem moved_value {dx dy : Int} {P Q : Picture F} (h : Moved dx dy P Q) (x y : Int) :
    Q.value (x + dx) (y + dy) = P.value x y := by
  funext c
  unfold Picture.value
  rw [moved_pixel h]

variable [FloatConst F] [HalfLike F H]

/-- Pictures without deformers rest as they are. -/
theorem moved_rests {dx dy : Int} {lib lib' : NodeLib F H} {L L' : Layer F}
    {R R' : Picture F} (h : Moved dx dy L.still L'.still) (h1 : L.moves = []) (h2 : L'.moves = [])
    (hR : Rests lib L R) (hR' : Rests lib' L' R') : Moved dx dy R R' := by
  unfold Rests at hR hR'
  rw [h1] at hR
  rw [h2] at hR'
  obtain ⟨d1, e1⟩ := hR.still (fun d hd => nomatch hd)
  obtain ⟨d2, e2⟩ := hR'.still (fun d hd => nomatch hd)
  refine ⟨by rw [d1, d2, h.data],
    by rw [hR.channels, hR'.channels, h.channels], by rw [hR.space, hR'.space, h.space],
    fun x y hx => ?_⟩
  rw [d1] at hx
  rw [e1 x y hx, e2 _ _ (by rw [h.data]; exact has_moved.mpr hx), h.pixels x y hx]

/-- The layers have no deformers waiting, and the picture of one is that of the other, moved. -/
def MovedLayer (dx dy : Int) (L L' : Layer F) : Prop :=
  Moved dx dy L.still L'.still ∧ L.moves = [] ∧ L'.moves = []

omit [FloatConst F] in
theorem merged_moved {dx dy : Int} {mode : MergeImageMode} {mix : F} {A B Q A' B' Q' : Picture F}
    (hQ : IsMerged mode mix A B Q) (hQ' : IsMerged mode mix A' B' Q') (kA : Moved dx dy A A')
    (kB : Moved dx dy B B') : Q'.data = moved dx dy Q.data := by
  rw [hQ'.data, kA.data, kB.data, hQ.data]
  unfold moved
  simp only [BBox.mk.injEq]
  omega

/-- A crop whose window moves along makes a moved picture. -/
theorem crop_moved {dx dy : Int} {lib lib' : NodeLib F H} {fr : F} {n n' : Node F}
    {Ls Ls' : List (Layer F)} {L L' : Layer F} (hc : n.attrs.nodeType = .cropImage)
    (hc' : n'.attrs.nodeType = .cropImage)
    (hsame : ∀ name, name ∉ windowNames → n'.getI32 name = n.getI32 name)
    (hwin : cropWindow n' = moved dx dy (cropWindow n)) (h1 : Makes lib fr n Ls L)
    (h2 : Makes lib' fr n' Ls' L') (hin : List.Forall₂ (MovedLayer dx dy) Ls Ls') :
    MovedLayer dx dy L L' := by
  have one : ∀ {A B : Layer F}, List.Forall₂ (MovedLayer dx dy) [A] [B] → MovedLayer dx dy A B :=
    fun h => (List.forall₂_cons.mp h).1
  have en := hsame "enable" (by decide)
  cases h1 with
  | crop ht he hb hR hs hv hQ =>
    cases h2 with
    | crop ht' he' hb' hR' hs' hv' hQ' =>
      obtain ⟨h3, h4, h5⟩ := one hin
      have h6 := moved_rests h3 h4 h5 hR hR'
      refine ⟨⟨by rw [hQ.data, hQ'.data, hwin],
        by rw [hQ.channels, hQ'.channels, h6.channels], by rw [hQ.space, hQ'.space, h6.space],
        fun x y hx => ?_⟩, rfl, rfl⟩
      dsimp only at hx
      rw [hQ.data] at hx
      have a := hQ.pixels x y hx
      have b := hQ'.pixels (x + dx) (y + dy) (by rw [hwin]; exact has_moved.mpr hx)
      rw [h6.channels, moved_pixel h6] at b
      exact graded_unique b a
    | off _ he' => rw [en, he] at he'; exact absurd he' (by decide)
    | _ => first | exact (type_clash hc' (by assumption) (by decide)).elim | (simp [hc'] at *; done)
  | off ht he =>
    cases h2 with
    | off => exact one hin
    | crop _ he' => rw [en, he] at he'; exact absurd he' (by decide)
    | _ => first | exact (type_clash hc' (by assumption) (by decide)).elim | (simp [hc'] at *; done)
  | _ => first | exact (type_clash hc (by assumption) (by decide)).elim | (simp [hc] at *; done)

/-- A node that does not move pixels makes moved pictures of moved pictures. -/
theorem makes_moved {dx dy : Int} {lib lib' : NodeLib F H} {fr : F} {n : Node F}
    {Ls Ls' : List (Layer F)} {L L' : Layer F} (hp : PixelByPixel n)
    (hc : n.attrs.nodeType ≠ .cropImage) (h1 : Makes lib fr n Ls L)
    (h2 : Makes lib' fr n Ls' L') (hin : List.Forall₂ (MovedLayer dx dy) Ls Ls')
    (hr : n.attrs.nodeType = .readImage → Moved dx dy L.still L'.still) : MovedLayer dx dy L L' := by
  have one : ∀ {A B : Layer F}, List.Forall₂ (MovedLayer dx dy) [A] [B] → MovedLayer dx dy A B :=
    fun h => (List.forall₂_cons.mp h).1
  cases h1 with
  | null ht =>
    cases h2 <;> first
      | exact one hin
      | exact (type_clash ht (by assumption) (by decide)).elim
      | (simp [ht] at *; done)
  | read ht =>
    cases h2 <;> first
      | exact ⟨hr ht, rfl, rfl⟩
      | exact (type_clash ht (by assumption) (by decide)).elim
      | (simp [ht] at *; done)
  | grade ht hg ho hQ =>
    cases h2 with
    | grade ht' hg' ho' hQ' =>
      obtain ⟨h3, h4, h5⟩ := one hin
      dsimp only at h3 h4 h5
      rw [gradeOf_unique ht ho' ho] at hQ'
      refine ⟨⟨by rw [hQ.data, hQ'.data, h3.data], 
        by rw [hQ.channels, hQ'.channels, h3.channels], by rw [hQ.space, hQ'.space, h3.space],
        fun x y hx => ?_⟩, h4, h5⟩
      dsimp only at hx
      rw [hQ.data] at hx
      have a := hQ.pixels x y hx
      have b := hQ'.pixels (x + dx) (y + dy) (by rw [h3.data]; exact has_moved.mpr hx)
      rw [h3.channels, h3.pixels x y hx] at b
      exact carried_once_unique b a
    | gradeOff _ hg' => exact absurd hg hg'
    | _ => first | exact (type_clash ht (by assumption) (by decide)).elim | (simp [ht] at *; done)
  | gradeOff ht hg =>
    cases h2 with
    | grade _ hg' => exact absurd hg' hg
    | gradeOff => exact one hin
    | _ => first | exact (type_clash ht (by assumption) (by decide)).elim | (simp [ht] at *; done)
  | transform ht he => exact absurd he (hp.1 (.inl ht))
  | lens ht he => exact absurd he (hp.1 (.inr ht))
  | resample ht he hf => exact absurd (hp.2 ht) (by simp [he, hf])
  | off ht he =>
    cases h2 with
    | off => exact one hin
    | transform _ he' => exact absurd (he.symm.trans he') (by decide)
    | lens _ he' => exact absurd (he.symm.trans he') (by decide)
    | resample _ he' => exact absurd (he.symm.trans he') (by decide)
    | resampleIdle _ he' => exact absurd (he.symm.trans he') (by decide)
    | crop _ he' => exact absurd (he.symm.trans he') (by decide)
    | null ht' => simp [ht'] at ht
    | read ht' => simp [ht'] at ht
    | grade ht' => simp [ht'] at ht
    | gradeOff ht' => simp [ht'] at ht
    | merge ht' => simp [ht'] at ht
    | viewer ht' => simp [ht'] at ht
    | viewerSpace ht' => simp [ht'] at ht
    | viewerOff ht' => simp [ht'] at ht
    | write ht' => simp [ht'] at ht
    | writeOff ht' => simp [ht'] at ht
  | resampleIdle ht he hf =>
    cases h2 with
    | resampleIdle => exact one hin
    | off _ he' => exact absurd (he.symm.trans he') (by decide)
    | resample _ _ hf' => exact absurd hf hf'
    | _ => first | exact (type_clash ht (by assumption) (by decide)).elim | (simp [ht] at *; done)
  | crop ht => exact absurd ht hc
  | merge ht he hm hA hB hd ca cb hv hQ =>
    cases h2 with
    | merge ht' he' hm' hA' hB' hd' ca' cb' hv' hQ' =>
      obtain ⟨⟨h3, h4, h5⟩, h6⟩ := List.forall₂_cons.mp hin
      obtain ⟨h7, h8, h9⟩ := one h6
      have kA := moved_rests h3 h4 h5 hA hA'
      have kB := moved_rests h7 h8 h9 hB hB'
      have hdata := merged_moved hQ hQ' kA kB
      refine ⟨⟨hdata,
        by rw [hQ.channels, hQ'.channels, kB.channels], by rw [hQ.space, hQ'.space],
        fun x y hx => ?_⟩, rfl, rfl⟩
      obtain ⟨v, s1, l1, e1⟩ := hQ.pixels x y hx
      obtain ⟨v', s2, l2, e2⟩ := hQ'.pixels (x + dx) (y + dy) (by
        rw [hdata]; exact has_moved.mpr hx)
      rw [kB.channels] at s2 l2 e2
      rw [moved_value kA, moved_value kB] at e2
      have : v = v' := by
        apply List.ext_getElem?
        intro c
        by_cases hc : c < v.length
        · rw [e1 c (by omega), e2 c (by omega)]
        · rw [List.getElem?_eq_none (by omega), List.getElem?_eq_none (by omega)]
      rw [this] at s1
      exact graded_unique s2 s1
    | _ => first | exact (type_clash ht (by assumption) (by decide)).elim | (simp [ht] at *; done)
  | viewer ht he hb hc hs ht2 hQ =>
    cases h2 with
    | viewer ht' he' hb' hc' hs' ht2' hQ' =>
      obtain ⟨h3, h4, h5⟩ := one hin
      dsimp only at h3 h4 h5
      have := (ht2 .f32).symm.trans (ht2' .f32)
      subst this
      refine ⟨⟨by rw [hQ.data, hQ'.data, h3.data], 
        by rw [hQ.channels, hQ'.channels, h3.channels], by rw [hQ.space, hQ'.space],
        fun x y hx => ?_⟩, h4, h5⟩
      dsimp only at hx
      rw [hQ.data] at hx
      have a := hQ.pixels x y hx
      have b := hQ'.pixels (x + dx) (y + dy) (by rw [h3.data]; exact has_moved.mpr hx)
      rw [h3.channels, h3.pixels x y hx] at b
      exact graded_unique b a
    | viewerSpace _ _ hb' => exact absurd (hb.symm.trans hb') (by decide)
    | viewerOff _ _ hb' => exact absurd (hb.symm.trans hb') (by decide)
    | _ => first | exact (type_clash ht (by assumption) (by decide)).elim | (simp [ht] at *; done)
  | viewerSpace ht he hb =>
    cases h2 with
    | viewer _ _ hb' => exact absurd (hb.symm.trans hb') (by decide)
    | viewerSpace => exact one hin
    | viewerOff _ _ hb' => exact absurd (hb.symm.trans hb') (by decide)
    | _ => first | exact (type_clash ht (by assumption) (by decide)).elim | (simp [ht] at *; done)
  | viewerOff ht he hb =>
    cases h2 with
    | viewer _ _ hb' => exact absurd (hb.symm.trans hb') (by decide)
    | viewerSpace _ _ hb' => exact absurd (hb.symm.trans hb') (by decide)
    | viewerOff => exact one hin
    | _ => first | exact (type_clash ht (by assumption) (by decide)).elim | (simp [ht] at *; done)
  | write ht =>
    cases h2 <;> first
      | exact one hin
      | exact (type_clash ht (by assumption) (by decide)).elim
      | (simp [ht] at *; done)
  | writeOff ht =>
    cases h2 <;> first
      | exact one hin
      | exact (type_clash ht (by assumption) (by decide)).elim
      | (simp [ht] at *; done)




/-- C132: an image stored with another position is read as the picture, moved. -/
theorem C132_file {dx dy : Int} {lib lib' : NodeLib F H} {path : Bytes} {P P' : Picture F}
    (h : MovedFile dx dy lib lib' path) (hlib : lib'.bake.color = lib.bake.color)
    (hP : IsFile lib path P) (hP' : IsFile lib' path P') : Moved dx dy P P' := by
  obtain ⟨spec, t, k, v, -, h2, h3, h4, h5, h6, h7, h8, h9, h10, ⟨raw, r1, r2, r3⟩, h12, h13⟩ := hP
  obtain ⟨spec', t', k', v', -, i2, i3, i4, i5, i6, i7, i8, i9, i10, ⟨raw', s1, s2, s3⟩, i12, i13⟩ :=
    hP'
  obtain ⟨spec0, hd0, hd1⟩ := h.header
  have := Option.some.inj (h2.symm.trans hd0)
  subst this
  have := Option.some.inj (i2.symm.trans hd1)
  subst this
  dsimp only at i4 i6 i7 i8 i9 s1 s2 s3
  have := h4.symm.trans i4
  injection this with this
  subst this
  have hc : P'.channels = P.channels := by omega
  have hd : P'.data = moved dx dy P.data := by
    rw [i7, h7]
    unfold moved
    simp only [BBox.mk.injEq]
    omega
  have hsize : ∀ c, sizeFor (moved dx dy P.data) c = sizeFor P.data c := by
    intro c
    unfold sizeFor moved
    dsimp only
    rw [BlockSize.mk.injEq]
    exact ⟨by omega, by omega, rfl⟩
  rw [hc, hd, hsize] at i10 s1
  have : k = k' := by omega
  subst this
  rw [h.pixels, r1] at s1
  have : raw = raw' := congrArg (fun b : PixelBlock F H => match b with
      | ⟨_, ⟨.f32, d⟩⟩ => d | _ => []) (Except.ok.inj s1)
  subst this
  have hv : v' = v := by
    by_cases hl : spec.colorSpace = colorSpaceLinear
    · rw [r2 hl, s2 hl]
    · rw [r3 hl, s3 hl, hlib, hc, hd]
      unfold moved
      dsimp only
      rw [show P.data.maxX + dx - (P.data.minX + dx) = P.data.maxX - P.data.minX by omega,
        show P.data.maxY + dy - (P.data.minY + dy) = P.data.maxY - P.data.minY by omega]
  subst hv
  refine ⟨hd, hc, i9.trans h9.symm, fun x y hx => ?_⟩
  have a := h13 x y hx
  have b := i13 (x + dx) (y + dy) (by rw [hd]; exact has_moved.mpr hx)
  rw [hc, hd] at b
  have e : pixelAt (moved dx dy P.data) P.channels v' (x + dx) (y + dy) =
      pixelAt P.data P.channels v' x y := by
    unfold pixelAt moved
    dsimp only
    rw [show y + dy - (P.data.minY + dy) = y - P.data.minY by omega,
      show x + dx - (P.data.minX + dx) = x - P.data.minX by omega,
      show P.data.maxX + dx - (P.data.minX + dx) = P.data.maxX - P.data.minX by omega]
  rw [e] at b
  exact graded_unique b a

/-- C132: in graphs whose nodes do not move pixels, sources that are moved, with the crops moving
along, make pictures that are moved. -/
theorem C132_pictures {dx dy : Int} {lib lib' : NodeLib F H} {srt : EdgeSort}
    {g g' : Graph (Node F) (Stream F H)} (hg : Sound g) (hsame : g'.graph = g.graph) {start : Nat}
    (hs : g.graph.contains start = true) {order d : List Nat}
    (hi : SInv g.graph start order ⟨[], d⟩) (ht : Topo g.graph order) {frame : F}
    {pic pic' : Nat → Layer F} (hp : Pictures lib srt g start frame pic)
    (hp' : Pictures lib' srt g' start frame pic')
    (hlib : lib'.bake.color = lib.bake.color)
    (hn : ∀ i n, Upstream g.graph start i → g.nodes[i]? = some n → PixelByPixel n ∧
      ∃ n', g'.nodes[i]? = some n' ∧ MovedNode dx dy n n')
    (hr : ∀ i n, Upstream g.graph start i → g.nodes[i]? = some n → n.attrs.nodeType = .readImage →
      filePath lib' n frame = filePath lib n frame ∧ MovedFile dx dy lib lib' (filePath lib n frame)) :
    ∀ i, Upstream g.graph start i → MovedLayer dx dy (pic i) (pic' i) := by
  have key : ∀ k i, order.length - order.idxOf i ≤ k → Upstream g.graph start i →
      MovedLayer dx dy (pic i) (pic' i) := by
    intro k
    induction k with
    | zero =>
      intro i hk hu
      have := List.idxOf_lt_length_of_mem ((hi.final_mem i).mpr hu)
      omega
    | succ k ih =>
      intro i hk hu
      have hlive := hg.upstream_live hs hu
      obtain ⟨n, hni⟩ : ∃ n, g.nodes[i]? = some n := by
        exact ⟨_, List.getElem?_eq_getElem (hg.live i hlive)⟩
      obtain ⟨hpp, n', hni', hmv⟩ := hn i n hu hni
      have a := hp i n _ hu hni (hg.direct srt hlive)
      have b := hp' i n' _ (by rw [hsame]; exact hu) hni' (by rw [hsame]; exact hg.direct srt hlive)
      have hin : List.Forall₂ (MovedLayer dx dy) ((parents srt g.graph i).map pic)
          ((parents srt g.graph i).map pic') := by
        rw [List.forall₂_map_left_iff, List.forall₂_map_right_iff, List.forall₂_same]
        intro u hmem
        obtain ⟨hf, hne⟩ := (hg.mem_parents srt).mp hmem
        have := ht i ((hi.final_mem i).mpr hu) u hf hne
        have h2 := List.idxOf_lt_length_of_mem ((hi.final_mem u).mpr (.step hu hf))
        exact ih u (by omega) (.step hu hf)
      rcases hmv with ⟨hc, rfl⟩ | ⟨hc, hc', hw, hwin⟩
      · refine makes_moved hpp hc a b hin ?_
        intro hnt
        obtain ⟨e, hsf⟩ := hr i _ hu hni hnt
        have fa := read_isFile hnt a
        have fb := read_isFile hnt b
        rw [e] at fb
        exact C132_file hsf hlib fa fb
      · exact crop_moved hc hc' hw hwin a b hin
  exact fun i hu => key _ i (Nat.le_refl _) hu

variable [FloatBits F] in
/-- C132: executing two graphs that differ only in where their crops are, over disks that differ in
where the images are placed, gives pictures that differ only in where they are. -/
theorem C132_execution (p : Profile) {dx dy : Int} (lib lib' : NodeLib F H) (srt : EdgeSort)
    {g g' : Graph (Node F) (Stream F H)} {r r' : Bool} (h : Reach (nodeSem p lib) srt r g)
    (h' : Reach (nodeSem p lib') srt r' g') (hsame : g'.graph = g.graph)
    {id id' start : Nat} (hid : At g id start) (hid' : At g' id' start)
    (hs : g.graph.contains start = true)
    {frames : List F} {frame : F} (hlast : frames.getLast? = some frame)
    {pic pic' : F → Nat → Layer F}
    (hp : ∀ fr ∈ frames, Pictures lib srt g start fr (pic fr))
    (hp' : ∀ fr ∈ frames, Pictures lib' srt g' start fr (pic' fr))
    (hlib : lib'.bake.color = lib.bake.color)
    (hn : ∀ i n, Upstream g.graph start i → g.nodes[i]? = some n → PixelByPixel n ∧
      ∃ n', g'.nodes[i]? = some n' ∧ MovedNode dx dy n n')
    (hr : ∀ i n, Upstream g.graph start i → g.nodes[i]? = some n → n.attrs.nodeType = .readImage →
      filePath lib' n frame = filePath lib n frame ∧ MovedFile dx dy lib lib' (filePath lib n frame))
    {w1 w2 w3 w4 : World F H} (hw : IsOff w1) (hw' : IsOff w3) {fuel fuel' : Nat}
    {st st' : ExecuteStatus} {g1 g2 : Graph (Node F) (Stream F H)}
    (hx : g.execute (nodeSem p lib) srt fuel id frames w1 = .ok (st, g1, w2))
    (hx' : g'.execute (nodeSem p lib') srt fuel' id' frames w3 = .ok (st', g2, w4)) :
    ∃ P P', Still lib.bake.color g1.output P ∧ Still lib'.bake.color g2.output P' ∧
      Moved dx dy P P' := by
  obtain ⟨order, d, e, hi⟩ := order_of_reach h hs
  have ht := execute_topo h.inv.sound hid hs (fun e => by rw [e] at hlast; cases hlast) hx e hi
  have hf : frame ∈ frames := List.mem_of_getLast? hlast
  obtain ⟨-, -, a⟩ := C87_graph_returns_partial p lib srt h hid hs hlast hp hw hx
  obtain ⟨-, -, b⟩ := C87_graph_returns_partial p lib' srt h' hid' (by rw [hsame]; exact hs) hlast
    hp' hw' hx'
  exact ⟨_, _, a.1, b.1, (C132_pictures h.inv.sound hsame hs hi ht (hp frame hf) (hp' frame hf) hlib
    hn hr start .refl).1⟩

end

/-! ### Examples -/

attribute [local instance] finFloat finBits finHalf finPi

/-- The white pixel in linear light, stored three columns to the right. -/
def rightFiles : NodeLib (Fin 256) (Fin 256) :=
  { linearFiles with
    oiio := { linearFiles.oiio with
      header := fun _ => some { plainFile 1 with colorSpace := colorSpaceLinear, x := 0 + 3, y := 0 + 0 } } }

/-- The nodes of `readCropWrite`, with the crop three columns to the right. -/
def readCropRight : Graph (Node (Fin 256)) (Stream (Fin 256) (Fin 256)) :=
  ⟨[⟨1, .uninitialized, .readImage readAttrs⟩,
    ⟨2, .uninitialized, .cropImage { pixelCrop with windowMinX := 2, windowMaxX := 4, reformat := 1 }⟩,
    ⟨3, .uninitialized, writeNode.attrs⟩], [1, 2, 3],
    ⟨[some 1, some 2, some 3], [], [⟨1, 2, 0⟩, ⟨0, 1, 0⟩]⟩, .new, .dirty, .uninitialized⟩

theorem readCropRight_reach : Reach (nodeSem .debug rightFiles) insSort false readCropRight :=
  .connect 2 3 0 (.connect 1 2 0 (.add ⟨3, .uninitialized, writeNode.attrs⟩
    (.add ⟨2, .uninitialized, .cropImage { pixelCrop with windowMinX := 2, windowMaxX := 4, reformat := 1 }⟩
    (.add ⟨1, .uninitialized, .readImage readAttrs⟩ (.new .new) rfl) rfl) rfl) rfl) rfl

/-- The white pixel, and the white pixel with a black one on its left. -/
def rightLayers (i : Nat) : Layer (Fin 256) :=
  ⟨if i = 0 then ⟨⟨3, 0, 4, 1⟩, ⟨0, 0, 1, 1⟩, 3, colorSpaceLinear, fun _ _ => [1, 1, 1]⟩
  else ⟨⟨2, 0, 4, 1⟩, ⟨2, 0, 4, 1⟩, 3, colorSpaceLinear,
    fun x _ => if x = 3 then [1, 1, 1] else [0, 0, 0]⟩, []⟩

theorem right_file (path : Bytes) : IsFile rightFiles path (rightLayers 0).still := by
  refine ⟨_, .f32, 3, [1, 1, 1], rfl, rfl, by constructor <;> decide, rfl, .inl rfl, rfl,
    rfl, rfl, rfl, rfl, ⟨[1, 1, 1], rfl, ?_, ?_⟩, rfl, ?_⟩
  · intro _; rfl
  · intro _; rfl
  · rintro x y ⟨h1, h2, h3, h4⟩
    have hy : y = 0 := by change (0 : Int) ≤ y at h3; change y < 1 at h4; omega
    have hx : x = 3 := by change (3 : Int) ≤ x at h1; change x < 4 at h2; omega
    subst hy hx
    exact ⟨[1, 1, 1], by decide +kernel, .nil _⟩

theorem right_cropped : IsCropped ⟨2, 0, 4, 1⟩ true (rightLayers 0).still (rightLayers 1).still := by
  refine ⟨rfl, rfl, rfl, rfl, ?_⟩
  rintro x y ⟨h1, h2, h3, h4⟩
  have hy : y = 0 := by change (0 : Int) ≤ y at h3; change y < 1 at h4; omega
  have hx : x = 2 ∨ x = 3 := by change (2 : Int) ≤ x at h1; change x < 4 at h2; omega
  subst hy
  rcases hx with rfl | rfl
  · exact ⟨[0, 0, 0], by decide +kernel, .nil _⟩
  · exact ⟨[1, 1, 1], by decide +kernel, .nil _⟩

theorem rightPictures_ok (frame : Fin 256) :
    Pictures rightFiles insSort readCropRight 2 frame rightLayers := by
  intro i n ins _ hn hins
  rcases i with _ | _ | _ | i
  · cases hn
    cases hins
    exact .read rfl (by decide) (right_file _)
  · cases hn
    cases hins
    exact .crop rfl rfl (by decide) (rests_refl _ _) rfl
      (show ValidSize ⟨2, 1, 3⟩ by unfold ValidSize; decide) right_cropped
  · cases hn
    cases hins
    exact .write rfl (by decide) (by decide) (rests_refl _ _) ⟨.inl rfl, rfl, by decide, by decide,
      fun h => absurd h (by rintro (h | ⟨h, -⟩) <;> exact absurd h (by decide))⟩
  · cases hn

/-- The numbers of a crop are its settings. -/
theorem crop_names (a : CropImageAttrs) (id : Nat) (st : NodeStatus) (x x' : Int) :
    ∀ name, name ∉ windowNames →
      (⟨id, st, .cropImage { a with windowMinX := x, windowMaxX := x' }⟩ : Node (Fin 256)).getI32 name =
      (⟨id, st, .cropImage a⟩ : Node (Fin 256)).getI32 name := by
  intro name h
  have key : ∀ b : CropImageAttrs, b.enable = a.enable → b.useCache = a.useCache →
      b.reformat = a.reformat → b.intersect = a.intersect → b.blackOutside = a.blackOutside →
      b.getI32 name = a.getI32 name := by
    intro b h1 h2 h3 h4 h5
    unfold CropImageAttrs.getI32
    split <;> first | assumption | rfl | exact absurd (by decide) h
  unfold Node.getI32
  rw [show ((⟨id, st, .cropImage { a with windowMinX := x, windowMaxX := x' }⟩ : Node (Fin 256)).attrs
      |>.attrExists name) = (⟨id, st, .cropImage a⟩ : Node (Fin 256)).attrs.attrExists name from rfl]
  split
  · exact key { a with windowMinX := x, windowMaxX := x' } rfl rfl rfl rfl rfl
  · rfl

/-- The hypotheses of C132 are met: reading a pixel, cropping to a wider window, writing. -/
example : ∃ g1 w1 g2 w2 P P',
    readCropWrite.execute (nodeSem .debug linearFiles) insSort 40 3 [1] noCache =
      .ok (.success, g1, w1) ∧
    readCropRight.execute (nodeSem .debug rightFiles) insSort 40 3 [1] noCache =
      .ok (.success, g2, w2) ∧
    Still linearFiles.bake.color g1.output P ∧ Still rightFiles.bake.color g2.output P' ∧
    Moved 3 0 P P' := by
  obtain ⟨g1, w1, e1⟩ : ∃ g1 w1, readCropWrite.execute (nodeSem .debug linearFiles) insSort 40 3 [1]
      noCache = .ok (.success, g1, w1) := ⟨_, _, rfl⟩
  obtain ⟨g2, w2, e2⟩ : ∃ g1 w1, readCropRight.execute (nodeSem .debug rightFiles) insSort 40 3 [1]
      noCache = .ok (.success, g1, w1) := ⟨_, _, rfl⟩
  obtain ⟨P, P', h⟩ := C132_execution .debug (dx := 3) (dy := 0) linearFiles rightFiles insSort
    readCropWrite_reach readCropRight_reach rfl readCropWrite_at (id' := 3) (by
      refine ⟨rfl, ?_⟩
      intro j hj
      rcases j with _ | _ | j <;> first | decide | omega) rfl (frames := [1]) (frame := 1) rfl
    (pic := fun _ => whiteLayers) (pic' := fun _ => rightLayers)
    (fun fr _ => whitePictures_ok fr) (fun fr _ => rightPictures_ok fr) rfl
    (by
      intro i n _ hn
      rcases i with _ | _ | _ | i
      · cases hn; exact ⟨⟨by decide, by decide⟩, _, rfl, .inl ⟨by decide, rfl⟩⟩
      · cases hn
        exact ⟨⟨by decide, by decide⟩, _, rfl, .inr ⟨rfl, rfl,
          crop_names { pixelCrop with windowMinX := -1, reformat := 1 } 2 .uninitialized 2 4, rfl⟩⟩
      · cases hn; exact ⟨⟨by decide, by decide⟩, _, rfl, .inl ⟨by decide, rfl⟩⟩
      · cases hn)
    (fun i n _ _ _ => ⟨rfl, ⟨_, rfl, rfl⟩, fun _ _ _ _ => rfl⟩) noCache_off noCache_off e1 e2
  exact ⟨g1, w1, g2, w2, P, P', e1, e2, h⟩

end OCG.Props
