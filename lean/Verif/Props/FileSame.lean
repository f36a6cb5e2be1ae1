import Verif.Props.FileShows
import Verif.Props.Channels
import Mathlib.Data.List.Forall2
/-
Property C138, with C131 and C136: what does not differ on the disk does not differ in the files that
are written.
-/

namespace OCG.Props

open GraphSpec PictureSpec RenderSpec FileSpec BBoxSpec BlockSpec ImageSpecs LocalSpec ChannelSpec
open CacheSpec (IsOff)

section
variable {F H : Type} [FloatLike F] [HalfLike F H]

/-- Files that show pictures which are the same in places. -/
theorem files_same {K : Int → Int → Prop} {S : Nat → Prop} {t : DType} {W W' : BBox}
    {P P' : Picture F} {job job' : WriteJob F H} (hp : job.path = job'.path)
    (h : FileShows t W P job) (h' : FileShows t W' P' job')
    (hW : W = W') (hd : P.data = P'.data) (hc : P.channels = P'.channels)
    (hv : ∀ x y, K x y → Has P.data x y → ∀ c, S c → (P.at_ x y)[c]? = (P'.at_ x y)[c]?) :
    SameFile K S job job' := by
  subst hW
  refine ⟨hp, by rw [h.x, h'.x], by rw [h.y, h'.y], by rw [h.size, h'.size, hc], ?_⟩
  obtain ⟨d, e, -, k⟩ := h.values
  obtain ⟨d', e', -, k'⟩ := h'.values
  refine ⟨t, d, d', e, e', fun x y c x0 x1 y0 y1 hcc hK hS => ?_⟩
  rw [h.size] at x1 y1 hcc ⊢
  rw [h.x, h.y] at hK
  simp only [sizeFor] at x1 y1 hcc
  have hh : Has W (W.minX + x) (W.minY + y) := ⟨by omega, by omega, by omega, by omega⟩
  have hcc : c < P.channels := by omega
  have a := k _ _ c hh hcc
  have b := k' _ _ c hh (hc ▸ hcc)
  rw [← hc, ← hd] at b
  rw [show W.minX + x - W.minX = x by omega, show W.minY + y - W.minY = y by omega] at a b
  rw [a, b]
  by_cases hx : Has P.data (W.minX + x) (W.minY + y)
  · rw [if_pos hx, if_pos hx, hv _ _ hK hx c hS]
  · rw [if_neg hx, if_neg hx]

omit [HalfLike F H] in
theorem knows_type {n : Node F} (h : KnowsType n) (a b : DType) :
    wantedType (n.getI32 "pixel_data_type") a = wantedType (n.getI32 "pixel_data_type") b := by
  unfold wantedType
  rcases h with h | h | h | h <;> rw [h] <;> rfl

omit [FloatLike F] in
theorem window_same {n : Node F} {path : Bytes} {P P' : Picture F} (hd : P.data = P'.data)
    (hs : P.display = P'.display) : window n path P = window n path P' := by
  unfold window
  rw [hd, hs]

/-- Two lists of files for the same frames. -/
theorem files_pair {α β : Type} {R R' : α → β → Prop} {Q : β → β → Prop} {l : List α}
    {b b' : List β} (h : List.Forall₂ R l b) (h' : List.Forall₂ R' l b')
    (hq : ∀ a ∈ l, ∀ x y, R a x → R' a y → Q x y) : List.Forall₂ Q b b' := by
  induction h generalizing b' with
  | nil => cases h'; exact .nil
  | cons h1 _ ih =>
    cases h' with
    | cons h2 h3 =>
      exact .cons (hq _ List.mem_cons_self _ _ h1 h2)
        (ih h3 fun a ha => hq a (List.mem_cons_of_mem _ ha))

variable [FloatConst F] [FloatBits F]

/-- C138: rendering from two disks with the same images in `K`, with nodes that do not move pixels,
writes files that are the same in `K`. -/
theorem C138_local (p : Profile) {K : Int → Int → Prop} (lib lib' : NodeLib F H) (srt : EdgeSort)
    {g : Graph (Node F) (Stream F H)} {r r' : Bool} (h : Reach (nodeSem p lib) srt r g)
    (h' : Reach (nodeSem p lib') srt r' g)
    {id start : Nat} (hid : At g id start) (hs : g.graph.contains start = true)
    {frames : List F} (hne : frames ≠ []) {pic pic' : F → Nat → Layer F}
    (hp : ∀ fr ∈ frames, Pictures lib srt g start fr (pic fr))
    (hp' : ∀ fr ∈ frames, Pictures lib' srt g start fr (pic' fr))
    {n : Node F} (hn : g.nodes[start]? = some n) (hW : Writes n) (hk : KnowsType n)
    (hq : ∀ i m, Upstream g.graph start i → i ≠ start → g.nodes[i]? = some m → ¬ Writes m)
    (hl : ∀ fr ∈ frames, Linear (filePath lib n fr) ∧ filePath lib n fr = filePath lib' n fr)
    (hm : ∀ i n, Upstream g.graph start i → g.nodes[i]? = some n → PixelByPixel n)
    (hr : ∀ fr ∈ frames, ∀ i n, Upstream g.graph start i → g.nodes[i]? = some n →
      n.attrs.nodeType = .readImage →
      filePath lib n fr = filePath lib' n fr ∧ SameFileOn K lib lib' (filePath lib n fr))
    {w1 w2 w3 w4 : World F H} (hw : IsOff w1) (hw' : IsOff w3) {fuel fuel' : Nat}
    {st st' : ExecuteStatus} {g1 g2 : Graph (Node F) (Stream F H)}
    (hx : g.execute (nodeSem p lib) srt fuel id frames w1 = .ok (st, g1, w2))
    (hx' : g.execute (nodeSem p lib') srt fuel' id frames w3 = .ok (st', g2, w4)) :
    ∃ jobs jobs', w2.writes = w1.writes ++ jobs ∧ w4.writes = w3.writes ++ jobs' ∧
      jobs.length = frames.length ∧ List.Forall₂ (SameFile K (fun _ => True)) jobs jobs' := by
  obtain ⟨order, d, e, hi⟩ := order_of_reach h hs
  have ht := execute_topo h.inv.sound hid hs hne hx e hi
  obtain ⟨-, jobs, a1, a2⟩ := C138_rendered p lib srt h hid hs hp hn hW hq (fun fr hf => (hl fr hf).1)
    hw hx
  obtain ⟨-, jobs', b1, b2⟩ := C138_rendered p lib' srt h' hid hs hp' hn hW hq
    (fun fr hf => (hl fr hf).2 ▸ (hl fr hf).1) hw' hx'
  refine ⟨jobs, jobs', a1, b1, a2.length_eq.symm, files_pair a2 b2 ?_⟩
  rintro fr hf job job' ⟨u1, own, R, u2, u3⟩ ⟨v1, own', R', v2, v3⟩
  obtain ⟨k1, k2, k3⟩ := C131_pictures h.inv.sound hs hi ht (hp fr hf) (hp' fr hf) hm (hr fr hf)
    start .refl
  have k := sameInside_rests (K := K) k1 k2 k3 u2 v2
  rw [← (hl fr hf).2] at v1 v3
  rw [knows_type hk own' own] at v3
  exact files_same (u1.trans v1.symm) u3 v3 (window_same k.data k.display) k.data k.channels
    fun x y hK hx c _ => by rw [k.pixels x y hK hx]

end

section
open IeeeSpec
open Ieee hiding floor ceil round
variable [Libm single32] {H : Type} [HalfLike F32 H]

/-- C138: rendering from two disks with the same values in the channels in `S` writes files with the
same values in the channels in `S`. -/
theorem C138_channels (p : Profile) {S : Nat → Prop} (lib lib' : NodeLib F32 H)
    (ht : SameTools lib lib') (srt : EdgeSort)
    {g : Graph (Node F32) (Stream F32 H)} {r r' : Bool} (h : Reach (nodeSem p lib) srt r g)
    (h' : Reach (nodeSem p lib') srt r' g)
    {id start : Nat} (hid : At g id start) (hs : g.graph.contains start = true)
    {frames : List F32} (hne : frames ≠ []) {pic pic' : F32 → Nat → Layer F32}
    (hp : ∀ fr ∈ frames, Pictures lib srt g start fr (pic fr))
    (hp' : ∀ fr ∈ frames, Pictures lib' srt g start fr (pic' fr))
    (ho : ∀ fr ∈ frames, ∀ i, Upstream g.graph start i →
      Proper (pic fr i).still ∧ Proper (pic' fr i).still)
    {n : Node F32} (hn : g.nodes[start]? = some n) (hW : Writes n) (hk : KnowsType n)
    (hq : ∀ i m, Upstream g.graph start i → i ≠ start → g.nodes[i]? = some m → ¬ Writes m)
    (hl : ∀ fr ∈ frames, Linear (filePath lib n fr) ∧ filePath lib n fr = filePath lib' n fr)
    (hm : ∀ i n, Upstream g.graph start i → g.nodes[i]? = some n → AlphaIn S n)
    (hr : ∀ fr ∈ frames, ∀ i n, Upstream g.graph start i → g.nodes[i]? = some n →
      n.attrs.nodeType = .readImage →
      filePath lib n fr = filePath lib' n fr ∧ SameFileIn S lib lib' (filePath lib n fr))
    {w1 w2 w3 w4 : World F32 H} (hw : IsOff w1) (hw' : IsOff w3) {fuel fuel' : Nat}
    {st st' : ExecuteStatus} {g1 g2 : Graph (Node F32) (Stream F32 H)}
    (hx : g.execute (nodeSem p lib) srt fuel id frames w1 = .ok (st, g1, w2))
    (hx' : g.execute (nodeSem p lib') srt fuel' id frames w3 = .ok (st', g2, w4)) :
    ∃ jobs jobs', w2.writes = w1.writes ++ jobs ∧ w4.writes = w3.writes ++ jobs' ∧
      jobs.length = frames.length ∧ List.Forall₂ (SameFile (fun _ _ => True) S) jobs jobs' := by
  obtain ⟨order, d, e, hi⟩ := order_of_reach h hs
  have htp := execute_topo h.inv.sound hid hs hne hx e hi
  obtain ⟨-, jobs, a1, a2⟩ := C138_rendered p lib srt h hid hs hp hn hW hq (fun fr hf => (hl fr hf).1)
    hw hx
  obtain ⟨-, jobs', b1, b2⟩ := C138_rendered p lib' srt h' hid hs hp' hn hW hq
    (fun fr hf => (hl fr hf).2 ▸ (hl fr hf).1) hw' hx'
  refine ⟨jobs, jobs', a1, b1, a2.length_eq.symm, files_pair a2 b2 ?_⟩
  rintro fr hf job job' ⟨u1, own, R, u2, u3⟩ ⟨v1, own', R', v2, v3⟩
  obtain ⟨k1, k2⟩ := C136_pictures ht h.inv.sound hs hi htp (hp fr hf) (hp' fr hf) (ho fr hf) hm
    (hr fr hf) start .refl
  obtain ⟨o1, o2⟩ := ho fr hf start .refl
  unfold Rests at u2 v2
  rw [← ht.deform, ← k2] at v2
  obtain ⟨k, -, -⟩ := sameIn_rests o1 o2 k1 u2 v2
  rw [← (hl fr hf).2] at v1 v3
  rw [knows_type hk own' own] at v3
  exact files_same (u1.trans v1.symm) u3 v3 (window_same k.data k.display) k.data k.channels
    fun x y _ hx c hc => k.values x y hx c hc

end

/-! ### Examples -/

section
attribute [local instance] finFloat finBits finHalf finPi

/-- Reading, cropping to a wider window, and writing. -/
def readWidenWrite : Graph (Node (Fin 256)) (Stream (Fin 256) (Fin 256)) :=
  ⟨[⟨1, .uninitialized, .readImage readAttrs⟩,
    ⟨2, .uninitialized, .cropImage { pixelCrop with windowMinX := -1, windowMaxX := 2, reformat := 1 }⟩,
    ⟨3, .uninitialized, writeNode.attrs⟩],
    [1, 2, 3], ⟨[some 1, some 2, some 3], [], [⟨1, 2, 0⟩, ⟨0, 1, 0⟩]⟩, .new, .dirty, .uninitialized⟩

theorem readWidenWrite_reach (b : Fin 256) :
    Reach (nodeSem .debug (stripFiles b)) insSort false readWidenWrite :=
  .connect 2 3 0 (.connect 1 2 0 (.add ⟨3, .uninitialized, writeNode.attrs⟩
    (.add ⟨2, .uninitialized, .cropImage { pixelCrop with
      windowMinX := -1, windowMaxX := 2, reformat := 1 }⟩
    (.add ⟨1, .uninitialized, .readImage readAttrs⟩ (.new .new) rfl) rfl) rfl) rfl) rfl

theorem readWidenWrite_at : At readWidenWrite 3 2 := by
  refine ⟨rfl, ?_⟩
  intro j hj
  rcases j with _ | _ | j <;> first | decide | omega

theorem widenWrite_pictures (b frame : Fin 256) :
    Pictures (stripFiles b) insSort readWidenWrite 2 frame (stripLayers b) := by
  intro i n ins _ hn hins
  rcases i with _ | _ | _ | i
  · cases hn
    cases hins
    exact .read rfl (by decide) (strip_file b _)
  · cases hn
    cases hins
    exact .crop rfl rfl (by decide) (rests_refl _ _) rfl
      (show ValidSize ⟨3, 1, 3⟩ by unfold ValidSize; decide) (strip_cropped b)
  · cases hn
    cases hins
    exact .write rfl (by decide) (by decide) (rests_refl _ _) ⟨.inl rfl, rfl,
      (show (-2147483648 : Int) ≤ 2 - -1 ∧ (2 : Int) - -1 ≤ 2147483647 by decide),
      (show (-2147483648 : Int) ≤ 1 - 0 ∧ (1 : Int) - 0 ≤ 2147483647 by decide), fun h => absurd h (by rintro (h | ⟨h, -⟩) <;> exact absurd h (by decide))⟩
  · cases hn

theorem widenWrite_quiet (i : Nat) (m : Node (Fin 256)) (hne : i ≠ 2)
    (hm : readWidenWrite.nodes[i]? = some m) : ¬ Writes m := by
  rintro ⟨h, -, -⟩
  rcases i with _ | _ | _ | i
  · cases hm; cases h
  · cases hm; cases h
  · exact hne rfl
  · cases hm

/-- The file that is written shows the picture. -/
example : ∃ g' w' job, readWidenWrite.execute (nodeSem .debug (stripFiles 5)) insSort 20 3 [1] noCache =
      .ok (.success, g', w') ∧ w'.writes = [job] ∧
    FileShows .f32 ⟨-1, 0, 2, 1⟩ (stripLayers 5 2).still job := by
  obtain ⟨g', w', e⟩ : ∃ g' w', readWidenWrite.execute (nodeSem .debug (stripFiles 5)) insSort 20 3 [1]
      noCache = .ok (.success, g', w') := ⟨_, _, rfl⟩
  obtain ⟨-, jobs, h1, h2⟩ := C138_rendered .debug (stripFiles 5) insSort (readWidenWrite_reach 5)
    readWidenWrite_at rfl (frames := [1]) (pic := fun _ => stripLayers 5)
    (fun fr _ => widenWrite_pictures 5 fr) (n := ⟨3, .uninitialized, writeNode.attrs⟩) rfl
    ⟨rfl, by decide, by decide⟩ (fun i m _ hne hm => widenWrite_quiet i m hne hm)
    (fun fr _ => by unfold Linear; revert fr; decide +kernel) noCache_off e
  cases h2 with
  | cons h3 h4 =>
    cases h4
    obtain ⟨-, own, R, h5, h6⟩ := h3
    obtain ⟨k1, k2⟩ := h5.still (by intro d hd; cases hd)
    refine ⟨g', w', _, e, h1, ?_⟩
    have hd : R.data = ⟨-1, 0, 2, 1⟩ := k1
    have hc : R.channels = 3 := h5.channels
    have hw : window ⟨3, .uninitialized, writeNode.attrs⟩
        (filePath (stripFiles 5) ⟨3, .uninitialized, writeNode.attrs⟩ 1) R = ⟨-1, 0, 2, 1⟩ := by
      unfold window
      rw [if_neg (by decide +kernel), hd]
    rw [hw] at h6
    refine ⟨h6.x, h6.y, h6.width, h6.height, by rw [h6.channels, hc]; rfl, h6.format,
      by rw [h6.size, hc]; rfl, ?_⟩
    obtain ⟨d, d1, d2, d3⟩ := h6.values
    rw [hc] at d2 d3
    refine ⟨d, d1, d2, fun x y c hx hcc => ?_⟩
    refine (d3 x y c hx hcc).trans ?_
    rw [hd, k2 x y (by exact hx)]
    rfl

/-- Two files that differ in the second column only. -/
example : ∃ g1 w1 g2 w2 job job',
    readWidenWrite.execute (nodeSem .debug (stripFiles 5)) insSort 20 3 [1] noCache =
      .ok (.success, g1, w1) ∧
    readWidenWrite.execute (nodeSem .debug (stripFiles 6)) insSort 20 3 [1] noCache =
      .ok (.success, g2, w2) ∧
    w1.writes = [job] ∧ w2.writes = [job'] ∧ SameFile (fun x _ => x = 0) (fun _ => True) job job' := by
  obtain ⟨g1, w1, e1⟩ : ∃ g1 w1, readWidenWrite.execute (nodeSem .debug (stripFiles 5)) insSort 20 3 [1]
      noCache = .ok (.success, g1, w1) := ⟨_, _, rfl⟩
  obtain ⟨g2, w2, e2⟩ : ∃ g1 w1, readWidenWrite.execute (nodeSem .debug (stripFiles 6)) insSort 20 3 [1]
      noCache = .ok (.success, g1, w1) := ⟨_, _, rfl⟩
  obtain ⟨jobs, jobs', h1, h2, h3, h4⟩ := C138_local .debug (K := fun x _ => x = 0) (stripFiles 5)
    (stripFiles 6) insSort (readWidenWrite_reach 5) (readWidenWrite_reach 6) readWidenWrite_at rfl
    (frames := [1]) (by simp) (pic := fun _ => stripLayers 5) (pic' := fun _ => stripLayers 6)
    (fun fr _ => widenWrite_pictures 5 fr) (fun fr _ => widenWrite_pictures 6 fr)
    (n := ⟨3, .uninitialized, writeNode.attrs⟩) rfl ⟨rfl, by decide, by decide⟩ (.inl rfl)
    (fun i m _ hne hm => widenWrite_quiet i m hne hm)
    (fun fr _ => ⟨by unfold Linear; revert fr; decide +kernel, rfl⟩)
    (by
      intro i n _ hn
      rcases i with _ | _ | _ | i
      · cases hn; exact ⟨by decide, by decide⟩
      · cases hn; exact ⟨by decide, by decide⟩
      · cases hn; exact ⟨by decide, by decide⟩
      · cases hn)
    (fun fr _ i n _ _ _ => ⟨rfl, strip_same 5 6 _⟩) noCache_off noCache_off e1 e2
  cases h4 with
  | nil => cases h3
  | cons h5 h6 =>
    cases h6 with
    | nil => exact ⟨g1, w1, g2, w2, _, _, e1, e2, h1, h2, h5⟩
    | cons => simp at h3

end

section
open IeeeSpec
open Ieee hiding floor ceil round
attribute [local instance] IeeeConvertExamples.someLibm

/-- Reading, cropping to a wider window, and writing half floats. -/
def readWideWrite : Graph (Node F32) (Stream F32 F16) :=
  ⟨[⟨1, .uninitialized, .readImage { ReadImageAttrs.new with enable := 1, filePath := [98] }⟩,
    ⟨2, .uninitialized, .cropImage { CropImageAttrs.new with
      enable := 1, windowMinX := -1, windowMinY := 0, windowMaxX := 1, windowMaxY := 1,
      reformat := 1, blackOutside := 0 }⟩,
    writeHalf],
    [1, 2, 3], ⟨[some 1, some 2, some 3], [], [⟨1, 2, 0⟩, ⟨0, 1, 0⟩]⟩, .new, .dirty, .uninitialized⟩

theorem readWideWrite_reach (px : List F16) :
    Reach (nodeSem .debug (halfFiles px)) insSort false readWideWrite :=
  .connect 2 3 0 (.connect 1 2 0 (.add writeHalf
    (.add ⟨2, .uninitialized, .cropImage { CropImageAttrs.new with
      enable := 1, windowMinX := -1, windowMinY := 0, windowMaxX := 1, windowMaxY := 1,
      reformat := 1, blackOutside := 0 }⟩
    (.add ⟨1, .uninitialized, .readImage { ReadImageAttrs.new with enable := 1, filePath := [98] }⟩
      (.new .new) rfl) rfl) rfl) rfl) rfl

theorem readWideWrite_at : At readWideWrite 3 2 := by
  refine ⟨rfl, ?_⟩
  intro j hj
  rcases j with _ | _ | j <;> first | decide | omega

theorem wideWrite_pictures (b : Bool) (frame : F32) :
    Pictures (halfFiles (redPixel b)) insSort readWideWrite 2 frame (wideLayers b) := by
  intro i n ins _ hn hins
  rcases i with _ | _ | _ | i
  · cases hn
    cases hins
    exact .read rfl (by decide) (wide_file b _)
  · cases hn
    cases hins
    exact .crop rfl rfl (by decide) (rests_refl _ _) rfl
      (show ValidSize ⟨2, 1, 4⟩ by unfold ValidSize; decide) (wide_cut b)
  · cases hn
    cases hins
    exact .write rfl (by decide) (by decide) (rests_refl _ _) ⟨.inl rfl, rfl,
      (show (-2147483648 : Int) ≤ 1 - -1 ∧ (1 : Int) - -1 ≤ 2147483647 by decide),
      (show (-2147483648 : Int) ≤ 1 - 0 ∧ (1 : Int) - 0 ≤ 2147483647 by decide),
      fun h => absurd h (by rintro (h | ⟨h, -⟩) <;> exact absurd h (by decide))⟩
  · cases hn

theorem wideWrite_quiet (i : Nat) (m : Node F32) (hne : i ≠ 2)
    (hm : readWideWrite.nodes[i]? = some m) : ¬ Writes m := by
  rintro ⟨h, -, -⟩
  rcases i with _ | _ | _ | i
  · cases hm; cases h
  · cases hm; cases h
  · exact hne rfl
  · cases hm

/-- Two files that differ in red only. -/
example : ∃ g1 w1 g2 w2 job job',
    readWideWrite.execute (nodeSem .debug (halfFiles (redPixel true))) insSort 20 3 [1] copyWorld =
      .ok (.success, g1, w1) ∧
    readWideWrite.execute (nodeSem .debug (halfFiles (redPixel false))) insSort 20 3 [1] copyWorld =
      .ok (.success, g2, w2) ∧
    w1.writes = [job] ∧ w2.writes = [job'] ∧
    SameFile (fun _ _ => True) (fun c => c ≠ 0) job job' := by
  obtain ⟨g1, w1, e1⟩ : ∃ g1 w1, readWideWrite.execute (nodeSem .debug (halfFiles (redPixel true)))
      insSort 20 3 [1] copyWorld = .ok (.success, g1, w1) := ⟨_, _, rfl⟩
  obtain ⟨g2, w2, e2⟩ : ∃ g1 w1, readWideWrite.execute (nodeSem .debug (halfFiles (redPixel false)))
      insSort 20 3 [1] copyWorld = .ok (.success, g1, w1) := ⟨_, _, rfl⟩
  obtain ⟨jobs, jobs', h1, h2, h3, h4⟩ := C138_channels .debug (S := fun c => c ≠ 0) _ _
    (half_tools _ _) insSort (readWideWrite_reach (redPixel true))
    (readWideWrite_reach (redPixel false)) readWideWrite_at rfl
    (frames := [1]) (by simp) (pic := fun _ => wideLayers true) (pic' := fun _ => wideLayers false)
    (fun fr _ => wideWrite_pictures true fr) (fun fr _ => wideWrite_pictures false fr)
    (fun fr _ i _ => ⟨wide_proper true i, wide_proper false i⟩)
    (n := writeHalf) rfl ⟨rfl, by decide, by decide⟩ (.inr (.inl rfl))
    (fun i m _ hne hm => wideWrite_quiet i m hne hm)
    (fun fr hf => ⟨by
      rw [List.mem_singleton] at hf
      subst hf
      unfold Linear
      decide +kernel, rfl⟩)
    (by
      intro i n _ hn
      rcases i with _ | _ | _ | i
      · cases hn; intro h; cases h
      · cases hn; intro h; cases h
      · cases hn; intro h; cases h
      · cases hn)
    (fun fr _ i n _ _ _ => ⟨rfl, wide_same true false _⟩) ⟨rfl, rfl⟩ ⟨rfl, rfl⟩ e1 e2
  cases h4 with
  | nil => cases h3
  | cons h5 h6 =>
    cases h6 with
    | nil => exact ⟨g1, w1, g2, w2, _, _, e1, e2, h1, h2, h5⟩
    | cons => simp at h3

/-- One third cannot be had as a half or a byte; the nearest half, and the byte below. -/
example : (Ieee.convert (⟨false, 0x3eaaaaab, by decide⟩ : F32) : F16) = ⟨false, 0x3555, by decide⟩ ∧
    Fin.val (n := 256) (stored (F := F32) (H := F16) .u8 ⟨false, 0x3eaaaaab, by decide⟩) = 85 :=
  ⟨by decide +kernel, by decide +kernel⟩

example : Faithful .f16 (⟨false, 0x3eaaaaab, by decide⟩ : F32)
    (stored (F := F32) (H := F16) .f16 ⟨false, 0x3eaaaaab, by decide⟩) :=
  C138_faithful .f16 _ (by unfold IsFinite; decide)

end
end OCG.Props
