import Verif.Spec.Alike
import Verif.Props.FileSame
import Verif.Props.Shown
import Verif.Props.Tiles
/-
C159: graphs that show the same picture write the same file.
-/

namespace OCG.Props

open GraphSpec PictureSpec RenderSpec FileSpec BBoxSpec BlockSpec ImageSpecs CacheSpec AlikeSpec

/-- Buffers with the same channels everywhere are the same. -/
theorem buffer_ext {α : Type} {s : BlockSize} {d d' : List α} (hw : 0 ≤ s.width) (hh : 0 ≤ s.height)
    (hn : 0 ≤ s.numChannels) (hl : (d.length : Int) = elements s) (hl' : (d'.length : Int) = elements s)
    (h : ∀ (x y : Int) (c : Nat), 0 ≤ x → x < s.width → 0 ≤ y → y < s.height → c < s.numChannels →
      channelAt s d x y c = channelAt s d' x y c) : d = d' := by
  obtain ⟨w, hgt, n⟩ := s
  dsimp only [elements] at hw hh hn hl hl'
  lift w to Nat using hw
  lift hgt to Nat using hh
  lift n to Nat using hn
  have l1 : d.length = w * hgt * n := by exact_mod_cast hl
  have l2 : d'.length = w * hgt * n := by exact_mod_cast hl'
  refine List.ext_getElem? fun i => ?_
  by_cases hi : i < w * hgt * n
  · have n0 : 0 < n := Nat.pos_of_ne_zero fun e => by subst e; simp at hi
    have w0 : 0 < w := Nat.pos_of_ne_zero fun e => by subst e; simp at hi
    have q : i / n < w * hgt := Nat.div_lt_of_lt_mul (by rwa [Nat.mul_comm n])
    have y1 : i / n / w < hgt := Nat.div_lt_of_lt_mul q
    have x1 : i / n % w < w := Nat.mod_lt _ w0
    have c1 : i % n < n := Nat.mod_lt _ n0
    have k := h ((i / n % w : Nat) : Int) ((i / n / w : Nat) : Int) (i % n) (by positivity)
      (Int.ofNat_lt.mpr x1) (by positivity) (Int.ofNat_lt.mpr y1) (Int.ofNat_lt.mpr c1)
    unfold channelAt at k
    dsimp only at k
    have e : ((((i / n / w : Nat) : Int) * w + ((i / n % w : Nat) : Int)) * n +
        ((i % n : Nat) : Int)).toNat = i := by
      have : (i / n / w * w + i / n % w) * n + i % n = i := by
        rw [Nat.div_add_mod', Nat.div_add_mod']
      have e2 : (((i / n / w : Nat) : Int) * w + ((i / n % w : Nat) : Int)) * n +
          ((i % n : Nat) : Int) = (((i / n / w * w + i / n % w) * n + i % n : Nat) : Int) := by
        push_cast
        rfl
      rw [e2, this, Int.toNat_natCast]
    rwa [e] at k
  · rw [List.getElem?_eq_none (by omega), List.getElem?_eq_none (by omega)]

section
variable {F H : Type} [FloatLike F] [HalfLike F H]

/-- C159: a file that shows a picture is determined by the picture: two files that show pictures which
look the same, in the same window and with the same type, have the same buffer. -/
theorem C159_file {t : DType} {W : BBox} {P R : Picture F} {job job' : WriteJob F H}
    (hx : W.minX ≤ W.maxX) (hy : W.minY ≤ W.maxY) (hp : job.path = job'.path) (ha : LooksLike P R)
    (h : FileShows t W P job) (h' : FileShows t W R job') : SamePixels job job' := by
  obtain ⟨a1, -, a3, a4⟩ := ha
  refine ⟨hp, by rw [h.x, h'.x], by rw [h.y, h'.y], by rw [h.width, h'.width],
    by rw [h.height, h'.height], by rw [h.channels, h'.channels, a3], by rw [h.format, h'.format],
    by rw [h.size, h'.size, a3], ?_⟩
  obtain ⟨d, e, l, k⟩ := h.values
  obtain ⟨d', e', l', k'⟩ := h'.values
  rw [← a3] at l' k'
  have hb : d = d' := by
    refine buffer_ext (s := sizeFor W P.channels) (by simp only [sizeFor]; omega)
      (by simp only [sizeFor]; omega) (by simp only [sizeFor]; omega) l l'
      fun x y c x0 x1 y0 y1 hc => ?_
    simp only [sizeFor] at x1 y1 hc
    have hh : Has W (W.minX + x) (W.minY + y) := ⟨by omega, by omega, by omega, by omega⟩
    have a := k _ _ c hh (by omega)
    have b := k' _ _ c hh (by omega)
    rw [show W.minX + x - W.minX = x by omega, show W.minY + y - W.minY = y by omega] at a b
    rw [a, b, a1]
    by_cases hx : Has R.data (W.minX + x) (W.minY + y)
    · rw [if_pos hx, if_pos hx, a4 _ _ hx]
    · rw [if_neg hx, if_neg hx]
  rw [e, e', hb]

omit [FloatLike F] in
theorem window_upright {n : Node F} {path : Bytes} {P : Picture F} (h : Upright P) :
    (window n path P).minX ≤ (window n path P).maxX ∧ (window n path P).minY ≤ (window n path P).maxY := by
  unfold window
  split
  · exact ⟨h.displayX, h.displayY⟩
  · exact ⟨h.dataX, h.dataY⟩

variable [FloatConst F] [FloatBits F]

omit [FloatBits F] in
/-- Files for the same frames, that show what looks the same. -/
theorem files_alike {lib : NodeLib F H} {frames : List F} {n n' : Node F} {L L' : F → Layer F}
    {R : F → Picture F} {jobs jobs' : List (WriteJob F H)}
    (hst : StoreAlike n n') (hpath : ∀ fr ∈ frames, filePath lib n fr = filePath lib n' fr)
    (hR : ∀ fr ∈ frames, Upright (R fr) ∧ (∃ S, Rests lib (L fr) S ∧ LooksLike S (R fr)) ∧
      ∃ S, Rests lib (L' fr) S ∧ LooksLike S (R fr))
    (h : List.Forall₂ (fun fr job => job.path = filePath lib n fr ∧ ∃ own S, Rests lib (L fr) S ∧
      FileShows (wantedType (n.getI32 "pixel_data_type") own) (window n (filePath lib n fr) S) S job)
      frames jobs)
    (h' : List.Forall₂ (fun fr job => job.path = filePath lib n' fr ∧ ∃ own S, Rests lib (L' fr) S ∧
      FileShows (wantedType (n'.getI32 "pixel_data_type") own) (window n' (filePath lib n' fr) S) S job)
      frames jobs') : List.Forall₂ SamePixels jobs jobs' := by
  refine files_pair h h' fun fr hf job job' hj hj' => ?_
  obtain ⟨u, ⟨S, s1, s2⟩, S', s1', s2'⟩ := hR fr hf
  obtain ⟨p1, own, T, t1, t2⟩ := hj
  obtain ⟨p1', own', T', t1', t2'⟩ := hj'
  obtain ⟨e1, e2, e3, -, e4⟩ := carriedOut_unique s1 t1
  obtain ⟨e1', e2', e3', -, e4'⟩ := carriedOut_unique s1' t1'
  have f := shows_alike (e1.trans s2.data) (e2.trans s2.display) (e3.trans s2.channels)
    (fun x y hxy => (e4 x y (by rw [s2.data]; exact hxy)).trans (s2.pixels x y hxy)) t2
  have f' := shows_alike (e1'.trans s2'.data) (e2'.trans s2'.display) (e3'.trans s2'.channels)
    (fun x y hxy => (e4' x y (by rw [s2'.data]; exact hxy)).trans (s2'.pixels x y hxy)) t2'
  have hw : window n' (filePath lib n' fr) (R fr) = window n (filePath lib n fr) (R fr) := by
    unfold window
    rw [hst.crop, hpath fr hf]
  rw [hw, ← hst.type, knows_type hst.known own' own] at f'
  obtain ⟨wx, wy⟩ := window_upright (n := n) (path := filePath lib n fr) u
  exact C159_file wx wy (by rw [p1, p1', hpath fr hf]) ⟨rfl, rfl, rfl, fun _ _ _ => rfl⟩ f f'

/-- C159: two graphs whose write nodes get pictures that look the same on every frame, and store alike,
write the same files, whatever else is different: the nodes, the order of the edges, the build and what
was written before. -/
theorem C159_rendered (p p' : Profile) (lib : NodeLib F H) (srt srt' : EdgeSort)
    {g₁ g₂ : Graph (Node F) (Stream F H)} {r r' : Bool} (h : Reach (nodeSem p lib) srt r g₁)
    (h' : Reach (nodeSem p' lib) srt' r' g₂)
    {id id' start start' : Nat} (hid : At g₁ id start) (hid' : At g₂ id' start')
    (hs : g₁.graph.contains start = true) (hs' : g₂.graph.contains start' = true)
    {frames : List F} {pic pic' : F → Nat → Layer F}
    (hp : ∀ fr ∈ frames, Pictures lib srt g₁ start fr (pic fr))
    (hp' : ∀ fr ∈ frames, Pictures lib srt' g₂ start' fr (pic' fr))
    {n n' : Node F} (hn : g₁.nodes[start]? = some n) (hn' : g₂.nodes[start']? = some n')
    (hW : Writes n) (hW' : Writes n')
    (hq : ∀ i m, Upstream g₁.graph start i → i ≠ start → g₁.nodes[i]? = some m → ¬ Writes m)
    (hq' : ∀ i m, Upstream g₂.graph start' i → i ≠ start' → g₂.nodes[i]? = some m → ¬ Writes m)
    (hl : ∀ fr ∈ frames, Linear (filePath lib n fr) ∧ filePath lib n fr = filePath lib n' fr)
    (hst : StoreAlike n n') {R : F → Picture F}
    (hR : ∀ fr ∈ frames, Upright (R fr) ∧ (∃ S, Rests lib (pic fr start) S ∧ LooksLike S (R fr)) ∧
      ∃ S, Rests lib (pic' fr start') S ∧ LooksLike S (R fr))
    {w v w' v' : World F H} (hoff : IsOff w) (hoff' : IsOff v) {fuel fuel' : Nat}
    {st st' : ExecuteStatus} {g₁' g₂' : Graph (Node F) (Stream F H)}
    (hx : g₁.execute (nodeSem p lib) srt fuel id frames w = .ok (st, g₁', w'))
    (hx' : g₂.execute (nodeSem p' lib) srt' fuel' id' frames v = .ok (st', g₂', v')) :
    st = st' ∧ ∃ jobs jobs', w'.writes = w.writes ++ jobs ∧ v'.writes = v.writes ++ jobs' ∧
      jobs.length = frames.length ∧ List.Forall₂ SamePixels jobs jobs' := by
  obtain ⟨a1, jobs, a2, a3⟩ := C138_rendered p lib srt h hid hs hp hn hW hq
    (fun fr hf => (hl fr hf).1) hoff hx
  obtain ⟨b1, jobs', b2, b3⟩ := C138_rendered p' lib srt' h' hid' hs' hp' hn' hW' hq'
    (fun fr hf => (hl fr hf).2 ▸ (hl fr hf).1) hoff' hx'
  exact ⟨a1.trans b1.symm, jobs, jobs', a2, b2, a3.length_eq.symm,
    files_alike hst (fun fr hf => (hl fr hf).2) hR a3 b3⟩

/-- C159: the same if one of the graphs is executed with the cache, in any state that a history of
regular executions leads to (as in C45). -/
theorem C159_cached (p p' : Profile) (lib : NodeLib F H) (srt srt' : EdgeSort)
    {K : Call F H → Prop} (hK : Regular p lib K) {w w' : World F H} (hw : History p lib srt K w)
    {g₁ g₂ : Graph (Node F) (Stream F H)} {r r' : Bool} (h : Reach (nodeSem p lib) srt r g₁)
    (hg : Produced p lib K g₁.output) (h' : Reach (nodeSem p' lib) srt' r' g₂)
    {id id' start start' : Nat} (hid : At g₁ id start) (hid' : At g₂ id' start')
    (hs : g₁.graph.contains start = true) (hs' : g₂.graph.contains start' = true)
    {frames : List F} {pic pic' : F → Nat → Layer F}
    (hp : ∀ fr ∈ frames, Pictures lib srt g₁ start fr (pic fr))
    (hp' : ∀ fr ∈ frames, Pictures lib srt' g₂ start' fr (pic' fr))
    {n n' : Node F} (hn : g₁.nodes[start]? = some n) (hn' : g₂.nodes[start']? = some n')
    (hW : Writes n) (hW' : Writes n')
    (hq : ∀ i m, Upstream g₁.graph start i → i ≠ start → g₁.nodes[i]? = some m → ¬ Writes m)
    (hq' : ∀ i m, Upstream g₂.graph start' i → i ≠ start' → g₂.nodes[i]? = some m → ¬ Writes m)
    (hl : ∀ fr ∈ frames, Linear (filePath lib n fr) ∧ filePath lib n fr = filePath lib n' fr)
    (hst : StoreAlike n n') {R : F → Picture F}
    (hR : ∀ fr ∈ frames, Upright (R fr) ∧ (∃ S, Rests lib (pic fr start) S ∧ LooksLike S (R fr)) ∧
      ∃ S, Rests lib (pic' fr start') S ∧ LooksLike S (R fr))
    {v v' : World F H} (hoff : IsOff v) {fuel fuel' : Nat}
    {st st' : ExecuteStatus} {g₁' g₂' : Graph (Node F) (Stream F H)} {log : List (Call F H)}
    (hx : g₁.execute (logged p lib) srt fuel id frames (w, []) = .ok (st, g₁', (w', log)))
    (hlog : ∀ c ∈ log, K c)
    (hx' : g₂.execute (nodeSem p' lib) srt' fuel' id' frames v = .ok (st', g₂', v')) :
    st = st' ∧ ∃ jobs jobs', w'.writes = w.writes ++ jobs ∧ v'.writes = v.writes ++ jobs' ∧
      jobs.length = frames.length ∧ List.Forall₂ SamePixels jobs jobs' := by
  obtain ⟨a1, jobs, a2, a3⟩ := C138_cached p lib srt hK hw h hg hid hs hp hn hW hq
    (fun fr hf => (hl fr hf).1) hx hlog
  obtain ⟨b1, jobs', b2, b3⟩ := C138_rendered p' lib srt' h' hid' hs' hp' hn' hW' hq'
    (fun fr hf => (hl fr hf).2 ▸ (hl fr hf).1) hoff hx'
  exact ⟨a1.trans b1.symm, jobs, jobs', a2, b2, a3.length_eq.symm,
    files_alike hst (fun fr hf => (hl fr hf).2) hR a3 b3⟩

end

/-! ### Examples -/

section
attribute [local instance] zeroLibm

set_option synthInstance.maxSize 1024 in
theorem copyPair_facts : writtenFacts (copyGraph.execute (nodeSem .release pairFiles) insSort
    20 3 [1] copyWorld) = some [(exrName, [0, 0, 2, 1, 0, 0, 2, 1, 4], .known .f16, ⟨2, 1, 4⟩,
      some [(false, 16384), (false, 16384), (false, 16384), (false, 15360),
        (false, 15360), (false, 15360), (false, 15360), (false, 15360)])] := by
  decide +kernel

theorem copyPair_reach : Reach (nodeSem .release pairFiles) insSort false copyGraph :=
  .connect 2 3 0 (.connect 1 2 0 (.add writeHalf (.add ⟨2, .uninitialized, .null {}⟩
    (.add ⟨1, .uninitialized, .readImage { ReadImageAttrs.new with enable := 1, filePath := [98] }⟩
      (.new .new) rfl) rfl) rfl) rfl) rfl

theorem copyPair_pictures (frame : F32) :
    Pictures pairFiles insSort copyGraph 2 frame (fun _ => ⟨pair, []⟩) := by
  intro i n ins _ hn hins
  rcases i with _ | _ | _ | i
  · cases hn
    cases hins
    exact .read rfl (by decide) (pair_file _)
  · cases hn
    cases hins
    exact .null rfl
  · cases hn
    cases hins
    refine .write (R := pair) rfl (by decide) (by decide) (rests_nothing _ _)
      ⟨.inl rfl, rfl, by decide, by decide, ?_⟩
    rintro (h | ⟨h, -⟩) <;> cases h
  · cases hn

theorem written_ok {r : Res (ExecuteStatus × Graph (Node F32) (Stream F32 F16) × World F32 F16)}
    {f} (h : writtenFacts r = some f) : ∃ g w, r = .ok (.success, g, w) := by
  rcases r with _ | ⟨st, g, w⟩
  · cases h
  · cases st <;> first | exact ⟨g, w, rfl⟩ | cases h

/-- A graph that cuts a picture in the middle and adds the halves, in a debug build, writes the same
file as one that copies the picture, in a release build. -/
example : ∃ g w g' w' job job',
    cutGraph.execute (nodeSem .debug pairFiles) insSort 20 3 [1] copyWorld = .ok (.success, g, w) ∧
    copyGraph.execute (nodeSem .release pairFiles) insSort 20 3 [1] copyWorld =
      .ok (.success, g', w') ∧ w.writes = [job] ∧ w'.writes = [job'] ∧ SamePixels job job' := by
  obtain ⟨g, w, e⟩ := written_ok cutGraph_facts
  obtain ⟨g', w', e'⟩ := written_ok copyPair_facts
  obtain ⟨A, B, Q, hA, hB, hQ⟩ := cut_made 1
  obtain ⟨d1, d2, d3, d4⟩ := cut_whole hA hB hQ
  obtain ⟨-, jobs, jobs', h1, h2, h3, h4⟩ := C159_rendered .debug .release pairFiles insSort insSort
    cutGraph_reach copyPair_reach (id := 3) (id' := 3) (start := 2) (start' := 2) (frames := [1])
    (by
      refine ⟨rfl, fun j hj => ?_⟩
      rcases j with _ | _ | j <;> first | decide | omega) copyGraph_at rfl rfl
    (pic := fun _ => cutPic A B Q) (pic' := fun _ _ => ⟨pair, []⟩) (fun fr hfr => by
      obtain rfl := List.mem_singleton.mp hfr
      exact cutGraph_pictures hA hB hQ) (fun fr _ => copyPair_pictures fr)
    (n := writeHalf) (n' := writeHalf) rfl rfl ⟨rfl, by decide, by decide⟩ ⟨rfl, by decide, by decide⟩
    (by
      intro i m _ hi hm
      rcases i with _ | _ | _ | _ | _ | i
      · cases hm; rintro ⟨⟨⟩, -⟩
      · cases hm; rintro ⟨⟨⟩, -⟩
      · exact absurd rfl hi
      · cases hm; rintro ⟨⟨⟩, -⟩
      · cases hm; rintro ⟨⟨⟩, -⟩
      · cases hm)
    (by
      intro i m _ hi hm
      rcases i with _ | _ | _ | i
      · cases hm; rintro ⟨⟨⟩, -⟩
      · cases hm; rintro ⟨⟨⟩, -⟩
      · exact absurd rfl hi
      · cases hm)
    (fun fr hfr => by
      obtain rfl := List.mem_singleton.mp hfr
      refine ⟨?_, rfl⟩
      unfold Linear
      decide +kernel)
    ⟨.inr (.inl rfl), rfl, rfl⟩ (R := fun _ => pair)
    (fun _ _ => ⟨⟨by decide, by decide, by decide, by decide⟩,
      ⟨Q, rests_nothing _ _, d1, d2, d3, d4⟩, ⟨pair, rests_nothing _ _, rfl, rfl, rfl, fun _ _ _ => rfl⟩⟩)
    ⟨rfl, rfl⟩ ⟨rfl, rfl⟩ e e'
  cases h4 with
  | nil => cases h3
  | cons h5 h6 =>
    cases h6 with
    | nil => exact ⟨g, w, g', w', _, _, e, e', h1, h2, h5⟩
    | cons => cases h3

/-- All files with that path that show the picture of two pixels as half floats have the same buffer
(the graphs above write such files). -/
example {job job' : WriteJob F32 F16} (hp : job.path = exrName) (hp' : job'.path = exrName)
    (h : FileShows .f16 ⟨0, 0, 2, 1⟩ pair job) (h' : FileShows .f16 ⟨0, 0, 2, 1⟩ pair job') :
    job.block = job'.block :=
  (C159_file (by decide) (by decide) (hp.trans hp'.symm) ⟨rfl, rfl, rfl, fun _ _ _ => rfl⟩ h h').block

end

section
open HashSpec
attribute [local instance] finFloat finBits finHalf finPi

/-- Executed a second time with the cache, from which both images come, the graph writes the same file
as without a cache. -/
example : ∃ w g w₁ log g' w', History .debug linearFiles insSort ReadCropWrite w ∧
    readCropWrite.execute (logged .debug linearFiles) insSort 20 3 [1] (w, []) =
      .ok (.success, g, (w₁, log)) ∧ w₁.cache.hits = 2 ∧
    readCropWrite.execute (nodeSem .debug linearFiles) insSort 20 3 [1] noCache =
      .ok (.success, g', w') ∧
    ∃ job job', w₁.writes = w.writes ++ [job] ∧ w'.writes = [job'] ∧ SamePixels job job' := by
  obtain ⟨g1, w1, log1, g2, w2, log2, e1, l1, e2, l2, hits⟩ := rcw_twice
  have hist : History .debug linearFiles insSort ReadCropWrite w1 :=
    .execute _ _ _ _ _ _ _ _ _ (.start 1000 []) .new e1 l1
  obtain ⟨g', w', e'⟩ : ∃ g' w', readCropWrite.execute (nodeSem .debug linearFiles) insSort 20 3 [1]
      noCache = .ok (.success, g', w') := ⟨_, _, rfl⟩
  have quiet : ∀ i m, Upstream readCropWrite.graph 2 i → i ≠ 2 → readCropWrite.nodes[i]? = some m →
      ¬ Writes m := by
    rintro i m - hne hm ⟨h, -, -⟩
    rcases i with _ | _ | _ | i
    · cases hm; cases h
    · cases hm; cases h
    · exact hne rfl
    · cases hm
  obtain ⟨-, jobs, jobs', h1, h2, h3, h4⟩ := C159_cached .debug .debug linearFiles insSort insSort
    rcw_regular hist readCropWrite_reach .new readCropWrite_reach readCropWrite_at readCropWrite_at
    rfl rfl (frames := [1]) (pic := fun _ => whiteLayers) (pic' := fun _ => whiteLayers)
    (fun fr _ => whitePictures_ok fr) (fun fr _ => whitePictures_ok fr)
    (n := ⟨3, .uninitialized, writeNode.attrs⟩) (n' := ⟨3, .uninitialized, writeNode.attrs⟩) rfl rfl
    ⟨rfl, by decide, by decide⟩ ⟨rfl, by decide, by decide⟩ quiet quiet
    (fun fr hf => by
      rw [List.mem_singleton] at hf
      subst hf
      refine ⟨?_, rfl⟩
      unfold Linear
      decide +kernel)
    ⟨by unfold KnowsType; decide, rfl, rfl⟩ (R := fun _ => whitePictures 2)
    (fun _ _ => ⟨⟨by decide, by decide, by decide, by decide⟩,
      ⟨_, rests_nothing _ _, rfl, rfl, rfl, fun _ _ _ => rfl⟩,
      ⟨_, rests_nothing _ _, rfl, rfl, rfl, fun _ _ _ => rfl⟩⟩)
    ⟨rfl, rfl⟩ e2 l2 e'
  cases h4 with
  | nil => cases h3
  | cons h5 h6 =>
    cases h6 with
    | nil => exact ⟨w1, g2, w2, log2, g', w', hist, e2, hits, e', _, _, h1, h2, h5⟩
    | cons => cases h3

end

end OCG.Props
