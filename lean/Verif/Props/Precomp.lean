import Verif.Spec.Precomp
import Verif.Props.Exposure
import Verif.Props.FileShows
import Verif.Props.Idle
import Verif.Props.FileSame
/-
Property C147: rendering a part of a graph to files and reading them in its place shows the same
picture.
-/

namespace OCG.Props

open GraphSpec PictureSpec RenderSpec FileSpec BBoxSpec BlockSpec ImageSpecs CacheSpec PrecompSpec
open IdleSpec BuiltSpec PixelSpec ColorSpec ChannelSpec PlainSpec IeeeSpec

section
variable {F H : Type} [FloatLike F] [HalfLike F H]

theorem conv_stored (t : DType) (x : F) : convElem t .f32 (stored (H := H) t x) = inType H t x := by
  cases t <;> rfl

omit [FloatLike F] in
/-- The values of a pixel, from its channels. -/
theorem pixel_of_channels {w : BBox} {n : Nat} {v : List F} {x y : Int} (h : Has w x y)
    (hv : (v.length : Int) = elements (sizeFor w n)) {l : List F} (hl : l.length = n)
    (hc : ∀ c : Nat, c < n → channelAt (sizeFor w n) v (x - w.minX) (y - w.minY) c = l[c]?) :
    pixelAt w n v x y = l := by
  refine List.ext_getElem? fun c => ?_
  by_cases hcn : c < n
  · rw [channel_of_pixel h hcn, hc c hcn]
  · rw [List.getElem?_eq_none (l := l) (by omega), List.getElem?_eq_none]
    unfold pixelAt pixel
    rw [List.length_take]
    omega

end

section
variable [Libm single32]

/-- Storing ordinary numbers keeps them. -/
theorem settled_self {n : Nat} (hn : Channels n) {v : List F32} (hl : v.length = n)
    (hv : ∀ p ∈ v, IsPlain p) : Settled n v v := by
  obtain ⟨out, e, -⟩ := C57_per_pixel (Mat4.identity : Mat4 F32) hn v
  have : Settled n v out := ⟨out, e, .nil _⟩
  have e2 := settled_plain hn hl hv this
  subst e2
  exact this

/-- C147: what was stored with a type once can be stored with this type again without loss (for half
floats unless it is not a number). -/
theorem C147_again (t : DType) (x : F32) (hx : t = .f16 → (x.convert : F16).isNan = false) :
    inType F16 t (inType F16 t x) = inType F16 t x := by
  rw [inType_conv t x]
  refine (inType_conv t _).trans (congrArg (convElem t .f32) ?_)
  cases t with
  | f32 => rfl
  | f16 => exact C100_half_float _ (hx rfl)
  | u8 => exact C100_u8_float _
  | u16 => exact C100_u16_float _

example : inType F16 .u8 (inType F16 .u8 (Ieee.ofInt 1 : F32)) = inType F16 .u8 (Ieee.ofInt 1 : F32) :=
  C147_again .u8 _ (by rintro ⟨⟩)

/-- A file that shows a picture that it can hold, read again, is this picture. -/
theorem file_of_shows {lib' : NodeLib F32 F16} {P : Picture F32} {t : DType} {job : WriteJob F32 F16}
    (hs : FileShows t P.data P job) (f1 : job.spec.fullX = P.display.minX)
    (f2 : job.spec.fullY = P.display.minY)
    (f3 : job.spec.fullWidth = P.display.maxX - P.display.minX)
    (f4 : job.spec.fullHeight = P.display.maxY - P.display.minY)
    (hP : Storable t ⟨P, []⟩) (hd : OnDisk lib' job) : IsFile lib' job.path P := by
  obtain ⟨d, e, dl, dv⟩ := hs.values
  obtain ⟨spec, s1, s2, s3, s4, s5, s6, s7, s8, s9, s10, s11, s12⟩ := hd.header
  have hpx := hd.pixels t d
  have hlen : (List.replicate d.length (whiteElem (F := F32) (H := F16) t)).length = d.length :=
    List.length_replicate
  obtain ⟨o1, o2⟩ := hP.origin
  have sz := hP.proper.size
  have hch : (P.channels : Int) = if t = .f32 then spec.numChannels else 4 := by
    rw [s10, hs.channels]
    split
    · rfl
    · rename_i hne
      have := hP.channels.resolve_left hne
      show (P.channels : Int) = 4
      rw [show P.channels = 4 from this]; rfl
  have c34 : P.channels = 3 ∨ P.channels = 4 := hP.proper.channels
  have hraw : (⟨sizeFor P.data P.channels, ⟨t, d⟩⟩ : PixelBlock F32 F16).convert (.known .f32) =
      .ok (floatImage (sizeFor P.data P.channels) (d.map (convElem t .f32))) := by
    by_cases ht : t = .f32
    · subst ht
      refine (C18_convert_same (floatImage (F := F32) (H := F16) (sizeFor P.data P.channels) d)).trans ?_
      exact congrArg (fun l : List F32 => Except.ok (floatImage (H := F16) (sizeFor P.data P.channels) l))
        (List.map_id d).symm
    · unfold PixelBlock.convert DataBlock.convert floatImage
      simp only [if_neg ht, bind, Except.bind]
      rfl
  refine ⟨spec, t, d.length, d.map (convElem t .f32), hd.kind, s1, ?_, ?_, c34, hch,
    ?_, ?_, ?_, dl, ?_, ?_, fun x y hxy => ?_⟩
  · have a := hP.size.area
    have b1 := hP.size.dataX
    have b2 := hP.size.dataY
    have b3 := hP.size.displayX
    have b4 := hP.size.displayY
    simp only at a b1 b2 b3 b4 o1 o2
    have v := sz
    unfold ValidSize sizeFor at v
    simp only at v
    have g1 := hs.x
    have g2 := hs.y
    have g3 := hs.width
    have g4 := hs.height
    have g5 := hs.channels
    refine ⟨by omega, by omega, by omega, ?_, by omega, by omega, by omega, by omega⟩
    rw [s4, s5, s10, g3, g4, g5]
    rw [max_eq_left (by omega)]
    exact a
  · rw [s11, hs.format]
  · have g1 := hs.x
    have g2 := hs.y
    have g3 := hs.width
    have g4 := hs.height
    simp only at o1 o2
    generalize P.data = D at *
    obtain ⟨a, b, c, d⟩ := D
    simp only [BBox.mk.injEq] at *
    omega
  · simp only at o1 o2
    generalize P.display = D at *
    obtain ⟨a, b, c, d⟩ := D
    simp only [BBox.mk.injEq] at *
    omega
  · rw [s12]; exact hP.linear
  · have e1 : lib'.oiio.pixels job.path spec.numChannels t (sizeFor P.data P.channels)
        (List.replicate d.length (whiteElem t)) = d := by
      have := hpx _ e hlen
      rw [hs.size, ← s10] at this
      exact this
    rw [e1]
    exact ⟨_, hraw, fun _ => rfl, fun k => absurd s12 k⟩
  · exact (congrArg (Nat.cast : Nat → Int) (List.length_map (convElem t .f32))).trans dl
  · have hpl := hP.proper.plain x y hxy
    have : pixelAt P.data P.channels (d.map (convElem t .f32)) x y = P.at_ x y := by
      refine pixel_of_channels (v := (d.map (convElem t .f32) : List F32)) hxy
        ((congrArg (Nat.cast : Nat → Int) (List.length_map (convElem t .f32))).trans dl) hpl.1
        fun c hcn => ?_
      refine (channel_map (convElem t .f32) _ d _ _ _).trans ?_
      rw [dv x y c hxy hcn, if_pos hxy, Option.map_map]
      have hlt : c < (P.at_ x y).length := by have := hpl.1; simp only at this; omega
      rw [List.getElem?_eq_getElem hlt, Option.map_some]
      exact congrArg some ((conv_stored t _).trans (hP.values x y hxy _ (List.getElem_mem hlt)))
    exact (congrArg (fun v => PictureSpec.Settled P.channels v (P.at_ x y)) this).mpr
      (settled_self (by unfold Channels; omega) hpl.1 hpl.2)

/-- C147 for one file: a file that was written for a picture that it can hold, read again, is this
picture. -/
theorem C147_file_partial {lib lib' : NodeLib F32 F16} {fr : F32} {n : Node F32} {alpha : Bool}
    {own : DType} {P : Picture F32} {job : WriteJob F32 F16} (h : Written lib fr n alpha own P job)
    (hl : Linear (filePath lib n fr)) (hc : ¬ CropsFile (n.getI32 "crop_on_write") (filePath lib n fr))
    (hP : Storable (wantedType (n.getI32 "pixel_data_type") own) ⟨P, []⟩) (hd : OnDisk lib' job) :
    IsFile lib' (filePath lib n fr) P := by
  obtain ⟨hpath, hs⟩ := C138_written h hl
  have hW : window n (filePath lib n fr) P = P.data := if_neg hc
  rw [hW] at hs
  rw [← hpath]
  exact file_of_shows hs h.fullX h.fullY h.fullWidth h.fullHeight hP hd

end

section
variable {F H : Type} [FloatLike F] [HalfLike F H] [FloatConst F]

omit [FloatConst F] in
/-- Files that were not written are as they were. -/
theorem isFile_saved {lib lib' : NodeLib F H} {jobs : List (WriteJob F H)} (h : Saved lib lib' jobs)
    {path : Bytes} (hp : ∀ job ∈ jobs, job.path ≠ path) {P : Picture F} (k : IsFile lib path P) :
    IsFile lib' path P := by
  obtain ⟨h1, h2, h3⟩ := h.others path hp
  unfold IsFile at k ⊢
  rw [h1, h2, h3, h.bake]
  exact k

omit [FloatConst F] in
theorem picks_saved {lib lib' : NodeLib F H} {jobs : List (WriteJob F H)} (h : Saved lib lib' jobs)
    {pick : Int → Int → Int → Int} (k : Picks lib.oiio pick) : Picks lib'.oiio pick := by
  obtain ⟨k1, k2⟩ := k
  refine ⟨k1, ?_⟩
  rw [h.resample]
  exact k2

/-- A node makes the same picture after other files were written. -/
theorem makes_saved {lib lib' : NodeLib F H} {jobs : List (WriteJob F H)} (h : Saved lib lib' jobs)
    {fr : F} {n n' : Node F} (hn : SameSettings n n')
    (hp : n.attrs.nodeType = .readImage → ∀ job ∈ jobs, job.path ≠ filePath lib n fr)
    {Ls : List (Layer F)} {L : Layer F} (k : Makes lib fr n Ls L) : Makes lib' fr n' Ls L := by
  obtain ⟨id, st, attrs⟩ := n
  obtain ⟨id', st', attrs'⟩ := n'
  obtain rfl : attrs = attrs' := hn
  have hpath : filePath lib' ⟨id', st', attrs⟩ fr = filePath lib ⟨id, st, attrs⟩ fr := by
    unfold filePath
    rw [h.shell]
    rfl
  have rests : ∀ {L R}, Rests lib L R → Rests lib' L R := by
    intro L R k
    unfold Rests at k ⊢
    rw [h.bake]
    exact k
  cases k with
  | null a => exact .null a
  | read a b c => exact .read a b (hpath ▸ isFile_saved h (hp a) c)
  | grade a b c d => exact .grade a b ⟨c.1, c.2.1, c.2.2⟩ d
  | gradeOff a b => exact .gradeOff a b
  | transform a b c d => exact .transform a b c ⟨d.1, d.2⟩
  | lens a b c d e f => exact .lens a b c ⟨d.1, d.2⟩ e (by rw [h.lens]; exact f)
  | off a b => exact .off a b
  | resampleIdle a b c => exact .resampleIdle a b c
  | resample a b c d e f g i j k => exact .resample a b c d (picks_saved h e) f g i j k
  | crop a b c d e f g => exact .crop a b c (rests d) e f g
  | merge a b c d e f g i j k => exact .merge a b c (rests d) (rests e) f g i j k
  | viewer a b c d e f g => exact .viewer a b c d e f g
  | viewerSpace a b c d e f g => exact .viewerSpace a b c d e f g
  | viewerOff a b c => exact .viewerOff a b c
  | write a b c d e =>
    refine .write a b c (rests d) ⟨e.crop, ?_, e.width, e.height, ?_⟩
    · rw [h.writer, hpath]; exact e.writer
    · rw [h.bake, hpath]; exact e.cut
  | writeOff a b c => exact .writeOff a b c

end

section
variable {F H : Type} [FloatLike F] [HalfLike F H]

/-- C147: reading a file again moves the picture by the origin of its display window, and moves the
display window to the origin. -/
theorem C147_shift {lib lib' : NodeLib F H} {fr : F} {n : Node F} {alpha : Bool} {own : DType}
    {P Q : Picture F} {job : WriteJob F H} (h : Written lib fr n alpha own P job)
    (hl : Linear (filePath lib n fr)) (hc : ¬ CropsFile (n.getI32 "crop_on_write") (filePath lib n fr))
    (hd : OnDisk lib' job) (hQ : IsFile lib' (filePath lib n fr) Q) :
    Q.data = ⟨P.data.minX + P.display.minX, P.data.minY + P.display.minY,
        P.data.maxX + P.display.minX, P.data.maxY + P.display.minY⟩ ∧
      Q.display = ⟨0, 0, P.display.maxX - P.display.minX, P.display.maxY - P.display.minY⟩ := by
  obtain ⟨hpath, hs⟩ := C138_written h hl
  have hW : window n (filePath lib n fr) P = P.data := if_neg hc
  rw [hW] at hs
  obtain ⟨spec, s1, s2, s3, s4, s5, s6, s7, s8, s9, s10, s11, s12⟩ := hd.header
  obtain ⟨spec', t, k, v, q1, q2, q3, q4, q5, q6, q7, q8, -⟩ := hQ
  rw [hpath, q2] at s1
  cases s1
  have f1 := h.fullX
  have f2 := h.fullY
  have f3 := h.fullWidth
  have f4 := h.fullHeight
  have g1 := hs.x
  have g2 := hs.y
  have g3 := hs.width
  have g4 := hs.height
  rw [q7, q8]
  simp only [BBox.mk.injEq, true_and]
  omega

end

section
variable [Libm single32]

/-- C147 for pictures: where the files that were written are read instead, all nodes make the same
pictures. -/
theorem C147_pictures_partial {p p' : Profile} {lib lib' : NodeLib F32 F16} {srt srt' : EdgeSort}
    {g g' : Graph (Node F32) (Stream F32 F16)} {r r' : Bool} (h : Reach (nodeSem p lib) srt r g)
    (h' : Reach (nodeSem p' lib') srt' r' g') (hu : UniqueSlots g) (hu' : UniqueSlots g')
    {jobs : List (WriteJob F32 F16)} (hsaved : Saved lib lib' jobs) {frames : List F32}
    {n : Node F32} {φ : Nat → Nat} {u start' : Nat} (hs : g.graph.contains (φ start') = true)
    (hs' : g'.graph.contains start' = true) (hφ : StandsFor lib frames n φ g g' u start')
    {fr : F32} (hfr : fr ∈ frames) {pic : Nat → Layer F32}
    (hp : Pictures lib srt g (φ start') fr pic)
    (hfile : IsFile lib' (filePath lib n fr) (pic u).still) (hmoves : (pic u).moves = [])
    (hother : ∀ i m, Upstream g.graph (φ start') i → g.nodes[i]? = some m →
      m.attrs.nodeType = .readImage → ∀ job ∈ jobs, job.path ≠ filePath lib m fr) :
    Pictures lib' srt' g' start' fr (fun j => pic (φ j)) := by
  have up : ∀ j, Upstream g'.graph start' j → Upstream g.graph (φ start') (φ j) := by
    intro j hj
    induction hj with
    | refl => exact .refl
    | step k f ih =>
      rename_i c a
      by_cases hac : a = c
      · rw [hac]; exact ih
      rcases hφ c k with q | ⟨-, m, -, q2⟩
      · obtain ⟨⟨e1, e2, e3⟩, e4, rfl, rfl⟩ := f
        obtain ⟨i, rfl, q3, -⟩ := q.back _ _ e4 hac
        exact .step ih ⟨_, q3, rfl, rfl⟩
      · exact absurd (q2.noInput a f) hac
  intro j m' ins hj hm' hins
  have cj : g'.graph.contains j = true := h'.inv.sound.upstream_live hs' hj
  have back : ∀ m, φ j = u → g'.nodes[j]? = some m → ReadsBack lib frames n g'.graph j m →
      Makes lib' fr m' (ins.map fun j => pic (φ j)) (pic (φ j)) := by
    intro m e1 e2 e3
    rw [hm'] at e2
    obtain rfl := Option.some.inj e2
    have e4 : ins = [] := by
      rw [h'.inv.sound.direct srt' cj] at hins
      rw [← Except.ok.inj hins]
      refine List.eq_nil_iff_forall_not_mem.mpr fun a ha => ?_
      have := (h'.inv.sound.mem_parents srt').mp ha
      exact this.2 (e3.noInput a this.1)
    subst e4
    have e5 : pic (φ j) = ⟨(pic u).still, []⟩ := by rw [e1, ← hmoves]
    rw [e5]
    refine .read e3.read e3.enable ?_
    have e6 : filePath lib' m' fr = filePath lib n fr := by
      rw [← e3.path fr hfr]
      unfold filePath
      rw [hsaved.shell]
    rw [e6]
    exact hfile
  have k := up j hj
  rcases hφ j hj with q | ⟨q1, m, q2, q3⟩
  · obtain ⟨m, m'', e1, e2, e3⟩ := q.nodes
    rw [hm'] at e2
    obtain rfl := Option.some.inj e2
    have ci : g.graph.contains (φ j) = true := h.inv.sound.upstream_live hs k
    have par := sameAt_parents h h' hu hu' q ci cj
    have hd := h.inv.sound.direct srt ci
    rw [h'.inv.sound.direct srt' cj] at hins
    have e4 : (parents srt g.graph (φ j)).map pic = ins.map (fun j => pic (φ j)) := by
      rw [← Except.ok.inj hins]
      generalize parents srt g.graph (φ j) = as at par
      generalize parents srt' g'.graph j = bs at par
      clear hd hins
      induction par with
      | nil => rfl
      | cons a b ih => simp only [List.map_cons, ih, a]
    rw [← e4]
    exact makes_saved hsaved e3 (hother _ m k e1) (hp _ m _ k e1 hd)
  · exact back m q1 q2 q3

/-- What a write node shows is what it is given. -/
theorem writes_makes {lib : NodeLib F32 F16} {fr : F32} {n : Node F32}
    (hW : Writes n) {K L : Layer F32} (h : Makes lib fr n [K] L) : L = K := by
  obtain ⟨h1, h2, h3⟩ := hW
  cases h with
  | write => rfl
  | _ => first | rfl | (exfalso; simp_all; done)

/-- Where nothing waits to be moved, the picture at rest is the picture; a file that shows the one
shows the other. -/
theorem rests_file {lib lib' : NodeLib F32 F16} {L : Layer F32} {R : Picture F32} {t : DType}
    (h : Rests lib L R) (hL : Storable t L) : Storable t ⟨R, []⟩ ∧ ∀ path,
      IsFile lib' path R → IsFile lib' path L.still := by
  obtain ⟨P, ds⟩ := L
  obtain rfl : ds = [] := hL.still
  obtain ⟨h1, h2, h3, h4, -⟩ := h
  obtain ⟨h5, h6⟩ := h4 (by simp)
  simp only at h1 h2 h3 h5 h6
  have hP := hL.proper.plain
  have hv := hL.values
  have hm := hL.size
  constructor
  · refine ⟨rfl, ?_, ?_, ⟨?_, ?_, ?_⟩, ?_, ?_, ⟨?_, ?_, ?_, ?_, ?_⟩⟩
    · show R.display.minX = 0 ∧ R.display.minY = 0
      rw [h1]; exact hL.origin
    · exact h3.trans hL.linear
    · show R.channels = 3 ∨ R.channels = 4
      rw [h2]; exact hL.proper.channels
    · show ValidSize (sizeFor R.data R.channels)
      rw [h2, h5]; exact hL.proper.size
    · intro x y hxy
      have hxy : Has P.data x y := h5 ▸ hxy
      show (R.at_ x y).length = R.channels ∧ _
      rw [h2]
      show (R.at_ x y).length = P.channels ∧ ∀ v ∈ R.at_ x y, IsPlain v
      rw [h6 x y hxy]
      exact hP x y hxy
    · show _ ∨ R.channels = 4
      rw [h2]; exact hL.channels
    · intro x y hxy
      have hxy : Has P.data x y := h5 ▸ hxy
      show ∀ v ∈ R.at_ x y, _
      rw [h6 x y hxy]
      exact hv x y hxy
    all_goals simp only [h5, h1]
    · exact hm.area
    · exact hm.dataX
    · exact hm.dataY
    · exact hm.displayX
    · exact hm.displayY
  · rintro path ⟨spec, s, k, v, a⟩
    refine ⟨spec, s, k, v, ?_⟩
    rw [h1, h2, h3, h5] at a
    obtain ⟨a1, a2, a3, a4, a5, a6, a7, a8, a9, a10, a11, a12, a13⟩ := a
    exact ⟨a1, a2, a3, a4, a5, a6, a7, a8, a9, a10, a11, a12, fun x y hxy => h6 x y hxy ▸ a13 x y hxy⟩

/-- C147: a node of a graph is rendered to files; in another graph these files are read in the place
of the node.  Executing the other graph shows the picture that executing the graph itself shows. -/
theorem C147_execution_partial {p p' : Profile} {lib lib' : NodeLib F32 F16} {srt srt' : EdgeSort}
    {g g' : Graph (Node F32) (Stream F32 F16)} {r r' : Bool} (h : Reach (nodeSem p lib) srt r g)
    (h' : Reach (nodeSem p' lib') srt' r' g') (hu : UniqueSlots g) (hu' : UniqueSlots g')
    {frames : List F32} {frame : F32} (hlast : frames.getLast? = some frame)
    {pic : F32 → Nat → Layer F32}
    -- the write node `W` renders the node `u`
    {idW W u : Nat} (hidW : At g idW W) (hsW : g.graph.contains W = true)
    (hin : g.graph.findDirectUpstream srt W = .ok [u])
    (hpW : ∀ fr ∈ frames, Pictures lib srt g W fr (pic fr)) {n : Node F32}
    (hn : g.nodes[W]? = some n) (hW : Writes n)
    (hq : ∀ i m, Upstream g.graph W i → i ≠ W → g.nodes[i]? = some m → ¬ Writes m)
    {t : DType} (ht : ∀ own, wantedType (n.getI32 "pixel_data_type") own = t)
    (hl : ∀ fr ∈ frames, Linear (filePath lib n fr))
    (hc : ∀ fr ∈ frames, ¬ CropsFile (n.getI32 "crop_on_write") (filePath lib n fr))
    (hP : ∀ fr ∈ frames, Storable t (pic fr u))
    {w0 w1 : World F32 F16} (hw0 : IsOff w0) {fuel : Nat} {st : ExecuteStatus}
    {g1 : Graph (Node F32) (Stream F32 F16)}
    (e : g.execute (nodeSem p lib) srt fuel idW frames w0 = .ok (st, g1, w1))
    (hsaved : ∀ jobs, w1.writes = w0.writes ++ jobs → Saved lib lib' jobs)
    -- the other graph reads the files
    {φ : Nat → Nat} {start id' start' : Nat} (hstart : φ start' = start)
    (hs : g.graph.contains start = true) (hid' : At g' id' start')
    (hs' : g'.graph.contains start' = true) (hφ : StandsFor lib frames n φ g g' u start')
    (hp : ∀ fr ∈ frames, Pictures lib srt g start fr (pic fr))
    (hother : ∀ i m, Upstream g.graph start i → g.nodes[i]? = some m →
      m.attrs.nodeType = .readImage → ∀ fr ∈ frames, ∀ fr' ∈ frames,
      filePath lib n fr' ≠ filePath lib m fr)
    {id : Nat} (hid : At g id start)
    {w2 w3 w4 w5 : World F32 F16} (hw2 : IsOff w2) (hw4 : IsOff w4) {fuel2 fuel3 : Nat}
    {st2 st3 : ExecuteStatus} {g2 g3 : Graph (Node F32) (Stream F32 F16)}
    (e2 : g.execute (nodeSem p lib) srt fuel2 id frames w2 = .ok (st2, g2, w3))
    (e3 : g'.execute (nodeSem p' lib') srt' fuel3 id' frames w4 = .ok (st3, g3, w5)) :
    st2 = .success ∧ st3 = .success ∧ ShowsLayer lib.bake.color g2.output (pic frame start) ∧
      ShowsLayer lib.bake.color g3.output (pic frame start) := by
  subst hstart
  obtain ⟨-, jobs, j1, j2⟩ := C124_render_partial p lib srt h hidW hsW hpW hn hW hq hw0 e
  have hS := hsaved jobs j1
  obtain ⟨a1, -, a2⟩ := C87_graph_returns_partial p lib srt h hid hs hlast hp hw2 e2
  have file : ∀ fr ∈ frames, IsFile lib' (filePath lib n fr) (pic fr u).still := by
    intro fr hfr
    have key : ∃ job ∈ jobs, WrittenLayer lib fr n (pic fr W) job := by
      clear hS j1 hlast hpW hl hc hP e hsaved hφ hp hother e2 e3
      induction j2 with
      | nil => cases hfr
      | cons a b ih =>
        rcases List.mem_cons.mp hfr with rfl | k
        · exact ⟨_, .head _, a⟩
        · obtain ⟨job, k1, k2⟩ := ih k
          exact ⟨job, .tail _ k1, k2⟩
    obtain ⟨job, k1, alpha, own, R, k2, k3⟩ := key
    have hL : pic fr W = pic fr u := writes_makes hW (hpW fr hfr W n [u] .refl hn hin)
    rw [hL] at k2
    have hPu := hP fr hfr
    rw [← ht own] at hPu
    obtain ⟨q1, q2⟩ := rests_file (lib' := lib') k2 hPu
    exact q2 _ (C147_file_partial k3 (hl fr hfr) (hc fr hfr) q1 (hS.written job k1))
  have paths : ∀ job ∈ jobs, ∃ fr ∈ frames, job.path = filePath lib n fr := by
    clear hS j1 hlast hpW hl hc hP e hsaved hφ hp hother e2 e3 file
    intro job hj
    induction j2 with
    | nil => cases hj
    | cons a b ih =>
      rcases List.mem_cons.mp hj with rfl | k
      · obtain ⟨_, _, _, -, k⟩ := a
        exact ⟨_, .head _, k.path⟩
      · obtain ⟨fr, k1, k2⟩ := ih k
        exact ⟨fr, .tail _ k1, k2⟩
  obtain ⟨b1, -, b2⟩ := C87_graph_returns_partial p' lib' srt' h' hid' hs' hlast
    (pic := fun fr j => pic fr (φ j))
    (fun fr hfr => C147_pictures_partial h h' hu hu' hS hs hs' hφ hfr (hp fr hfr) (file fr hfr)
      (hP fr hfr).still (fun i m k1 k2 k3 job hj => by
        obtain ⟨fr', q1, q2⟩ := paths job hj
        rw [q2]
        exact hother i m k1 k2 k3 fr hfr fr' q1)) hw4 e3
  rw [hS.bake] at b2
  exact ⟨a1, b1, a2, b2⟩

end

/-! ### Examples -/

attribute [local instance] IeeeConvertExamples.someLibm

/-- The name `a.exr`. -/
def exrName : Bytes := [97, 46, 101, 120, 114]

/-- There is a file `b`, and perhaps a file `a.exr`: one pixel of half floats. -/
def exrFiles (there : Bool) : NodeLib F32 F16 :=
  { halfFiles (litPixel true) with
    pathKind := fun path => if path = [98] ∨ there = true ∧ path = exrName then .file else .missing
    oiio := { (halfFiles (litPixel true)).oiio with
      header := fun path => if path = [98] ∨ there = true ∧ path = exrName then some halfSpec
        else none } }

/-- Crops to a wider window. -/
def widenNode (id : Nat) : Node F32 :=
  ⟨id, .uninitialized, .cropImage { CropImageAttrs.new with
    enable := 1, windowMinX := -1, windowMinY := 0, windowMaxX := 1, windowMaxY := 1,
    reformat := 1, blackOutside := 0 }⟩

/-- Reads a file. -/
def readNamed (id : Nat) (path : Bytes) : Node F32 :=
  ⟨id, .uninitialized, .readImage { ReadImageAttrs.new with enable := 1, filePath := path }⟩

/-- Reading `b`, nothing, and then both writing `a.exr` and cropping. -/
def renderAndCrop : Graph (Node F32) (Stream F32 F16) :=
  ⟨[readNamed 1 [98], ⟨2, .uninitialized, .null {}⟩, writeHalf, widenNode 4], [1, 2, 3, 4],
    ⟨[some 1, some 2, some 3, some 4], [], [⟨1, 3, 0⟩, ⟨1, 2, 0⟩, ⟨0, 1, 0⟩]⟩, .new, .dirty,
    .uninitialized⟩

/-- Reading `a.exr` and cropping. -/
def cropRendered : Graph (Node F32) (Stream F32 F16) :=
  ⟨[readNamed 1 exrName, widenNode 2], [1, 2], ⟨[some 1, some 2], [], [⟨0, 1, 0⟩]⟩, .new, .dirty,
    .uninitialized⟩

theorem renderAndCrop_reach (b : Bool) :
    Reach (nodeSem .debug (exrFiles b)) insSort false renderAndCrop := by
  have h0 : Reach (nodeSem .debug (exrFiles b)) insSort false _ := .new .new
  have h1 := Reach.add (g' := ⟨[readNamed 1 [98]], [1],
    ⟨[some 1], [], []⟩, .new, .dirty, .uninitialized⟩)
    (readNamed 1 [98]) h0 rfl
  have h2 := Reach.add (g' := ⟨[readNamed 1 [98], ⟨2, .uninitialized, .null {}⟩], [1, 2],
    ⟨[some 1, some 2], [], []⟩, .new, .dirty, .uninitialized⟩)
    ⟨2, .uninitialized, .null {}⟩ h1 rfl
  have h3 := Reach.add (g' := ⟨[readNamed 1 [98], ⟨2, .uninitialized, .null {}⟩, writeHalf], [1, 2, 3],
    ⟨[some 1, some 2, some 3], [], []⟩, .new, .dirty, .uninitialized⟩)
    writeHalf h2 rfl
  have h4 := Reach.add (g' := ⟨[readNamed 1 [98], ⟨2, .uninitialized, .null {}⟩, writeHalf, widenNode 4], [1, 2, 3, 4],
    ⟨[some 1, some 2, some 3, some 4], [], []⟩, .new, .dirty, .uninitialized⟩)
    (widenNode 4) h3 rfl
  have h5 := Reach.connect (g' := ⟨[readNamed 1 [98], ⟨2, .uninitialized, .null {}⟩, writeHalf, widenNode 4], [1, 2, 3, 4],
    ⟨[some 1, some 2, some 3, some 4], [], [⟨0, 1, 0⟩]⟩, .new, .dirty, .uninitialized⟩)
    1 2 0 h4 rfl
  have h6 := Reach.connect (g' := ⟨[readNamed 1 [98], ⟨2, .uninitialized, .null {}⟩, writeHalf, widenNode 4], [1, 2, 3, 4],
    ⟨[some 1, some 2, some 3, some 4], [], [⟨1, 2, 0⟩, ⟨0, 1, 0⟩]⟩, .new, .dirty, .uninitialized⟩)
    2 3 0 h5 rfl
  have h7 := Reach.connect (g' := ⟨[readNamed 1 [98], ⟨2, .uninitialized, .null {}⟩, writeHalf, widenNode 4], [1, 2, 3, 4],
    ⟨[some 1, some 2, some 3, some 4], [], [⟨1, 3, 0⟩, ⟨1, 2, 0⟩, ⟨0, 1, 0⟩]⟩, .new, .dirty, .uninitialized⟩)
    2 4 0 h6 rfl
  exact h7

theorem cropRendered_reach (b : Bool) :
    Reach (nodeSem .debug (exrFiles b)) insSort false cropRendered :=
  .connect 1 2 0 (.add (widenNode 2) (.add (readNamed 1 exrName) (.new .new) rfl) rfl) rfl

theorem renderAndCrop_slots : UniqueSlots renderAndCrop := by
  intro a a' b s h1 h2
  simp only [Conn, renderAndCrop, List.mem_cons, Edge.mk.injEq, List.not_mem_nil, or_false] at h1 h2
  omega

theorem cropRendered_slots : UniqueSlots cropRendered := by
  intro a a' b s h1 h2
  simp only [Conn, cropRendered, List.mem_cons, Edge.mk.injEq, List.not_mem_nil, or_false] at h1 h2
  omega

/-- Which node of `renderAndCrop` a node of `cropRendered` stands for. -/
def standing (j : Nat) : Nat := if j = 0 then 1 else if j = 1 then 3 else 0

theorem exr_file (b : Bool) : IsFile (exrFiles b) [98] (litLayers true 0).still := by
  obtain ⟨spec, t, k, v, h1, h2, h⟩ := lit_file true [98]
  cases h2
  exact ⟨halfSpec, t, k, v, rfl, rfl, h⟩

theorem renderAndCrop_pictures (start : Nat) (frame : F32) : Pictures (exrFiles false) insSort
    renderAndCrop start frame (fun i => litLayers true (if i = 3 then 1 else 0)) := by
  intro i n ins _ hn hins
  rcases i with _ | _ | _ | _ | i
  · cases hn
    cases hins
    exact .read rfl (by decide) (exr_file _)
  · cases hn
    cases hins
    exact .null rfl
  · cases hn
    cases hins
    refine .write rfl (by decide) (by decide) (rests_refl _ _) ⟨.inl rfl, rfl, by decide, by decide, ?_⟩
    rintro (h | ⟨h, -⟩) <;> cases h
  · cases hn
    cases hins
    exact .crop rfl rfl (by decide) (rests_refl _ _) rfl
      (show ValidSize ⟨2, 1, 4⟩ by unfold ValidSize; decide) (lit_cut true)
  · cases hn

/-- What is written about a file, apart from the metadata. -/
def jobFacts (job : WriteJob F32 F16) :
    Bytes × List Int × DataType × BlockSize × Option (List (Bool × Nat)) :=
  (job.path, [job.spec.x, job.spec.y, job.spec.width, job.spec.height, job.spec.fullX, job.spec.fullY,
    job.spec.fullWidth, job.spec.fullHeight, job.spec.numChannels], job.spec.format, job.size,
    match job.block with
    | ⟨.f16, d⟩ => some (List.map (fun x : F16 => (x.neg, x.code)) d)
    | _ => none)

/-- What was written by a successful execution. -/
def writtenFacts (r : Res (ExecuteStatus × Graph (Node F32) (Stream F32 F16) × World F32 F16)) :
    Option (List (Bytes × List Int × DataType × BlockSize × Option (List (Bool × Nat)))) :=
  match r with
  | .ok (.success, _, w) => some (w.writes.map jobFacts)
  | _ => none

set_option synthInstance.maxSize 1024 in
theorem render_facts : writtenFacts (renderAndCrop.execute (nodeSem .debug (exrFiles false)) insSort
    20 3 [1] copyWorld) = some [(exrName, [0, 0, 1, 1, 0, 0, 1, 1, 4], .known .f16, ⟨1, 1, 4⟩,
      some [(false, 16384), (false, 16384), (false, 16384), (false, 0x3c00)])] := by
  decide +kernel

theorem litFloats_half : ∀ v ∈ litFloats true, inType F16 .f16 v = v := by
  decide +kernel

theorem lit_storable : Storable .f16 (litLayers true 0) where
  still := rfl
  origin := ⟨rfl, rfl⟩
  linear := rfl
  proper := lit_proper true 0
  channels := .inr rfl
  values _ _ _ := litFloats_half
  size := ⟨by decide, by decide, by decide, by decide, by decide⟩

theorem exr_onDisk {job : WriteJob F32 F16} (h : jobFacts job =
    (exrName, [0, 0, 1, 1, 0, 0, 1, 1, 4], .known .f16, ⟨1, 1, 4⟩,
      some [(false, 16384), (false, 16384), (false, 16384), (false, 0x3c00)])) :
    OnDisk (exrFiles true) job := by
  unfold jobFacts at h
  simp only [Prod.mk.injEq, List.cons.injEq, and_true] at h
  obtain ⟨h1, ⟨a1, a2, a3, a4, a5, a6, a7, a8, a9⟩, h2, h3, h4⟩ := h
  have hb : job.block = ⟨.f16, litPixel true⟩ := by
    match job.block, h4 with
    | ⟨.f16, d⟩, h4 =>
      refine congrArg (fun d : List F16 => (⟨.f16, d⟩ : DataBlock F32 F16)) ?_
      have h4 := Option.some.inj h4
      change List.map (fun x : F16 => (x.neg, x.code)) d = List.map (fun x : F16 => (x.neg, x.code))
        (litPixel true) at h4
      refine List.map_injective_iff.mpr ?_ h4
      intro x y hxy
      simp only [Prod.mk.injEq] at hxy
      exact Ieee.ext' hxy.1 hxy.2
  refine ⟨?_, ⟨halfSpec, ?_, a1.symm, a2.symm, a3.symm, a4.symm, a5.symm, a6.symm, a7.symm, a8.symm,
    a9.symm, h2.symm, rfl⟩, ?_⟩
  · rw [h1]; rfl
  · rw [h1]; rfl
  · intro t d old e hl
    rw [hb] at e
    cases e
    change List F16 at old
    match old, hl with
    | [_, _, _, _], _ => rfl

/-- The disk after `a.exr` was written. -/
theorem exr_saved {job : WriteJob F32 F16} (h : jobFacts job =
    (exrName, [0, 0, 1, 1, 0, 0, 1, 1, 4], .known .f16, ⟨1, 1, 4⟩,
      some [(false, 16384), (false, 16384), (false, 16384), (false, 0x3c00)])) :
    Saved (exrFiles false) (exrFiles true) [job] := by
  refine ⟨rfl, rfl, rfl, rfl, rfl, ?_, ?_⟩
  · intro j hj
    obtain rfl := List.mem_singleton.mp hj
    exact exr_onDisk h
  · intro path hp
    have h1 : job.path = exrName := congrArg Prod.fst h
    have h2 : path ≠ exrName := fun e => hp job (.head _) (h1.trans e.symm)
    refine ⟨?_, ?_, rfl⟩
    · show (if path = [98] ∨ true = true ∧ path = exrName then PathKind.file else .missing) =
        if path = [98] ∨ false = true ∧ path = exrName then .file else .missing
      simp only [h2, and_false]
    · show (if path = [98] ∨ true = true ∧ path = exrName then some halfSpec else none) =
        if path = [98] ∨ false = true ∧ path = exrName then some halfSpec else none
      simp only [h2, and_false]

theorem exr_stands : StandsFor (exrFiles false) [1] writeHalf standing renderAndCrop cropRendered 1 1 := by
  intro j hj
  have hj : j = 0 ∨ j = 1 := by
    clear * - hj
    induction hj with
    | refl => exact .inr rfl
    | step _ f _ =>
      obtain ⟨e, he, rfl, rfl⟩ := f
      obtain rfl := List.mem_singleton.mp he
      exact .inl rfl
  rcases hj with rfl | rfl
  · refine .inr ⟨rfl, _, rfl, rfl, by decide, fun fr hfr => ?_, ?_⟩
    · obtain rfl := List.mem_singleton.mp hfr
      rfl
    · rintro a ⟨e, he, h1, h2⟩
      obtain rfl := List.mem_singleton.mp he
      cases h2
  · refine .inl ⟨⟨_, _, rfl, rfl, rfl⟩, ?_, ?_⟩
    · intro a slot h _
      have h : Conn renderAndCrop a 3 slot := h
      simp only [Conn, renderAndCrop, List.mem_cons, Edge.mk.injEq, List.not_mem_nil, or_false] at h
      refine ⟨0, ?_, ?_, by decide⟩
      · show 1 = a
        omega
      · show _ ∈ [_]
        rw [List.mem_singleton, show slot = 0 by omega]
    · intro b slot h _
      simp only [Conn, cropRendered, List.mem_singleton, Edge.mk.injEq] at h
      obtain ⟨rfl, -, rfl⟩ := h
      exact ⟨1, rfl, .head _, by decide⟩

/-- The hypotheses of C147 are met: a pixel is rendered to `a.exr`, and this file is cropped instead
of the pixel itself. -/
example : ∃ g1 w1 g2 w2 g3 w3 L,
    renderAndCrop.execute (nodeSem .debug (exrFiles false)) insSort 20 3 [1] copyWorld =
      .ok (.success, g1, w1) ∧
    renderAndCrop.execute (nodeSem .debug (exrFiles false)) insSort 20 4 [1] copyWorld =
      .ok (.success, g2, w2) ∧
    cropRendered.execute (nodeSem .debug (exrFiles true)) insSort 20 2 [1] copyWorld =
      .ok (.success, g3, w3) ∧
    ShowsLayer (exrFiles false).bake.color g2.output L ∧
    ShowsLayer (exrFiles false).bake.color g3.output L := by
  have hf := render_facts
  obtain ⟨g1, w1, e1⟩ : ∃ g1 w1, renderAndCrop.execute (nodeSem .debug (exrFiles false)) insSort
      20 3 [1] copyWorld = .ok (.success, g1, w1) := ⟨_, _, rfl⟩
  obtain ⟨g2, w2, e2⟩ : ∃ g1 w1, renderAndCrop.execute (nodeSem .debug (exrFiles false)) insSort
      20 4 [1] copyWorld = .ok (.success, g1, w1) := ⟨_, _, rfl⟩
  obtain ⟨g3, w3, e3⟩ : ∃ g1 w1, cropRendered.execute (nodeSem .debug (exrFiles true)) insSort
      20 2 [1] copyWorld = .ok (.success, g1, w1) := ⟨_, _, rfl⟩
  rw [e1] at hf
  have hf : w1.writes.map jobFacts = _ := Option.some.inj hf
  obtain ⟨-, -, h1, h2⟩ := C147_execution_partial (renderAndCrop_reach false) (cropRendered_reach true)
    renderAndCrop_slots cropRendered_slots (frames := [1]) (frame := 1) rfl
    (pic := fun _ i => litLayers true (if i = 3 then 1 else 0)) (idW := 3) (W := 2) (u := 1)
    (by
      refine ⟨rfl, fun j hj => ?_⟩
      rcases j with _ | _ | j <;> first | decide | omega) rfl rfl
    (fun fr _ => renderAndCrop_pictures 2 fr) rfl ⟨rfl, by decide, by decide⟩
    (by
      intro i m _ hi hm
      rcases i with _ | _ | _ | _ | i
      · cases hm; rintro ⟨⟨⟩, -⟩
      · cases hm; rintro ⟨⟨⟩, -⟩
      · exact absurd rfl hi
      · cases hm; rintro ⟨⟨⟩, -⟩
      · cases hm)
    (t := .f16) (fun _ => rfl)
    (fun fr hfr => by
      obtain rfl := List.mem_singleton.mp hfr
      unfold Linear
      decide +kernel)
    (fun fr hfr => by
      rintro (h | ⟨h, -⟩) <;> cases h)
    (fun _ _ => lit_storable) ⟨rfl, rfl⟩ e1
    (fun jobs hj => by
      rw [show w1.writes = jobs from hj] at hf
      rcases jobs with _ | ⟨job, _ | ⟨job', jobs⟩⟩
      · cases hf
      · exact exr_saved (List.cons.inj hf).1
      · cases (List.cons.inj hf).2)
    (φ := standing) (start := 3) (start' := 1) (id := 4) (id' := 2) rfl rfl
    (by
      refine ⟨rfl, fun j hj => ?_⟩
      rcases j with _ | j <;> first | decide | omega) rfl exr_stands
    (fun fr _ => renderAndCrop_pictures 3 fr)
    (by
      intro i m _ hm ht fr hfr fr' hfr'
      obtain rfl := List.mem_singleton.mp hfr
      obtain rfl := List.mem_singleton.mp hfr'
      rcases i with _ | _ | _ | _ | i
      · cases hm; decide +kernel
      · cases hm; cases ht
      · cases hm; cases ht
      · cases hm; cases ht
      · cases hm)
    (by
      refine ⟨rfl, fun j hj => ?_⟩
      rcases j with _ | _ | _ | j <;> first | decide | omega) ⟨rfl, rfl⟩ ⟨rfl, rfl⟩ e2 e3
  exact ⟨g1, w1, g2, w2, g3, w3, _, e1, e2, e3, h1, h2⟩

/-- A disk on which every file is the one that was written. -/
def diskWith (job : WriteJob F32 F16) : NodeLib F32 F16 :=
  { halfFiles [] with
    oiio := { (halfFiles []).oiio with
      header := fun _ => some { job.spec with colorSpace := colorSpaceLinear }
      pixels := fun _ _ t _ old => if h : job.block.dtype = t ∧ job.block.data.length = old.length
        then h.1 ▸ job.block.data else old
      pixels_length := by
        intro _ _ t _ old
        obtain ⟨_, _, _, _, t', d⟩ := job
        dsimp only
        split
        · rename_i h
          obtain ⟨rfl, h⟩ := h
          exact h
        · rfl } }

theorem diskWith_onDisk (job : WriteJob F32 F16) : OnDisk (diskWith job) job := by
  refine ⟨rfl, ⟨_, rfl, rfl, rfl, rfl, rfl, rfl, rfl, rfl, rfl, rfl, rfl, rfl⟩, ?_⟩
  intro t d old e hl
  obtain ⟨_, _, _, _, b⟩ := job
  obtain rfl : b = ⟨t, d⟩ := e
  show (if h : t = t ∧ d.length = old.length then (h.1 ▸ d : List (Elem F32 F16 t)) else old) = d
  rw [dif_pos ⟨rfl, hl.symm⟩]

/-- C147 is false for pictures whose display window does not start at the origin: read again, the
picture is somewhere else. -/
theorem C147_counterexample_origin : ∃ g1 w1 job,
    readWideWrite.execute (nodeSem .debug (halfFiles (redPixel true))) insSort 20 3 [1] copyWorld =
      .ok (.success, g1, w1) ∧ w1.writes = [job] ∧
    OnDisk (diskWith job) job ∧ Proper (wideLayers true 2).still ∧
    WrittenLayer (halfFiles (redPixel true)) 1 writeHalf (wideLayers true 2) job ∧
    ¬ IsFile (diskWith job) job.path (wideLayers true 2).still := by
  obtain ⟨g1, w1, e1⟩ : ∃ g1 w1, readWideWrite.execute (nodeSem .debug (halfFiles (redPixel true)))
      insSort 20 3 [1] copyWorld = .ok (.success, g1, w1) := ⟨_, _, rfl⟩
  obtain ⟨-, jobs, j1, j2⟩ := C124_render_partial .debug _ insSort (readWideWrite_reach (redPixel true))
    readWideWrite_at rfl (frames := [1]) (pic := fun _ => wideLayers true)
    (fun fr _ => wideWrite_pictures true fr) (n := writeHalf) rfl ⟨rfl, by decide, by decide⟩
    (fun i m _ hne hm => wideWrite_quiet i m hne hm) ⟨rfl, rfl⟩ e1
  cases j2 with
  | cons a b =>
    cases b
    rename_i job
    refine ⟨g1, w1, job, e1, j1, diskWith_onDisk job, wide_proper true 2, a, fun h => ?_⟩
    obtain ⟨alpha, own, R, k1, k2⟩ := a
    rw [k2.path] at h
    have hd := (C147_shift k2 (by unfold Linear; decide +kernel)
      (by rintro (h | ⟨h, -⟩) <;> cases h) (diskWith_onDisk job) h).2
    have hR : R.display = ⟨-1, 0, 1, 1⟩ := k1.display
    rw [hR] at hd
    have : (-1 : Int) = 0 := congrArg BBox.minX hd
    omega

end OCG.Props
