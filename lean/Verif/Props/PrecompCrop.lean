import Verif.Props.Precomp
/-
Property C152: writing a cropped file and reading it again is the same as a crop node.
-/

namespace OCG.Props

open GraphSpec PictureSpec RenderSpec FileSpec BBoxSpec BlockSpec ImageSpecs CacheSpec PrecompSpec
open IdleSpec BuiltSpec PixelSpec ColorSpec ChannelSpec PlainSpec IeeeSpec

section
variable [Libm single32]

theorem stored_zero (t : DType) : stored (F := F32) (H := F16) t 0 = black t := by
  have e8 : Fin.ofNat 256 (Ieee.toRange 0 255
      (Ieee.mul (Ieee.zero false : F32) (Ieee.ofInt 255))).toNat = 0 := by decide +kernel
  have e16 : Fin.ofNat 65536 (Ieee.toRange 0 65535
      (Ieee.mul (Ieee.zero false : F32) (Ieee.ofInt 65535))).toNat = 0 := by decide +kernel
  cases t with
  | f32 => rfl
  | f16 => rfl
  | u8 => exact e8
  | u16 => exact e16

/-- A file that shows the part of a picture in its display window shows the picture cut to this
window. -/
theorem shows_cut {t : DType} {P Q : Picture F32} {job : WriteJob F32 F16} {b : Bool}
    (hP : AllPlain P) (hc : P.channels = 3 ∨ P.channels = 4) (h : FileShows t P.display P job)
    (hQ : IsCropped P.display b P Q) : FileShows t Q.data Q job := by
  obtain ⟨d, e, dl, dv⟩ := h.values
  have ch := hQ.channels
  rw [hQ.data]
  refine ⟨h.x, h.y, h.width, h.height, h.channels.trans (by rw [ch]), h.format,
    h.size.trans (by rw [ch]), d, e, dl.trans (by rw [ch]), fun x y c hxy hc' => ?_⟩
  rw [if_pos (by rw [hQ.data]; exact hxy), ch, dv x y c hxy (by rw [← ch]; exact hc')]
  have key : Q.at_ x y = P.pixel x y := by
    refine settled_plain (n := P.channels) (by unfold Channels; omega) ?_ ?_ (hQ.pixels x y hxy)
    · unfold Picture.pixel
      split
      · exact (hP x y ‹_›).1
      · exact List.length_replicate
    · intro p hp
      unfold Picture.pixel at hp
      split at hp
      · exact (hP x y ‹_›).2 p hp
      · rw [List.eq_of_mem_replicate hp]
        exact plain_zero
  rw [key]
  unfold Picture.pixel
  split
  · rfl
  · rw [List.getElem?_replicate, if_pos (by rw [← ch]; exact hc'), Option.map_some, stored_zero]

/-- C152 for one node: a node that reads a file that was written cropped makes what a crop to the
display window makes of the picture that was written. -/
theorem C152_node {lib lib' : NodeLib F32 F16} {fr : F32} {n m : Node F32} {L M : Layer F32}
    {job : WriteJob F32 F16} (hL : Proper L.still) (hW : WrittenLayer lib fr n L job)
    (hl : Linear (filePath lib n fr)) (hc : CropsFile (n.getI32 "crop_on_write") (filePath lib n fr))
    {t : DType} (ht : ∀ own, wantedType (n.getI32 "pixel_data_type") own = t)
    (hm : m.attrs.nodeType = .cropImage) (hon : m.getI32 "enable" = 1)
    (hw : cropWindow m = L.still.display) (hM : Makes lib fr m [L] M) (hS : Storable t M)
    (hd : OnDisk lib' job) : IsFile lib' (filePath lib n fr) M.still := by
  obtain ⟨alpha, own, R, hR, hWr⟩ := hW
  have key : ∀ {Ls : List (Layer F32)}, Makes lib fr m Ls M → Ls = [L] →
      ∃ R' Q b, M = ⟨Q, []⟩ ∧ Rests lib L R' ∧ IsCropped (cropWindow m) b R' Q := by
    intro Ls hM e
    cases hM with
    | crop h1 h2 h3 h4 h5 h6 h7 =>
      cases e
      exact ⟨_, _, _, rfl, h4, h7⟩
    | off _ h => rw [hon] at h; cases h
    | _ => exfalso; simp_all; done
  obtain ⟨R', Q, b, rfl, hR', hQ⟩ := key hM rfl
  obtain ⟨same, pl, pl'⟩ := sameIn_rests (S := fun _ => True) hL hL
    ⟨rfl, rfl, rfl, rfl, fun _ _ _ _ _ => rfl⟩ hR hR'
  have hQ' : IsCropped R.display b R Q := by
    rw [hw, ← hR.display] at hQ
    refine ⟨hQ.data, ?_, hQ.channels.trans same.channels.symm, hQ.space.trans same.space.symm,
      fun x y hxy => ?_⟩
    · rw [hQ.display]
      split
      · rfl
      · exact same.display.symm
    · have := hQ.pixels x y hxy
      rw [← same.channels] at this
      have e : R'.pixel x y = R.pixel x y := by
        unfold Picture.pixel
        rw [← same.data, ← same.channels]
        split
        · refine List.ext_getElem? fun c => (same.values x y ‹_› c trivial).symm
        · rfl
      rwa [e] at this
  obtain ⟨hpath, hs⟩ := C138_written hWr hl
  rw [ht own] at hs
  have hW' : window n (filePath lib n fr) R = R.display := if_pos hc
  rw [hW'] at hs
  have disp : Q.display = R.display := by
    rw [hQ'.display]
    split <;> rfl
  rw [← hpath]
  exact file_of_shows (shows_cut pl (by rw [hR.channels]; exact hL.channels) hs hQ')
    (hWr.fullX.trans (by rw [disp])) (hWr.fullY.trans (by rw [disp]))
    (hWr.fullWidth.trans (by rw [disp])) (hWr.fullHeight.trans (by rw [disp])) hS hd

/-- C152: a picture is rendered to cropped files; in another graph these files are read in the place of
a crop of the picture to its display window.  Executing the other graph shows the picture that executing
the graph itself shows. -/
theorem C152_execution {p p' : Profile} {lib lib' : NodeLib F32 F16} {srt srt' : EdgeSort}
    {g g' : Graph (Node F32) (Stream F32 F16)} {r r' : Bool} (h : Reach (nodeSem p lib) srt r g)
    (h' : Reach (nodeSem p' lib') srt' r' g') (hu : UniqueSlots g) (hu' : UniqueSlots g')
    {frames : List F32} {frame : F32} (hlast : frames.getLast? = some frame)
    {pic : F32 → Nat → Layer F32}
    -- the write node `W` renders the node `v`
    {idW W v : Nat} (hidW : At g idW W) (hsW : g.graph.contains W = true)
    (hin : g.graph.findDirectUpstream srt W = .ok [v])
    (hpW : ∀ fr ∈ frames, Pictures lib srt g W fr (pic fr)) {n : Node F32}
    (hn : g.nodes[W]? = some n) (hW : Writes n)
    (hq : ∀ i m, Upstream g.graph W i → i ≠ W → g.nodes[i]? = some m → ¬ Writes m)
    {t : DType} (ht : ∀ own, wantedType (n.getI32 "pixel_data_type") own = t)
    (hl : ∀ fr ∈ frames, Linear (filePath lib n fr))
    (hc : ∀ fr ∈ frames, CropsFile (n.getI32 "crop_on_write") (filePath lib n fr))
    (hL : ∀ fr ∈ frames, Proper (pic fr v).still)
    {w0 w1 : World F32 F16} (hw0 : IsOff w0) {fuel : Nat} {st : ExecuteStatus}
    {g1 : Graph (Node F32) (Stream F32 F16)}
    (e : g.execute (nodeSem p lib) srt fuel idW frames w0 = .ok (st, g1, w1))
    (hsaved : ∀ jobs, w1.writes = w0.writes ++ jobs → Saved lib lib' jobs)
    -- the node `u` crops it to its display window
    {start u : Nat} (hup : Upstream g.graph start u)
    (hinu : g.graph.findDirectUpstream srt u = .ok [v]) {m : Node F32} (hm : g.nodes[u]? = some m)
    (hmt : m.attrs.nodeType = .cropImage) (hon : m.getI32 "enable" = 1)
    (hwin : ∀ fr ∈ frames, cropWindow m = (pic fr v).still.display)
    (hS : ∀ fr ∈ frames, Storable t (pic fr u))
    -- the other graph reads the files
    {φ : Nat → Nat} {id' start' : Nat} (hstart : φ start' = start)
    (hs : g.graph.contains start = true) (hid' : At g' id' start')
    (hs' : g'.graph.contains start' = true) (hφ : StandsFor lib frames n φ g g' u start')
    (hp : ∀ fr ∈ frames, Pictures lib srt g start fr (pic fr))
    (hother : ∀ i m, Upstream g.graph start i → g.nodes[i]? = some m →
      m.attrs.nodeType = .readImage → ∀ fr ∈ frames, ∀ fr' ∈ frames,
      filePath lib n fr' ≠ filePath lib m fr)
    {id : Nat} (hid : At g id start)
    {w2 w3 w4 w5 : World F32 F16} (hw2 : IsOff w2) (hw4 : IsOff w4) {fuel2 fuel3 : Nat}
    {st2 st3 : ExecuteStatus} {g2 g3 : Graph (Node F32) (Stream F32 F16)}
    (e2 : g.execute (nodeSem p lib) srt fuel2 id frames w2 = .ok (st2, g2, w3))
    (e3 : g'.execute (nodeSem p' lib') srt' fuel3 id' frames w4 = .ok (st3, g3, w5)) :
    st2 = .success ∧ st3 = .success ∧ ShowsLayer lib.bake.color g2.output (pic frame start) ∧
      ShowsLayer lib.bake.color g3.output (pic frame start) := by
  subst hstart
  obtain ⟨-, jobs, j1, j2⟩ := C124_render_partial p lib srt h hidW hsW hpW hn hW hq hw0 e
  have hSv := hsaved jobs j1
  obtain ⟨a1, -, a2⟩ := C87_graph_returns_partial p lib srt h hid hs hlast hp hw2 e2
  have file : ∀ fr ∈ frames, IsFile lib' (filePath lib n fr) (pic fr u).still := by
    intro fr hfr
    have key : ∃ job ∈ jobs, WrittenLayer lib fr n (pic fr W) job := by
      clear hSv j1 hlast hpW hl hc hL hS hwin e hsaved hφ hp hother e2 e3
      induction j2 with
      | nil => cases hfr
      | cons a b ih =>
        rcases List.mem_cons.mp hfr with rfl | k
        · exact ⟨_, .head _, a⟩
        · obtain ⟨job, k1, k2⟩ := ih k
          exact ⟨job, .tail _ k1, k2⟩
    obtain ⟨job, k1, k2⟩ := key
    have hWv : pic fr W = pic fr v := writes_makes hW (hpW fr hfr W n [v] .refl hn hin)
    rw [hWv] at k2
    exact C152_node (hL fr hfr) k2 (hl fr hfr) (hc fr hfr) ht hmt hon (hwin fr hfr)
      (hp fr hfr u m [v] hup hm hinu) (hS fr hfr) (hSv.written job k1)
  have paths : ∀ job ∈ jobs, ∃ fr ∈ frames, job.path = filePath lib n fr := by
    clear hSv j1 hlast hpW hl hc hL hS hwin e hsaved hφ hp hother e2 e3 file
    intro job hj
    induction j2 with
    | nil => cases hj
    | cons a b ih =>
      rcases List.mem_cons.mp hj with rfl | k
      · obtain ⟨_, _, _, -, k⟩ := a
        exact ⟨_, .head _, k.path⟩
      · obtain ⟨fr, k1, k2⟩ := ih k
        exact ⟨fr, .tail _ k1, k2⟩
  obtain ⟨b1, -, b2⟩ := C87_graph_returns_partial p' lib' srt' h' hid' hs' hlast
    (pic := fun fr j => pic fr (φ j))
    (fun fr hfr => C147_pictures_partial h h' hu hu' hSv hs hs' hφ hfr (hp fr hfr) (file fr hfr)
      (hS fr hfr).still (fun i m k1 k2 k3 job hj => by
        obtain ⟨fr', q1, q2⟩ := paths job hj
        rw [q2]
        exact hother i m k1 k2 k3 fr hfr fr' q1)) hw4 e3
  rw [hSv.bake] at b2
  exact ⟨a1, b1, a2, b2⟩

end

/-! ### Examples -/

attribute [local instance] IeeeConvertExamples.someLibm

/-- A file with two pixels, the display window of which is the left one. -/
def overscan : FileSpec F32 := { halfSpec with width := 2 }

/-- There is a file `b` with two pixels, and perhaps a file `a.exr` with one pixel. -/
def cutFiles (there : Bool) : NodeLib F32 F16 :=
  { halfFiles [] with
    pathKind := fun path => if path = [98] ∨ there = true ∧ path = exrName then .file else .missing
    oiio := { (halfFiles []).oiio with
      header := fun path => if path = [98] then some overscan
        else if there = true ∧ path = exrName then some halfSpec else none
      pixels := fun path _ t _ old => match t with
        | .f16 => fillWith (if path = [98] then litPixel true ++ litPixel false else litPixel true) old
        | .u8 => old
        | .u16 => old
        | .f32 => old
      pixels_length := by
        intro _ _ t _ old
        cases t <;> first | rfl | exact fillWith_length _ old } }

/-- Writes half floats to `a.exr`, cropped. -/
def writeCut : Node F32 :=
  ⟨2, .uninitialized, .writeImage { WriteImageAttrs.new with
    enable := 1, execute := 1, filePath := exrName, cropOnWrite := 1, pixelDataType := 1 }⟩

/-- Crops to the display window. -/
def cutNode : Node F32 :=
  ⟨3, .uninitialized, .cropImage { CropImageAttrs.new with
    enable := 1, windowMinX := 0, windowMinY := 0, windowMaxX := 1, windowMaxY := 1,
    reformat := 0, blackOutside := 0 }⟩

/-- Reading `b`, and then both writing `a.exr` and cropping. -/
def cutBoth : Graph (Node F32) (Stream F32 F16) :=
  ⟨[readNamed 1 [98], writeCut, cutNode], [1, 2, 3],
    ⟨[some 1, some 2, some 3], [], [⟨0, 2, 0⟩, ⟨0, 1, 0⟩]⟩, .new, .dirty, .uninitialized⟩

/-- Reading `a.exr`. -/
def readCut : Graph (Node F32) (Stream F32 F16) :=
  ⟨[readNamed 1 exrName], [1], ⟨[some 1], [], []⟩, .new, .dirty, .uninitialized⟩

theorem cutBoth_reach : Reach (nodeSem .debug (cutFiles false)) insSort false cutBoth := by
  have h0 : Reach (nodeSem .debug (cutFiles false)) insSort false _ := .new .new
  have h1 := Reach.add (g' := ⟨[readNamed 1 [98]], [1],
    ⟨[some 1], [], []⟩, .new, .dirty, .uninitialized⟩) (readNamed 1 [98]) h0 rfl
  have h2 := Reach.add (g' := ⟨[readNamed 1 [98], writeCut], [1, 2],
    ⟨[some 1, some 2], [], []⟩, .new, .dirty, .uninitialized⟩) writeCut h1 rfl
  have h3 := Reach.add (g' := ⟨[readNamed 1 [98], writeCut, cutNode], [1, 2, 3],
    ⟨[some 1, some 2, some 3], [], []⟩, .new, .dirty, .uninitialized⟩) cutNode h2 rfl
  have h4 := Reach.connect (g' := ⟨[readNamed 1 [98], writeCut, cutNode], [1, 2, 3],
    ⟨[some 1, some 2, some 3], [], [⟨0, 1, 0⟩]⟩, .new, .dirty, .uninitialized⟩) 1 2 0 h3 rfl
  have h5 := Reach.connect (g' := ⟨[readNamed 1 [98], writeCut, cutNode], [1, 2, 3],
    ⟨[some 1, some 2, some 3], [], [⟨0, 2, 0⟩, ⟨0, 1, 0⟩]⟩, .new, .dirty, .uninitialized⟩) 1 3 0 h4 rfl
  exact h5

theorem readCut_reach : Reach (nodeSem .debug (cutFiles true)) insSort false readCut :=
  .add (readNamed 1 exrName) (.new .new) rfl

/-- Two pixels, and the left one. -/
def cutLayers (i : Nat) : Layer F32 :=
  if i = 2 then litLayers true 0 else
    ⟨⟨⟨0, 0, 2, 1⟩, ⟨0, 0, 1, 1⟩, 4, colorSpaceLinear, fun x _ => litFloats (decide (x = 0))⟩, []⟩

theorem cut_file : IsFile (cutFiles false) [98] (cutLayers 0).still := by
  refine ⟨overscan, .f16, 8, litFloats true ++ litFloats false, rfl, rfl, by constructor <;> decide, rfl,
    .inr rfl, rfl, rfl, rfl, rfl, rfl, ⟨litFloats true ++ litFloats false, ?_, ?_, ?_⟩, rfl, ?_⟩
  · obtain ⟨size, hs⟩ : ∃ size, size = sizeFor (cutLayers 0).still.data (cutLayers 0).still.channels :=
      ⟨_, rfl⟩
    rw [← hs]
    refine congrArg (fun l : List F32 => Except.ok (floatImage (H := F16) size l)) ?_
    show List.map (fun x : F16 => (HalfLike.toF32 x : F32)) (litPixel true ++ litPixel false) =
      litFloats true ++ litFloats false
    decide +kernel
  · intro _; rfl
  · intro h; exact absurd rfl h
  · rintro x y ⟨h1, h2, h3, h4⟩
    have hy : y = 0 := by change (0 : Int) ≤ y at h3; change y < 1 at h4; omega
    have hx : x = 0 ∨ x = 1 := by change (0 : Int) ≤ x at h1; change x < 2 at h2; omega
    subst hy
    rcases hx with rfl | rfl
    · exact ⟨litFloats true, by decide +kernel, .nil _⟩
    · exact ⟨litFloats false, by decide +kernel, .nil _⟩

theorem cut_cropped : IsCropped ⟨0, 0, 1, 1⟩ false (cutLayers 0).still (litLayers true 0).still := by
  refine ⟨rfl, rfl, rfl, rfl, ?_⟩
  rintro x y ⟨h1, h2, h3, h4⟩
  have hy : y = 0 := by change (0 : Int) ≤ y at h3; change y < 1 at h4; omega
  have hx : x = 0 := by change (0 : Int) ≤ x at h1; change x < 1 at h2; omega
  subst hy hx
  exact ⟨litFloats true, by decide +kernel, .nil _⟩

theorem cut_pictures (start : Nat) (frame : F32) :
    Pictures (cutFiles false) insSort cutBoth start frame cutLayers := by
  intro i n ins _ hn hins
  rcases i with _ | _ | _ | i
  · cases hn
    cases hins
    exact .read rfl (by decide) cut_file
  · cases hn
    cases hins
    exact .write rfl (by decide) (by decide) (rests_refl _ _) ⟨.inr (.inl rfl), rfl, by decide, by decide,
      fun _ => ⟨fun _ _ _ _ _ _ _ _ => rfl, show ValidSize ⟨1, 1, 4⟩ by unfold ValidSize; decide⟩⟩
  · cases hn
    cases hins
    exact .crop rfl rfl (by decide) (rests_refl _ _) rfl
      (show ValidSize ⟨1, 1, 4⟩ by unfold ValidSize; decide) cut_cropped
  · cases hn

set_option synthInstance.maxSize 1024 in
theorem cut_facts : writtenFacts (cutBoth.execute (nodeSem .debug (cutFiles false)) insSort
    20 2 [1] copyWorld) = some [(exrName, [0, 0, 1, 1, 0, 0, 1, 1, 4], .known .f16, ⟨1, 1, 4⟩,
      some [(false, 16384), (false, 16384), (false, 16384), (false, 0x3c00)])] := by
  decide +kernel

theorem cut_saved {job : WriteJob F32 F16} (h : jobFacts job =
    (exrName, [0, 0, 1, 1, 0, 0, 1, 1, 4], .known .f16, ⟨1, 1, 4⟩,
      some [(false, 16384), (false, 16384), (false, 16384), (false, 0x3c00)])) :
    Saved (cutFiles false) (cutFiles true) [job] := by
  have h1 : job.path = exrName := congrArg Prod.fst h
  refine ⟨rfl, rfl, rfl, rfl, rfl, ?_, ?_⟩
  · intro j hj
    obtain rfl := List.mem_singleton.mp hj
    obtain ⟨-, ⟨spec, e, k⟩, px⟩ := exr_onDisk h
    rw [h1] at e
    cases e
    refine ⟨?_, ⟨halfSpec, ?_, k⟩, fun t d old hb hl => ?_⟩
    · rw [h1]; rfl
    · rw [h1]; rfl
    · have := px t d old hb hl
      rw [h1] at this ⊢
      exact this
  · intro path hp
    have h2 : path ≠ exrName := fun e => hp job (.head _) (h1.trans e.symm)
    refine ⟨?_, ?_, rfl⟩
    · show (if path = [98] ∨ true = true ∧ path = exrName then PathKind.file else .missing) =
        if path = [98] ∨ false = true ∧ path = exrName then .file else .missing
      simp only [h2, and_false]
    · show (if path = [98] then some overscan else if true = true ∧ path = exrName then some halfSpec
          else none) = if path = [98] then some overscan else if false = true ∧ path = exrName then
          some halfSpec else none
      simp only [h2, and_false]

theorem cut_proper : Proper (cutLayers 0).still :=
  ⟨.inr rfl, show ValidSize ⟨2, 1, 4⟩ by unfold ValidSize; decide, fun _ _ _ => ⟨rfl, litFloats_plain _⟩⟩

/-- The file that was written is the left pixel. -/
example : IsFile (cutFiles true) exrName (litLayers true 0).still := by
  have hf := cut_facts
  obtain ⟨g1, w1, e1⟩ : ∃ g1 w1, cutBoth.execute (nodeSem .debug (cutFiles false)) insSort
      20 2 [1] copyWorld = .ok (.success, g1, w1) := ⟨_, _, rfl⟩
  rw [e1] at hf
  have hf : w1.writes.map jobFacts = _ := Option.some.inj hf
  obtain ⟨before, job, j1, hW⟩ := C87_file_partial .debug (cutFiles false) insSort cutBoth_reach
    (id := 2) (start := 1)
    (by
      refine ⟨rfl, fun j hj => ?_⟩
      rcases j with _ | j <;> first | decide | omega) rfl (frames := [1]) (frame := 1) rfl
    (pic := fun _ => cutLayers) (fun fr _ => cut_pictures 1 fr) ⟨rfl, rfl⟩ (n := writeCut) rfl rfl
    (by decide) (by decide) e1
  have hd : OnDisk (cutFiles true) job := by
    rw [j1] at hf
    rcases before with _ | ⟨job', _ | ⟨_, _⟩⟩
    · exact (cut_saved (List.cons.inj hf).1).written job (.head _)
    · cases (List.cons.inj hf).2
    · cases (List.cons.inj hf).2
  have hp : filePath (cutFiles false) writeCut 1 = exrName := by decide +kernel
  have := C152_node (M := litLayers true 0) cut_proper hW (by unfold Linear; decide +kernel) (.inl rfl)
    (t := .f16) (fun _ => rfl) (m := cutNode) rfl rfl rfl
    (cut_pictures 2 1 2 cutNode [0] .refl rfl rfl) lit_storable hd
  rwa [hp] at this

theorem cut_stands : StandsFor (cutFiles false) [1] writeCut (fun _ => 2) cutBoth readCut 2 0 := by
  intro j hj
  have hj : j = 0 := by
    clear * - hj
    induction hj with
    | refl => rfl
    | step _ f _ =>
      obtain ⟨e, he, -⟩ := f
      cases he
  subst hj
  refine .inr ⟨rfl, _, rfl, rfl, by decide, fun fr hfr => ?_, ?_⟩
  · obtain rfl := List.mem_singleton.mp hfr
    rfl
  · rintro a ⟨e, he, -⟩
    cases he

/-- The hypotheses are met: two pixels are rendered to `a.exr`, cropped to the display window, and this
file is read instead of cropping the pixels. -/
example : ∃ g1 w1 g2 w2 g3 w3 L,
    cutBoth.execute (nodeSem .debug (cutFiles false)) insSort 20 2 [1] copyWorld =
      .ok (.success, g1, w1) ∧
    cutBoth.execute (nodeSem .debug (cutFiles false)) insSort 20 3 [1] copyWorld =
      .ok (.success, g2, w2) ∧
    readCut.execute (nodeSem .debug (cutFiles true)) insSort 20 1 [1] copyWorld =
      .ok (.success, g3, w3) ∧
    ShowsLayer (cutFiles false).bake.color g2.output L ∧
    ShowsLayer (cutFiles false).bake.color g3.output L := by
  have hf := cut_facts
  obtain ⟨g1, w1, e1⟩ : ∃ g1 w1, cutBoth.execute (nodeSem .debug (cutFiles false)) insSort
      20 2 [1] copyWorld = .ok (.success, g1, w1) := ⟨_, _, rfl⟩
  obtain ⟨g2, w2, e2⟩ : ∃ g1 w1, cutBoth.execute (nodeSem .debug (cutFiles false)) insSort
      20 3 [1] copyWorld = .ok (.success, g1, w1) := ⟨_, _, rfl⟩
  obtain ⟨g3, w3, e3⟩ : ∃ g1 w1, readCut.execute (nodeSem .debug (cutFiles true)) insSort
      20 1 [1] copyWorld = .ok (.success, g1, w1) := ⟨_, _, rfl⟩
  rw [e1] at hf
  have hf : w1.writes.map jobFacts = _ := Option.some.inj hf
  obtain ⟨-, -, h1, h2⟩ := C152_execution cutBoth_reach readCut_reach
    (by
      intro a a' b s h1 h2
      simp only [Conn, cutBoth, List.mem_cons, Edge.mk.injEq, List.not_mem_nil, or_false] at h1 h2
      omega)
    (by
      intro a a' b s h1 h2
      simp only [Conn, readCut, List.not_mem_nil] at h1)
    (frames := [1]) (frame := 1) rfl
    (pic := fun _ => cutLayers) (idW := 2) (W := 1) (v := 0)
    (by
      refine ⟨rfl, fun j hj => ?_⟩
      rcases j with _ | j <;> first | decide | omega) rfl rfl
    (fun fr _ => cut_pictures 1 fr) rfl ⟨rfl, by decide, by decide⟩
    (by
      intro i m _ hi hm
      rcases i with _ | _ | _ | i
      · cases hm; rintro ⟨⟨⟩, -⟩
      · exact absurd rfl hi
      · cases hm; rintro ⟨⟨⟩, -⟩
      · cases hm)
    (t := .f16) (fun _ => rfl)
    (fun fr hfr => by
      obtain rfl := List.mem_singleton.mp hfr
      unfold Linear
      decide +kernel)
    (fun fr hfr => .inl rfl)
    (fun _ _ => cut_proper) ⟨rfl, rfl⟩ e1
    (fun jobs hj => by
      rw [show w1.writes = jobs from hj] at hf
      rcases jobs with _ | ⟨job, _ | ⟨job', jobs⟩⟩
      · cases hf
      · exact cut_saved (List.cons.inj hf).1
      · cases (List.cons.inj hf).2)
    (start := 2) (u := 2) .refl rfl rfl rfl rfl (fun _ _ => rfl) (fun _ _ => lit_storable)
    (φ := fun _ => 2) (start' := 0) (id := 3) (id' := 1) rfl rfl
    (by
      refine ⟨rfl, fun j hj => ?_⟩
      omega) rfl cut_stands
    (fun fr _ => cut_pictures 2 fr)
    (by
      intro i m _ hm ht fr hfr fr' hfr'
      obtain rfl := List.mem_singleton.mp hfr
      obtain rfl := List.mem_singleton.mp hfr'
      rcases i with _ | _ | _ | i
      · cases hm; decide +kernel
      · cases hm; cases ht
      · cases hm; cases ht
      · cases hm)
    (by
      refine ⟨rfl, fun j hj => ?_⟩
      rcases j with _ | _ | j <;> first | decide | omega) ⟨rfl, rfl⟩ ⟨rfl, rfl⟩ e2 e3
  exact ⟨g1, w1, g2, w2, g3, w3, _, e1, e2, e3, h1, h2⟩

end OCG.Props
