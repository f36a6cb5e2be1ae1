import Verif.Spec.View
import Verif.Props.Tiles
/-
C157: a window in front of a mirrored or moved picture shows what was moved behind it.
-/

namespace OCG.Props

open GraphSpec PictureSpec RenderSpec FileSpec BBoxSpec BlockSpec ImageSpecs CacheSpec PixelSpec IeeeSpec
  ShiftSpec TurnSpec MovedSpec ViewSpec PlainSpec

section
variable [Libm single32]

theorem closest_inside {n v : Int} (h : 0 ≤ v) (h' : v < n) : closest n v = v := by
  unfold closest
  rw [if_neg (by omega), if_neg (by omega)]

theorem closest_range {n : Int} (h : 0 < n) (v : Int) : 0 ≤ closest n v ∧ closest n v < n := by
  unfold closest
  split
  · omega
  · split <;> omega

/-- Mirroring and moving keeps numbers ordinary. -/
theorem turned_plain (ht : TrigAtZero) {lib : DeformLib F32} (hinv : InvertsTurns lib) {w h : Int}
    {ds : List (Deformer F32)} {s : List Turn} {P R : Picture F32} (k : FitsTurns w h ds s P)
    (hP : AllPlain P) (hR : CarriedOut lib ds P R) : AllPlain R := by
  obtain ⟨a1, -, a3, -, a5⟩ := C151_only ht hinv k hR
  intro x y hxy
  rw [a1] at hxy
  rw [a3, a5 x y hxy]
  apply hP
  rw [k.data] at hxy ⊢
  obtain ⟨b1, b2, b3, b4⟩ := hxy
  dsimp only at b1 b2 b3 b4
  obtain ⟨c1, c2⟩ := closest_range (n := w) (by omega) (sourceX s x)
  obtain ⟨c3, c4⟩ := closest_range (n := h) (by omega) (sourceY s y)
  exact ⟨c1, c2, c3, c4⟩

/-- C157: a window cut out of a mirrored and moved picture shows, bit by bit, the pixels that were
moved there; where the picture ends it repeats the border, and outside of the picture it is
empty. -/
theorem C157_cropped (ht : TrigAtZero) {lib : DeformLib F32} (hinv : InvertsTurns lib) {w h : Int}
    {ds : List (Deformer F32)} {s : List Turn} {P R Q : Picture F32} {W : BBox} {r : Bool}
    (k : FitsTurns w h ds s P) (hP : AllPlain P) (hR : CarriedOut lib ds P R)
    (hQ : IsCropped W r R Q) {x y : Int} (hxy : Has W x y) :
    (Has P.data x y →
      Q.at_ x y = P.at_ (closest w (sourceX s x)) (closest h (sourceY s y))) ∧
    (¬ Has P.data x y → Q.at_ x y = List.replicate P.channels 0) := by
  obtain ⟨a1, -, a3, -, a5⟩ := C151_only ht hinv k hR
  have key := (C121_crop (by rw [a3]; exact .inr k.channels) (turned_plain ht hinv k hP hR) hQ).2 x y hxy
  rw [key]
  unfold Picture.pixel
  rw [a1, a3]
  exact ⟨fun h => by rw [if_pos h, a5 x y h], fun h => by rw [if_neg h]⟩

/-- C157: where nothing is missing, the window shows just the mirrored and moved picture. -/
theorem C157_view (ht : TrigAtZero) {lib : DeformLib F32} (hinv : InvertsTurns lib) {w h : Int}
    {ds : List (Deformer F32)} {s : List Turn} {P R Q : Picture F32} {W : BBox} {r : Bool}
    (k : FitsTurns w h ds s P) (hP : AllPlain P) (hR : CarriedOut lib ds P R)
    (hQ : IsCropped W r R Q) (hW : InView W s P) :
    Q.data = (view W r s P).data ∧ Q.display = (view W r s P).display ∧
      Q.channels = (view W r s P).channels ∧ Q.space = (view W r s P).space ∧
      ∀ x y, Has W x y → Q.at_ x y = (view W r s P).at_ x y := by
  obtain ⟨-, a2, a3, a4, -⟩ := C151_only ht hinv k hR
  refine ⟨hQ.data, ?_, hQ.channels.trans a3, hQ.space.trans a4, fun x y hxy => ?_⟩
  · rw [hQ.display, a2]; rfl
  · obtain ⟨b1, b2⟩ := hW x y hxy
    rw [(C157_cropped ht hinv k hP hR hQ hxy).1 b1]
    rw [k.data] at b2
    obtain ⟨c1, c2, c3, c4⟩ := b2
    rw [closest_inside c1 c2, closest_inside c3 c4]
    rfl

/-- C157: moving the picture behind a window is moving the window over the picture, the other way. -/
theorem C157_panned (ht : TrigAtZero) {lib : DeformLib F32} (hinv : InvertsShifts lib) {w h : Int}
    {ds : List (Deformer F32)} {s : List (Int × Int)} {P R Q A : Picture F32} {W V : BBox} {r r' : Bool}
    (k : FitsMoves w h ds s P) (hP : AllPlain P) (hR : CarriedOut lib ds P R) (hW : Inside W P.data)
    (hV : Inside V P.data) (e : W = moved (totalX s) (totalY s) V) (hQ : IsCropped W r R Q)
    (hA : IsCropped V r' P A) : Moved (totalX s) (totalY s) A Q := by
  obtain ⟨a1, -, a3, a4, a5⟩ := C149_only ht hinv k hR
  have hR' : AllPlain R := by
    intro x y hxy
    rw [a1] at hxy
    rw [a3, a5 x y hxy]
    apply hP
    rw [k.data] at hxy ⊢
    obtain ⟨b1, b2, b3, b4⟩ := hxy
    dsimp only at b1 b2 b3 b4
    obtain ⟨c1, c2⟩ := closest_range (n := w) (by omega) (x - totalX s)
    obtain ⟨c3, c4⟩ := closest_range (n := h) (by omega) (y - totalY s)
    exact ⟨c1, c2, c3, c4⟩
  refine ⟨by rw [hQ.data, hA.data, e], by rw [hQ.channels, hA.channels, a3],
    by rw [hQ.space, hA.space, a4], fun x y hxy => ?_⟩
  rw [hA.data] at hxy
  have hw : Has W (x + totalX s) (y + totalY s) := by
    rw [e]
    unfold moved Has at *
    dsimp only
    omega
  rw [(C121_crop (by rw [a3]; exact .inr k.channels) hR' hQ).2 _ _ hw,
    (C121_crop (.inr k.channels) hP hA).2 _ _ hxy]
  have i1 : Has P.data (x + totalX s) (y + totalY s) := by unfold Has Inside at *; omega
  have i2 : Has P.data x y := by unfold Has Inside at *; omega
  unfold Picture.pixel
  rw [if_pos (by rw [a1]; exact i1), if_pos i2, a5 _ _ i1, add_sub_cancel_right, add_sub_cancel_right]
  rw [k.data] at i2
  obtain ⟨c1, c2, c3, c4⟩ := i2
  rw [closest_inside c1 c2, closest_inside c3 c4]

/-- C157 for nodes: a crop node behind transform nodes shows what they moved into its window. -/
theorem C157_nodes {H : Type} [HalfLike F32 H] (ht : TrigAtZero) {lib : NodeLib F32 H}
    (hinv : InvertsTurns lib.bake.deform) {frame : F32} {c : Node F32}
    (hc : c.attrs.nodeType = .cropImage) (he : c.getI32 "enable" = 1) {w h : Int}
    {s : List Turn} {L Q : Layer F32} (k : FitsTurns w h L.moves s L.still) (hP : AllPlain L.still)
    (hV : InView (cropWindow c) s L.still) (hQ : Makes lib frame c [L] Q) :
    Q.moves = [] ∧
      Q.still.data = cropWindow c ∧
      Q.still.display = (if c.getI32 "reformat" = 1 then cropWindow c else L.still.display) ∧
      Q.still.channels = L.still.channels ∧ Q.still.space = L.still.space ∧
      ∀ x y, Has (cropWindow c) x y →
        Q.still.at_ x y = L.still.at_ (sourceX s x) (sourceY s y) := by
  obtain ⟨e, R, h1, h2⟩ := makes_crop hc he hQ
  obtain ⟨a1, a2, a3, a4, a5⟩ := C157_view ht hinv k hP h1 h2 hV
  refine ⟨e, a1, a2.trans ?_, a3, a4, a5⟩
  unfold view
  simp only [decide_eq_true_eq]

/-- C157 for files: what is rendered behind such a crop node is what its window shows of the
mirrored and moved picture, on every frame. -/
theorem C157_rendered {H : Type} [HalfLike F32 H] (ht : TrigAtZero) (p : Profile)
    (lib : NodeLib F32 H) (hinv : InvertsTurns lib.bake.deform) (srt : EdgeSort)
    {g : Graph (Node F32) (Stream F32 H)} {r : Bool} (h : Reach (nodeSem p lib) srt r g)
    {id start : Nat} (hid : At g id start) (hs : g.graph.contains start = true)
    {frames : List F32} {pic : F32 → Nat → Layer F32}
    (hp : ∀ fr ∈ frames, Pictures lib srt g start fr (pic fr))
    {n : Node F32} (hn : g.nodes[start]? = some n) (hW : Writes n)
    (hq : ∀ i m, Upstream g.graph start i → i ≠ start → g.nodes[i]? = some m → ¬ Writes m)
    (hl : ∀ fr ∈ frames, Linear (filePath lib n fr))
    {c : Node F32} (hc : c.attrs.nodeType = .cropImage) (ec : c.getI32 "enable" = 1)
    {width height : F32 → Int} {turns : F32 → List Turn} {L : F32 → Layer F32}
    (hf : ∀ fr ∈ frames, FitsTurns (width fr) (height fr) (L fr).moves (turns fr) (L fr).still ∧
      AllPlain (L fr).still ∧ InView (cropWindow c) (turns fr) (L fr).still)
    (hQ : ∀ fr ∈ frames, Makes lib fr c [L fr] (pic fr start))
    {w w' : World F32 H} (hoff : IsOff w) {fuel : Nat} {st : ExecuteStatus}
    {g' : Graph (Node F32) (Stream F32 H)}
    (hx : g.execute (nodeSem p lib) srt fuel id frames w = .ok (st, g', w')) :
    st = .success ∧ ∃ jobs, w'.writes = w.writes ++ jobs ∧
      List.Forall₂ (fun fr job => job.path = filePath lib n fr ∧ ∃ own,
        FileShows (wantedType (n.getI32 "pixel_data_type") own)
          (window n (filePath lib n fr)
            (view (cropWindow c) (decide (c.getI32 "reformat" = 1)) (turns fr) (L fr).still))
          (view (cropWindow c) (decide (c.getI32 "reformat" = 1)) (turns fr) (L fr).still) job)
        frames jobs := by
  obtain ⟨h1, jobs, h2, h3⟩ := C138_rendered p lib srt h hid hs hp hn hW hq hl hoff hx
  refine ⟨h1, jobs, h2, ?_⟩
  clear h2 hx hl hp
  induction h3 with
  | nil => exact .nil
  | @cons fr job frames jobs z _ ih =>
    have up : ∀ {x}, x ∈ frames → x ∈ fr :: frames := List.mem_cons_of_mem _
    refine .cons ?_ (ih (fun x hx => hf x (up hx)) (fun x hx => hQ x (up hx)))
    obtain ⟨k1, own, T, k2, k3⟩ := z
    have hin : fr ∈ fr :: frames := List.mem_cons_self
    obtain ⟨f1, f2, f3⟩ := hf fr hin
    obtain ⟨e, R, q1, q2⟩ := makes_crop hc ec (hQ fr hin)
    obtain ⟨d1, d2, d3, -, d5⟩ := C157_view ht hinv f1 f2 q1 q2 f3
    have k2' : CarriedOut lib.bake.deform (pic fr start).moves (pic fr start).still T := k2
    rw [e] at k2'
    obtain ⟨c1, c2⟩ := k2'.still (fun d hd => absurd hd List.not_mem_nil)
    refine ⟨k1, own, shows_alike (c1.trans d1) (k2'.display.trans d2) (k2'.channels.trans d3) ?_ k3⟩
    intro x y hxy
    rw [c2 x y (by rw [d1]; exact hxy), d5 x y hxy]

end

/-! ### Examples -/

section
attribute [local instance] zeroLibm

theorem litFloats_ordinary (b : Bool) : (litFloats b).length = 4 ∧ ∀ v ∈ litFloats b, IsPlain v :=
  ⟨by cases b <;> rfl, litFloats_plain b⟩

/-- The left column of the mirrored picture is its right column. -/
example : ∃ R Q, CarriedOut turnLib [flopTwo] pair R ∧ IsCropped ⟨-1, 0, 1, 1⟩ true R Q ∧
    Q.at_ 0 0 = litFloats false ∧ Q.at_ (-1) 0 = [0, 0, 0, 0] := by
  have hR := C151_turned zero_trig turnLib_inverts pair_fits
  obtain ⟨Q, hQ⟩ := cropped_exists ⟨-1, 0, 1, 1⟩ true (P := turned 2 1 [⟨-1, 1, 1, 0⟩] pair)
    (.inr (.inr rfl)) (turned_plain zero_trig turnLib_inverts pair_fits pair_plain hR)
  exact ⟨_, Q, hR, hQ,
    (C157_cropped zero_trig turnLib_inverts pair_fits pair_plain hR hQ (x := 0) (y := 0)
      (by unfold Has; decide)).1 (by unfold Has pair; decide),
    (C157_cropped zero_trig turnLib_inverts pair_fits pair_plain hR hQ (x := -1) (y := 0)
      (by unfold Has; decide)).2 (by unfold Has pair; decide)⟩

/-- Moving a picture by a column and a row behind a window of two pixels. -/
example : ∃ R Q A, CarriedOut shiftLib [moveBy 2 1, moveBy (-1) 0]
      (numbered fun x _ => litFloats (decide (x = 0))) R ∧
    IsCropped ⟨1, 1, 3, 2⟩ false R Q ∧
    IsCropped ⟨0, 0, 2, 1⟩ true (numbered fun x _ => litFloats (decide (x = 0))) A ∧
    Moved 1 1 A Q := by
  have hP : AllPlain (numbered fun x _ => litFloats (decide (x = 0))) :=
    fun x y _ => litFloats_ordinary (decide (x = 0))
  have hR := C149_moved zero_trig shiftLib_inverts (numbered_fits fun x _ => litFloats (decide (x = 0)))
  obtain ⟨Q, hQ⟩ := cropped_exists ⟨1, 1, 3, 2⟩ false (P := shifted 3 2 (totalX [(2, 1), (-1, 0)])
    (totalY [(2, 1), (-1, 0)]) (numbered fun x _ => litFloats (decide (x = 0)))) (.inr (.inr rfl))
    (fun x y _ => litFloats_ordinary _)
  obtain ⟨A, hA⟩ := cropped_exists ⟨0, 0, 2, 1⟩ true
    (P := numbered fun x _ => litFloats (decide (x = 0))) (.inr (.inr rfl)) hP
  refine ⟨_, Q, A, hR, hQ, hA, ?_⟩
  exact C157_panned (W := ⟨1, 1, 3, 2⟩) (V := ⟨0, 0, 2, 1⟩) zero_trig shiftLib_inverts (numbered_fits _) hP hR
    (by unfold Inside numbered; decide) (by unfold Inside numbered; decide) rfl hQ hA

/-- A window of the left pixel. -/
def windowNode : Node F32 :=
  ⟨4, .uninitialized, .cropImage {
    enable := 1, useCache := 0, windowMinX := 0, windowMinY := 0, windowMaxX := 1, windowMaxY := 1
    reformat := 1, blackOutside := 0, intersect := 0 }⟩

/-- Reading, mirroring, cropping, writing. -/
def viewGraph : Graph (Node F32) (Stream F32 F16) :=
  ⟨[readNamed 1 [98], flopNode, writeHalf, windowNode], [1, 2, 3, 4],
    ⟨[some 1, some 2, some 3, some 4], [], [⟨3, 2, 0⟩, ⟨1, 3, 0⟩, ⟨0, 1, 0⟩]⟩, .new, .dirty,
    .uninitialized⟩

theorem viewGraph_reach : Reach (nodeSem .debug pairFiles) insSort false viewGraph := by
  have h0 : Reach (nodeSem .debug pairFiles) insSort false _ := .new .new
  have h1 := Reach.add (g' := ⟨[readNamed 1 [98]], [1],
    ⟨[some 1], [], []⟩, .new, .dirty, .uninitialized⟩)
    (readNamed 1 [98]) h0 rfl
  have h2 := Reach.add (g' := ⟨[readNamed 1 [98], flopNode], [1, 2],
    ⟨[some 1, some 2], [], []⟩, .new, .dirty, .uninitialized⟩) flopNode h1 rfl
  have h3 := Reach.add (g' := ⟨[readNamed 1 [98], flopNode, writeHalf], [1, 2, 3],
    ⟨[some 1, some 2, some 3], [], []⟩, .new, .dirty, .uninitialized⟩) writeHalf h2 rfl
  have h4 := Reach.add (g' := ⟨[readNamed 1 [98], flopNode, writeHalf, windowNode], [1, 2, 3, 4],
    ⟨[some 1, some 2, some 3, some 4], [], []⟩, .new, .dirty, .uninitialized⟩) windowNode h3 rfl
  have h5 := Reach.connect (g' := ⟨[readNamed 1 [98], flopNode, writeHalf, windowNode], [1, 2, 3, 4],
    ⟨[some 1, some 2, some 3, some 4], [], [⟨0, 1, 0⟩]⟩, .new, .dirty, .uninitialized⟩) 1 2 0 h4 rfl
  have h6 := Reach.connect (g' := ⟨[readNamed 1 [98], flopNode, writeHalf, windowNode], [1, 2, 3, 4],
    ⟨[some 1, some 2, some 3, some 4], [], [⟨1, 3, 0⟩, ⟨0, 1, 0⟩]⟩, .new, .dirty, .uninitialized⟩)
    2 4 0 h5 rfl
  have h7 := Reach.connect (g' := viewGraph) 4 3 0 h6 rfl
  exact h7

set_option synthInstance.maxSize 1024 in
theorem viewGraph_facts : writtenFacts (viewGraph.execute (nodeSem .debug pairFiles) insSort
    20 3 [1] copyWorld) = some [(exrName, [0, 0, 1, 1, 0, 0, 1, 1, 4], .known .f16, ⟨1, 1, 4⟩,
      some [(false, 15360), (false, 15360), (false, 15360), (false, 15360)])] := by
  decide +kernel

theorem pair_inView : InView (cropWindow windowNode) [⟨-1, 1, 1, 0⟩] pair := by
  intro x y hxy
  change Has ⟨0, 0, 1, 1⟩ x y at hxy
  show Has ⟨0, 0, 2, 1⟩ x y ∧ Has ⟨0, 0, 2, 1⟩ (-1 * (x - 1)) (1 * (y - 0))
  unfold Has at *
  dsimp only at *
  omega

theorem view_made (frame : F32) : ∃ Q, Makes pairFiles frame windowNode [⟨pair, [flopTwo]⟩] ⟨Q, []⟩ := by
  have hR := C151_turned zero_trig turnLib_inverts pair_fits
  obtain ⟨Q, hQ⟩ := cropped_exists (cropWindow windowNode) true
    (P := turned 2 1 [⟨-1, 1, 1, 0⟩] pair) (.inr (.inr rfl))
    (turned_plain zero_trig turnLib_inverts pair_fits pair_plain hR)
  exact ⟨Q, .crop rfl rfl (by decide) hR rfl half_sizes.1 hQ⟩

/-- The crop node behind the mirror shows the right pixel on the left. -/
example (frame : F32) (Q : Picture F32)
    (hQ : Makes pairFiles frame windowNode [⟨pair, [flopTwo]⟩] ⟨Q, []⟩) :
    Q.data = ⟨0, 0, 1, 1⟩ ∧ Q.display = ⟨0, 0, 1, 1⟩ ∧ Q.at_ 0 0 = litFloats false := by
  obtain ⟨-, a1, a2, -, -, a5⟩ := C157_nodes zero_trig (lib := pairFiles) turnLib_inverts
    (c := windowNode) rfl rfl (L := ⟨pair, [flopTwo]⟩) pair_fits pair_plain pair_inView hQ
  exact ⟨a1, a2, a5 0 0 (show Has ⟨0, 0, 1, 1⟩ 0 0 by unfold Has; decide)⟩

/-- The pictures of the graph. -/
def viewPic (Q : Picture F32) (i : Nat) : Layer F32 :=
  if i = 0 then ⟨pair, []⟩ else if i = 1 then ⟨pair, [flopTwo]⟩ else ⟨Q, []⟩

theorem viewGraph_pictures {frame : F32} {Q : Picture F32}
    (hQ : Makes pairFiles frame windowNode [⟨pair, [flopTwo]⟩] ⟨Q, []⟩) :
    Pictures pairFiles insSort viewGraph 2 frame (viewPic Q) := by
  intro i n ins _ hn hins
  rcases i with _ | _ | _ | _ | i
  · cases hn
    cases hins
    exact .read rfl (by decide) (pair_file _)
  · cases hn
    cases hins
    exact flopNode_makes frame
  · cases hn
    cases hins
    obtain ⟨-, -, hd, -⟩ := C157_nodes zero_trig (lib := pairFiles) turnLib_inverts
      (c := windowNode) rfl rfl (L := ⟨pair, [flopTwo]⟩) pair_fits pair_plain pair_inView hQ
    change Q.display = ⟨0, 0, 1, 1⟩ at hd
    refine .write (R := Q) rfl (by decide) (by decide) (rests_nothing _ _)
      ⟨.inl rfl, rfl, by rw [hd]; decide, by rw [hd]; decide, ?_⟩
    rintro (h | ⟨h, -⟩) <;> cases h
  · cases hn
    cases hins
    exact hQ
  · cases hn

/-- Executing the graph writes the right pixel of the file at the place of the left one. -/
example : ∃ g w job t, viewGraph.execute (nodeSem .debug pairFiles) insSort 20 3 [1] copyWorld =
      .ok (.success, g, w) ∧ w.writes = [job] ∧
    FileShows t ⟨0, 0, 1, 1⟩ (view ⟨0, 0, 1, 1⟩ true [⟨-1, 1, 1, 0⟩] pair) job := by
  obtain ⟨g, w, e⟩ : ∃ g w, viewGraph.execute (nodeSem .debug pairFiles) insSort 20 3 [1] copyWorld =
      .ok (.success, g, w) := by
    have hf := viewGraph_facts
    generalize viewGraph.execute (nodeSem .debug pairFiles) insSort 20 3 [1] copyWorld = r at hf
    rcases r with _ | ⟨st, g, w⟩
    · cases hf
    · cases st <;> first | exact ⟨g, w, rfl⟩ | cases hf
  obtain ⟨Q, hQ⟩ := view_made 1
  obtain ⟨-, jobs, h1, h2⟩ := C157_rendered zero_trig .debug pairFiles turnLib_inverts insSort
    viewGraph_reach (id := 3) (start := 2) (frames := [1])
    (by
      refine ⟨rfl, fun j hj => ?_⟩
      rcases j with _ | _ | j <;> first | decide | omega) rfl
    (pic := fun _ => viewPic Q) (fun fr hfr => by
      obtain rfl := List.mem_singleton.mp hfr
      exact viewGraph_pictures hQ)
    (n := writeHalf) rfl ⟨rfl, by decide, by decide⟩
    (by
      intro i m _ hi hm
      rcases i with _ | _ | _ | _ | i
      · cases hm; rintro ⟨⟨⟩, -⟩
      · cases hm; rintro ⟨⟨⟩, -⟩
      · exact absurd rfl hi
      · cases hm; rintro ⟨⟨⟩, -⟩
      · cases hm)
    (fun fr hfr => by
      obtain rfl := List.mem_singleton.mp hfr
      unfold Linear
      decide +kernel)
    (c := windowNode) rfl rfl (width := fun _ => 2) (height := fun _ => 1)
    (turns := fun _ => [⟨-1, 1, 1, 0⟩]) (L := fun _ => ⟨pair, [flopTwo]⟩)
    (fun _ _ => ⟨pair_fits, pair_plain, pair_inView⟩)
    (fun fr hfr => by
      obtain rfl := List.mem_singleton.mp hfr
      exact hQ) ⟨rfl, rfl⟩ e
  cases h2 with
  | @cons _ job _ _ h3 h4 =>
    cases h4
    obtain ⟨-, own, h6⟩ := h3
    have he : filePath pairFiles writeHalf 1 = exrName := by decide +kernel
    rw [he] at h6
    exact ⟨g, w, job, _, e, h1, h6⟩

end

end OCG.Props
