import Verif.Props.Turn
import Verif.Props.Precomp
/-
C151 for graphs and files.
-/

namespace OCG.Props

open IeeeSpec PixelSpec BlockSpec RemapSpec DeformSpec PictureSpec TurnSpec BBoxSpec ImageSpecs
open GraphSpec RenderSpec FileSpec CacheSpec
open ShiftSpec (closest)
open Ieee hiding floor ceil round

section
variable [Libm single32]

/-- C151 for nodes: a transform node with scales of 1 or -1, whole translations and otherwise the
default values lets such a transform wait behind the picture. -/
theorem C151_node {H : Type} [HalfLike F32 H] {lib : NodeLib F32 H} {frame : F32} {n : Node F32}
    (hn : n.attrs.nodeType = .transform) (hon : n.getI32 "enable" = 1) {w : Int} {s : Turn}
    (hs : s.IsProper)
    (fx : IsFinite (n.getF32 "translate_x")) (vx : val (n.getF32 "translate_x") =
      ((if n.getI32 "invert" = 0 then s.moveX else -s.signX * s.moveX) * w : Int))
    (fy : IsFinite (n.getF32 "translate_y")) (vy : val (n.getF32 "translate_y") =
      ((if n.getI32 "invert" = 0 then s.moveY else -s.signY * s.moveY) * w : Int))
    (gx : IsFinite (n.getF32 "scale_x")) (ux : val (n.getF32 "scale_x") = (s.signX : Int))
    (gy : IsFinite (n.getF32 "scale_y")) (uy : val (n.getF32 "scale_y") = (s.signY : Int))
    (h1 : n.getF32 "rotate" = 0) (h2 : n.getF32 "rotate_center_x" = 0)
    (h3 : n.getF32 "rotate_center_y" = 0)
    (h6 : n.getF32 "pivot_x" = 1 / FloatLike.ofInt 2) (h7 : n.getF32 "pivot_y" = 1 / FloatLike.ofInt 2)
    {L M : Layer F32} (hm : Makes lib frame n [L] M) :
    M.still = L.still ∧ ∃ d, M.moves = L.moves ++ [d] ∧ TurnsBy w d s := by
  have key : ∀ {P : Picture F32} {ds : List (Deformer F32)} {M : Layer F32} {Ls : List (Layer F32)},
      Makes lib frame n Ls M → Ls = [⟨P, ds⟩] →
      M.still = P ∧ ∃ d, M.moves = ds ++ [d] ∧ TurnsBy w d s := by
    intro P ds M Ls hm e
    cases hm with
    | @transform P' ds' d _ _ he hd =>
      cases e
      have i : d.invert = n.getI32 "invert" := hd.ints "invert" (by rw [hn]; decide) (by decide)
      have a : d.translateX = n.getF32 "translate_x" := hd.reals "translate_x" (by rw [hn]; decide)
      have b : d.translateY = n.getF32 "translate_y" := hd.reals "translate_y" (by rw [hn]; decide)
      have a' : d.scaleX = n.getF32 "scale_x" := hd.reals "scale_x" (by rw [hn]; decide)
      have b' : d.scaleY = n.getF32 "scale_y" := hd.reals "scale_y" (by rw [hn]; decide)
      refine ⟨rfl, _, rfl, hs, d, ?_, ?_, ?_, ?_, ?_, ?_, ?_, ?_, ?_⟩
      · obtain ⟨en, inv, tx, ty, ro, cx, cy, sx, sy, px, py⟩ := d
        have g := fun name h => hd.reals name (by rw [hn]; exact h)
        have g1 : ro = n.getF32 "rotate" := g "rotate" (by decide)
        have g2 : cx = n.getF32 "rotate_center_x" := g "rotate_center_x" (by decide)
        have g3 : cy = n.getF32 "rotate_center_y" := g "rotate_center_y" (by decide)
        have g6 : px = n.getF32 "pivot_x" := g "pivot_x" (by decide)
        have g7 : py = n.getF32 "pivot_y" := g "pivot_y" (by decide)
        have g8 : en = 1 := he
        rw [g1, g2, g3, g6, g7, g8, h1, h2, h3, h6, h7]
        rfl
      · rw [a]; exact fx
      · rw [a, i]; exact vx
      · rw [b]; exact fy
      · rw [b, i]; exact vy
      · rw [a']; exact gx
      · rw [a']; exact ux
      · rw [b']; exact gy
      · rw [b']; exact uy
    | off _ h => rw [hon] at h; cases h
    | _ => exfalso; simp_all; done
  exact key hm rfl

/-- C151 for files: what is rendered from pictures with mirrors and moves waiting are the rearranged
pictures, on all frames. -/
theorem C151_rendered {H : Type} [HalfLike F32 H] (ht : TrigAtZero) (p : Profile)
    (lib : NodeLib F32 H) (hinv : InvertsTurns lib.bake.deform) (srt : EdgeSort)
    {g : Graph (Node F32) (Stream F32 H)} {r : Bool} (h : Reach (nodeSem p lib) srt r g)
    {id start : Nat} (hid : At g id start) (hs : g.graph.contains start = true)
    {frames : List F32} {pic : F32 → Nat → Layer F32}
    (hp : ∀ fr ∈ frames, Pictures lib srt g start fr (pic fr))
    {n : Node F32} (hn : g.nodes[start]? = some n) (hW : Writes n)
    (hq : ∀ i m, Upstream g.graph start i → i ≠ start → g.nodes[i]? = some m → ¬ Writes m)
    (hl : ∀ fr ∈ frames, Linear (filePath lib n fr))
    {width height : F32 → Int} {turns : F32 → List Turn}
    (hf : ∀ fr ∈ frames, FitsTurns (width fr) (height fr) (pic fr start).moves (turns fr)
      (pic fr start).still)
    {w w' : World F32 H} (hw : IsOff w) {fuel : Nat} {st : ExecuteStatus}
    {g' : Graph (Node F32) (Stream F32 H)}
    (hx : g.execute (nodeSem p lib) srt fuel id frames w = .ok (st, g', w')) :
    st = .success ∧ ∃ jobs, w'.writes = w.writes ++ jobs ∧
      List.Forall₂ (fun fr job => job.path = filePath lib n fr ∧ ∃ own,
        FileShows (wantedType (n.getI32 "pixel_data_type") own) ⟨0, 0, width fr, height fr⟩
          (turned (width fr) (height fr) (turns fr) (pic fr start).still) job) frames jobs := by
  obtain ⟨h1, jobs, h2, h3⟩ := C138_rendered p lib srt h hid hs hp hn hW hq hl hw hx
  refine ⟨h1, jobs, h2, ?_⟩
  clear h2 hx hl hp
  induction h3 with
  | nil => exact .nil
  | @cons fr job frames jobs k _ ih =>
    refine .cons ?_ (ih fun fr hfr => hf fr (List.mem_cons_of_mem _ hfr))
    obtain ⟨k1, own, R, k2, k3⟩ := k
    have fit := hf fr List.mem_cons_self
    obtain ⟨a1, a2, a3, -, a5⟩ := C151_only ht hinv fit k2
    refine ⟨k1, own, ?_⟩
    have e : window n (filePath lib n fr) R = ⟨0, 0, width fr, height fr⟩ := by
      unfold window
      rw [a1, a2, fit.data, fit.display, ite_self]
    rw [e] at k3
    obtain ⟨b1, b2, b3, b4, b5, b6, b7, d, b8, b9, b10⟩ := k3
    refine ⟨b1, b2, b3, b4, b5.trans (by rw [a3]; rfl), b6, b7.trans (by rw [a3]; rfl), d, b8,
      b9.trans (by rw [a3]; rfl), fun x y c hxy hc => ?_⟩
    have := b10 x y c hxy (by rw [a3]; exact hc)
    rw [a3] at this
    refine this.trans ?_
    have hd : Has (pic fr start).still.data x y := by rw [fit.data]; exact hxy
    rw [if_pos (by rw [a1]; exact hd)]
    refine Eq.trans ?_ (if_pos (show Has (turned (width fr) (height fr) (turns fr)
      (pic fr start).still).data x y from hd)).symm
    rw [a5 x y hd]
    rfl

end

/-! ### Examples -/

attribute [local instance] zeroLibm

/-- Every file is a picture of two pixels in half floats: a bright one on the left and a white one on
the right. -/
def pairFiles : NodeLib F32 F16 where
  hash := sipHash
  shell _ := none
  pathKind _ := .file
  bake := { color := ⟨fun px _ _ _ _ _ _ _ => (true, px)⟩, deform := turnLib }
  lensAccepts _ := true
  oiio :=
    { header := fun _ => some
        { x := 0, y := 0, width := 2, height := 1, fullX := 0, fullY := 0, fullWidth := 2
          fullHeight := 1, numChannels := 4, format := .known .f16, colorSpace := colorSpaceLinear
          gamma := 1, pixelAspect := 1, orientation := 1, unassociatedAlpha := 0, dither := 0 }
      pixels := fun _ _ t _ old => match t with
        | .f16 => fillWith (litPixel true ++ litPixel false) old
        | .u8 => old
        | .u16 => old
        | .f32 => old
      hasWriter := fun _ => true
      stores := fun _ => true
      resample := fun _ _ _ _ _ _ old => (true, old)
      toInt := fun q => if 0 ≤ q then q.floor else q.ceil
      pixels_length := by
        intro _ _ t _ old
        cases t <;> first | rfl | exact fillWith_length _ old
      resample_length := fun _ _ _ _ _ _ _ => rfl
      toInt_fits := fun _ _ _ => rfl }

/-- Mirrors a picture of two pixels. -/
def flopNode : Node F32 :=
  ⟨2, .uninitialized, .transform { TransformAttrs.new with
    enable := 1, translateX := ofInt 2, scaleX := ofInt (-1) }⟩

/-- Reading, mirroring, writing. -/
def flopGraph : Graph (Node F32) (Stream F32 F16) :=
  ⟨[readNamed 1 [98], flopNode, writeHalf], [1, 2, 3],
    ⟨[some 1, some 2, some 3], [], [⟨1, 2, 0⟩, ⟨0, 1, 0⟩]⟩, .new, .dirty, .uninitialized⟩

set_option synthInstance.maxSize 1024 in
theorem flop_facts : writtenFacts (flopGraph.execute (nodeSem .debug pairFiles) insSort
    20 3 [1] copyWorld) = some [(exrName, [0, 0, 2, 1, 0, 0, 2, 1, 4], .known .f16, ⟨2, 1, 4⟩,
      some [(false, 0x3c00), (false, 0x3c00), (false, 0x3c00), (false, 0x3c00),
        (false, 16384), (false, 16384), (false, 16384), (false, 0x3c00)])] := by
  decide +kernel

theorem flopGraph_reach : Reach (nodeSem .debug pairFiles) insSort false flopGraph := by
  have h0 : Reach (nodeSem .debug pairFiles) insSort false _ := .new .new
  have h1 := Reach.add (g' := ⟨[readNamed 1 [98]], [1],
    ⟨[some 1], [], []⟩, .new, .dirty, .uninitialized⟩)
    (readNamed 1 [98]) h0 rfl
  have h2 := Reach.add (g' := ⟨[readNamed 1 [98], flopNode], [1, 2],
    ⟨[some 1, some 2], [], []⟩, .new, .dirty, .uninitialized⟩) flopNode h1 rfl
  have h3 := Reach.add (g' := ⟨[readNamed 1 [98], flopNode, writeHalf], [1, 2, 3],
    ⟨[some 1, some 2, some 3], [], []⟩, .new, .dirty, .uninitialized⟩) writeHalf h2 rfl
  have h4 := Reach.connect (g' := ⟨[readNamed 1 [98], flopNode, writeHalf], [1, 2, 3],
    ⟨[some 1, some 2, some 3], [], [⟨0, 1, 0⟩]⟩, .new, .dirty, .uninitialized⟩) 1 2 0 h3 rfl
  have h5 := Reach.connect (g' := ⟨[readNamed 1 [98], flopNode, writeHalf], [1, 2, 3],
    ⟨[some 1, some 2, some 3], [], [⟨1, 2, 0⟩, ⟨0, 1, 0⟩]⟩, .new, .dirty, .uninitialized⟩) 2 3 0 h4 rfl
  exact h5

/-- The picture in the file. -/
def pair : Picture F32 :=
  ⟨⟨0, 0, 2, 1⟩, ⟨0, 0, 2, 1⟩, 4, colorSpaceLinear, fun x _ => litFloats (decide (x = 0))⟩

theorem pair_file (path : Bytes) : IsFile pairFiles path pair := by
  refine ⟨_, .f16, 8, litFloats true ++ litFloats false, rfl, rfl, by constructor <;> decide, rfl,
    .inr rfl, rfl, rfl, rfl, rfl, rfl, ⟨litFloats true ++ litFloats false, ?_, ?_, ?_⟩, rfl, ?_⟩
  · obtain ⟨size, hs⟩ : ∃ size, size = sizeFor pair.data pair.channels := ⟨_, rfl⟩
    rw [← hs]
    refine congrArg (fun l : List F32 => Except.ok (floatImage (H := F16) size l)) ?_
    show List.map (fun x : F16 => (HalfLike.toF32 x : F32)) (litPixel true ++ litPixel false) =
      litFloats true ++ litFloats false
    decide +kernel
  · intro _; rfl
  · intro h; exact absurd rfl h
  · rintro x y ⟨h1, h2, h3, h4⟩
    have hy : y = 0 := by change (0 : Int) ≤ y at h3; change y < 1 at h4; omega
    have hx : x = 0 ∨ x = 1 := by change (0 : Int) ≤ x at h1; change x < 2 at h2; omega
    subst hy
    rcases hx with rfl | rfl
    · exact ⟨litFloats true, by decide +kernel, .nil _⟩
    · exact ⟨litFloats false, by decide +kernel, .nil _⟩

/-- What the node lets wait. -/
def flopTwo : Deformer F32 :=
  .transform { TransformDeformer.default with
    enable := 1, invert := 0, translateX := ofInt 2, scaleX := ofInt (-1) }

theorem flopNode_makes (frame : F32) :
    Makes pairFiles frame flopNode [⟨pair, []⟩] ⟨pair, [flopTwo]⟩ := by
  have : Makes pairFiles frame flopNode [⟨pair, []⟩] ⟨pair, [] ++ [flopTwo]⟩ := by
    refine .transform rfl rfl rfl ⟨?_, ?_⟩
    · intro name h _
      simp only [flopNode, Node.attrs, NodeAttrs.nodeType] at h
      fin_cases h <;> first | rfl | contradiction
    · intro name h
      fin_cases h <;> rfl
  exact this

theorem flopTwo_turns : TurnsBy 2 flopTwo ⟨-1, 1, 1, 0⟩ := by
  obtain ⟨-, d, e, hd⟩ := C151_node (n := flopNode) (w := 2) (s := ⟨-1, 1, 1, 0⟩) rfl rfl
    ⟨.inr rfl, .inl rfl⟩ (int_single (n := 2) (by decide)).1 (int_single (n := 2) (by decide)).2
    (Stands.of_code (zero_code _)).1 (Stands.of_code (zero_code _)).2
    (int_single (n := -1) (by decide)).1 (int_single (n := -1) (by decide)).2
    (int_single (n := 1) (by decide)).1 (int_single (n := 1) (by decide)).2
    rfl rfl rfl rfl rfl (flopNode_makes 1)
  cases e
  exact hd

theorem pair_fits : FitsTurns 2 1 [flopTwo] [⟨-1, 1, 1, 0⟩] pair :=
  ⟨rfl, rfl, .inr rfl, (show ValidSize ⟨2, 1, 4⟩ by unfold ValidSize; decide), .cons flopTwo_turns .nil,
    by decide, by decide⟩

theorem flopGraph_pictures (frame : F32) : Pictures pairFiles insSort flopGraph 2 frame
    (fun i => ⟨pair, if i = 0 then [] else [flopTwo]⟩) := by
  intro i n ins _ hn hins
  rcases i with _ | _ | _ | i
  · cases hn
    cases hins
    exact .read rfl (by decide) (pair_file _)
  · cases hn
    cases hins
    exact flopNode_makes frame
  · cases hn
    cases hins
    refine .write rfl (by decide) (by decide) (C151_turned zero_trig turnLib_inverts pair_fits)
      ⟨.inl rfl, rfl, by decide, by decide, ?_⟩
    rintro (h | ⟨h, -⟩) <;> cases h
  · cases hn

/-- Executing the graph writes the mirrored file. -/
example : ∃ g w job t, flopGraph.execute (nodeSem .debug pairFiles) insSort 20 3 [1] copyWorld =
      .ok (.success, g, w) ∧ w.writes = [job] ∧ job.path = exrName ∧
    FileShows t ⟨0, 0, 2, 1⟩ (turned 2 1 [⟨-1, 1, 1, 0⟩] pair) job := by
  obtain ⟨g, w, e⟩ : ∃ g w, flopGraph.execute (nodeSem .debug pairFiles) insSort 20 3 [1] copyWorld =
      .ok (.success, g, w) := by
    have hf := flop_facts
    generalize flopGraph.execute (nodeSem .debug pairFiles) insSort 20 3 [1] copyWorld = r at hf
    rcases r with _ | ⟨st, g, w⟩
    · cases hf
    · cases st <;> first | exact ⟨g, w, rfl⟩ | cases hf
  obtain ⟨-, jobs, h1, h2⟩ := C151_rendered zero_trig .debug pairFiles turnLib_inverts insSort
    flopGraph_reach (id := 3) (start := 2) (frames := [1])
    (by
      refine ⟨rfl, fun j hj => ?_⟩
      rcases j with _ | _ | j <;> first | decide | omega) rfl
    (pic := fun _ i => ⟨pair, if i = 0 then [] else [flopTwo]⟩) (fun fr _ => flopGraph_pictures fr)
    (n := writeHalf) rfl ⟨rfl, by decide, by decide⟩
    (by
      intro i m _ hi hm
      rcases i with _ | _ | _ | i
      · cases hm; rintro ⟨⟨⟩, -⟩
      · cases hm; rintro ⟨⟨⟩, -⟩
      · exact absurd rfl hi
      · cases hm)
    (fun fr hfr => by
      obtain rfl := List.mem_singleton.mp hfr
      unfold Linear
      decide +kernel)
    (width := fun _ => 2) (height := fun _ => 1) (turns := fun _ => [⟨-1, 1, 1, 0⟩])
    (fun _ _ => pair_fits) ⟨rfl, rfl⟩ e
  cases h2 with
  | @cons _ job _ _ h3 h4 =>
    cases h4
    obtain ⟨h5, own, h6⟩ := h3
    exact ⟨g, w, job, _, e, h1, h5.trans (by decide +kernel), h6⟩

end OCG.Props
