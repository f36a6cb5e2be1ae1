import Verif.Props.TurnFile
import Verif.Props.Channels
/-
C153: layers moved alike can be merged before or after.
-/

namespace OCG.Props

open GraphSpec PictureSpec BBoxSpec BlockSpec ImageSpecs PixelSpec RenderSpec FileSpec CacheSpec TurnSpec

section
variable {F : Type} [FloatLike F] [FloatConst F]

/-- Where a pixel of a picture is seen is inside the picture. -/
theorem seen_inside {b d : BBox} {n : Nat} (hs : ValidSize (sizeFor b n)) (x y : F) : Has b
    (b.minX + PictureSpec.seen (b.maxX - b.minX) d.minX d.maxX b.minX b.maxX x)
    (b.minY + PictureSpec.seen (b.maxY - b.minY) d.minY d.maxY b.minY b.maxY y) := by
  obtain ⟨s1, s2, -, -⟩ := hs
  simp only [sizeFor] at s1 s2
  refine ⟨?_, ?_, ?_, ?_⟩ <;> (unfold PictureSpec.seen; omega)

/-- Inside its window a picture has the values of its pixels. -/
theorem value_inside {P : Picture F} {x y : Int} (h : Has P.data x y) :
    P.value x y = fun c => if 0 ≤ c then (P.at_ x y).getD c.toNat 0 else 0 := by
  funext c
  unfold Picture.value Picture.pixel
  rw [if_pos h]

/-- A pixel of a merged picture depends on nothing but the two pixels that are merged. -/
theorem merged_pixel_of {mode : MergeImageMode} {mix : F} {A B Q A' B' Q' : Picture F}
    (hQ : IsMerged mode mix A B Q) (hQ' : IsMerged mode mix A' B' Q') (hn : B'.channels = B.channels)
    {x y x' y' : Int} (hx : Has Q.data x y) (hx' : Has Q'.data x' y')
    (ha : A'.value x' y' = A.value x y) (hb : B'.value x' y' = B.value x y) :
    Q'.at_ x' y' = Q.at_ x y := by
  obtain ⟨v, g, l, e⟩ := hQ.pixels x y hx
  obtain ⟨v', g', l', e'⟩ := hQ'.pixels x' y' hx'
  rw [hn] at g' l' e'
  have : v' = v := by
    apply List.ext_getElem?
    intro c
    by_cases hc : c < B.channels
    · rw [e' c hc, e c hc, ha, hb]
    · rw [List.getElem?_eq_none (by omega), List.getElem?_eq_none (by omega)]
  subst this
  exact graded_unique g' g

/-- Two pictures made by the same deformers of one picture are the same. -/
theorem carriedOut_unique {lib : DeformLib F} {ds : List (Deformer F)} {P R R' : Picture F}
    (h : CarriedOut lib ds P R) (h' : CarriedOut lib ds P R') : R'.data = R.data ∧
      R'.display = R.display ∧ R'.channels = R.channels ∧ R'.space = R.space ∧
      ∀ x y, Has R.data x y → R'.at_ x y = R.at_ x y := by
  refine ⟨?_, h'.display.trans h.display.symm, h'.channels.trans h.channels.symm,
    h'.space.trans h.space.symm, ?_⟩
  all_goals
    by_cases hon : ∃ d ∈ ds, d.enable = 1
  · obtain ⟨-, -, -, -, -, ⟨box, b1, b2⟩, -⟩ := h.moved hon
    obtain ⟨-, -, -, -, -, ⟨box', b1', b2'⟩, -⟩ := h'.moved hon
    have := (boxed_eq b1).symm.trans (boxed_eq b1')
    rw [b2, b2', Except.ok.inj this]
  · have off : ∀ d ∈ ds, d.enable ≠ 1 := fun d hd he => hon ⟨d, hd, he⟩
    rw [(h.still off).1, (h'.still off).1]
  · intro x y hxy
    obtain ⟨-, -, -, -, -, ⟨box, b1, b2⟩, k⟩ := h.moved hon
    obtain ⟨-, -, -, -, -, ⟨box', b1', b2'⟩, k'⟩ := h'.moved hon
    have := (boxed_eq b1).symm.trans (boxed_eq b1')
    have hd : R'.data = R.data := by rw [b2, b2', Except.ok.inj this]
    obtain ⟨q, c1, e1⟩ := k x y hxy
    obtain ⟨q', c2, e2⟩ := k' x y (hd ▸ hxy)
    have := Carried.unique c1 c2
    subst this
    rw [e1, e2]
  · intro x y hxy
    have off : ∀ d ∈ ds, d.enable ≠ 1 := fun d hd he => hon ⟨d, hd, he⟩
    rw [(h.still off).1] at hxy
    rw [(h.still off).2 x y hxy, (h'.still off).2 x y hxy]

theorem union_same (b : BBox) :
    (⟨min b.minX b.minX, min b.minY b.minY, max b.maxX b.maxX, max b.maxY b.maxY⟩ : BBox) = b := by
  simp

/-- C153: merging two pictures with the same windows that were moved by the same deformers gives
the merged picture moved by the deformers. -/
theorem C153_merged {lib : DeformLib F} {ds : List (Deformer F)} {mode : MergeImageMode} {mix : F}
    {A B A' B' Q Q' : Picture F} (hw : A.data = B.data) (hv : A.display = B.display) {n : Nat}
    (hs : ValidSize (sizeFor B.data n)) (hA : CarriedOut lib ds A A') (hB : CarriedOut lib ds B B')
    (hQ : IsMerged mode mix A B Q) (hQ' : IsMerged mode mix A' B' Q') :
    CarriedOut lib ds Q Q' := by
  have dq : Q.data = B.data := by rw [hQ.data, hw]; exact union_same _
  have vq : Q.display = B.display := hQ.display
  have cq : Q.channels = B.channels := hQ.channels
  by_cases hon : ∃ d ∈ ds, d.enable = 1
  · obtain ⟨-, -, -, -, -, ⟨boxA, a1, a2⟩, kA⟩ := hA.moved hon
    obtain ⟨h1, h2, h3, h4, h5, ⟨boxB, b1, b2⟩, kB⟩ := hB.moved hon
    rw [hw, hv] at a1
    have hd : A'.data = B'.data := by
      rw [a2, b2, Except.ok.inj ((boxed_eq a1).symm.trans (boxed_eq b1))]
    have dq' : Q'.data = B'.data := by rw [hQ'.data, hd]; exact union_same _
    refine ⟨by rw [hQ'.display, hB.display, vq], by rw [hQ'.channels, hB.channels, cq],
      by rw [hQ'.space, hQ.space], fun off => ?_, fun _ => ⟨?_, h2, ?_, ?_, ?_, ⟨boxB, ?_, ?_⟩, ?_⟩⟩
    · obtain ⟨d, m, e⟩ := hon
      exact absurd e (off d m)
    · rw [cq]; exact h1
    · rw [dq]; exact h3
    · rw [dq]; exact h4
    · rw [dq', hQ'.channels]; exact h5
    · rw [dq, vq]; exact b1
    · rw [dq', b2]
    · intro x y hxy
      rw [dq'] at hxy
      obtain ⟨q, c1, e1⟩ := kA x y (hd ▸ hxy)
      obtain ⟨q', c2, e2⟩ := kB x y hxy
      rw [hv] at c1
      have := Carried.unique c1 c2
      subst this
      rw [hw, hv] at e1
      refine ⟨q, by rw [vq]; exact c2, ?_⟩
      rw [dq, vq]
      have hin := seen_inside (d := B.display) hs q.1 q.2
      refine merged_pixel_of hQ hQ' hB.channels (by rw [dq]; exact hin) (by rw [dq']; exact hxy) ?_ ?_
      · rw [value_inside (by rw [hd]; exact hxy), value_inside (by rw [hw]; exact hin), e1]
      · rw [value_inside hxy, value_inside hin, e2]
  · have off : ∀ d ∈ ds, d.enable ≠ 1 := fun d hd he => hon ⟨d, hd, he⟩
    obtain ⟨a1, a2⟩ := hA.still off
    obtain ⟨b1, b2⟩ := hB.still off
    have dq' : Q'.data = B.data := by rw [hQ'.data, a1, b1, hw]; exact union_same _
    refine ⟨by rw [hQ'.display, hB.display, vq], by rw [hQ'.channels, hB.channels, cq],
      by rw [hQ'.space, hQ.space], fun _ => ⟨by rw [dq', dq], fun x y hxy => ?_⟩,
      fun on => absurd on hon⟩
    rw [dq] at hxy
    have ha : Has A.data x y := by rw [hw]; exact hxy
    refine merged_pixel_of hQ hQ' hB.channels (by rw [dq]; exact hxy) (by rw [dq']; exact hxy) ?_ ?_
    · rw [value_inside (by rw [a1]; exact ha), value_inside ha, a2 x y ha]
    · rw [value_inside (by rw [b1]; exact hxy), value_inside hxy, b2 x y hxy]

end

section
variable {F H : Type} [FloatLike F] [FloatConst F] [HalfLike F H]

/-- A file that is right for a picture is right for the same picture. -/
theorem written_alike {lib : NodeLib F H} {frame : F} {n : Node F} {alpha : Bool} {own : DType}
    {R R' : Picture F} {job : WriteJob F H} (a1 : R'.data = R.data) (a2 : R'.display = R.display)
    (a3 : R'.channels = R.channels) (a5 : ∀ x y, Has R.data x y → R'.at_ x y = R.at_ x y)
    (hW : Written lib frame n alpha own R' job) : Written lib frame n alpha own R job := by
  obtain ⟨block, ⟨v, hv, hc⟩, p1, p2⟩ := hW.pixels
  refine ⟨hW.path, hW.extra, ⟨block, ⟨v, ⟨?_, ?_⟩, ?_⟩, ?_, ?_⟩, hW.width, hW.height, ?_, hW.format, ?_,
    ?_, ?_, ?_⟩
  · rw [hv.length, a1, a3]
  · intro x y hxy
    refine Eq.trans ?_ ((hv.pixels x y (by rw [a1]; exact hxy)).trans (a5 x y hxy))
    rw [a1, a3]
  · rw [a1, a3] at hc; exact hc
  · intro hx
    have := p1 hx
    rw [a1] at this
    exact this
  · intro hx
    have := p2 hx
    rw [a1, a2] at this
    exact this
  · rw [hW.channels, a3]
  · rw [hW.fullX, a2]
  · rw [hW.fullY, a2]
  · rw [hW.fullWidth, a2]
  · rw [hW.fullHeight, a2]

/-- C153 for nodes: where a merge node gets two pictures with the same windows and the same
deformers waiting, it makes what the same node makes of the pictures alone, with the deformers
carried out behind it. -/
theorem C153_nodes {lib : NodeLib F H} {frame : F} {m : Node F} {A B : Picture F}
    {ds : List (Deformer F)} (hw : A.data = B.data) (hv : A.display = B.display)
    {M M' : Layer F} (h : Makes lib frame m [⟨A, ds⟩, ⟨B, ds⟩] M')
    (h' : Makes lib frame m [⟨A, []⟩, ⟨B, []⟩] M) :
    M.moves = [] ∧ M'.moves = [] ∧ Rests lib ⟨M.still, ds⟩ M'.still := by
  cases h with
  | merge _ _ _ ka kb _ _ _ _ kq =>
    cases h' with
    | @merge _ _ A0 B0 _ _ _ _ la lb _ _ _ ls lq =>
      refine ⟨rfl, rfl, ?_⟩
      obtain ⟨a1, a2⟩ := la.still (fun d hd => absurd hd List.not_mem_nil)
      obtain ⟨b1, b2⟩ := lb.still (fun d hd => absurd hd List.not_mem_nil)
      have back : ∀ {P P0 : Picture F}, Rests lib ⟨P, []⟩ P0 → ∀ {x y}, Has P.data x y →
          P0.value x y = P.value x y := by
        intro P P0 hr x y hxy
        obtain ⟨c1, c2⟩ := hr.still (fun d hd => absurd hd List.not_mem_nil)
        rw [value_inside (by rw [c1]; exact hxy), value_inside hxy, c2 x y hxy]
      have ls' : ValidSize (sizeFor B.data 4) := by
        rw [a1, b1] at ls
        dsimp only at ls
        rw [hw, union_same] at ls
        exact ls
      refine C153_merged hw hv ls' ka kb ?_ kq
      have dq := lq.data
      rw [a1, b1] at dq
      refine ⟨dq, lq.display.trans lb.display, lq.channels.trans lb.channels, lq.space,
        fun x y hxy => ?_⟩
      have hB : Has B.data x y := by
        rw [dq] at hxy
        dsimp only at hxy
        rw [hw, union_same] at hxy
        exact hxy
      obtain ⟨v, g, l, e⟩ := lq.pixels x y hxy
      have cb : B0.channels = B.channels := lb.channels
      rw [cb] at g l e
      rw [back la (by rw [hw]; exact hB), back lb hB] at e
      exact ⟨v, g, l, e⟩

/-- C153 for files: the same files are written for the pictures merged with the deformers waiting
on both, and for the merged pictures with the deformers waiting behind. -/
theorem C153_written {lib : NodeLib F H} {frame : F} {m : Node F} {A B : Picture F}
    {ds : List (Deformer F)} (hw : A.data = B.data) (hv : A.display = B.display) {M M' : Layer F}
    (h : Makes lib frame m [⟨A, ds⟩, ⟨B, ds⟩] M') (h' : Makes lib frame m [⟨A, []⟩, ⟨B, []⟩] M)
    {n : Node F} {job : WriteJob F H} :
    WrittenLayer lib frame n M' job ↔ WrittenLayer lib frame n ⟨M.still, M.moves ++ ds⟩ job := by
  obtain ⟨e, e', hr⟩ := C153_nodes hw hv h h'
  rw [e, List.nil_append]
  constructor
  · rintro ⟨alpha, own, R, hR, hW⟩
    have hR' : CarriedOut lib.bake.deform M'.moves M'.still R := hR
    rw [e'] at hR'
    obtain ⟨c1, c2⟩ := hR'.still (fun d hd => absurd hd List.not_mem_nil)
    exact ⟨alpha, own, _, hr, written_alike c1 hR'.display hR'.channels c2 hW⟩
  · rintro ⟨alpha, own, R, hR, hW⟩
    obtain ⟨a1, a2, a3, -, a5⟩ := carriedOut_unique hr hR
    refine ⟨alpha, own, M'.still, ?_, written_alike a1 a2 a3 a5 hW⟩
    show CarriedOut lib.bake.deform M'.moves M'.still M'.still
    rw [e']
    refine ⟨rfl, rfl, rfl, fun _ => ⟨rfl, fun _ _ _ => rfl⟩, ?_⟩
    rintro ⟨d, hd, -⟩
    exact absurd hd List.not_mem_nil

/-- A file that shows a picture shows the same picture. -/
theorem shows_alike {t : DType} {n : Node F} {path : Bytes} {R R' : Picture F} {job : WriteJob F H}
    (a1 : R'.data = R.data) (a2 : R'.display = R.display) (a3 : R'.channels = R.channels)
    (a5 : ∀ x y, Has R.data x y → R'.at_ x y = R.at_ x y)
    (h : FileShows t (window n path R') R' job) : FileShows t (window n path R) R job := by
  have e : window n path R' = window n path R := by unfold window; rw [a1, a2]
  rw [e] at h
  obtain ⟨b1, b2, b3, b4, b5, b6, b7, d, b8, b9, b10⟩ := h
  rw [a3] at b5 b7 b9 b10
  refine ⟨b1, b2, b3, b4, b5, b6, b7, d, b8, b9, fun x y c hxy hc => (b10 x y c hxy hc).trans ?_⟩
  rw [a1]
  by_cases hd : Has R.data x y
  · rw [if_pos hd, if_pos hd, a5 x y hd]
  · rw [if_neg hd, if_neg hd]

/-- C153 for executions: a graph that merges two pictures, lets deformers wait behind and writes
that, writes on every frame what a merge node makes of the pictures with the deformers waiting on
both. -/
theorem C153_rendered (p : Profile) (lib : NodeLib F H) [FloatBits F] (srt : EdgeSort)
    {g : Graph (Node F) (Stream F H)} {r : Bool} (h : Reach (nodeSem p lib) srt r g)
    {id start : Nat} (hid : At g id start) (hs : g.graph.contains start = true)
    {frames : List F} {pic : F → Nat → Layer F}
    (hp : ∀ fr ∈ frames, Pictures lib srt g start fr (pic fr))
    {n : Node F} (hn : g.nodes[start]? = some n) (hW : Writes n)
    (hq : ∀ i m, Upstream g.graph start i → i ≠ start → g.nodes[i]? = some m → ¬ Writes m)
    (hl : ∀ fr ∈ frames, Linear (filePath lib n fr))
    {m : Node F} {A B : F → Picture F} {ds : F → List (Deformer F)} {M M' : F → Layer F}
    (hw : ∀ fr ∈ frames, (A fr).data = (B fr).data ∧ (A fr).display = (B fr).display)
    (hM : ∀ fr ∈ frames, Makes lib fr m [⟨A fr, []⟩, ⟨B fr, []⟩] (M fr))
    (hM' : ∀ fr ∈ frames, Makes lib fr m [⟨A fr, ds fr⟩, ⟨B fr, ds fr⟩] (M' fr))
    (he : ∀ fr ∈ frames, pic fr start = ⟨(M fr).still, ds fr⟩)
    {w w' : World F H} (hoff : IsOff w) {fuel : Nat} {st : ExecuteStatus}
    {g' : Graph (Node F) (Stream F H)}
    (hx : g.execute (nodeSem p lib) srt fuel id frames w = .ok (st, g', w')) :
    st = .success ∧ ∃ jobs, w'.writes = w.writes ++ jobs ∧
      List.Forall₂ (fun fr job => job.path = filePath lib n fr ∧ ∃ own,
        FileShows (wantedType (n.getI32 "pixel_data_type") own)
          (window n (filePath lib n fr) (M' fr).still) (M' fr).still job) frames jobs := by
  obtain ⟨h1, jobs, h2, h3⟩ := C138_rendered p lib srt h hid hs hp hn hW hq hl hoff hx
  refine ⟨h1, jobs, h2, ?_⟩
  clear h2 hx hl hp
  induction h3 with
  | nil => exact .nil
  | @cons fr job frames jobs k _ ih =>
    have up : ∀ {x}, x ∈ frames → x ∈ fr :: frames := List.mem_cons_of_mem _
    refine .cons ?_ (ih (fun x hx => hw x (up hx)) (fun x hx => hM x (up hx))
      (fun x hx => hM' x (up hx)) (fun x hx => he x (up hx)))
    obtain ⟨k1, own, R, k2, k3⟩ := k
    have hf : fr ∈ fr :: frames := List.mem_cons_self
    rw [he fr hf] at k2
    obtain ⟨-, -, hr⟩ := C153_nodes (hw fr hf).1 (hw fr hf).2 (hM' fr hf) (hM fr hf)
    obtain ⟨a1, a2, a3, -, a5⟩ := carriedOut_unique hr k2
    exact ⟨k1, own, shows_alike a1 a2 a3 a5 k3⟩

end

/-! ### Examples -/

/-- Any two pictures can be merged. -/
theorem merged_exists {F : Type} [FloatLike F] [FloatConst F] (mode : MergeImageMode) (mix : F)
    (A B : Picture F) (hB : B.channels = 3 ∨ B.channels = 4) : ∃ Q, IsMerged mode mix A B Q := by
  have key : ∀ x y : Int, ∃ out, ∃ v, Settled B.channels v out ∧ v.length = B.channels ∧
      ∀ c : Nat, c < B.channels → v[c]? = some (blend mode mix (A.value x y) (B.value x y) c) := by
    intro x y
    obtain ⟨out, h, -⟩ := graded_total (n := B.channels) (.inr hB)
      Mat4.identity [] (v := (List.range B.channels).map fun c : Nat =>
        blend mode mix (A.value x y) (B.value x y) c) (by simp)
    exact ⟨out, _, h, by simp, fun c hc => by simp [hc]⟩
  choose f hf using key
  exact ⟨⟨⟨min A.data.minX B.data.minX, min A.data.minY B.data.minY,
    max A.data.maxX B.data.maxX, max A.data.maxY B.data.maxY⟩, B.display, B.channels,
    colorSpaceLinear, f⟩, rfl, rfl, rfl, rfl, fun x y _ => hf x y⟩

attribute [local instance] zeroLibm

/-- Adds two pictures. -/
def sumNode : Node F32 :=
  ⟨5, .uninitialized, .mergeImage { MergeImageAttrs.new with enable := 1, mode := 0 }⟩

theorem pair_size : ValidSize (sizeFor ⟨0, 0, 2, 1⟩ 4) := by
  show ValidSize ⟨2, 1, 4⟩
  unfold ValidSize
  decide

/-- A picture of two pixels. -/
def pairOf (at_ : Int → Int → List F32) : Picture F32 :=
  ⟨⟨0, 0, 2, 1⟩, ⟨0, 0, 2, 1⟩, 4, colorSpaceLinear, at_⟩

theorem pairOf_fits (at_ : Int → Int → List F32) :
    FitsTurns 2 1 [flopTwo] [⟨-1, 1, 1, 0⟩] (pairOf at_) :=
  ⟨rfl, rfl, .inr rfl, pair_size, .cons flopTwo_turns .nil, by decide, by decide⟩

theorem rests_nothing {F H : Type} [FloatLike F] [FloatConst F] [HalfLike F H] (lib : NodeLib F H)
    (P : Picture F) : Rests lib ⟨P, []⟩ P := by
  refine ⟨rfl, rfl, rfl, fun _ => ⟨rfl, fun _ _ _ => rfl⟩, ?_⟩
  rintro ⟨d, hd, -⟩
  exact absurd hd List.not_mem_nil

theorem sum_plain (frame : F32) (a b : Int → Int → List F32) :
    ∃ Q, Makes pairFiles frame sumNode [⟨pairOf a, []⟩, ⟨pairOf b, []⟩] ⟨Q, []⟩ := by
  obtain ⟨Q, hQ⟩ := merged_exists .add (sumNode.getF32 "mix") (pairOf a) (pairOf b) (.inr rfl)
  exact ⟨Q, .merge rfl rfl (by decide) (rests_nothing _ _) (rests_nothing _ _) rfl (.inr rfl)
    (.inr rfl) pair_size hQ⟩

theorem sum_mirrored (frame : F32) (a b : Int → Int → List F32) :
    ∃ Q, Makes pairFiles frame sumNode [⟨pairOf a, [flopTwo]⟩, ⟨pairOf b, [flopTwo]⟩] ⟨Q, []⟩ ∧
      IsMerged .add (sumNode.getF32 "mix") (turned 2 1 [⟨-1, 1, 1, 0⟩] (pairOf a))
        (turned 2 1 [⟨-1, 1, 1, 0⟩] (pairOf b)) Q := by
  obtain ⟨Q, hQ⟩ := merged_exists .add (sumNode.getF32 "mix")
    (turned 2 1 [⟨-1, 1, 1, 0⟩] (pairOf a)) (turned 2 1 [⟨-1, 1, 1, 0⟩] (pairOf b)) (.inr rfl)
  exact ⟨Q, .merge rfl rfl (by decide) (C151_turned zero_trig turnLib_inverts (pairOf_fits a))
    (C151_turned zero_trig turnLib_inverts (pairOf_fits b)) rfl (.inr rfl) (.inr rfl) pair_size hQ, hQ⟩

/-- Two pictures mirrored and added are the two pictures added and mirrored. -/
example (frame : F32) (a b : Int → Int → List F32) : ∃ M M',
    Makes pairFiles frame sumNode [⟨pairOf a, []⟩, ⟨pairOf b, []⟩] ⟨M, []⟩ ∧
    Makes pairFiles frame sumNode [⟨pairOf a, [flopTwo]⟩, ⟨pairOf b, [flopTwo]⟩] ⟨M', []⟩ ∧
    Rests pairFiles ⟨M, [flopTwo]⟩ M' := by
  obtain ⟨M, h⟩ := sum_plain frame a b
  obtain ⟨M', h', -⟩ := sum_mirrored frame a b
  have hr := C153_nodes (A := pairOf a) (B := pairOf b) rfl rfl h' h
  exact ⟨M, M', h, h', hr.2.2⟩

/-- The same without nodes. -/
example (a b : Int → Int → List F32) : ∃ Q Q',
    IsMerged .over (1 : F32) (pairOf a) (pairOf b) Q ∧
    IsMerged .over (1 : F32) (turned 2 1 [⟨-1, 1, 1, 0⟩] (pairOf a))
      (turned 2 1 [⟨-1, 1, 1, 0⟩] (pairOf b)) Q' ∧
    CarriedOut turnLib [flopTwo] Q Q' := by
  obtain ⟨Q, hQ⟩ := merged_exists .over (1 : F32) (pairOf a) (pairOf b) (.inr rfl)
  obtain ⟨Q', hQ'⟩ := merged_exists .over (1 : F32)
    (turned 2 1 [⟨-1, 1, 1, 0⟩] (pairOf a)) (turned 2 1 [⟨-1, 1, 1, 0⟩] (pairOf b)) (.inr rfl)
  exact ⟨Q, Q', hQ, hQ', C153_merged (A := pairOf a) (B := pairOf b) rfl rfl pair_size
    (C151_turned zero_trig turnLib_inverts (pairOf_fits a))
    (C151_turned zero_trig turnLib_inverts (pairOf_fits b)) hQ hQ'⟩

/-- The files are the same. -/
example (frame : F32) (a b : Int → Int → List F32) (n : Node F32) (job : WriteJob F32 F16) :
    ∃ M M', Makes pairFiles frame sumNode [⟨pairOf a, []⟩, ⟨pairOf b, []⟩] ⟨M, []⟩ ∧
      Makes pairFiles frame sumNode [⟨pairOf a, [flopTwo]⟩, ⟨pairOf b, [flopTwo]⟩] ⟨M', []⟩ ∧
      (WrittenLayer pairFiles frame n ⟨M', []⟩ job ↔
        WrittenLayer pairFiles frame n ⟨M, [flopTwo]⟩ job) := by
  obtain ⟨M, h⟩ := sum_plain frame a b
  obtain ⟨M', h', -⟩ := sum_mirrored frame a b
  have hr := C153_written (A := pairOf a) (B := pairOf b) rfl rfl h' h (n := n) (job := job)
  exact ⟨M, M', h, h', hr⟩

/-- Reading two files, adding them, mirroring, writing. -/
def sumFlop : Graph (Node F32) (Stream F32 F16) :=
  ⟨[readNamed 1 [98], flopNode, writeHalf, readNamed 4 [99], sumNode], [1, 2, 3, 4, 5],
    ⟨[some 1, some 2, some 3, some 4, some 5], [],
      [⟨1, 2, 0⟩, ⟨4, 1, 0⟩, ⟨3, 4, 1⟩, ⟨0, 4, 0⟩]⟩, .new, .dirty, .uninitialized⟩

set_option synthInstance.maxSize 1024 in
theorem sumFlop_facts : writtenFacts (sumFlop.execute (nodeSem .debug pairFiles) insSort
    20 3 [1] copyWorld) = some [(exrName, [0, 0, 2, 1, 0, 0, 2, 1, 4], .known .f16, ⟨2, 1, 4⟩,
      some [(false, 16384), (false, 16384), (false, 16384), (false, 16384),
        (false, 17408), (false, 17408), (false, 17408), (false, 16384)])] := by
  decide +kernel

theorem sumFlop_reach : Reach (nodeSem .debug pairFiles) insSort false sumFlop := by
  have h0 : Reach (nodeSem .debug pairFiles) insSort false _ := .new .new
  have h1 := Reach.add (g' := ⟨[readNamed 1 [98]], [1],
    ⟨[some 1], [], []⟩, .new, .dirty, .uninitialized⟩)
    (readNamed 1 [98]) h0 rfl
  have h2 := Reach.add (g' := ⟨[readNamed 1 [98], flopNode], [1, 2],
    ⟨[some 1, some 2], [], []⟩, .new, .dirty, .uninitialized⟩) flopNode h1 rfl
  have h3 := Reach.add (g' := ⟨[readNamed 1 [98], flopNode, writeHalf], [1, 2, 3],
    ⟨[some 1, some 2, some 3], [], []⟩, .new, .dirty, .uninitialized⟩) writeHalf h2 rfl
  have h4 := Reach.add (g' := ⟨[readNamed 1 [98], flopNode, writeHalf, readNamed 4 [99]],
    [1, 2, 3, 4], ⟨[some 1, some 2, some 3, some 4], [], []⟩, .new, .dirty, .uninitialized⟩)
    (readNamed 4 [99]) h3 rfl
  have h5 := Reach.add (g' := ⟨[readNamed 1 [98], flopNode, writeHalf, readNamed 4 [99], sumNode],
    [1, 2, 3, 4, 5], ⟨[some 1, some 2, some 3, some 4, some 5], [], []⟩, .new, .dirty,
    .uninitialized⟩) sumNode h4 rfl
  have h6 := Reach.connect (g' := ⟨[readNamed 1 [98], flopNode, writeHalf, readNamed 4 [99], sumNode],
    [1, 2, 3, 4, 5], ⟨[some 1, some 2, some 3, some 4, some 5], [], [⟨0, 4, 0⟩]⟩, .new, .dirty,
    .uninitialized⟩) 1 5 0 h5 rfl
  have h7 := Reach.connect (g' := ⟨[readNamed 1 [98], flopNode, writeHalf, readNamed 4 [99], sumNode],
    [1, 2, 3, 4, 5], ⟨[some 1, some 2, some 3, some 4, some 5], [], [⟨3, 4, 1⟩, ⟨0, 4, 0⟩]⟩, .new,
    .dirty, .uninitialized⟩) 4 5 1 h6 rfl
  have h8 := Reach.connect (g' := ⟨[readNamed 1 [98], flopNode, writeHalf, readNamed 4 [99], sumNode],
    [1, 2, 3, 4, 5], ⟨[some 1, some 2, some 3, some 4, some 5], [],
      [⟨4, 1, 0⟩, ⟨3, 4, 1⟩, ⟨0, 4, 0⟩]⟩, .new, .dirty, .uninitialized⟩) 5 2 0 h7 rfl
  have h9 := Reach.connect (g' := sumFlop) 2 3 0 h8 rfl
  exact h9

/-- What waits behind the mirror node. -/
theorem flop_waits (frame : F32) (Q : Picture F32) :
    Makes pairFiles frame flopNode [⟨Q, []⟩] ⟨Q, [flopTwo]⟩ := by
  have : Makes pairFiles frame flopNode [⟨Q, []⟩] ⟨Q, [] ++ [flopTwo]⟩ := by
    refine .transform rfl rfl rfl ⟨?_, ?_⟩
    · intro name h _
      simp only [flopNode, NodeAttrs.nodeType] at h
      fin_cases h <;> rfl
    · intro name h
      fin_cases h <;> rfl
  exact this

/-- The pictures of the graph. -/
def sumPic (Q : Picture F32) (i : Nat) : Layer F32 :=
  if i = 4 then ⟨Q, []⟩ else if i = 1 ∨ i = 2 then ⟨Q, [flopTwo]⟩ else ⟨pair, []⟩

theorem sumFlop_pictures {frame : F32} {Q Q' : Picture F32}
    (h : Makes pairFiles frame sumNode [⟨pair, []⟩, ⟨pair, []⟩] ⟨Q, []⟩)
    (h' : Makes pairFiles frame sumNode [⟨pair, [flopTwo]⟩, ⟨pair, [flopTwo]⟩] ⟨Q', []⟩)
    (hd : Q'.display = ⟨0, 0, 2, 1⟩) :
    Pictures pairFiles insSort sumFlop 2 frame (sumPic Q) := by
  intro i n ins _ hn hins
  rcases i with _ | _ | _ | _ | _ | i
  · cases hn
    cases hins
    exact .read rfl (by decide) (pair_file _)
  · cases hn
    cases hins
    exact flop_waits frame Q
  · cases hn
    cases hins
    refine .write (R := Q') rfl (by decide) (by decide) (C153_nodes rfl rfl h' h).2.2
      ⟨.inl rfl, rfl, by rw [hd]; decide, by rw [hd]; decide, ?_⟩
    rintro (h | ⟨h, -⟩) <;> cases h
  · cases hn
    cases hins
    exact .read rfl (by decide) (pair_file _)
  · cases hn
    cases hins
    exact h
  · cases hn

/-- Executing the graph writes the sum of the mirrored pictures. -/
example : ∃ g w job t Q, sumFlop.execute (nodeSem .debug pairFiles) insSort 20 3 [1] copyWorld =
      .ok (.success, g, w) ∧ w.writes = [job] ∧
    IsMerged .add (sumNode.getF32 "mix") (turned 2 1 [⟨-1, 1, 1, 0⟩] pair)
        (turned 2 1 [⟨-1, 1, 1, 0⟩] pair) Q ∧
    FileShows t (window writeHalf exrName Q) Q job := by
  obtain ⟨g, w, e⟩ : ∃ g w, sumFlop.execute (nodeSem .debug pairFiles) insSort 20 3 [1] copyWorld =
      .ok (.success, g, w) := by
    have hf := sumFlop_facts
    generalize sumFlop.execute (nodeSem .debug pairFiles) insSort 20 3 [1] copyWorld = r at hf
    rcases r with _ | ⟨st, g, w⟩
    · cases hf
    · cases st <;> first | exact ⟨g, w, rfl⟩ | cases hf
  obtain ⟨Q, hQ⟩ := sum_plain 1 pair.at_ pair.at_
  obtain ⟨Q', hQ', hm⟩ := sum_mirrored 1 pair.at_ pair.at_
  obtain ⟨-, jobs, h1, h2⟩ := C153_rendered .debug pairFiles insSort
    sumFlop_reach (id := 3) (start := 2) (frames := [1])
    (by
      refine ⟨rfl, fun j hj => ?_⟩
      rcases j with _ | _ | j <;> first | decide | omega) rfl
    (pic := fun _ => sumPic Q) (fun fr hfr => by
      obtain rfl := List.mem_singleton.mp hfr
      exact sumFlop_pictures hQ hQ' hm.display)
    (n := writeHalf) rfl ⟨rfl, by decide, by decide⟩
    (by
      intro i m _ hi hm
      rcases i with _ | _ | _ | _ | _ | i
      · cases hm; rintro ⟨⟨⟩, -⟩
      · cases hm; rintro ⟨⟨⟩, -⟩
      · exact absurd rfl hi
      · cases hm; rintro ⟨⟨⟩, -⟩
      · cases hm; rintro ⟨⟨⟩, -⟩
      · cases hm)
    (fun fr hfr => by
      obtain rfl := List.mem_singleton.mp hfr
      unfold Linear
      decide +kernel)
    (m := sumNode) (A := fun _ => pair) (B := fun _ => pair) (ds := fun _ => [flopTwo])
    (M := fun _ => ⟨Q, []⟩) (M' := fun _ => ⟨Q', []⟩) (fun _ _ => ⟨rfl, rfl⟩)
    (fun fr hfr => by
      obtain rfl := List.mem_singleton.mp hfr
      exact hQ)
    (fun fr hfr => by
      obtain rfl := List.mem_singleton.mp hfr
      exact hQ')
    (fun _ _ => rfl) ⟨rfl, rfl⟩ e
  cases h2 with
  | @cons _ job _ _ h3 h4 =>
    cases h4
    obtain ⟨-, own, h6⟩ := h3
    have he : filePath pairFiles writeHalf 1 = exrName := by decide +kernel
    rw [he] at h6
    exact ⟨g, w, job, _, Q', e, h1, hm, h6⟩

end OCG.Props
