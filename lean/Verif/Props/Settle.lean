import Verif.Spec.Settle
import Verif.Props.Replace
import Verif.Props.Patch
/-
C161: a part of a graph can be exchanged for another part that shows the same once the deformers that
wait are carried out.
-/

namespace OCG.Props

open GraphSpec LocalSpec PictureSpec ImageSpecs BBoxSpec BlockSpec ColorSpec
open PixelSpec RenderSpec FileSpec AlikeSpec SettleSpec
open CacheSpec (IsOff)

section
variable {F H : Type} [FloatLike F] [FloatConst F] [HalfLike F H]

/-- A picture that is got from another one pixel by pixel can be got before or after the deformers are
carried out. -/
theorem pixels_rest {lib : DeformLib F} {ds : List (Deformer F)} (rel : List F → List F → Prop)
    {P Q R : Picture F} (qd : Q.data = P.data) (qv : Q.display = P.display)
    (qc : Q.channels = P.channels) (qp : ∀ x y, Has P.data x y → rel (P.at_ x y) (Q.at_ x y))
    (hR : CarriedOut lib ds P R) (hs : ValidSize (sizeFor P.data P.channels)) :
    ∃ S, CarriedOut lib ds Q S ∧ S.data = R.data ∧ S.display = R.display ∧ S.channels = R.channels ∧
      S.space = Q.space ∧ ∀ x y, Has R.data x y → rel (R.at_ x y) (S.at_ x y) := by
  by_cases hon : ∃ d ∈ ds, d.enable = 1
  · obtain ⟨m1, m2, m3, m4, m5, ⟨box, b1, b2⟩, m7⟩ := hR.moved hon
    have key : ∀ x y, ∃ v, Has R.data x y → (∃ q : F × F,
        DeformSpec.Carried lib (BBoxF.ofBBox P.display) true ds
          (FloatLike.ofInt x + 1 / FloatLike.ofInt 2, FloatLike.ofInt y + 1 / FloatLike.ofInt 2) q ∧
        v = Q.at_
          (P.data.minX + PictureSpec.seen (P.data.maxX - P.data.minX) P.display.minX P.display.maxX
            P.data.minX P.data.maxX q.1)
          (P.data.minY + PictureSpec.seen (P.data.maxY - P.data.minY) P.display.minY P.display.maxY
            P.data.minY P.data.maxY q.2)) ∧ rel (R.at_ x y) v := by
      intro x y
      by_cases hx : Has R.data x y
      · obtain ⟨q, c, e⟩ := m7 x y hx
        refine ⟨_, fun _ => ⟨⟨q, c, rfl⟩, ?_⟩⟩
        rw [e]
        exact qp _ _ (seen_inside hs q.1 q.2)
      · exact ⟨[], fun h => absurd h hx⟩
    choose f hf using key
    refine ⟨{ R with space := Q.space, at_ := f }, ⟨?_, ?_, rfl, fun off => ?_, fun _ => ?_⟩, rfl, rfl,
      rfl, rfl, fun x y hx => (hf x y hx).2⟩
    · exact hR.display.trans qv.symm
    · exact hR.channels.trans qc.symm
    · obtain ⟨d, hd, he⟩ := hon
      exact absurd he (off d hd)
    · rw [qd, qv, qc]
      exact ⟨m1, m2, m3, m4, m5, ⟨box, b1, b2⟩, fun x y hx => (hf x y hx).1⟩
  · have off : ∀ d ∈ ds, d.enable ≠ 1 := fun d hd he => hon ⟨d, hd, he⟩
    obtain ⟨r1, r2⟩ := hR.still off
    refine ⟨Q, ⟨rfl, rfl, rfl, fun _ => ⟨rfl, fun _ _ _ => rfl⟩, fun h => absurd h hon⟩,
      qd.trans r1.symm, qv.trans hR.display.symm, qc.trans hR.channels.symm, rfl, fun x y hx => ?_⟩
    rw [r1] at hx
    rw [r2 x y hx]
    exact qp x y hx

/-- C161: colours can be changed before or after the deformers are carried out. -/
theorem C161_graded {lib : DeformLib F} {ds : List (Deformer F)} {op : GradeOp F} {P Q R : Picture F}
    (hQ : IsGraded op P Q) (hR : CarriedOut lib ds P R)
    (hs : ValidSize (sizeFor P.data P.channels)) :
    ∃ S, CarriedOut lib ds Q S ∧ IsGraded op R S := by
  obtain ⟨S, k, s1, s2, s3, s4, s5⟩ := pixels_rest (Carried P.channels [op]) hQ.data hQ.display
    hQ.channels hQ.pixels hR hs
  exact ⟨S, k, s1, s2, s3, s4.trans (hQ.space.trans hR.space.symm), fun x y hx => by
    rw [hR.channels]; exact s5 x y hx⟩

/-- C161: a picture can be stored with a type before or after the deformers are carried out. -/
theorem C161_baked {lib : DeformLib F} {ds : List (Deformer F)} {t : DType} {P Q R : Picture F}
    (hQ : IsBaked H t P Q) (hR : CarriedOut lib ds P R)
    (hs : ValidSize (sizeFor P.data P.channels)) :
    ∃ S, CarriedOut lib ds Q S ∧ IsBaked H t R S := by
  obtain ⟨S, k, s1, s2, s3, s4, s5⟩ := pixels_rest
    (fun v u => PictureSpec.Settled P.channels (v.map (inType H t)) u) hQ.data hQ.display
    hQ.channels hQ.pixels hR hs
  exact ⟨S, k, s1, s2, s3, s4.trans hQ.space, fun x y hx => by
    rw [hR.channels]; exact s5 x y hx⟩

theorem looks_pixel {P R : Picture F} (h : LooksLike P R) (x y : Int) : P.pixel x y = R.pixel x y := by
  unfold Picture.pixel
  by_cases hx : Has R.data x y
  · rw [if_pos hx, if_pos (by rw [h.data]; exact hx), h.pixels x y hx]
  · rw [if_neg hx, if_neg (by rw [h.data]; exact hx), h.channels]

/-- Whatever two layers that rest alike are carried out to looks the same. -/
theorem rests_looks {lib : NodeLib F H} {L M : Layer F} (h : RestsAlike lib L M) {R S : Picture F}
    (hR : Rests lib L R) (hS : Rests lib M S) : LooksLike R S ∧ R.space = S.space := by
  obtain ⟨R', S', r, s, k, e⟩ := h
  obtain ⟨a1, a2, a3, a4, a5⟩ := carriedOut_unique r hR
  obtain ⟨b1, b2, b3, b4, b5⟩ := carriedOut_unique s hS
  refine ⟨⟨a1.trans (k.data.trans b1.symm), a2.trans (k.display.trans b2.symm),
    a3.trans (k.channels.trans b3.symm), fun x y hx => ?_⟩, a4.trans (e.trans b4.symm)⟩
  rw [b1] at hx
  rw [b5 x y hx, ← k.pixels x y hx, a5 x y (k.data ▸ hx)]

/-- C161 for one steady node: of layers that rest alike a node makes layers that rest alike. -/
theorem C161_node {lib : NodeLib F H} {fr : F} {n n' : Node F} (hn : n.attrs = n'.attrs)
    (ht : Steady n) {Ls Ls' : List (Layer F)} {L L' : Layer F} (h : Makes lib fr n Ls L)
    (h' : Makes lib fr n' Ls' L') (hin : List.Forall₂ (RestsAlike lib) Ls Ls')
    (hs : ∀ K ∈ Ls, Sized K) (hs' : ∀ K ∈ Ls', Sized K) : RestsAlike lib L L' := by
  replace h' : Makes lib fr n Ls' L' := makes_attrs hn.symm h'
  have one : ∀ {K K' : Layer F}, List.Forall₂ (RestsAlike lib) [K] [K'] → RestsAlike lib K K' := by
    rintro K K' (_ | ⟨h, -⟩)
    exact h
  cases h with
  | null t =>
    cases h' with
    | null => exact one hin
    | _ => simp_all
  | read t _ f =>
    cases h' with
    | read _ _ f' =>
      obtain ⟨k1, k2⟩ := isFile_unique f f'
      exact ⟨_, _, rests_nothing lib _, rests_nothing lib _, k1, k2⟩
    | _ => simp_all
  | @grade op P Q ds t g o q =>
    cases h' with
    | @grade op' P' Q' ds' _ _ o' q' =>
      obtain rfl := gradeOf_unique t o o'
      obtain ⟨R, S, r, s, k, e⟩ := one hin
      obtain ⟨R1, r1, r2⟩ := C161_graded q r (hs _ (List.mem_singleton.mpr rfl))
      obtain ⟨S1, s1, s2⟩ := C161_graded q' s (hs' _ (List.mem_singleton.mpr rfl))
      refine ⟨R1, S1, r1, s1, ⟨r2.data.trans (k.data.trans s2.data.symm),
        r2.display.trans (k.display.trans s2.display.symm),
        r2.channels.trans (k.channels.trans s2.channels.symm), fun x y hx => ?_⟩,
        r2.space.trans (e.trans s2.space.symm)⟩
      rw [s2.data] at hx
      have a := r2.pixels x y (k.data ▸ hx)
      rw [k.channels, k.pixels x y hx] at a
      exact carried_once_unique a (s2.pixels x y hx)
    | gradeOff _ g' => exact absurd g g'
    | _ => simp_all
  | gradeOff t g =>
    cases h' with
    | grade _ g' => exact absurd g' g
    | gradeOff => exact one hin
    | _ => simp_all
  | off t e =>
    cases h' with
    | off => exact one hin
    | _ => simp_all [Steady]
  | crop t e _ r _ _ q =>
    cases h' with
    | crop _ _ _ r' _ _ q' =>
      obtain ⟨k, e⟩ := rests_looks (one hin) r r'
      refine ⟨_, _, rests_nothing lib _, rests_nothing lib _, ⟨q.data.trans q'.data.symm, ?_,
        q.channels.trans (k.channels.trans q'.channels.symm), fun x y hx => ?_⟩,
        q.space.trans (e.trans q'.space.symm)⟩
      · rw [q.display, q'.display, k.display]
      · rw [q'.data] at hx
        have a := q.pixels x y hx
        rw [k.channels, looks_pixel k] at a
        exact graded_unique a (q'.pixels x y hx)
    | off _ e' => exact absurd (e.symm.trans e') (by decide)
    | _ => simp_all
  | merge t e _ ra rb _ _ _ _ q =>
    cases h' with
    | merge _ _ _ ra' rb' _ _ _ _ q' =>
      obtain ⟨ka, kb⟩ : RestsAlike lib _ _ ∧ RestsAlike lib _ _ := by
        rcases hin with _ | ⟨h1, _ | ⟨h2, -⟩⟩
        exact ⟨h1, h2⟩
      obtain ⟨a, -⟩ := rests_looks ka ra ra'
      obtain ⟨b, -⟩ := rests_looks kb rb rb'
      have val : ∀ {C C' : Picture F}, LooksLike C C' → ∀ x y, C.value x y = C'.value x y := by
        intro C C' h x y
        funext c
        unfold Picture.value
        rw [looks_pixel h]
      have hd := q.data.trans ((by rw [a.data, b.data] : _ = _).trans q'.data.symm)
      refine ⟨_, _, rests_nothing lib _, rests_nothing lib _, ⟨hd,
        q.display.trans (b.display.trans q'.display.symm),
        q.channels.trans (b.channels.trans q'.channels.symm), fun x y hx => ?_⟩,
        q.space.trans q'.space.symm⟩
      exact merged_pixel_of q' q b.channels hx (hd ▸ hx) (val a x y) (val b x y)
    | _ => simp_all
  | write t =>
    cases h' with
    | write => exact one hin
    | writeOff => exact one hin
    | _ => simp_all
  | writeOff t =>
    cases h' with
    | write => exact one hin
    | writeOff => exact one hin
    | _ => simp_all
  | transform t => simp [Steady, t] at ht
  | lens t => simp [Steady, t] at ht
  | resampleIdle t => simp [Steady, t] at ht
  | resample t => simp [Steady, t] at ht
  | @viewer P Q ds ty t _ o _ _ w q =>
    cases h' with
    | @viewer P' Q' ds' ty' _ _ _ _ _ w' q' =>
      obtain rfl : ty = ty' := (w .f32).symm.trans (w' .f32)
      obtain ⟨R, S, r, s, k, e⟩ := one hin
      obtain ⟨R1, r1, r2⟩ := C161_baked q r (hs _ (List.mem_singleton.mpr rfl))
      obtain ⟨S1, s1, s2⟩ := C161_baked q' s (hs' _ (List.mem_singleton.mpr rfl))
      refine ⟨R1, S1, r1, s1, ⟨r2.data.trans (k.data.trans s2.data.symm),
        r2.display.trans (k.display.trans s2.display.symm),
        r2.channels.trans (k.channels.trans s2.channels.symm), fun x y hx => ?_⟩,
        r2.space.trans s2.space.symm⟩
      rw [s2.data] at hx
      have a := r2.pixels x y (k.data ▸ hx)
      rw [k.channels, k.pixels x y hx] at a
      exact graded_unique a (s2.pixels x y hx)
    | viewerSpace _ _ o' => exact absurd (o.symm.trans o') (by decide)
    | viewerOff _ _ o' => exact absurd (o.symm.trans o') (by decide)
    | _ => simp_all
  | viewerSpace t _ o =>
    cases h' with
    | viewer _ _ o' => exact absurd (o.symm.trans o') (by decide)
    | viewerSpace => exact one hin
    | viewerOff => exact one hin
    | _ => simp_all
  | viewerOff t _ o =>
    cases h' with
    | viewer _ _ o' => exact absurd (o.symm.trans o') (by decide)
    | viewerSpace => exact one hin
    | viewerOff => exact one hin
    | _ => simp_all

theorem swapped_sized {lib : NodeLib F H} {srt srt' : EdgeSort} {g g' : Graph (Node F) (Stream F H)}
    {pic pic' : Nat → Layer F} {i j : Nat} (h : Swapped lib srt srt' g g' pic pic' i j) :
    Sized (pic i) ∧ Sized (pic' j) := by
  cases h with
  | part _ h1 h2 => exact ⟨h1, h2⟩
  | same _ _ _ _ _ _ _ _ h1 h2 => exact ⟨h1, h2⟩

/-- C161: if the parts that were exchanged rest alike, so do all steady nodes behind them. -/
theorem C161_pictures {lib : NodeLib F H} {srt srt' : EdgeSort}
    {g g' : Graph (Node F) (Stream F H)} (hg : Sound g) (hg' : Sound g') {start start' : Nat}
    (hs : g.graph.contains start = true) (hs' : g'.graph.contains start' = true) {frame : F}
    {pic pic' : Nat → Layer F} (hp : Pictures lib srt g start frame pic)
    (hp' : Pictures lib srt' g' start' frame pic') {i j : Nat}
    (h : Swapped lib srt srt' g g' pic pic' i j) (hi : Upstream g.graph start i)
    (hj : Upstream g'.graph start' j) : RestsAlike lib (pic i) (pic' j) := by
  induction h with
  | part h1 => exact h1
  | @same i j n n' ins ins' hn hn' ha ht e e' hl hk p1 p2 ih =>
    have up : ∀ u ∈ ins, Upstream g.graph start u := by
      intro u hu
      have := hg.direct srt (hg.upstream_live hs hi)
      rw [e] at this
      rw [Except.ok.inj this] at hu
      exact .step hi ((hg.mem_parents srt).mp hu).1
    have up' : ∀ u ∈ ins', Upstream g'.graph start' u := by
      intro u hu
      have := hg'.direct srt' (hg'.upstream_live hs' hj)
      rw [e'] at this
      rw [Except.ok.inj this] at hu
      exact .step hj ((hg'.mem_parents srt').mp hu).1
    refine C161_node ha ht (hp i n ins hi hn e) (hp' j n' ins' hj hn' e') ?_ ?_ ?_
    · rw [List.forall₂_map_left_iff, List.forall₂_map_right_iff, List.forall₂_iff_get]
      refine ⟨hl, fun k k1 k2 => ?_⟩
      exact ih k _ _ (List.getElem?_eq_getElem k1) (List.getElem?_eq_getElem k2)
        (up _ (List.getElem_mem k1)) (up' _ (List.getElem_mem k2))
    · intro K hK
      obtain ⟨u, hu, rfl⟩ := List.mem_map.mp hK
      obtain ⟨k, k1, rfl⟩ := List.getElem_of_mem hu
      exact (swapped_sized (hk k _ _ (List.getElem?_eq_getElem k1)
        (List.getElem?_eq_getElem (by omega)))).1
    · intro K hK
      obtain ⟨u, hu, rfl⟩ := List.mem_map.mp hK
      obtain ⟨k, k1, rfl⟩ := List.getElem_of_mem hu
      exact (swapped_sized (hk k _ _ (List.getElem?_eq_getElem (by omega))
        (List.getElem?_eq_getElem k1))).2

/-- C161 for executions: two graphs, of which one has other parts that show the same once carried out,
write the same files. -/
theorem C161_rendered [FloatBits F] (p p' : Profile) (lib : NodeLib F H) (srt srt' : EdgeSort)
    {g₁ g₂ : Graph (Node F) (Stream F H)} {r r' : Bool} (h : Reach (nodeSem p lib) srt r g₁)
    (h' : Reach (nodeSem p' lib) srt' r' g₂)
    {id id' start start' : Nat} (hid : At g₁ id start) (hid' : At g₂ id' start')
    (hs : g₁.graph.contains start = true) (hs' : g₂.graph.contains start' = true)
    {frames : List F} {pic pic' : F → Nat → Layer F}
    (hp : ∀ fr ∈ frames, Pictures lib srt g₁ start fr (pic fr))
    (hp' : ∀ fr ∈ frames, Pictures lib srt' g₂ start' fr (pic' fr))
    {n n' : Node F} (hn : g₁.nodes[start]? = some n) (hn' : g₂.nodes[start']? = some n')
    (hW : Writes n) (ha : n.attrs = n'.attrs) (hk : KnowsType n)
    (hq : ∀ i m, Upstream g₁.graph start i → i ≠ start → g₁.nodes[i]? = some m → ¬ Writes m)
    (hq' : ∀ i m, Upstream g₂.graph start' i → i ≠ start' → g₂.nodes[i]? = some m → ¬ Writes m)
    (hl : ∀ fr ∈ frames, Linear (filePath lib n fr))
    (hrep : ∀ fr ∈ frames, Swapped lib srt srt' g₁ g₂ (pic fr) (pic' fr) start start')
    (hU : ∀ fr ∈ frames, ∀ R, Rests lib (pic fr start) R → Upright R)
    {w v w' v' : World F H} (hoff : IsOff w) (hoff' : IsOff v) {fuel fuel' : Nat}
    {st st' : ExecuteStatus} {g₁' g₂' : Graph (Node F) (Stream F H)}
    (hx : g₁.execute (nodeSem p lib) srt fuel id frames w = .ok (st, g₁', w'))
    (hx' : g₂.execute (nodeSem p' lib) srt' fuel' id' frames v = .ok (st', g₂', v')) :
    st = st' ∧ ∃ jobs jobs', w'.writes = w.writes ++ jobs ∧ v'.writes = v.writes ++ jobs' ∧
      jobs.length = frames.length ∧ List.Forall₂ SamePixels jobs jobs' := by
  obtain ⟨i, s, a⟩ := n
  obtain ⟨i', s', a'⟩ := n'
  dsimp only at ha
  subst ha
  have hW' : Writes (⟨i', s', a⟩ : Node F) := hW
  have rest : ∀ fr ∈ frames, RestsAlike lib (pic fr start) (pic' fr start') := fun fr hf =>
    C161_pictures h.inv.sound h'.inv.sound hs hs' (hp fr hf) (hp' fr hf) (hrep fr hf) .refl .refl
  classical
  refine C159_rendered p p' lib srt srt' h h' hid hid' hs hs' hp hp' hn hn' hW hW' hq hq'
    (fun fr hf => ⟨hl fr hf, rfl⟩) ⟨hk, rfl, rfl⟩
    (R := fun fr => if hf : fr ∈ frames then (rest fr hf).choose else (pic fr 0).still)
    (fun fr hf => ?_) hoff hoff' hx hx'
  rw [dif_pos hf]
  obtain ⟨S, k1, k2, k3, -⟩ := (rest fr hf).choose_spec
  exact ⟨hU fr hf _ k1, ⟨_, k1, rfl, rfl, rfl, fun _ _ _ => rfl⟩, S, k2,
    k3.data.symm, k3.display.symm, k3.channels.symm, fun x y hx =>
      (k3.pixels x y (k3.data ▸ hx)).symm⟩

end

/-! ### Examples -/

section
attribute [local instance] zeroLibm
open TurnSpec Ieee

theorem flops_fit : FitsTurns 2 1 [flopTwo, flopTwo] [⟨-1, 1, 1, 0⟩, ⟨-1, 1, 1, 0⟩] pair :=
  ⟨rfl, rfl, .inr rfl, pair_size, .cons flopTwo_turns (.cons flopTwo_turns .nil), by decide, by decide⟩

/-- A picture mirrored twice shows the same as the picture, though two deformers wait. -/
theorem flops_alike : RestsAlike pairFiles ⟨pair, [flopTwo, flopTwo]⟩ ⟨pair, []⟩ := by
  refine ⟨_, _, C151_turned zero_trig turnLib_inverts flops_fit, rests_nothing _ _,
    ⟨rfl, rfl, rfl, fun x y hx => ?_⟩, rfl⟩
  obtain ⟨h1, h2, h3, h4⟩ := hx
  have hx : x = 0 ∨ x = 1 := by change (0 : Int) ≤ x at h1; change x < 2 at h2; omega
  show litFloats (decide (ShiftSpec.closest 2 (sourceX [⟨-1, 1, 1, 0⟩, ⟨-1, 1, 1, 0⟩] x) = 0)) =
    litFloats (decide (x = 0))
  rcases hx with rfl | rfl
  · exact congrArg litFloats (by decide)
  · exact congrArg litFloats (by decide)

/-- Doubling red before or after the picture is mirrored. -/
example : ∃ S, CarriedOut pairFiles.bake.deform [flopTwo] redPair S ∧
    IsGraded brightenOp (turned 2 1 [⟨-1, 1, 1, 0⟩] pair) S :=
  C161_graded redPair_graded (C151_turned zero_trig turnLib_inverts pair_fits) pair_size

theorem pair_baked : IsBaked F16 .f16 pair pair := by
  refine ⟨rfl, rfl, rfl, rfl, fun x y _ => ?_⟩
  show PictureSpec.Settled 4 ((litFloats (decide (x = 0))).map (inType F16 .f16))
    (litFloats (decide (x = 0)))
  cases decide (x = 0)
  · exact ⟨litFloats false, by decide +kernel, .nil _⟩
  · exact ⟨litFloats true, by decide +kernel, .nil _⟩

/-- Storing with 16 bit floats before or after the picture is mirrored. -/
example : ∃ S, CarriedOut pairFiles.bake.deform [flopTwo] pair S ∧
    IsBaked F16 .f16 (turned 2 1 [⟨-1, 1, 1, 0⟩] pair) S :=
  C161_baked pair_baked (C151_turned zero_trig turnLib_inverts pair_fits) pair_size

/-- Doubling red in either. -/
example : Makes pairFiles 1 brighten [⟨pair, [flopTwo, flopTwo]⟩] ⟨redPair, [flopTwo, flopTwo]⟩ ∧
    RestsAlike pairFiles ⟨redPair, [flopTwo, flopTwo]⟩ ⟨redPair, []⟩ := by
  have g : ComputeSpec.Grades brighten := ⟨rfl, .inl (by decide)⟩
  have h : ∀ ds, Makes pairFiles 1 brighten [⟨pair, ds⟩] ⟨redPair, ds⟩ := fun ds =>
    .grade rfl g brighten_op redPair_graded
  refine ⟨h _, C161_node rfl (by simp [Steady, brighten, Node.attrs, NodeAttrs.nodeType]) (h _) (h _)
    (.cons flops_alike .nil) (fun K hK => ?_) (fun K hK => ?_)⟩
  all_goals
    rw [List.mem_singleton.mp hK]
    exact pair_size

/-- Reading, mirroring twice, writing. -/
def flopsGraph : Graph (Node F32) (Stream F32 F16) :=
  ⟨[readNamed 1 [98], flopNode, writeHalf, { flopNode with id := 4 }], [1, 2, 3, 4],
    ⟨[some 1, some 2, some 3, some 4], [], [⟨3, 2, 0⟩, ⟨1, 3, 0⟩, ⟨0, 1, 0⟩]⟩, .new, .dirty,
    .uninitialized⟩

set_option synthInstance.maxSize 1024 in
theorem flops_facts : writtenFacts (flopsGraph.execute (nodeSem .debug pairFiles) insSort
    20 3 [1] copyWorld) = some [(exrName, [0, 0, 2, 1, 0, 0, 2, 1, 4], .known .f16, ⟨2, 1, 4⟩,
      some [(false, 16384), (false, 16384), (false, 16384), (false, 15360),
        (false, 15360), (false, 15360), (false, 15360), (false, 15360)])] := by
  decide +kernel

theorem flopsGraph_reach : Reach (nodeSem .debug pairFiles) insSort false flopsGraph := by
  have h0 : Reach (nodeSem .debug pairFiles) insSort false _ := .new .new
  have h1 := Reach.add (g' := ⟨[readNamed 1 [98]], [1],
    ⟨[some 1], [], []⟩, .new, .dirty, .uninitialized⟩)
    (readNamed 1 [98]) h0 rfl
  have h2 := Reach.add (g' := ⟨[readNamed 1 [98], flopNode], [1, 2],
    ⟨[some 1, some 2], [], []⟩, .new, .dirty, .uninitialized⟩) flopNode h1 rfl
  have h3 := Reach.add (g' := ⟨[readNamed 1 [98], flopNode, writeHalf], [1, 2, 3],
    ⟨[some 1, some 2, some 3], [], []⟩, .new, .dirty, .uninitialized⟩) writeHalf h2 rfl
  have h4 := Reach.add (g' := ⟨[readNamed 1 [98], flopNode, writeHalf, { flopNode with id := 4 }],
    [1, 2, 3, 4], ⟨[some 1, some 2, some 3, some 4], [], []⟩, .new, .dirty, .uninitialized⟩)
    { flopNode with id := 4 } h3 rfl
  have h5 := Reach.connect (g' := ⟨[readNamed 1 [98], flopNode, writeHalf, { flopNode with id := 4 }],
    [1, 2, 3, 4], ⟨[some 1, some 2, some 3, some 4], [], [⟨0, 1, 0⟩]⟩, .new, .dirty,
    .uninitialized⟩) 1 2 0 h4 rfl
  have h6 := Reach.connect (g' := ⟨[readNamed 1 [98], flopNode, writeHalf, { flopNode with id := 4 }],
    [1, 2, 3, 4], ⟨[some 1, some 2, some 3, some 4], [], [⟨1, 3, 0⟩, ⟨0, 1, 0⟩]⟩, .new, .dirty,
    .uninitialized⟩) 2 4 0 h5 rfl
  have h7 := Reach.connect (g' := flopsGraph) 4 3 0 h6 rfl
  exact h7

def flopsPic (i : Nat) : Layer F32 :=
  ⟨pair, if i = 0 then [] else if i = 1 then [flopTwo] else [flopTwo, flopTwo]⟩

theorem flopsGraph_pictures (frame : F32) :
    Pictures pairFiles insSort flopsGraph 2 frame flopsPic := by
  intro i n ins _ hn hins
  rcases i with _ | _ | _ | _ | i
  · cases hn
    cases hins
    exact .read rfl (by decide) (pair_file _)
  · cases hn
    cases hins
    exact flopNode_makes frame
  · cases hn
    cases hins
    refine .write rfl (by decide) (by decide) (C151_turned zero_trig turnLib_inverts flops_fit)
      ⟨.inl rfl, rfl, by decide, by decide, ?_⟩
    rintro (h | ⟨h, -⟩) <;> cases h
  · cases hn
    cases hins
    have : Makes pairFiles frame { flopNode with id := 4 } [⟨pair, [flopTwo]⟩]
        ⟨pair, [flopTwo] ++ [flopTwo]⟩ := by
      refine .transform rfl rfl rfl ⟨?_, ?_⟩
      · intro name h _
        simp only [flopNode, Node.attrs, NodeAttrs.nodeType] at h
        fin_cases h <;> first | rfl | contradiction
      · intro name h
        fin_cases h <;> rfl
    exact this
  · cases hn

theorem flops_swapped : Swapped pairFiles insSort insSort flopsGraph copyGraph flopsPic
    (fun _ => ⟨pair, []⟩) 2 2 := by
  refine .same (n := writeHalf) (n' := writeHalf) (ins := [3]) (ins' := [1]) rfl rfl rfl
    (by simp [Steady, writeHalf, Node.attrs, NodeAttrs.nodeType]) rfl rfl rfl
    (fun k a b ha hb => ?_) pair_size pair_size
  rcases k with _ | k
  · cases ha
    cases hb
    exact .part flops_alike pair_size pair_size
  · cases ha

/-- The write nodes get layers that rest alike. -/
example : RestsAlike pairFiles (flopsPic 2) ⟨pair, []⟩ :=
  C161_pictures flopsGraph_reach.inv.sound copyPair_reach.inv.sound rfl rfl
    (flopsGraph_pictures 1) (copyPair_pictures 1) flops_swapped .refl .refl

/-- Mirroring twice exchanged for doing nothing: the files are the same. -/
example : ∃ g w g' w' job job',
    flopsGraph.execute (nodeSem .debug pairFiles) insSort 20 3 [1] copyWorld = .ok (.success, g, w) ∧
    copyGraph.execute (nodeSem .release pairFiles) insSort 20 3 [1] copyWorld =
      .ok (.success, g', w') ∧ w.writes = [job] ∧ w'.writes = [job'] ∧ SamePixels job job' := by
  obtain ⟨g, w, e⟩ := written_ok flops_facts
  obtain ⟨g', w', e'⟩ := written_ok copyPair_facts
  obtain ⟨-, jobs, jobs', h1, h2, h3, h4⟩ := C161_rendered .debug .release pairFiles insSort insSort
    flopsGraph_reach copyPair_reach (id := 3) (id' := 3) (start := 2) (start' := 2) (frames := [1])
    (by
      refine ⟨rfl, fun j hj => ?_⟩
      rcases j with _ | _ | j <;> first | decide | omega) copyGraph_at rfl rfl
    (pic := fun _ => flopsPic) (pic' := fun _ _ => ⟨pair, []⟩)
    (fun fr _ => flopsGraph_pictures fr) (fun fr _ => copyPair_pictures fr)
    (n := writeHalf) (n' := writeHalf) rfl rfl ⟨rfl, by decide, by decide⟩ rfl (.inr (.inl rfl))
    (by
      intro i m _ hi hm
      rcases i with _ | _ | _ | _ | i
      · cases hm; rintro ⟨⟨⟩, -⟩
      · cases hm; rintro ⟨⟨⟩, -⟩
      · exact absurd rfl hi
      · cases hm; rintro ⟨⟨⟩, -⟩
      · cases hm)
    (by
      intro i m _ hi hm
      rcases i with _ | _ | _ | i
      · cases hm; rintro ⟨⟨⟩, -⟩
      · cases hm; rintro ⟨⟨⟩, -⟩
      · exact absurd rfl hi
      · cases hm)
    (fun fr hfr => by
      obtain rfl := List.mem_singleton.mp hfr
      unfold Linear
      decide +kernel)
    (fun fr _ => flops_swapped)
    (fun fr _ R hR => by
      obtain ⟨e1, e2, -⟩ := carriedOut_unique (C151_turned zero_trig turnLib_inverts flops_fit) hR
      constructor <;> simp [e1, e2, turned, pair])
    ⟨rfl, rfl⟩ ⟨rfl, rfl⟩ e e'
  cases h4 with
  | nil => cases h3
  | cons h5 h6 =>
    cases h6 with
    | nil => exact ⟨g, w, g', w', _, _, e, e', h1, h2, h5⟩
    | cons => cases h3

end

end OCG.Props
