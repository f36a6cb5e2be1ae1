import Verif.Spec.Patch
import Verif.Props.Tiles
/-
C156: working on a part of a picture and putting it back changes only that part.
-/

namespace OCG.Props

open PlainSpec PictureSpec PixelSpec ColorSpec IeeeSpec ImageSpecs BBoxSpec BlockSpec PatchSpec
open GraphSpec RenderSpec FileSpec ComputeSpec
open CacheSpec (IsOff)
open Ieee hiding floor ceil round

section
variable [Libm single32]

/-- C156: an opaque picture laid over another one replaces exactly the pixels in its window, bit by
bit. -/
theorem C156_patched {A B Q : Picture F32} (hA : AllPlain A) (hB : AllPlain B) (ca : A.channels = 4)
    (cb : B.channels = 4) (ho : Opaque A) (hQ : IsMerged .over 1 A B Q) : IsPatched A B Q := by
  have ch : Q.channels = B.channels := hQ.channels
  have key : ∀ x y (c : Int), blend .over 1 (A.value x y) (B.value x y) c =
      if Has A.data x y then A.value x y c else B.value x y c := by
    intro x y c
    split
    · rename_i h
      show add (A.value x y c) (mul (B.value x y c) (mul (sub (ofInt 1) (A.value x y 3)) (ofInt 1))) =
        A.value x y c
      exact plain_add_zero (plain_value hA x y c) (mul_nothing (plain_value hB x y c).1
        (nothing_mul one_finite (opaque_rest (plain_value hA x y 3).1 (ho x y h))))
    · rename_i h
      exact blend_below (.inr rfl) (plain_value hB x y c) fun c => value_outside h
  have all : ∀ x y, Q.pixel x y = if Has A.data x y then A.pixel x y else B.pixel x y := by
    intro x y
    have pa := plain_pixel hA x y
    have pb := plain_pixel hB x y
    by_cases hq : Has Q.data x y
    · rw [Picture.pixel, if_pos hq]
      obtain ⟨v, hs, hl, hv⟩ := hQ.pixels x y hq
      rw [cb] at hs hl hv
      have e : v = if Has A.data x y then A.pixel x y else B.pixel x y := by
        refine List.ext_getElem? fun i => ?_
        have hlen : (if Has A.data x y then A.pixel x y else B.pixel x y).length = 4 := by
          split
          · exact pa.1.trans ca
          · exact pb.1.trans cb
        by_cases hi : i < 4
        · rw [hv i hi, key x y i]
          split <;>
          · rename_i h
            simp only [h, if_true, if_false] at hlen
            unfold Picture.value
            rw [if_pos (by omega), List.getD_eq_getElem?_getD, Int.toNat_natCast,
              List.getElem?_eq_getElem (by omega), Option.getD_some]
        · rw [List.getElem?_eq_none (by omega), List.getElem?_eq_none (by omega)]
      rw [← e]
      refine settled_plain (.inr (.inr rfl)) hl ?_ hs
      rw [e]
      split
      · exact pa.2
      · exact pb.2
    · have na : ¬ Has A.data x y := fun h => hq (merged_has hQ (.inl h))
      have nb : ¬ Has B.data x y := fun h => hq (merged_has hQ (.inr h))
      rw [if_neg na, Picture.pixel, if_neg hq, Picture.pixel, if_neg nb, ch]
  exact ⟨hQ.display, ch, fun x y h => by rw [all, if_pos h], fun x y h => by rw [all, if_neg h]⟩

/-- C156 for grades: a part of a picture that is cut out, graded and laid over the picture again is
graded there as the whole picture would be; everything else stays, bit by bit. -/
theorem C156_graded {W : BBox} {r : Bool} {op : GradeOp F32} {P A G Q : Picture F32}
    (hP : AllPlain P) (cp : P.channels = 4) (hW : Inside W P.data) (hA : IsCropped W r P A)
    (hG : IsGraded op A G) (pG : AllPlain G) (oG : Opaque G) (hQ : IsMerged .over 1 G P Q) :
    Q.data = P.data ∧ Q.display = P.display ∧ Q.channels = P.channels ∧
      (∀ x y, Has P.data x y → Has W x y → Carried P.channels [op] (P.at_ x y) (Q.at_ x y)) ∧
      ∀ x y, Has P.data x y → ¬ Has W x y → Q.at_ x y = P.at_ x y := by
  have gd : G.data = W := hG.data.trans hA.data
  have gc : G.channels = P.channels := hG.channels.trans hA.channels
  have hp := C156_patched pG hP (gc.trans cp) cp oG hQ
  have qd : Q.data = P.data := by
    obtain ⟨w1, w2, w3, w4⟩ := hW
    rw [hQ.data, gd]
    rcases e : P.data with ⟨p1, p2, p3, p4⟩
    rw [e] at w1 w2 w3 w4
    dsimp only at *
    congr 1 <;> omega
  have px : ∀ {R : Picture F32} {x y : Int}, Has R.data x y → R.pixel x y = R.at_ x y :=
    fun h => by rw [Picture.pixel, if_pos h]
  refine ⟨qd, hp.display, hp.channels, fun x y hxy hw => ?_, fun x y hxy hw => ?_⟩
  · have h1 := hp.patch x y (by rw [gd]; exact hw)
    rw [px (by rw [qd]; exact hxy), px (by rw [gd]; exact hw)] at h1
    have h2 := hG.pixels x y (by rw [hA.data]; exact hw)
    rw [(C121_crop (.inr (.inr cp)) hP hA).2 x y hw, px hxy, hA.channels] at h2
    rw [h1]
    exact h2
  · have h1 := hp.rest x y (by rw [gd]; exact hw)
    rwa [px (by rw [qd]; exact hxy), px hxy] at h1

/-! ### Nodes and files -/

/-- A merge node, whose first input has nothing waiting. -/
theorem makes_merge_first {H : Type} [HalfLike F32 H] {lib : NodeLib F32 H} {frame : F32}
    {n : Node F32} {A R : Picture F32} {L M : Layer F32} (ht : n.attrs.nodeType = .mergeImage)
    (he : n.getI32 "enable" = 1) (h : Makes lib frame n [⟨A, []⟩, L] M) (hR : Rests lib L R) :
    M.moves = [] ∧
      IsMerged (MergeImageMode.ofI32 (n.getI32 "mode")) (n.getF32 "mix") A R M.still := by
  have same : ∀ {P P0 : Picture F32}, P0.data = P.data →
      (∀ x y, Has P.data x y → P0.at_ x y = P.at_ x y) → ∀ x y, P0.value x y = P.value x y := by
    intro P P0 c1 c2 x y
    by_cases hxy : Has P.data x y
    · rw [value_inside (by rw [c1]; exact hxy), value_inside hxy, c2 x y hxy]
    · funext c
      rw [value_outside (by rw [c1]; exact hxy), value_outside hxy]
  cases h with
  | merge _ _ _ ka kb _ _ cb _ kq =>
    obtain ⟨a1, a2⟩ := ka.still (fun d hd => absurd hd List.not_mem_nil)
    obtain ⟨b1, b2, b3, b4, b5⟩ := carriedOut_unique hR kb
    dsimp only at a1 a2
    refine ⟨rfl, ?_, kq.display.trans b2, kq.channels.trans b3, kq.space, fun x y hxy => ?_⟩
    · have := kq.data
      rwa [a1, b1] at this
    · obtain ⟨v, h1, h2, h3⟩ := kq.pixels x y hxy
      rw [b3] at h1 h2
      rw [b3, same a1 a2, same b1 b5] at h3
      exact ⟨v, h1, h2, h3⟩

theorem makes_grade {H : Type} [HalfLike F32 H] {lib : NodeLib F32 H} {frame : F32} {n : Node F32}
    {A : Picture F32} {M : Layer F32} (ht : n.attrs.nodeType = .grade) (hg : Grades n)
    (h : Makes lib frame n [⟨A, []⟩] M) : M.moves = [] ∧ ∃ op, IsGradeOf n op ∧
      IsGraded op A M.still := by
  cases h <;> first
    | exact ⟨rfl, _, by assumption, by assumption⟩
    | (exfalso; simp_all)

/-- C156 for nodes: a crop node, a grade node behind it, and a merge node that lays this over what
was there before, make the picture graded inside the window of the crop and nowhere else. -/
theorem C156_nodes {H : Type} [HalfLike F32 H] {lib : NodeLib F32 H} {frame : F32}
    {c n m : Node F32} {L A G Q : Layer F32}
    (hc : c.attrs.nodeType = .cropImage) (ec : c.getI32 "enable" = 1)
    (hn : n.attrs.nodeType = .grade) (en : Grades n)
    (hm : m.attrs.nodeType = .mergeImage) (em : m.getI32 "enable" = 1)
    (ho : MergeImageMode.ofI32 (m.getI32 "mode") = .over) (hx : m.getF32 "mix" = 1)
    {R : Picture F32} (hR : Rests lib L R) (pR : AllPlain R) (cR : R.channels = 4)
    (hW : Inside (cropWindow c) R.data)
    (hA : Makes lib frame c [L] A) (hG : Makes lib frame n [A] G) (pG : AllPlain G.still)
    (oG : Opaque G.still) (hQ : Makes lib frame m [G, L] Q)
    {op : GradeOp F32} (hop : IsGradeOf n op) {S : Picture F32} (hS : IsGraded op R S) :
    Q.moves = [] ∧ Q.still.data = R.data ∧ Q.still.display = R.display ∧
      Q.still.channels = R.channels ∧
      ∀ x y, Has R.data x y → Q.still.at_ x y = (within (cropWindow c) S R).at_ x y := by
  obtain ⟨a1, RA, a2, a3⟩ := makes_crop hc ec hA
  obtain ⟨A, as⟩ := A
  dsimp only at a1 a3
  subst a1
  obtain ⟨g1, op', g2, g3⟩ := makes_grade hn en hG
  obtain rfl := gradeOf_unique hn g2 hop
  obtain ⟨G, gs⟩ := G
  dsimp only at g1 g3 pG oG
  subst g1
  obtain ⟨q1, q2⟩ := makes_merge_first hm em hQ hR
  rw [ho, hx] at q2
  obtain ⟨e1, e2, e3, e4, e5⟩ := carriedOut_unique hR a2
  have kA : IsCropped (cropWindow c) (decide (c.getI32 "reformat" = 1)) R A := by
    refine ⟨a3.data, a3.display.trans (by rw [e2]), a3.channels.trans e3, a3.space.trans e4,
      fun x y hxy => ?_⟩
    have hpx : RA.pixel x y = R.pixel x y := by
      unfold Picture.pixel
      rw [e1, e3]
      by_cases hh : Has R.data x y
      · rw [if_pos hh, if_pos hh, e5 x y hh]
      · rw [if_neg hh, if_neg hh]
    have := a3.pixels x y hxy
    rwa [hpx, e3] at this
  obtain ⟨d1, d2, d3, d4, d5⟩ := C156_graded pR cR hW kA g3 pG oG q2
  refine ⟨q1, d1, d2, d3, fun x y hxy => ?_⟩
  show _ = if Has (cropWindow c) x y then S.at_ x y else R.at_ x y
  split
  · exact carried_once_unique (d4 x y hxy (by assumption)) (hS.pixels x y hxy)
  · exact d5 x y hxy (by assumption)

/-- C156 for executions: what a graph writes that grades a part in this way is the picture graded
inside the window of the crop and nowhere else. -/
theorem C156_rendered {H : Type} [HalfLike F32 H] (p : Profile) (lib : NodeLib F32 H) (srt : EdgeSort)
    {g : Graph (Node F32) (Stream F32 H)} {r : Bool} (h : Reach (nodeSem p lib) srt r g)
    {id start : Nat} (hid : At g id start) (hs : g.graph.contains start = true)
    {frames : List F32} {pic : F32 → Nat → Layer F32}
    (hp : ∀ fr ∈ frames, Pictures lib srt g start fr (pic fr))
    {n : Node F32} (hn : g.nodes[start]? = some n) (hW : Writes n)
    (hq : ∀ i m, Upstream g.graph start i → i ≠ start → g.nodes[i]? = some m → ¬ Writes m)
    (hl : ∀ fr ∈ frames, Linear (filePath lib n fr))
    {c k m : Node F32} (hc : c.attrs.nodeType = .cropImage) (ec : c.getI32 "enable" = 1)
    (hk : k.attrs.nodeType = .grade) (ek : Grades k)
    (hm : m.attrs.nodeType = .mergeImage) (em : m.getI32 "enable" = 1)
    (ho : MergeImageMode.ofI32 (m.getI32 "mode") = .over) (hmx : m.getF32 "mix" = 1)
    {L A G : F32 → Layer F32} {R S : F32 → Picture F32} {op : GradeOp F32} (hop : IsGradeOf k op)
    (hR : ∀ fr ∈ frames, Rests lib (L fr) (R fr) ∧ AllPlain (R fr) ∧ (R fr).channels = 4 ∧
      Inside (cropWindow c) (R fr).data ∧ IsGraded op (R fr) (S fr))
    (hA : ∀ fr ∈ frames, Makes lib fr c [L fr] (A fr))
    (hG : ∀ fr ∈ frames, Makes lib fr k [A fr] (G fr) ∧ AllPlain (G fr).still ∧ Opaque (G fr).still)
    (hQ : ∀ fr ∈ frames, Makes lib fr m [G fr, L fr] (pic fr start))
    {w w' : World F32 H} (hoff : IsOff w) {fuel : Nat} {st : ExecuteStatus}
    {g' : Graph (Node F32) (Stream F32 H)}
    (hx : g.execute (nodeSem p lib) srt fuel id frames w = .ok (st, g', w')) :
    st = .success ∧ ∃ jobs, w'.writes = w.writes ++ jobs ∧
      List.Forall₂ (fun fr job => job.path = filePath lib n fr ∧ ∃ own,
        FileShows (wantedType (n.getI32 "pixel_data_type") own)
          (window n (filePath lib n fr) (within (cropWindow c) (S fr) (R fr)))
          (within (cropWindow c) (S fr) (R fr)) job) frames jobs := by
  obtain ⟨h1, jobs, h2, h3⟩ := C138_rendered p lib srt h hid hs hp hn hW hq hl hoff hx
  refine ⟨h1, jobs, h2, ?_⟩
  clear h2 hx hl hp
  induction h3 with
  | nil => exact .nil
  | @cons fr job frames jobs z _ ih =>
    have up : ∀ {x}, x ∈ frames → x ∈ fr :: frames := List.mem_cons_of_mem _
    refine .cons ?_ (ih (fun x hx => hR x (up hx)) (fun x hx => hA x (up hx))
      (fun x hx => hG x (up hx)) (fun x hx => hQ x (up hx)))
    obtain ⟨k1, own, T, k2, k3⟩ := z
    have hf : fr ∈ fr :: frames := List.mem_cons_self
    obtain ⟨r1, r2, r3, r4, r5⟩ := hR fr hf
    obtain ⟨g1, g2, g3⟩ := hG fr hf
    obtain ⟨z, d1, d2, d3, d4⟩ := C156_nodes hc ec hk ek hm em ho hmx r1 r2 r3 r4 (hA fr hf) g1 g2 g3
      (hQ fr hf) hop r5
    have k2' : CarriedOut lib.bake.deform (pic fr start).moves (pic fr start).still T := k2
    rw [z] at k2'
    obtain ⟨c1, c2⟩ := k2'.still (fun d hd => absurd hd List.not_mem_nil)
    refine ⟨k1, own, shows_alike (c1.trans d1) (k2'.display.trans d2) (k2'.channels.trans d3) ?_ k3⟩
    intro x y hxy
    rw [c2 x y (by rw [d1]; exact hxy), d4 x y hxy]

end
/-! ### Examples -/

section
attribute [local instance] zeroLibm

/-- Doubles red, and lays one picture over another. -/
def brighten : Node F32 := ⟨4, .uninitialized, .grade { GradeAttrs.new with multiplyR := ofInt 2 }⟩

def coverNode : Node F32 := ⟨5, .uninitialized, .mergeImage MergeImageAttrs.new⟩

def brightenOp : GradeOp F32 := { GradeOp.new with multiplyR := ofInt 2 }

theorem brighten_op : IsGradeOf brighten brightenOp :=
  ⟨by decide +kernel, by decide +kernel, by decide +kernel⟩

/-- A pixel of the file with red doubled. -/
def litRed (b : Bool) : List F32 :=
  [if b then ofInt 4 else ofInt 2, if b then ofInt 2 else 1, if b then ofInt 2 else 1, 1]

theorem litRed_carried (b : Bool) : Carried 4 [brightenOp] (litFloats b) (litRed b) := by
  refine .step (by decide +kernel) ?_ (.nil _)
  cases b <;> decide +kernel

/-- The file with red doubled. -/
def redPair : Picture F32 :=
  ⟨⟨0, 0, 2, 1⟩, ⟨0, 0, 2, 1⟩, 4, colorSpaceLinear, fun x _ => litRed (decide (x = 0))⟩

theorem redPair_graded : IsGraded brightenOp pair redPair :=
  ⟨rfl, rfl, rfl, rfl, fun _ _ _ => litRed_carried _⟩

/-- The left pixel of the file, as it is and with red doubled. -/
def leftPart (v : List F32) : Picture F32 :=
  ⟨⟨0, 0, 1, 1⟩, ⟨0, 0, 2, 1⟩, 4, colorSpaceLinear, fun _ _ => v⟩

theorem left_cropped : IsCropped ⟨0, 0, 1, 1⟩ false pair (leftPart (litFloats true)) := by
  refine ⟨rfl, rfl, rfl, rfl, fun x y hxy => ?_⟩
  obtain ⟨rfl, rfl⟩ := has_one hxy
  exact ⟨_, (by decide +kernel : applyColorMatrix (litFloats true) 4 Mat4.identity =
    .ok (litFloats true)), .nil _⟩

theorem left_graded : IsGraded brightenOp (leftPart (litFloats true)) (leftPart (litRed true)) :=
  ⟨rfl, rfl, rfl, rfl, fun _ _ _ => litRed_carried true⟩

theorem left_plain : AllPlain (leftPart (litRed true)) := fun _ _ _ =>
  ⟨rfl, by show ∀ v ∈ litRed true, IsPlain v; decide +kernel⟩

theorem left_opaque : Opaque (leftPart (litRed true)) := by
  intro x y h
  obtain ⟨rfl, rfl⟩ := has_one h
  rw [show (leftPart (litRed true)).value 0 0 3 = ofInt 1 by decide +kernel, one_val]

theorem left_inside : Inside ⟨0, 0, 1, 1⟩ pair.data := by
  show Inside ⟨0, 0, 1, 1⟩ ⟨0, 0, 2, 1⟩
  unfold Inside
  decide

/-- Only the left pixel is graded. -/
example : ∃ Q, IsMerged .over 1 (leftPart (litRed true)) pair Q ∧
    IsPatched (leftPart (litRed true)) pair Q ∧
    Carried 4 [brightenOp] (litFloats true) (Q.at_ 0 0) ∧ Q.at_ 1 0 = litFloats false := by
  obtain ⟨Q, hQ⟩ := merged_exists .over 1 (leftPart (litRed true)) pair (.inr rfl)
  obtain ⟨-, -, -, h1, h2⟩ := C156_graded pair_plain rfl left_inside left_cropped left_graded
    left_plain left_opaque hQ
  refine ⟨Q, hQ, C156_patched left_plain pair_plain rfl rfl left_opaque hQ, ?_, ?_⟩
  · exact h1 0 0 (by show Has ⟨0, 0, 2, 1⟩ 0 0; unfold Has; decide) (by unfold Has; decide)
  · exact h2 1 0 (by show Has ⟨0, 0, 2, 1⟩ 1 0; unfold Has; decide) (by unfold Has; decide)

/-- Does nothing. -/
def idle (id : Nat) : Node F32 := ⟨id, .uninitialized, .null {}⟩

/-- Reading a file, cutting out its left half, doubling red in it, laying it over the file, writing. -/
def patchGraph : Graph (Node F32) (Stream F32 F16) :=
  ⟨[readNamed 1 [98], cropLeft, writeHalf, brighten, coverNode], [1, 2, 3, 4, 5],
    ⟨[some 1, some 2, some 3, some 4, some 5], [],
      [⟨4, 2, 0⟩, ⟨0, 4, 1⟩, ⟨3, 4, 0⟩, ⟨1, 3, 0⟩, ⟨0, 1, 0⟩]⟩, .new, .dirty, .uninitialized⟩

theorem patchGraph_reach : Reach (nodeSem .debug pairFiles) insSort false patchGraph := by
  have h0 : Reach (nodeSem .debug pairFiles) insSort false _ := .new .new
  have h1 := Reach.add (g' := ⟨[readNamed 1 [98]], [1],
    ⟨[some 1], [],
      []⟩, .new, .dirty, .uninitialized⟩)
    (readNamed 1 [98]) h0 rfl
  have h2 := Reach.add (g' := ⟨[readNamed 1 [98], cropLeft], [1, 2],
    ⟨[some 1, some 2], [],
      []⟩, .new, .dirty, .uninitialized⟩)
    (cropLeft) h1 rfl
  have h3 := Reach.add (g' := ⟨[readNamed 1 [98], cropLeft, writeHalf], [1, 2, 3],
    ⟨[some 1, some 2, some 3], [],
      []⟩, .new, .dirty, .uninitialized⟩)
    (writeHalf) h2 rfl
  have h4 := Reach.add (g' := ⟨[readNamed 1 [98], cropLeft, writeHalf, brighten], [1, 2, 3, 4],
    ⟨[some 1, some 2, some 3, some 4], [],
      []⟩, .new, .dirty, .uninitialized⟩)
    (brighten) h3 rfl
  have h5 := Reach.add (g' := ⟨[readNamed 1 [98], cropLeft, writeHalf, brighten, coverNode], [1, 2, 3, 4, 5],
    ⟨[some 1, some 2, some 3, some 4, some 5], [],
      []⟩, .new, .dirty, .uninitialized⟩)
    (coverNode) h4 rfl
  have h6 := Reach.connect (g' := ⟨[readNamed 1 [98], cropLeft, writeHalf, brighten, coverNode], [1, 2, 3, 4, 5],
    ⟨[some 1, some 2, some 3, some 4, some 5], [],
      [⟨0, 1, 0⟩]⟩, .new, .dirty, .uninitialized⟩)
    1 2 0 h5 rfl
  have h7 := Reach.connect (g' := ⟨[readNamed 1 [98], cropLeft, writeHalf, brighten, coverNode], [1, 2, 3, 4, 5],
    ⟨[some 1, some 2, some 3, some 4, some 5], [],
      [⟨1, 3, 0⟩, ⟨0, 1, 0⟩]⟩, .new, .dirty, .uninitialized⟩)
    2 4 0 h6 rfl
  have h8 := Reach.connect (g' := ⟨[readNamed 1 [98], cropLeft, writeHalf, brighten, coverNode], [1, 2, 3, 4, 5],
    ⟨[some 1, some 2, some 3, some 4, some 5], [],
      [⟨3, 4, 0⟩, ⟨1, 3, 0⟩, ⟨0, 1, 0⟩]⟩, .new, .dirty, .uninitialized⟩)
    4 5 0 h7 rfl
  have h9 := Reach.connect (g' := ⟨[readNamed 1 [98], cropLeft, writeHalf, brighten, coverNode], [1, 2, 3, 4, 5],
    ⟨[some 1, some 2, some 3, some 4, some 5], [],
      [⟨0, 4, 1⟩, ⟨3, 4, 0⟩, ⟨1, 3, 0⟩, ⟨0, 1, 0⟩]⟩, .new, .dirty, .uninitialized⟩)
    1 5 1 h8 rfl
  have h10 := Reach.connect (g' := patchGraph)
    5 3 0 h9 rfl
  exact h10

/-- Such a graph may crash as it is: the way from the file through the crop is longer than the direct
one, and the code only computes nodes in the right order if all ways are equally long (C38). -/
theorem C156_counterexample_crash : Reach (nodeSem .debug pairFiles) insSort false patchGraph ∧
    ∀ r, patchGraph.execute (nodeSem .debug pairFiles) insSort 20 3 [1] copyWorld ≠ .ok r := by
  refine ⟨patchGraph_reach, ?_⟩
  have h : (match patchGraph.execute (nodeSem .debug pairFiles) insSort 20 3 [1] copyWorld with
    | .ok _ => true
    | .error _ => false) = false := by
    decide +kernel
  intro r e
  rw [e] at h
  cases h

/-- With two nodes that do nothing on the direct way the ways are equally long. -/
def evenGraph : Graph (Node F32) (Stream F32 F16) :=
  ⟨[readNamed 1 [98], cropLeft, writeHalf, brighten, coverNode, idle 6, idle 7], [1, 2, 3, 4, 5, 6, 7],
    ⟨[some 1, some 2, some 3, some 4, some 5, some 6, some 7], [],
      [⟨4, 2, 0⟩, ⟨6, 4, 1⟩, ⟨5, 6, 0⟩, ⟨0, 5, 0⟩, ⟨3, 4, 0⟩, ⟨1, 3, 0⟩, ⟨0, 1, 0⟩]⟩, .new, .dirty, .uninitialized⟩

theorem evenGraph_reach : Reach (nodeSem .debug pairFiles) insSort false evenGraph := by
  have h0 : Reach (nodeSem .debug pairFiles) insSort false _ := .new .new
  have h1 := Reach.add (g' := ⟨[readNamed 1 [98]], [1],
    ⟨[some 1], [],
      []⟩, .new, .dirty, .uninitialized⟩)
    (readNamed 1 [98]) h0 rfl
  have h2 := Reach.add (g' := ⟨[readNamed 1 [98], cropLeft], [1, 2],
    ⟨[some 1, some 2], [],
      []⟩, .new, .dirty, .uninitialized⟩)
    (cropLeft) h1 rfl
  have h3 := Reach.add (g' := ⟨[readNamed 1 [98], cropLeft, writeHalf], [1, 2, 3],
    ⟨[some 1, some 2, some 3], [],
      []⟩, .new, .dirty, .uninitialized⟩)
    (writeHalf) h2 rfl
  have h4 := Reach.add (g' := ⟨[readNamed 1 [98], cropLeft, writeHalf, brighten], [1, 2, 3, 4],
    ⟨[some 1, some 2, some 3, some 4], [],
      []⟩, .new, .dirty, .uninitialized⟩)
    (brighten) h3 rfl
  have h5 := Reach.add (g' := ⟨[readNamed 1 [98], cropLeft, writeHalf, brighten, coverNode], [1, 2, 3, 4, 5],
    ⟨[some 1, some 2, some 3, some 4, some 5], [],
      []⟩, .new, .dirty, .uninitialized⟩)
    (coverNode) h4 rfl
  have h6 := Reach.add (g' := ⟨[readNamed 1 [98], cropLeft, writeHalf, brighten, coverNode, idle 6], [1, 2, 3, 4, 5, 6],
    ⟨[some 1, some 2, some 3, some 4, some 5, some 6], [],
      []⟩, .new, .dirty, .uninitialized⟩)
    (idle 6) h5 rfl
  have h7 := Reach.add (g' := ⟨[readNamed 1 [98], cropLeft, writeHalf, brighten, coverNode, idle 6, idle 7], [1, 2, 3, 4, 5, 6, 7],
    ⟨[some 1, some 2, some 3, some 4, some 5, some 6, some 7], [],
      []⟩, .new, .dirty, .uninitialized⟩)
    (idle 7) h6 rfl
  have h8 := Reach.connect (g' := ⟨[readNamed 1 [98], cropLeft, writeHalf, brighten, coverNode, idle 6, idle 7], [1, 2, 3, 4, 5, 6, 7],
    ⟨[some 1, some 2, some 3, some 4, some 5, some 6, some 7], [],
      [⟨0, 1, 0⟩]⟩, .new, .dirty, .uninitialized⟩)
    1 2 0 h7 rfl
  have h9 := Reach.connect (g' := ⟨[readNamed 1 [98], cropLeft, writeHalf, brighten, coverNode, idle 6, idle 7], [1, 2, 3, 4, 5, 6, 7],
    ⟨[some 1, some 2, some 3, some 4, some 5, some 6, some 7], [],
      [⟨1, 3, 0⟩, ⟨0, 1, 0⟩]⟩, .new, .dirty, .uninitialized⟩)
    2 4 0 h8 rfl
  have h10 := Reach.connect (g' := ⟨[readNamed 1 [98], cropLeft, writeHalf, brighten, coverNode, idle 6, idle 7], [1, 2, 3, 4, 5, 6, 7],
    ⟨[some 1, some 2, some 3, some 4, some 5, some 6, some 7], [],
      [⟨3, 4, 0⟩, ⟨1, 3, 0⟩, ⟨0, 1, 0⟩]⟩, .new, .dirty, .uninitialized⟩)
    4 5 0 h9 rfl
  have h11 := Reach.connect (g' := ⟨[readNamed 1 [98], cropLeft, writeHalf, brighten, coverNode, idle 6, idle 7], [1, 2, 3, 4, 5, 6, 7],
    ⟨[some 1, some 2, some 3, some 4, some 5, some 6, some 7], [],
      [⟨0, 5, 0⟩, ⟨3, 4, 0⟩, ⟨1, 3, 0⟩, ⟨0, 1, 0⟩]⟩, .new, .dirty, .uninitialized⟩)
    1 6 0 h10 rfl
  have h12 := Reach.connect (g' := ⟨[readNamed 1 [98], cropLeft, writeHalf, brighten, coverNode, idle 6, idle 7], [1, 2, 3, 4, 5, 6, 7],
    ⟨[some 1, some 2, some 3, some 4, some 5, some 6, some 7], [],
      [⟨5, 6, 0⟩, ⟨0, 5, 0⟩, ⟨3, 4, 0⟩, ⟨1, 3, 0⟩, ⟨0, 1, 0⟩]⟩, .new, .dirty, .uninitialized⟩)
    6 7 0 h11 rfl
  have h13 := Reach.connect (g' := ⟨[readNamed 1 [98], cropLeft, writeHalf, brighten, coverNode, idle 6, idle 7], [1, 2, 3, 4, 5, 6, 7],
    ⟨[some 1, some 2, some 3, some 4, some 5, some 6, some 7], [],
      [⟨6, 4, 1⟩, ⟨5, 6, 0⟩, ⟨0, 5, 0⟩, ⟨3, 4, 0⟩, ⟨1, 3, 0⟩, ⟨0, 1, 0⟩]⟩, .new, .dirty, .uninitialized⟩)
    7 5 1 h12 rfl
  have h14 := Reach.connect (g' := evenGraph)
    5 3 0 h13 rfl
  exact h14

set_option synthInstance.maxSize 1024 in
theorem evenGraph_facts : writtenFacts (evenGraph.execute (nodeSem .debug pairFiles) insSort
    20 3 [1] copyWorld) = some [(exrName, [0, 0, 2, 1, 0, 0, 2, 1, 4], .known .f16, ⟨2, 1, 4⟩,
      some [(false, 17408), (false, 16384), (false, 16384), (false, 15360),
        (false, 15360), (false, 15360), (false, 15360), (false, 15360)])] := by
  decide +kernel

theorem patch_left (frame : F32) :
    Makes pairFiles frame cropLeft [⟨pair, []⟩] ⟨leftPart (litFloats true), []⟩ :=
  .crop rfl rfl (by decide) (rests_nothing _ _) rfl half_sizes.1 left_cropped

theorem patch_bright (frame : F32) :
    Makes pairFiles frame brighten [⟨leftPart (litFloats true), []⟩] ⟨leftPart (litRed true), []⟩ :=
  .grade rfl (by decide) brighten_op left_graded

theorem patch_made (frame : F32) : ∃ Q, Makes pairFiles frame coverNode
    [⟨leftPart (litRed true), []⟩, ⟨pair, []⟩] ⟨Q, []⟩ := by
  obtain ⟨Q, hQ⟩ := merged_exists .over (coverNode.getF32 "mix") (leftPart (litRed true)) pair
    (.inr rfl)
  exact ⟨Q, .merge rfl rfl (by decide) (rests_nothing _ _) (rests_nothing _ _) rfl (.inr rfl)
    (.inr rfl) pair_size hQ⟩

theorem patch_within {frame : F32} {Q : Picture F32} (hQ : Makes pairFiles frame coverNode
    [⟨leftPart (litRed true), []⟩, ⟨pair, []⟩] ⟨Q, []⟩) :
    Q.data = ⟨0, 0, 2, 1⟩ ∧ Q.display = ⟨0, 0, 2, 1⟩ ∧ Q.channels = 4 ∧
      ∀ x y, Has ⟨0, 0, 2, 1⟩ x y → Q.at_ x y = (within ⟨0, 0, 1, 1⟩ redPair pair).at_ x y :=
  (C156_nodes (c := cropLeft) (n := brighten) (m := coverNode) (R := pair) rfl rfl rfl (by decide)
    rfl rfl (by decide) rfl (rests_nothing _ _) pair_plain rfl left_inside (patch_left frame)
    (patch_bright frame) left_plain left_opaque hQ brighten_op redPair_graded).2

/-- The nodes make the file with red doubled in its left half. -/
example (frame : F32) : ∃ Q, Makes pairFiles frame coverNode
    [⟨leftPart (litRed true), []⟩, ⟨pair, []⟩] ⟨Q, []⟩ ∧ Q.at_ 0 0 = litRed true ∧
    Q.at_ 1 0 = litFloats false := by
  obtain ⟨Q, hQ⟩ := patch_made frame
  obtain ⟨-, -, -, h⟩ := patch_within hQ
  exact ⟨Q, hQ, h 0 0 (by unfold Has; decide), h 1 0 (by unfold Has; decide)⟩

/-- The pictures of the graph. -/
def patchPic (Q : Picture F32) (i : Nat) : Layer F32 :=
  if i = 1 then ⟨leftPart (litFloats true), []⟩ else if i = 3 then ⟨leftPart (litRed true), []⟩
  else if i = 2 ∨ i = 4 then ⟨Q, []⟩ else ⟨pair, []⟩

theorem evenGraph_pictures {frame : F32} {Q : Picture F32} (hQ : Makes pairFiles frame coverNode
    [⟨leftPart (litRed true), []⟩, ⟨pair, []⟩] ⟨Q, []⟩) :
    Pictures pairFiles insSort evenGraph 2 frame (patchPic Q) := by
  intro i n ins _ hn hins
  rcases i with _ | _ | _ | _ | _ | _ | _ | i
  · cases hn
    cases hins
    exact .read rfl (by decide) (pair_file _)
  · cases hn
    cases hins
    exact patch_left frame
  · cases hn
    cases hins
    obtain ⟨-, hd, -, -⟩ := patch_within hQ
    refine .write (R := Q) rfl (by decide) (by decide) (rests_nothing _ _)
      ⟨.inl rfl, rfl, by rw [hd]; decide, by rw [hd]; decide, ?_⟩
    rintro (h | ⟨h, -⟩) <;> cases h
  · cases hn
    cases hins
    exact patch_bright frame
  · cases hn
    cases hins
    exact hQ
  · cases hn
    cases hins
    exact .null rfl
  · cases hn
    cases hins
    exact .null rfl
  · cases hn

/-- Executing the graph writes the file with red doubled in its left half. -/
example : ∃ g w job t, evenGraph.execute (nodeSem .debug pairFiles) insSort 20 3 [1] copyWorld =
      .ok (.success, g, w) ∧ w.writes = [job] ∧
    FileShows t (window writeHalf exrName (within ⟨0, 0, 1, 1⟩ redPair pair))
      (within ⟨0, 0, 1, 1⟩ redPair pair) job := by
  obtain ⟨g, w, e⟩ : ∃ g w, evenGraph.execute (nodeSem .debug pairFiles) insSort 20 3 [1] copyWorld =
      .ok (.success, g, w) := by
    have hf := evenGraph_facts
    generalize evenGraph.execute (nodeSem .debug pairFiles) insSort 20 3 [1] copyWorld = r at hf
    rcases r with _ | ⟨st, g, w⟩
    · cases hf
    · cases st <;> first | exact ⟨g, w, rfl⟩ | cases hf
  obtain ⟨Q, hQ⟩ := patch_made 1
  obtain ⟨-, jobs, h1, h2⟩ := C156_rendered .debug pairFiles insSort
    evenGraph_reach (id := 3) (start := 2) (frames := [1])
    (by
      refine ⟨rfl, fun j hj => ?_⟩
      rcases j with _ | _ | j <;> first | decide | omega) rfl
    (pic := fun _ => patchPic Q) (fun fr hfr => by
      obtain rfl := List.mem_singleton.mp hfr
      exact evenGraph_pictures hQ)
    (n := writeHalf) rfl ⟨rfl, by decide, by decide⟩
    (by
      intro i m _ hi hm
      rcases i with _ | _ | _ | _ | _ | _ | _ | i
      · cases hm; rintro ⟨⟨⟩, -⟩
      · cases hm; rintro ⟨⟨⟩, -⟩
      · exact absurd rfl hi
      · cases hm; rintro ⟨⟨⟩, -⟩
      · cases hm; rintro ⟨⟨⟩, -⟩
      · cases hm; rintro ⟨⟨⟩, -⟩
      · cases hm; rintro ⟨⟨⟩, -⟩
      · cases hm)
    (fun fr hfr => by
      obtain rfl := List.mem_singleton.mp hfr
      unfold Linear
      decide +kernel)
    (c := cropLeft) (k := brighten) (m := coverNode) rfl rfl rfl (by decide) rfl rfl (by decide) rfl
    (L := fun _ => ⟨pair, []⟩) (A := fun _ => ⟨leftPart (litFloats true), []⟩)
    (G := fun _ => ⟨leftPart (litRed true), []⟩) (R := fun _ => pair) (S := fun _ => redPair)
    brighten_op
    (fun _ _ => ⟨rests_nothing _ _, pair_plain, rfl, left_inside, redPair_graded⟩)
    (fun fr _ => patch_left fr) (fun fr _ => ⟨patch_bright fr, left_plain, left_opaque⟩)
    (fun fr hfr => by
      obtain rfl := List.mem_singleton.mp hfr
      exact hQ) ⟨rfl, rfl⟩ e
  cases h2 with
  | @cons _ job _ _ h3 h4 =>
    cases h4
    obtain ⟨-, own, h6⟩ := h3
    have he : filePath pairFiles writeHalf 1 = exrName := by decide +kernel
    rw [he] at h6
    exact ⟨g, w, job, _, e, h1, h6⟩

end
end OCG.Props
