import Verif.Spec.Tiles
import Verif.Props.CropEarly
import Verif.Props.Layers
import Verif.Props.MergeMoved
/-
C155: a picture cut into two parts and joined again is the picture.
-/

namespace OCG.Props

open PlainSpec PictureSpec PixelSpec ColorSpec IeeeSpec ImageSpecs BBoxSpec BlockSpec TilesSpec
open GraphSpec RenderSpec FileSpec
open CacheSpec (IsOff)
open Ieee hiding floor ceil round

section
variable [Libm single32]

theorem finite_code {z : F32} (h : z.code = 0) : IsFinite z := by rw [finite_iff, h]; decide

theorem plain_value {P : Picture F32} (hP : AllPlain P) (x y c : Int) : IsPlain (P.value x y c) := by
  unfold Picture.value
  split
  · rw [List.getD_eq_getElem?_getD]
    rcases e : (P.pixel x y)[c.toNat]? with _ | z
    · exact plain_zero
    · exact (plain_pixel hP x y).2 z (List.mem_of_getElem? e)
  · exact plain_zero

/-- Nothing behind. -/
theorem blend_alone {mode : MergeImageMode} (hm : mode = .add ∨ mode = .over) {a b : Int → F32}
    {c : Int} (ha : IsPlain (a c)) (hb : ∀ c, b c = 0)
    (h3 : mode = .over → IsFinite (sub (ofInt 1) (a 3))) :
    blend mode 1 a b c = a c := by
  rcases hm with rfl | rfl
  · show add (a c) (mul (b c) (ofInt 1)) = a c
    exact plain_add_zero ha (by rw [hb c]; exact nothing_mul one_finite (zero_code _))
  · show add (a c) (mul (b c) (mul (sub (ofInt 1) (a 3)) (ofInt 1))) = a c
    rw [mul_one' ok_single (h3 rfl)]
    exact plain_add_zero ha (by rw [hb c]; exact nothing_mul (h3 rfl) (zero_code _))

/-- Nothing in front. -/
theorem blend_below {mode : MergeImageMode} (hm : mode = .add ∨ mode = .over) {a b : Int → F32}
    {c : Int} (hb : IsPlain (b c)) (ha : ∀ c, a c = 0) : blend mode 1 a b c = b c := by
  rcases hm with rfl | rfl
  · show add (a c) (mul (b c) (ofInt 1)) = b c
    rw [mul_one' ok_single hb.1, ha c]
    exact plain_zero_add hb (zero_code _)
  · show add (a c) (mul (b c) (mul (sub (ofInt 1) (a 3)) (ofInt 1))) = b c
    rw [ha c, ha 3, show mul (sub (ofInt 1) (0 : F32)) (ofInt 1) = ofInt 1 by
      show mul (sub (ofInt 1) (zero false : F32)) (ofInt 1) = ofInt 1
      decide +kernel, mul_one' ok_single hb.1]
    exact plain_zero_add hb (zero_code _)

/-- An opaque pixel over itself. -/
theorem blend_itself {a : Int → F32} {c : Int} (ha : IsPlain (a c)) (h3 : IsPlain (a 3))
    (h1 : val (a 3) = 1) : blend .over 1 a a c = a c := by
  show add (a c) (mul (a c) (mul (sub (ofInt 1) (a 3)) (ofInt 1))) = a c
  exact plain_add_zero ha (mul_nothing ha.1 (nothing_mul one_finite (opaque_rest h3.1 h1)))

/-- The values of a part. -/
theorem part_value {W : BBox} {r : Bool} {P A : Picture F32} (hn : Channels P.channels)
    (hP : AllPlain P) (h : IsCropped W r P A) {x y : Int} :
    (Has W x y → A.value x y = P.value x y) ∧ (¬ Has W x y → ∀ c, A.value x y c = 0) := by
  refine ⟨fun hw => ?_, fun hw c => value_outside (by rw [h.data]; exact hw)⟩
  funext c
  have : A.pixel x y = P.pixel x y := by
    rw [Picture.pixel, if_pos (by rw [h.data]; exact hw), (C121_crop hn hP h).2 x y hw]
  unfold Picture.value
  rw [this]

/-- C155: a picture of ordinary numbers, cut into two parts and joined again, has the same pixel at
every position, inside and outside. -/
theorem C155_joined {mode : MergeImageMode} {W V : BBox} {r s : Bool} {P A B Q : Picture F32}
    (hn : Channels P.channels) (hP : AllPlain P) (hc : Parts mode W V P) (hA : IsCropped W r P A)
    (hB : IsCropped V s P B) (hQ : IsMerged mode 1 A B Q) :
    Q.channels = P.channels ∧ Q.display = B.display ∧ ∀ x y, Q.pixel x y = P.pixel x y := by
  have ch : Q.channels = P.channels := hQ.channels.trans hB.channels
  have key : ∀ x y (c : Int), blend mode 1 (A.value x y) (B.value x y) c = P.value x y c := by
    intro x y c
    have pc := plain_value hP x y c
    have p3 := plain_value hP x y 3
    obtain ⟨a1, a2⟩ := part_value hn hP hA (x := x) (y := y)
    obtain ⟨b1, b2⟩ := part_value hn hP hB (x := x) (y := y)
    have rest : mode = .over → IsFinite (sub (ofInt 1) (P.value x y 3)) := by
      intro hm
      by_cases hp : Has P.data x y
      · obtain ⟨l, u⟩ := hc.alpha hm x y hp
        exact (rest_share ⟨p3.1, l, u⟩).1.1
      · rw [value_outside hp]
        show IsFinite (sub (ofInt 1) (zero false : F32))
        rw [finite_iff]
        decide +kernel
    by_cases hw : Has W x y <;> by_cases hv : Has V x y
    · rw [a1 hw, b1 hv]
      by_cases hp : Has P.data x y
      · obtain ⟨rfl, h1⟩ := hc.once x y hp hw hv
        exact blend_itself pc p3 h1
      · exact blend_alone hc.joins pc (fun c => value_outside hp) rest
    · rw [a1 hw]
      exact blend_alone hc.joins pc (b2 hv) rest
    · rw [b1 hv]
      exact blend_below hc.joins pc (a2 hw)
    · have hp : ¬ Has P.data x y := fun h => (hc.covers x y h).elim hw hv
      have e : B.value x y c = P.value x y c := by rw [b2 hv, value_outside hp]
      rw [← e] at pc ⊢
      exact blend_below hc.joins pc (a2 hw)
  refine ⟨ch, hQ.display, fun x y => ?_⟩
  by_cases hq : Has Q.data x y
  · rw [Picture.pixel, if_pos hq]
    obtain ⟨v, hs, hl, hv⟩ := hQ.pixels x y hq
    rw [hB.channels] at hs hl hv
    have e : v = P.pixel x y := by
      refine List.ext_getElem? fun i => ?_
      have hp := (plain_pixel hP x y).1
      by_cases hi : i < P.channels
      · rw [hv i hi, key x y i]
        unfold Picture.value
        rw [if_pos (by omega), List.getD_eq_getElem?_getD, Int.toNat_natCast,
          List.getElem?_eq_getElem (by omega), Option.getD_some]
      · rw [List.getElem?_eq_none (by omega), List.getElem?_eq_none (by omega)]
    rw [e] at hs
    exact settled_plain hn (plain_pixel hP x y).1 (plain_pixel hP x y).2 hs
  · have hp : ¬ Has P.data x y := fun h => hq (by
      refine merged_has hQ ?_
      rw [hA.data, hB.data]
      exact hc.covers x y h)
    rw [Picture.pixel, if_neg hq, Picture.pixel, if_neg hp, ch]

/-- C155: if the parts lie in the picture and the second one keeps the display window, the joined
picture is the picture. -/
theorem C155_whole {mode : MergeImageMode} {W V : BBox} {r : Bool} {P A B Q : Picture F32}
    (hn : Channels P.channels) (hP : AllPlain P) (hc : Parts mode W V P)
    (hWV : SmallestCover W V P.data) (hA : IsCropped W r P A) (hB : IsCropped V false P B)
    (hQ : IsMerged mode 1 A B Q) :
    Q.data = P.data ∧ Q.display = P.display ∧ Q.channels = P.channels ∧
      ∀ x y, Has P.data x y → Q.at_ x y = P.at_ x y := by
  obtain ⟨h1, h2, h3⟩ := C155_joined hn hP hc hA hB hQ
  have hd : Q.data = P.data := by
    obtain ⟨⟨⟨w1, w2, w3, w4⟩, ⟨v1, v2, v3, v4⟩⟩, hm⟩ := hWV
    have := hm ⟨min W.minX V.minX, min W.minY V.minY, max W.maxX V.maxX, max W.maxY V.maxY⟩
      ⟨min_le_left .., le_max_left .., min_le_left .., le_max_left ..⟩
      ⟨min_le_right .., le_max_right .., min_le_right .., le_max_right ..⟩
    obtain ⟨m1, m2, m3, m4⟩ := this
    rw [hQ.data, hA.data, hB.data]
    dsimp only at m1 m2 m3 m4
    rcases e : P.data with ⟨p1, p2, p3, p4⟩
    rw [e] at w1 w2 w3 w4 v1 v2 v3 v4 m1 m2 m3 m4
    dsimp only at *
    congr 1 <;> omega
  refine ⟨hd, h2.trans hB.display, h1, fun x y hxy => ?_⟩
  have := h3 x y
  rwa [Picture.pixel, if_pos (by rw [hd]; exact hxy), Picture.pixel, if_pos hxy] at this

/-! ### Many parts -/

open Classical in
/-- What is put together has the pixels of the picture where its parts are, and black elsewhere. -/
theorem assembled_pixel {P Q : Picture F32} {S : Int → Int → Prop} (hn : Channels P.channels)
    (hP : AllPlain P) (h : Assembled P S Q) : Q.channels = P.channels ∧
      ∀ x y, (S x y → Q.pixel x y = P.pixel x y) ∧
        (¬ S x y → Q.pixel x y = List.replicate P.channels 0) := by
  induction h with
  | @part W r A hA =>
    refine ⟨hA.channels, fun x y => ⟨fun hw => ?_, fun hw => ?_⟩⟩
    · rw [Picture.pixel, if_pos (by rw [hA.data]; exact hw), (C121_crop hn hP hA).2 x y hw]
    · rw [Picture.pixel, if_neg (by rw [hA.data]; exact hw), hA.channels]
  | @join S T A B Q _ _ hd hQ ihA ihB =>
    obtain ⟨ca, ia⟩ := ihA
    obtain ⟨cb, ib⟩ := ihB
    have ch : Q.channels = P.channels := hQ.channels.trans cb
    -- the values of something put together
    have vals : ∀ {C : Picture F32} {U : Int → Int → Prop},
        (∀ x y, (U x y → C.pixel x y = P.pixel x y) ∧
          (¬ U x y → C.pixel x y = List.replicate P.channels 0)) → ∀ x y,
        (U x y → C.value x y = P.value x y) ∧ (¬ U x y → ∀ c, C.value x y c = 0) := by
      intro C U hC x y
      refine ⟨fun hu => ?_, fun hu c => ?_⟩
      · funext c
        unfold Picture.value
        rw [(hC x y).1 hu]
      · unfold Picture.value
        rw [(hC x y).2 hu]
        split
        · rw [List.getD_eq_getElem?_getD, List.getElem?_replicate]
          split <;> rfl
        · rfl
    have key : ∀ x y (c : Int), blend .add 1 (A.value x y) (B.value x y) c =
        if S x y ∨ T x y then P.value x y c else 0 := by
      intro x y c
      have pc := plain_value hP x y c
      obtain ⟨a1, a2⟩ := vals ia x y
      obtain ⟨b1, b2⟩ := vals ib x y
      by_cases hs : S x y <;> by_cases ht : T x y
      · have hp : ¬ Has P.data x y := fun h => hd x y h hs ht
        rw [if_pos (.inl hs), a1 hs, b1 ht]
        exact blend_alone (.inl rfl) pc (fun c => value_outside hp) nofun
      · rw [if_pos (.inl hs), a1 hs]
        exact blend_alone (.inl rfl) pc (b2 ht) nofun
      · rw [if_pos (.inr ht), b1 ht]
        exact blend_below (.inl rfl) pc (a2 hs)
      · rw [if_neg (by tauto), ← b2 ht c]
        exact blend_below (.inl rfl) (by rw [b2 ht]; exact plain_zero) (a2 hs)
    refine ⟨ch, fun x y => ?_⟩
    have inside : Has Q.data x y → Q.at_ x y =
        if S x y ∨ T x y then P.pixel x y else List.replicate P.channels 0 := by
      intro hq
      obtain ⟨v, hs, hl, hv⟩ := hQ.pixels x y hq
      rw [cb] at hs hl hv
      have hp := plain_pixel hP x y
      have e : v = if S x y ∨ T x y then P.pixel x y else List.replicate P.channels 0 := by
        refine List.ext_getElem? fun i => ?_
        have hlen : (if S x y ∨ T x y then P.pixel x y else
            List.replicate P.channels (0 : F32)).length = P.channels := by
          split
          · exact hp.1
          · exact List.length_replicate
        by_cases hi : i < P.channels
        · rw [hv i hi, key x y i]
          split
          · unfold Picture.value
            rw [if_pos (by omega), List.getD_eq_getElem?_getD, Int.toNat_natCast,
              List.getElem?_eq_getElem (by omega), Option.getD_some]
          · rw [List.getElem?_replicate, if_pos hi]
        · rw [List.getElem?_eq_none (by omega), List.getElem?_eq_none (by omega)]
      rw [← e]
      refine settled_plain hn hl ?_ hs
      rw [e]
      split
      · exact hp.2
      · intro p hp
        rw [List.eq_of_mem_replicate hp]
        exact plain_zero
    -- outside the joined picture there is no part
    have outside : ∀ {C : Picture F32} {U : Int → Int → Prop}, C.channels = P.channels →
        (∀ x y, (U x y → C.pixel x y = P.pixel x y) ∧
          (¬ U x y → C.pixel x y = List.replicate P.channels 0)) → ¬ Has C.data x y → U x y →
        P.pixel x y = List.replicate P.channels 0 := by
      intro C U hc hC hx hu
      rw [← (hC x y).1 hu, Picture.pixel, if_neg hx, hc]
    by_cases hq : Has Q.data x y
    · rw [Picture.pixel, if_pos hq, inside hq]
      exact ⟨fun h => if_pos h, fun h => if_neg h⟩
    · have na : ¬ Has A.data x y := fun h => hq (merged_has hQ (.inl h))
      have nb : ¬ Has B.data x y := fun h => hq (merged_has hQ (.inr h))
      rw [Picture.pixel, if_neg hq, ch]
      refine ⟨?_, fun _ => rfl⟩
      rintro (h | h)
      · exact (outside ca ia na h).symm
      · exact (outside cb ib nb h).symm

/-- C155 for any number of parts: whatever their number and the order in which they are added, if
they show the whole picture, the picture is back. -/
theorem C155_many {P Q : Picture F32} {S : Int → Int → Prop} (hn : Channels P.channels)
    (hP : AllPlain P) (h : Assembled P S Q) (hS : ∀ x y, Has P.data x y → S x y) :
    Q.channels = P.channels ∧ ∀ x y, Q.pixel x y = P.pixel x y := by
  obtain ⟨h1, h2⟩ := assembled_pixel hn hP h
  refine ⟨h1, fun x y => ?_⟩
  by_cases hp : Has P.data x y
  · exact (h2 x y).1 (hS x y hp)
  · by_cases hs : S x y
    · exact (h2 x y).1 hs
    · rw [(h2 x y).2 hs, Picture.pixel, if_neg hp]

/-! ### Nodes and files -/

theorem makes_crop {H : Type} [HalfLike F32 H] {lib : NodeLib F32 H} {frame : F32} {n : Node F32}
    {L M : Layer F32} (ht : n.attrs.nodeType = .cropImage) (he : n.getI32 "enable" = 1)
    (h : Makes lib frame n [L] M) : M.moves = [] ∧ ∃ R, Rests lib L R ∧
      IsCropped (cropWindow n) (decide (n.getI32 "reformat" = 1)) R M.still := by
  cases h <;> first
    | exact ⟨rfl, _, by assumption, by assumption⟩
    | (exfalso; simp_all)

/-- A merge node, whose inputs have nothing waiting. -/
theorem makes_merge {H : Type} [HalfLike F32 H] {lib : NodeLib F32 H} {frame : F32} {n : Node F32}
    {A B : Picture F32} {M : Layer F32} (ht : n.attrs.nodeType = .mergeImage)
    (he : n.getI32 "enable" = 1) (h : Makes lib frame n [⟨A, []⟩, ⟨B, []⟩] M) :
    M.moves = [] ∧ (B.channels = 3 ∨ B.channels = 4) ∧
      IsMerged (MergeImageMode.ofI32 (n.getI32 "mode")) (n.getF32 "mix") A B M.still := by
  have back : ∀ {P P0 : Picture F32}, Rests lib ⟨P, []⟩ P0 → P0.data = P.data ∧
      ∀ x y, P0.value x y = P.value x y := by
    intro P P0 hr
    obtain ⟨c1, c2⟩ := hr.still (fun d hd => absurd hd List.not_mem_nil)
    refine ⟨c1, fun x y => ?_⟩
    by_cases hxy : Has P.data x y
    · rw [value_inside (by rw [c1]; exact hxy), value_inside hxy, c2 x y hxy]
    · funext c
      rw [value_outside (by rw [c1]; exact hxy), value_outside hxy]
  cases h with
  | merge _ _ _ ka kb _ _ cb _ kq =>
    obtain ⟨a1, a2⟩ := back ka
    obtain ⟨b1, b2⟩ := back kb
    have ch := kb.channels
    dsimp only at ch
    refine ⟨rfl, ch ▸ cb, ?_, kq.display.trans kb.display, kq.channels.trans ch, kq.space,
      fun x y hxy => ?_⟩
    · have := kq.data
      rwa [a1, b1] at this
    · obtain ⟨v, h1, h2, h3⟩ := kq.pixels x y hxy
      rw [ch] at h1 h2
      rw [ch, a2, b2] at h3
      exact ⟨v, h1, h2, h3⟩

/-- C155 for nodes: two crop nodes behind the same node, joined by a merge node, make the picture
that was there. -/
theorem C155_nodes {H : Type} [HalfLike F32 H] {lib : NodeLib F32 H} {frame : F32}
    {c d m : Node F32} {L A B Q : Layer F32}
    (hc : c.attrs.nodeType = .cropImage) (ec : c.getI32 "enable" = 1)
    (hd : d.attrs.nodeType = .cropImage) (ed : d.getI32 "enable" = 1)
    (rd : d.getI32 "reformat" ≠ 1)
    (hm : m.attrs.nodeType = .mergeImage) (em : m.getI32 "enable" = 1) (hx : m.getF32 "mix" = 1)
    {R : Picture F32} (hR : Rests lib L R) (pR : AllPlain R)
    (hp : Parts (MergeImageMode.ofI32 (m.getI32 "mode")) (cropWindow c) (cropWindow d) R)
    (hs : SmallestCover (cropWindow c) (cropWindow d) R.data)
    (hA : Makes lib frame c [L] A) (hB : Makes lib frame d [L] B) (hQ : Makes lib frame m [A, B] Q) :
    Q.moves = [] ∧ Q.still.data = R.data ∧ Q.still.display = R.display ∧
      Q.still.channels = R.channels ∧ ∀ x y, Has R.data x y → Q.still.at_ x y = R.at_ x y := by
  obtain ⟨a1, RA, a2, a3⟩ := makes_crop hc ec hA
  obtain ⟨b1, RB, b2, b3⟩ := makes_crop hd ed hB
  obtain ⟨A, as⟩ := A
  obtain ⟨B, bs⟩ := B
  dsimp only at a1 b1 a3 b3
  subst a1 b1
  obtain ⟨q1, q2, q3⟩ := makes_merge hm em hQ
  rw [hx] at q3
  have move : ∀ {S : Picture F32} {W : BBox} {r : Bool} {C : Picture F32}, Rests lib L S →
      IsCropped W r S C → IsCropped W r R C := by
    intro S W r C h1 h2
    obtain ⟨e1, e2, e3, e4, e5⟩ := carriedOut_unique hR h1
    refine ⟨h2.data, h2.display.trans (by rw [e2]), h2.channels.trans e3, h2.space.trans e4,
      fun x y hxy => ?_⟩
    have hpx : S.pixel x y = R.pixel x y := by
      unfold Picture.pixel
      rw [e1, e3]
      by_cases hh : Has R.data x y
      · rw [if_pos hh, if_pos hh, e5 x y hh]
      · rw [if_neg hh, if_neg hh]
    have := h2.pixels x y hxy
    rwa [hpx, e3] at this
  have kB := move b2 b3
  rw [decide_eq_false rd] at kB
  have hn : Channels R.channels := .inr (by rw [← kB.channels]; exact q2)
  exact ⟨q1, C155_whole hn pR hp hs (move a2 a3) kB q3⟩

/-- C155 for executions: a graph that cuts the picture, joins the parts and writes that, writes the
picture on every frame. -/
theorem C155_rendered {H : Type} [HalfLike F32 H] (p : Profile) (lib : NodeLib F32 H) (srt : EdgeSort)
    {g : Graph (Node F32) (Stream F32 H)} {r : Bool} (h : Reach (nodeSem p lib) srt r g)
    {id start : Nat} (hid : At g id start) (hs : g.graph.contains start = true)
    {frames : List F32} {pic : F32 → Nat → Layer F32}
    (hp : ∀ fr ∈ frames, Pictures lib srt g start fr (pic fr))
    {n : Node F32} (hn : g.nodes[start]? = some n) (hW : Writes n)
    (hq : ∀ i m, Upstream g.graph start i → i ≠ start → g.nodes[i]? = some m → ¬ Writes m)
    (hl : ∀ fr ∈ frames, Linear (filePath lib n fr))
    {c d m : Node F32} (hc : c.attrs.nodeType = .cropImage) (ec : c.getI32 "enable" = 1)
    (hd : d.attrs.nodeType = .cropImage) (ed : d.getI32 "enable" = 1)
    (rd : d.getI32 "reformat" ≠ 1)
    (hm : m.attrs.nodeType = .mergeImage) (em : m.getI32 "enable" = 1) (hmx : m.getF32 "mix" = 1)
    {L A B : F32 → Layer F32} {R : F32 → Picture F32}
    (hR : ∀ fr ∈ frames, Rests lib (L fr) (R fr) ∧ AllPlain (R fr) ∧
      Parts (MergeImageMode.ofI32 (m.getI32 "mode")) (cropWindow c) (cropWindow d) (R fr) ∧
      SmallestCover (cropWindow c) (cropWindow d) (R fr).data)
    (hA : ∀ fr ∈ frames, Makes lib fr c [L fr] (A fr)) (hB : ∀ fr ∈ frames, Makes lib fr d [L fr] (B fr))
    (hQ : ∀ fr ∈ frames, Makes lib fr m [A fr, B fr] (pic fr start))
    {w w' : World F32 H} (hoff : IsOff w) {fuel : Nat} {st : ExecuteStatus}
    {g' : Graph (Node F32) (Stream F32 H)}
    (hx : g.execute (nodeSem p lib) srt fuel id frames w = .ok (st, g', w')) :
    st = .success ∧ ∃ jobs, w'.writes = w.writes ++ jobs ∧
      List.Forall₂ (fun fr job => job.path = filePath lib n fr ∧ ∃ own,
        FileShows (wantedType (n.getI32 "pixel_data_type") own)
          (window n (filePath lib n fr) (R fr)) (R fr) job) frames jobs := by
  obtain ⟨h1, jobs, h2, h3⟩ := C138_rendered p lib srt h hid hs hp hn hW hq hl hoff hx
  refine ⟨h1, jobs, h2, ?_⟩
  clear h2 hx hl hp
  induction h3 with
  | nil => exact .nil
  | @cons fr job frames jobs k _ ih =>
    have up : ∀ {x}, x ∈ frames → x ∈ fr :: frames := List.mem_cons_of_mem _
    refine .cons ?_ (ih (fun x hx => hR x (up hx)) (fun x hx => hA x (up hx))
      (fun x hx => hB x (up hx)) (fun x hx => hQ x (up hx)))
    obtain ⟨k1, own, S, k2, k3⟩ := k
    have hf : fr ∈ fr :: frames := List.mem_cons_self
    obtain ⟨r1, r2, r3, r4⟩ := hR fr hf
    obtain ⟨z, d1, d2, d3, d4⟩ := C155_nodes hc ec hd ed rd hm em hmx r1 r2 r3 r4 (hA fr hf)
      (hB fr hf) (hQ fr hf)
    have k2' : CarriedOut lib.bake.deform (pic fr start).moves (pic fr start).still S := k2
    rw [z] at k2'
    obtain ⟨c1, c2⟩ := k2'.still (fun d hd => absurd hd List.not_mem_nil)
    refine ⟨k1, own, shows_alike (c1.trans d1) (k2'.display.trans d2) (k2'.channels.trans d3) ?_ k3⟩
    intro x y hxy
    rw [c2 x y (by rw [d1]; exact hxy), d4 x y hxy]

end

/-! ### Examples -/

section
attribute [local instance] zeroLibm

/-- Cuts out the left half or the right half of a picture of two pixels. -/
def cropLeft : Node F32 :=
  ⟨2, .uninitialized, .cropImage {
    enable := 1, useCache := 0, windowMinX := 0, windowMinY := 0, windowMaxX := 1, windowMaxY := 1
    reformat := 0, blackOutside := 0, intersect := 0 }⟩

def cropRight : Node F32 :=
  ⟨4, .uninitialized, .cropImage {
    enable := 1, useCache := 0, windowMinX := 1, windowMinY := 0, windowMaxX := 2, windowMaxY := 1
    reformat := 0, blackOutside := 0, intersect := 0 }⟩

/-- Any picture with pixels of the right length can be cut out. -/
theorem cropped_exists (W : BBox) (r : Bool) {P : Picture F32} (hn : Channels P.channels)
    (hP : AllPlain P) : ∃ Q, IsCropped W r P Q := by
  have key : ∀ x y : Int, ∃ out, Settled P.channels (P.pixel x y) out := by
    intro x y
    obtain ⟨out, h, -⟩ := graded_total (n := P.channels) hn Mat4.identity []
      (v := P.pixel x y) (plain_pixel hP x y).1
    exact ⟨out, h⟩
  choose f hf using key
  exact ⟨⟨W, if r then W else P.display, P.channels, P.space, f⟩, rfl, rfl, rfl, rfl,
    fun x y _ => hf x y⟩

theorem halves_cover {x y : Int} (h : Has ⟨0, 0, 2, 1⟩ x y) :
    Has ⟨0, 0, 1, 1⟩ x y ∨ Has ⟨1, 0, 2, 1⟩ x y := by
  unfold Has at *
  dsimp only at *
  omega

theorem halves_apart {x y : Int} (h : Has ⟨0, 0, 1, 1⟩ x y) (h' : Has ⟨1, 0, 2, 1⟩ x y) : False := by
  unfold Has at *
  dsimp only at *
  omega

theorem halves_smallest : SmallestCover ⟨0, 0, 1, 1⟩ ⟨1, 0, 2, 1⟩ ⟨0, 0, 2, 1⟩ := by
  refine ⟨by unfold Inside; decide, fun w h1 h2 => ?_⟩
  unfold Inside at *
  dsimp only at *
  omega

theorem halves_parts (at_ : Int → Int → List F32) :
    Parts .add ⟨0, 0, 1, 1⟩ ⟨1, 0, 2, 1⟩ (pairOf at_) :=
  ⟨.inl rfl, fun _ _ h => halves_cover h, fun _ _ _ h h' => (halves_apart h h').elim, nofun⟩

/-- Any picture of two pixels, cut in the middle and added. -/
example (at_ : Int → Int → List F32) (hP : AllPlain (pairOf at_)) : ∃ A B Q,
    IsCropped ⟨0, 0, 1, 1⟩ true (pairOf at_) A ∧ IsCropped ⟨1, 0, 2, 1⟩ false (pairOf at_) B ∧
    IsMerged .add 1 A B Q ∧ (∀ x y, Q.pixel x y = (pairOf at_).pixel x y) ∧ Q.at_ 1 0 = at_ 1 0 := by
  obtain ⟨A, hA⟩ := cropped_exists ⟨0, 0, 1, 1⟩ true (P := pairOf at_) (.inr (.inr rfl)) hP
  obtain ⟨B, hB⟩ := cropped_exists ⟨1, 0, 2, 1⟩ false (P := pairOf at_) (.inr (.inr rfl)) hP
  obtain ⟨Q, hQ⟩ := merged_exists .add 1 A B (.inr hB.channels)
  exact ⟨A, B, Q, hA, hB, hQ,
    (C155_joined (.inr (.inr rfl)) hP (halves_parts at_) hA hB hQ).2.2,
    (C155_whole (.inr (.inr rfl)) hP (halves_parts at_) halves_smallest hA hB hQ).2.2.2 1 0
      (by show Has ⟨0, 0, 2, 1⟩ 1 0; unfold Has; decide)⟩

/-- The same in three parts, of which one is beside the picture, and the other way round. -/
example (at_ : Int → Int → List F32) (hP : AllPlain (pairOf at_)) : ∃ A B M Q,
    IsCropped ⟨0, 0, 1, 1⟩ true (pairOf at_) A ∧ IsCropped ⟨1, 0, 2, 1⟩ false (pairOf at_) B ∧
    IsMerged .add 1 B A M ∧
    IsCropped ⟨5, 5, 7, 7⟩ false (pairOf at_) Q ∧ ∃ R, IsMerged .add 1 Q M R ∧
    ∀ x y, R.pixel x y = (pairOf at_).pixel x y := by
  have hn : Channels (pairOf at_).channels := .inr (.inr rfl)
  obtain ⟨A, hA⟩ := cropped_exists ⟨0, 0, 1, 1⟩ true hn hP
  obtain ⟨B, hB⟩ := cropped_exists ⟨1, 0, 2, 1⟩ false hn hP
  obtain ⟨Q, hQ⟩ := cropped_exists ⟨5, 5, 7, 7⟩ false hn hP
  obtain ⟨M, hM⟩ := merged_exists .add 1 B A (.inr hA.channels)
  obtain ⟨R, hR⟩ := merged_exists .add 1 Q M (.inr (hM.channels.trans hA.channels))
  refine ⟨A, B, M, Q, hA, hB, hM, hQ, R, hR, ?_⟩
  refine (C155_many hn hP (.join (.part hQ)
    (.join (.part hB) (.part hA) (fun x y _ h h' => halves_apart h' h) hM)
    (fun x y hd hq _ => ?_) hR) fun x y h => .inr (halves_cover h).symm).2
  change Has ⟨0, 0, 2, 1⟩ x y at hd
  unfold Has at *
  dsimp only at *
  omega

theorem pair_plain : AllPlain pair := by
  intro x y _
  show (litFloats (decide (x = 0))).length = 4 ∧ ∀ v ∈ litFloats (decide (x = 0)), IsPlain v
  generalize decide (x = 0) = b
  cases b <;> exact ⟨rfl, by decide +kernel⟩

/-- Reading a file, cutting it in the middle, adding the halves, writing. -/
def cutGraph : Graph (Node F32) (Stream F32 F16) :=
  ⟨[readNamed 1 [98], cropLeft, writeHalf, cropRight, sumNode], [1, 2, 3, 4, 5],
    ⟨[some 1, some 2, some 3, some 4, some 5], [],
      [⟨4, 2, 0⟩, ⟨3, 4, 1⟩, ⟨1, 4, 0⟩, ⟨0, 3, 0⟩, ⟨0, 1, 0⟩]⟩, .new, .dirty, .uninitialized⟩

set_option synthInstance.maxSize 1024 in
theorem cutGraph_facts : writtenFacts (cutGraph.execute (nodeSem .debug pairFiles) insSort
    20 3 [1] copyWorld) = some [(exrName, [0, 0, 2, 1, 0, 0, 2, 1, 4], .known .f16, ⟨2, 1, 4⟩,
      some [(false, 16384), (false, 16384), (false, 16384), (false, 15360),
        (false, 15360), (false, 15360), (false, 15360), (false, 15360)])] := by
  decide +kernel

theorem cutGraph_reach : Reach (nodeSem .debug pairFiles) insSort false cutGraph := by
  have h0 : Reach (nodeSem .debug pairFiles) insSort false _ := .new .new
  have h1 := Reach.add (g' := ⟨[readNamed 1 [98]], [1],
    ⟨[some 1], [], []⟩, .new, .dirty, .uninitialized⟩)
    (readNamed 1 [98]) h0 rfl
  have h2 := Reach.add (g' := ⟨[readNamed 1 [98], cropLeft], [1, 2],
    ⟨[some 1, some 2], [], []⟩, .new, .dirty, .uninitialized⟩) cropLeft h1 rfl
  have h3 := Reach.add (g' := ⟨[readNamed 1 [98], cropLeft, writeHalf], [1, 2, 3],
    ⟨[some 1, some 2, some 3], [], []⟩, .new, .dirty, .uninitialized⟩) writeHalf h2 rfl
  have h4 := Reach.add (g' := ⟨[readNamed 1 [98], cropLeft, writeHalf, cropRight],
    [1, 2, 3, 4], ⟨[some 1, some 2, some 3, some 4], [], []⟩, .new, .dirty, .uninitialized⟩)
    cropRight h3 rfl
  have h5 := Reach.add (g' := ⟨[readNamed 1 [98], cropLeft, writeHalf, cropRight, sumNode],
    [1, 2, 3, 4, 5], ⟨[some 1, some 2, some 3, some 4, some 5], [], []⟩, .new, .dirty,
    .uninitialized⟩) sumNode h4 rfl
  have h6 := Reach.connect (g' := ⟨[readNamed 1 [98], cropLeft, writeHalf, cropRight, sumNode],
    [1, 2, 3, 4, 5], ⟨[some 1, some 2, some 3, some 4, some 5], [], [⟨0, 1, 0⟩]⟩, .new, .dirty,
    .uninitialized⟩) 1 2 0 h5 rfl
  have h7 := Reach.connect (g' := ⟨[readNamed 1 [98], cropLeft, writeHalf, cropRight, sumNode],
    [1, 2, 3, 4, 5], ⟨[some 1, some 2, some 3, some 4, some 5], [], [⟨0, 3, 0⟩, ⟨0, 1, 0⟩]⟩, .new,
    .dirty, .uninitialized⟩) 1 4 0 h6 rfl
  have h8 := Reach.connect (g' := ⟨[readNamed 1 [98], cropLeft, writeHalf, cropRight, sumNode],
    [1, 2, 3, 4, 5], ⟨[some 1, some 2, some 3, some 4, some 5], [],
      [⟨1, 4, 0⟩, ⟨0, 3, 0⟩, ⟨0, 1, 0⟩]⟩, .new, .dirty, .uninitialized⟩) 2 5 0 h7 rfl
  have h9 := Reach.connect (g' := ⟨[readNamed 1 [98], cropLeft, writeHalf, cropRight, sumNode],
    [1, 2, 3, 4, 5], ⟨[some 1, some 2, some 3, some 4, some 5], [],
      [⟨3, 4, 1⟩, ⟨1, 4, 0⟩, ⟨0, 3, 0⟩, ⟨0, 1, 0⟩]⟩, .new, .dirty, .uninitialized⟩) 4 5 1 h8 rfl
  have h10 := Reach.connect (g' := cutGraph) 5 3 0 h9 rfl
  exact h10

theorem half_sizes : ValidSize (sizeFor ⟨0, 0, 1, 1⟩ 4) ∧ ValidSize (sizeFor ⟨1, 0, 2, 1⟩ 4) := by
  unfold ValidSize
  decide

/-- The halves that the two crop nodes make, and what the merge node makes of them. -/
theorem cut_made (frame : F32) : ∃ A B Q, Makes pairFiles frame cropLeft [⟨pair, []⟩] ⟨A, []⟩ ∧
    Makes pairFiles frame cropRight [⟨pair, []⟩] ⟨B, []⟩ ∧
    Makes pairFiles frame sumNode [⟨A, []⟩, ⟨B, []⟩] ⟨Q, []⟩ := by
  obtain ⟨A, hA⟩ := cropped_exists ⟨0, 0, 1, 1⟩ false (P := pair) (.inr (.inr rfl)) pair_plain
  obtain ⟨B, hB⟩ := cropped_exists ⟨1, 0, 2, 1⟩ false (P := pair) (.inr (.inr rfl)) pair_plain
  have cA : A.channels = 4 := hA.channels
  have cB : B.channels = 4 := hB.channels
  obtain ⟨Q, hQ⟩ := merged_exists .add (sumNode.getF32 "mix") A B (.inr cB)
  refine ⟨A, B, Q, .crop rfl rfl (by decide) (rests_nothing _ _) rfl half_sizes.1 hA,
    .crop rfl rfl (by decide) (rests_nothing _ _) rfl half_sizes.2 hB,
    .merge rfl rfl (by decide) (rests_nothing _ _) (rests_nothing _ _) rfl (.inr cA) (.inr cB) ?_ hQ⟩
  rw [hA.data, hB.data]
  exact pair_size

theorem cut_whole {frame : F32} {A B Q : Picture F32}
    (hA : Makes pairFiles frame cropLeft [⟨pair, []⟩] ⟨A, []⟩)
    (hB : Makes pairFiles frame cropRight [⟨pair, []⟩] ⟨B, []⟩)
    (hQ : Makes pairFiles frame sumNode [⟨A, []⟩, ⟨B, []⟩] ⟨Q, []⟩) :
    Q.data = ⟨0, 0, 2, 1⟩ ∧ Q.display = ⟨0, 0, 2, 1⟩ ∧ Q.channels = 4 ∧
      ∀ x y, Has ⟨0, 0, 2, 1⟩ x y → Q.at_ x y = pair.at_ x y :=
  (C155_nodes (c := cropLeft) (d := cropRight) (m := sumNode) (R := pair) rfl rfl rfl rfl (by decide) rfl rfl rfl
    (rests_nothing _ _) pair_plain (halves_parts pair.at_) halves_smallest hA hB hQ).2

/-- The two crop nodes and the merge node make the picture of the file. -/
example (frame : F32) : ∃ A B Q, Makes pairFiles frame cropLeft [⟨pair, []⟩] ⟨A, []⟩ ∧
    Makes pairFiles frame cropRight [⟨pair, []⟩] ⟨B, []⟩ ∧
    Makes pairFiles frame sumNode [⟨A, []⟩, ⟨B, []⟩] ⟨Q, []⟩ ∧ Q.at_ 0 0 = litFloats true ∧
    Q.at_ 1 0 = litFloats false := by
  obtain ⟨A, B, Q, hA, hB, hQ⟩ := cut_made frame
  obtain ⟨-, -, -, h⟩ := cut_whole hA hB hQ
  exact ⟨A, B, Q, hA, hB, hQ, h 0 0 (by unfold Has; decide), h 1 0 (by unfold Has; decide)⟩

/-- The pictures of the graph. -/
def cutPic (A B Q : Picture F32) (i : Nat) : Layer F32 :=
  if i = 0 then ⟨pair, []⟩ else if i = 1 then ⟨A, []⟩ else if i = 3 then ⟨B, []⟩ else ⟨Q, []⟩

theorem cutGraph_pictures {frame : F32} {A B Q : Picture F32}
    (hA : Makes pairFiles frame cropLeft [⟨pair, []⟩] ⟨A, []⟩)
    (hB : Makes pairFiles frame cropRight [⟨pair, []⟩] ⟨B, []⟩)
    (hQ : Makes pairFiles frame sumNode [⟨A, []⟩, ⟨B, []⟩] ⟨Q, []⟩) :
    Pictures pairFiles insSort cutGraph 2 frame (cutPic A B Q) := by
  intro i n ins _ hn hins
  rcases i with _ | _ | _ | _ | _ | i
  · cases hn
    cases hins
    exact .read rfl (by decide) (pair_file _)
  · cases hn
    cases hins
    exact hA
  · cases hn
    cases hins
    obtain ⟨-, hd, -, -⟩ := cut_whole hA hB hQ
    refine .write (R := Q) rfl (by decide) (by decide) (rests_nothing _ _)
      ⟨.inl rfl, rfl, by rw [hd]; decide, by rw [hd]; decide, ?_⟩
    rintro (h | ⟨h, -⟩) <;> cases h
  · cases hn
    cases hins
    exact hB
  · cases hn
    cases hins
    exact hQ
  · cases hn

/-- Executing the graph writes the picture that was read. -/
example : ∃ g w job t, cutGraph.execute (nodeSem .debug pairFiles) insSort 20 3 [1] copyWorld =
      .ok (.success, g, w) ∧ w.writes = [job] ∧
    FileShows t (window writeHalf exrName pair) pair job := by
  obtain ⟨g, w, e⟩ : ∃ g w, cutGraph.execute (nodeSem .debug pairFiles) insSort 20 3 [1] copyWorld =
      .ok (.success, g, w) := by
    have hf := cutGraph_facts
    generalize cutGraph.execute (nodeSem .debug pairFiles) insSort 20 3 [1] copyWorld = r at hf
    rcases r with _ | ⟨st, g, w⟩
    · cases hf
    · cases st <;> first | exact ⟨g, w, rfl⟩ | cases hf
  obtain ⟨A, B, Q, hA, hB, hQ⟩ := cut_made 1
  obtain ⟨-, jobs, h1, h2⟩ := C155_rendered .debug pairFiles insSort
    cutGraph_reach (id := 3) (start := 2) (frames := [1])
    (by
      refine ⟨rfl, fun j hj => ?_⟩
      rcases j with _ | _ | j <;> first | decide | omega) rfl
    (pic := fun _ => cutPic A B Q) (fun fr hfr => by
      obtain rfl := List.mem_singleton.mp hfr
      exact cutGraph_pictures hA hB hQ)
    (n := writeHalf) rfl ⟨rfl, by decide, by decide⟩
    (by
      intro i m _ hi hm
      rcases i with _ | _ | _ | _ | _ | i
      · cases hm; rintro ⟨⟨⟩, -⟩
      · cases hm; rintro ⟨⟨⟩, -⟩
      · exact absurd rfl hi
      · cases hm; rintro ⟨⟨⟩, -⟩
      · cases hm; rintro ⟨⟨⟩, -⟩
      · cases hm)
    (fun fr hfr => by
      obtain rfl := List.mem_singleton.mp hfr
      unfold Linear
      decide +kernel)
    (c := cropLeft) (d := cropRight) (m := sumNode) rfl rfl rfl rfl (by decide) rfl rfl rfl
    (L := fun _ => ⟨pair, []⟩) (A := fun _ => ⟨A, []⟩) (B := fun _ => ⟨B, []⟩) (R := fun _ => pair)
    (fun _ _ => ⟨rests_nothing _ _, pair_plain, halves_parts pair.at_, halves_smallest⟩)
    (fun fr hfr => by
      obtain rfl := List.mem_singleton.mp hfr
      exact hA)
    (fun fr hfr => by
      obtain rfl := List.mem_singleton.mp hfr
      exact hB)
    (fun fr hfr => by
      obtain rfl := List.mem_singleton.mp hfr
      exact hQ) ⟨rfl, rfl⟩ e
  cases h2 with
  | @cons _ job _ _ h3 h4 =>
    cases h4
    obtain ⟨-, own, h6⟩ := h3
    have he : filePath pairFiles writeHalf 1 = exrName := by decide +kernel
    rw [he] at h6
    exact ⟨g, w, job, _, e, h1, h6⟩

end

section
attribute [local instance] exactPowf

-- C155: an opaque picture laid over itself.
example {Q : Picture F32}
    (hQ : IsMerged .over 1 (pixelPicture whiteWall) (pixelPicture whiteWall) Q) :
    Q.at_ 0 0 = whiteWall := by
  have c : IsCropped ⟨0, 0, 1, 1⟩ false (pixelPicture whiteWall) (pixelPicture whiteWall) :=
    pixel_cropped (by decide +kernel)
  have h1 : ∀ x y, Has (pixelPicture whiteWall).data x y →
      val ((pixelPicture whiteWall).value x y 3) = 1 := by
    intro x y h
    obtain ⟨rfl, rfl⟩ := has_one h
    rw [wall_value (by decide) (by decide), one_val]
  exact (C155_whole (.inr (.inr rfl)) whiteWall_plain
    ⟨.inr rfl, fun _ _ h => .inl h, fun x y h _ _ => ⟨rfl, h1 x y h⟩,
      fun _ x y h => by rw [h1 x y h]; exact ⟨by decide, by decide⟩⟩
    ⟨⟨by unfold Inside; decide, by unfold Inside; decide⟩, fun _ h _ => h⟩ c c hQ).2.2.2 0 0
    (by unfold Has; decide)

/-- C155 is false for adding parts that overlap: what is in both is there twice. -/
theorem C155_counterexample_overlap : ∃ P A B Q : Picture F32, AllPlain P ∧
    (∀ x y, Has P.data x y → Has ⟨0, 0, 1, 1⟩ x y ∨ Has ⟨0, 0, 1, 1⟩ x y) ∧
    IsCropped ⟨0, 0, 1, 1⟩ false P A ∧ IsCropped ⟨0, 0, 1, 1⟩ false P B ∧ IsMerged .add 1 A B Q ∧
    val (P.value 0 0 0) = 1 ∧ val (Q.value 0 0 0) = 2 := by
  have c : IsCropped ⟨0, 0, 1, 1⟩ false (pixelPicture whiteWall) (pixelPicture whiteWall) :=
    pixel_cropped (by decide +kernel)
  refine ⟨pixelPicture whiteWall, _, _, pixelPicture [ofInt 2, ofInt 2, ofInt 2, ofInt 2],
    whiteWall_plain, fun x y h => .inl h, c, c, pixel_merged (by decide +kernel), ?_, ?_⟩
  · rw [show (pixelPicture whiteWall).value 0 0 0 = ofInt 1 by decide +kernel, one_val]
  · rw [show (pixelPicture [ofInt 2, ofInt 2, ofInt 2, ofInt 2]).value 0 0 0 = ofInt 2 by
      decide +kernel]
    decide +kernel

end
end OCG.Props
