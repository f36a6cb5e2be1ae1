import Verif.Spec.Sheet
import Verif.Props.Tiles
/-
C158: pictures put beside each other keep every pixel.
-/

namespace OCG.Props

open PlainSpec PictureSpec PixelSpec ColorSpec IeeeSpec ImageSpecs BBoxSpec BlockSpec SheetSpec
open GraphSpec RenderSpec FileSpec
open CacheSpec (IsOff)
open Ieee hiding floor ceil round

section
variable [Libm single32]

/-- A pixel of a sheet is the one of the picture that lies there, or black. -/
theorem sheet_pixel {n : Nat} {l : List (Picture F32)} {Q : Picture F32} (hn : Channels n)
    (h : Sheet n l Q) : Q.channels = n ∧ Frames l Q.data ∧ AllPlain Q ∧ ∀ x y,
      (∃ P ∈ l, Has P.data x y ∧ Q.pixel x y = P.pixel x y) ∨
      ((∀ P ∈ l, ¬ Has P.data x y) ∧ Q.pixel x y = List.replicate n 0) := by
  induction h with
  | @one P hc hP =>
    refine ⟨hc, ⟨fun R hR => ?_, fun v hv => hv P (by simp)⟩, hP,
      fun x y => ?_⟩
    · rw [List.mem_singleton.mp hR]
      unfold Inside
      simp
    by_cases hx : Has P.data x y
    · exact .inl ⟨P, by simp, hx, rfl⟩
    · refine .inr ⟨fun R hR => by rwa [List.mem_singleton.mp hR], ?_⟩
      rw [Picture.pixel, if_neg hx, hc]
  | @join l m A B Q mode _ _ hd hm hQ ihA ihB =>
    obtain ⟨ca, fa, pa, ia⟩ := ihA
    obtain ⟨cb, fb, pb, ib⟩ := ihB
    have ch : Q.channels = n := hQ.channels.trans cb
    have hmode : mode = .add ∨ mode = .over := hm.imp id And.left
    have zeroes : ∀ {C : Picture F32} {x y : Int}, C.pixel x y = List.replicate n 0 →
        ∀ c, C.value x y c = 0 := by
      intro C x y e c
      unfold Picture.value
      rw [e]
      split
      · rw [List.getD_eq_getElem?_getD, List.getElem?_replicate]
        split <;> rfl
      · rfl
    have values : ∀ {C P : Picture F32} {x y : Int}, C.pixel x y = P.pixel x y →
        C.value x y = P.value x y := by
      intro C P x y e
      funext c
      unfold Picture.value
      rw [e]
    -- the blend, if there is something in front, or nothing
    have front : ∀ {x y : Int} {P}, P ∈ l → Has P.data x y → A.pixel x y = P.pixel x y →
        ∀ c, blend mode 1 (A.value x y) (B.value x y) c = A.value x y c := by
      intro x y P hP hx e c
      have hb : ∀ c, B.value x y c = 0 := by
        rcases ib x y with ⟨R, hR, hy, _⟩ | ⟨_, z⟩
        · exact absurd hy (hd P hP R hR x y hx)
        · exact zeroes z
      refine blend_alone hmode (plain_value pa x y c) hb fun ho => ?_
      rcases hm with rfl | ⟨_, hs⟩
      · exact absurd ho (by decide)
      · obtain ⟨lo, hi⟩ := hs P hP x y hx
        rw [← values e] at lo hi
        exact (rest_share ⟨(plain_value pa x y 3).1, lo, hi⟩).1.1
    have back : ∀ {x y : Int}, A.pixel x y = List.replicate n 0 →
        ∀ c, blend mode 1 (A.value x y) (B.value x y) c = B.value x y c :=
      fun {x y} e c => blend_below hmode (plain_value pb x y c) (zeroes e)
    -- a pixel whose blended values are those of a plain picture
    have same : ∀ {C : Picture F32} {x y : Int}, C.channels = n → AllPlain C → Has Q.data x y →
        (∀ c, blend mode 1 (A.value x y) (B.value x y) c = C.value x y c) →
        Q.at_ x y = C.pixel x y := by
      intro C x y hc hC hq hb
      obtain ⟨v, hs, hl, hv⟩ := hQ.pixels x y hq
      rw [cb] at hs hl hv
      have hp := plain_pixel hC x y
      rw [hc] at hp
      have e : v = C.pixel x y := by
        refine List.ext_getElem? fun i => ?_
        by_cases hi : i < n
        · rw [hv i hi, hb i]
          unfold Picture.value
          rw [if_pos (by omega), List.getD_eq_getElem?_getD, Int.toNat_natCast,
            List.getElem?_eq_getElem (by omega), Option.getD_some]
        · rw [List.getElem?_eq_none (by omega), List.getElem?_eq_none (by omega)]
      rw [e] at hs
      exact settled_plain hn hp.1 hp.2 hs
    have which : ∀ x y, Has Q.data x y → Q.at_ x y = A.pixel x y ∧ (∃ P ∈ l, Has P.data x y ∧
          A.pixel x y = P.pixel x y) ∨
        Q.at_ x y = B.pixel x y ∧ (∀ P ∈ l, ¬ Has P.data x y) := by
      intro x y hq
      rcases ia x y with ⟨P, hP, hx, e⟩ | ⟨hx, e⟩
      · exact .inl ⟨same ca pa hq (front hP hx e), P, hP, hx, e⟩
      · exact .inr ⟨same cb pb hq (back e), hx⟩
    have inA : ∀ {x y P}, P ∈ l → Has P.data x y → Has Q.data x y := by
      intro x y P hP hx
      refine merged_has hQ (.inl ?_)
      have := fa.holds P hP
      unfold Has Inside at *
      omega
    have inB : ∀ {x y P}, P ∈ m → Has P.data x y → Has Q.data x y := by
      intro x y P hP hx
      refine merged_has hQ (.inr ?_)
      have := fb.holds P hP
      unfold Has Inside at *
      omega
    refine ⟨ch, ⟨fun P hP => ?_, fun v hv => ?_⟩, fun x y hq => ?_, fun x y => ?_⟩
    · rw [hQ.data]
      rcases List.mem_append.mp hP with k | k
      · have := fa.holds P k
        unfold Inside at *
        dsimp only
        omega
      · have := fb.holds P k
        unfold Inside at *
        dsimp only
        omega
    · have u := fa.least v fun P hP => hv P (List.mem_append_left _ hP)
      have w := fb.least v fun P hP => hv P (List.mem_append_right _ hP)
      rw [hQ.data]
      unfold Inside at *
      dsimp only
      omega
    · rcases which x y hq with ⟨e, _⟩ | ⟨e, _⟩
      · rw [e, ch, ← ca]
        exact plain_pixel pa x y
      · rw [e, ch, ← cb]
        exact plain_pixel pb x y
    · by_cases hq : Has Q.data x y
      · rw [Picture.pixel, if_pos hq]
        rcases which x y hq with ⟨e, P, hP, hx, e'⟩ | ⟨e, hx⟩
        · exact .inl ⟨P, List.mem_append_left _ hP, hx, e.trans e'⟩
        · rw [e]
          rcases ib x y with ⟨R, hR, hy, e'⟩ | ⟨hy, e'⟩
          · exact .inl ⟨R, List.mem_append_right _ hR, hy, e'⟩
          · exact .inr ⟨fun P hP => (List.mem_append.mp hP).elim (hx P) (hy P), e'⟩
      · refine .inr ⟨fun P hP hx => hq ((List.mem_append.mp hP).elim (inA · hx) (inB · hx)), ?_⟩
        rw [Picture.pixel, if_neg hq, ch]

/-- Two pictures of a sheet that share a position are at the same place of the list: the pixel there
is the same. -/
theorem sheet_once {n : Nat} {l : List (Picture F32)} {Q : Picture F32} (h : Sheet n l Q) :
    ∀ P ∈ l, ∀ R ∈ l, ∀ x y, Has P.data x y → Has R.data x y → P = R := by
  induction h with
  | one => intro P hP R hR x y _ _; rw [List.mem_singleton.mp hP, List.mem_singleton.mp hR]
  | @join l m A B Q mode _ _ hd _ _ ihA ihB =>
    intro P hP R hR x y hx hy
    rcases List.mem_append.mp hP with p | p <;> rcases List.mem_append.mp hR with r | r
    · exact ihA P p R r x y hx hy
    · exact absurd hy (hd P p R r x y hx)
    · exact absurd hx (hd R r P p x y hy)
    · exact ihB P p R r x y hx hy

/-- C158: however many pictures are put beside each other, and in whatever order: every picture shows
bit by bit where it lies, between them it is black, and the window is the smallest that holds all. -/
theorem C158_sheet {n : Nat} {l : List (Picture F32)} {Q : Picture F32} (hn : Channels n)
    (h : Sheet n l Q) : Q.channels = n ∧ Frames l Q.data ∧
      (∀ P ∈ l, ∀ x y, Has P.data x y → Q.at_ x y = P.at_ x y) ∧
      ∀ x y, Has Q.data x y → (∀ P ∈ l, ¬ Has P.data x y) → Q.at_ x y = List.replicate n 0 := by
  obtain ⟨h1, h2, -, h3⟩ := sheet_pixel hn h
  refine ⟨h1, h2, fun P hP x y hx => ?_, fun x y hq hx => ?_⟩
  · have hq : Has Q.data x y := by
      have := h2.holds P hP
      unfold Has Inside at *
      omega
    rcases h3 x y with ⟨R, hR, hy, e⟩ | ⟨k, _⟩
    · obtain rfl := sheet_once h P hP R hR x y hx hy
      rwa [Picture.pixel, if_pos hq, Picture.pixel, if_pos hx] at e
    · exact absurd hx (k P hP)
  · rcases h3 x y with ⟨R, hR, hy, e⟩ | ⟨_, e⟩
    · exact absurd hy (hx R hR)
    · rwa [Picture.pixel, if_pos hq] at e

/-- C158: the order in which the pictures are put together, and the way each is joined, do not matter
for what is seen. -/
theorem C158_order {n : Nat} {l m : List (Picture F32)} {Q R : Picture F32} (hn : Channels n)
    (hQ : Sheet n l Q) (hR : Sheet n m R) (hlm : ∀ P, P ∈ l ↔ P ∈ m) :
    Q.data = R.data ∧ Q.channels = R.channels ∧ ∀ x y, Q.pixel x y = R.pixel x y := by
  obtain ⟨q1, q2, -, q3⟩ := sheet_pixel hn hQ
  obtain ⟨r1, r2, -, r3⟩ := sheet_pixel hn hR
  have d1 : Inside Q.data R.data := q2.least _ fun P hP => r2.holds P ((hlm P).mp hP)
  have d2 : Inside R.data Q.data := r2.least _ fun P hP => q2.holds P ((hlm P).mpr hP)
  refine ⟨?_, q1.trans r1.symm, fun x y => ?_⟩
  · rcases e : Q.data with ⟨a1, a2, a3, a4⟩
    rcases e' : R.data with ⟨b1, b2, b3, b4⟩
    rw [e, e'] at d1 d2
    unfold Inside at d1 d2
    dsimp only at d1 d2
    congr 1 <;> omega
  · rcases q3 x y with ⟨P, hP, hx, e⟩ | ⟨hx, e⟩ <;> rcases r3 x y with ⟨S, hS, hy, e'⟩ | ⟨hy, e'⟩
    · obtain rfl := sheet_once hQ P hP S ((hlm S).mpr hS) x y hx hy
      exact e.trans e'.symm
    · exact absurd hx (hy P ((hlm P).mp hP))
    · exact absurd hy (hx S ((hlm S).mpr hS))
    · exact e.trans e'.symm

/-- C158: the display window is that of the last picture. -/
theorem C158_display {n : Nat} {l : List (Picture F32)} {Q : Picture F32} (h : Sheet n l Q) :
    ∃ P, l.getLast? = some P ∧ Q.display = P.display := by
  induction h with
  | @one P _ _ => exact ⟨P, rfl, rfl⟩
  | join _ _ _ _ hQ _ ihB =>
    obtain ⟨P, h1, h2⟩ := ihB
    exact ⟨P, by rw [List.getLast?_append, h1, Option.some_or], hQ.display.trans h2⟩

/-- C158: a grade behind the sheet grades every picture as if it were alone. -/
theorem C158_graded {n : Nat} {l : List (Picture F32)} {Q Q' : Picture F32} (hn : Channels n)
    (h : Sheet n l Q) {op : GradeOp F32} (hQ : IsGraded op Q Q') {P P' : Picture F32} (hP : P ∈ l)
    (hP' : IsGraded op P P') {x y : Int} (hx : Has P.data x y) : Q'.at_ x y = P'.at_ x y := by
  obtain ⟨h1, h2, h3, -⟩ := C158_sheet hn h
  have hc : P.channels = n := by
    clear h1 h2 h3 hQ
    induction h with
    | one hc => rw [List.mem_singleton.mp hP]; exact hc
    | join _ _ _ _ _ ihA ihB => exact (List.mem_append.mp hP).elim ihA ihB
  have hq : Has Q.data x y := by
    have := h2.holds P hP
    unfold Has Inside at *
    omega
  have a := hQ.pixels x y hq
  have b := hP'.pixels x y hx
  rw [h1, h3 P hP x y hx] at a
  rw [hc] at b
  exact carried_once_unique a b

/-! ### Nodes and files -/

/-- Pictures that look the same are merged the same. -/
theorem merged_alike {mode : MergeImageMode} {mix : F32} {A A' B B' Q : Picture F32}
    (a1 : A'.data = A.data) (a2 : ∀ x y, Has A.data x y → A'.at_ x y = A.at_ x y)
    (b1 : B'.data = B.data) (b2 : B'.display = B.display) (b3 : B'.channels = B.channels)
    (b4 : ∀ x y, Has B.data x y → B'.at_ x y = B.at_ x y)
    (h : IsMerged mode mix A' B' Q) : IsMerged mode mix A B Q := by
  have val : ∀ {C C' : Picture F32}, C'.data = C.data →
      (∀ x y, Has C.data x y → C'.at_ x y = C.at_ x y) → ∀ x y, C'.value x y = C.value x y := by
    intro C C' c1 c2 x y
    by_cases hx : Has C.data x y
    · rw [value_inside (by rw [c1]; exact hx), value_inside hx, c2 x y hx]
    · funext c
      rw [value_outside (by rw [c1]; exact hx), value_outside hx]
  refine ⟨by rw [← a1, ← b1]; exact h.data, h.display.trans b2, h.channels.trans b3, h.space,
    fun x y hq => ?_⟩
  obtain ⟨v, h1, h2, h3⟩ := h.pixels x y hq
  rw [b3] at h1 h2 h3
  rw [val a1 a2, val b1 b4] at h3
  exact ⟨v, h1, h2, h3⟩

/-- C158 for nodes: what the merge nodes make, with everything carried out, is the sheet. -/
theorem C158_nodes {H : Type} [HalfLike F32 H] {lib : NodeLib F32 H} {frame : F32} {n : Nat}
    {l : List (Picture F32)} {L : Layer F32} (h : Laid lib frame n l L) :
    ∃ Q, Rests lib L Q ∧ Sheet n l Q := by
  induction h with
  | one hr hc hP => exact ⟨_, hr, .one hc hP⟩
  | @join l k A B Q m _ _ hd ht he hx hm hQ ihA ihB =>
    obtain ⟨RA, ra, sa⟩ := ihA
    obtain ⟨RB, rb, sb⟩ := ihB
    cases hQ with
    | @merge _ _ _ _ Q _ _ _ ka kb _ _ _ _ kq =>
      obtain ⟨a1, -, -, -, a2⟩ := carriedOut_unique ra ka
      obtain ⟨b1, b2, b3, -, b4⟩ := carriedOut_unique rb kb
      rw [hx] at kq
      exact ⟨Q, rests_nothing lib Q, .join sa sb hd hm (merged_alike a1 a2 b1 b2 b3 b4 kq)⟩
    | _ => simp_all

/-- C158 for executions: a write node that gets such a sheet writes it, on every frame. -/
theorem C158_rendered {H : Type} [HalfLike F32 H] (p : Profile) (lib : NodeLib F32 H) (srt : EdgeSort)
    {g : Graph (Node F32) (Stream F32 H)} {r : Bool} (h : Reach (nodeSem p lib) srt r g)
    {id start : Nat} (hid : At g id start) (hs : g.graph.contains start = true)
    {frames : List F32} {pic : F32 → Nat → Layer F32}
    (hp : ∀ fr ∈ frames, Pictures lib srt g start fr (pic fr))
    {n : Node F32} (hn : g.nodes[start]? = some n) (hW : Writes n)
    (hq : ∀ i m, Upstream g.graph start i → i ≠ start → g.nodes[i]? = some m → ¬ Writes m)
    (hl : ∀ fr ∈ frames, Linear (filePath lib n fr))
    {k : Nat} (hk : Channels k) {parts : F32 → List (Picture F32)}
    (hL : ∀ fr ∈ frames, Laid lib fr k (parts fr) (pic fr start))
    {w w' : World F32 H} (hoff : IsOff w) {fuel : Nat} {st : ExecuteStatus}
    {g' : Graph (Node F32) (Stream F32 H)}
    (hx : g.execute (nodeSem p lib) srt fuel id frames w = .ok (st, g', w')) :
    st = .success ∧ ∃ jobs, w'.writes = w.writes ++ jobs ∧
      List.Forall₂ (fun fr job => job.path = filePath lib n fr ∧ ∃ own Q, Q.channels = k ∧
        Frames (parts fr) Q.data ∧
        (∀ P ∈ parts fr, ∀ x y, Has P.data x y → Q.at_ x y = P.at_ x y) ∧
        (∀ x y, Has Q.data x y → (∀ P ∈ parts fr, ¬ Has P.data x y) →
          Q.at_ x y = List.replicate k 0) ∧
        FileShows (wantedType (n.getI32 "pixel_data_type") own)
          (window n (filePath lib n fr) Q) Q job) frames jobs := by
  obtain ⟨h1, jobs, h2, h3⟩ := C138_rendered p lib srt h hid hs hp hn hW hq hl hoff hx
  refine ⟨h1, jobs, h2, ?_⟩
  clear h2 hx hl hp
  induction h3 with
  | nil => exact .nil
  | @cons fr job frames jobs j _ ih =>
    refine .cons ?_ (ih fun x hx => hL x (List.mem_cons_of_mem _ hx))
    obtain ⟨k1, own, S, k2, k3⟩ := j
    obtain ⟨Q, q1, q2⟩ := C158_nodes (hL fr List.mem_cons_self)
    obtain ⟨e1, e2, e3, -, e4⟩ := carriedOut_unique q1 k2
    obtain ⟨s1, s2, s3, s4⟩ := C158_sheet hk q2
    exact ⟨k1, own, Q, s1, s2, s3, s4, shows_alike e1 e2 e3 e4 k3⟩

end

/-! ### Examples -/

section
attribute [local instance] zeroLibm

/-- A picture of two pixels that lies somewhere. -/
def pairAt (x0 : Int) (at_ : Int → Int → List F32) : Picture F32 :=
  ⟨⟨x0, 0, x0 + 2, 1⟩, ⟨0, 0, 2, 1⟩, 4, colorSpaceLinear, at_⟩

theorem pairAt_apart {x0 x1 : Int} (a b : Int → Int → List F32) (h : x0 + 2 ≤ x1 ∨ x1 + 2 ≤ x0) :
    Apart (pairAt x0 a) (pairAt x1 b) := by
  intro x y h1 h2
  unfold pairAt Has at *
  dsimp only at *
  omega

/-- Any three such pictures, with a gap: the third and the first are added, and laid over the
second. -/
example (a b c : Int → Int → List F32) (ha : AllPlain (pairAt 0 a)) (hb : AllPlain (pairAt 2 b))
    (hc : AllPlain (pairAt 7 c)) (sa : Shares (pairAt 0 a)) (sc : Shares (pairAt 7 c)) :
    ∃ M Q, IsMerged .add 1 (pairAt 7 c) (pairAt 0 a) M ∧ IsMerged .over 1 M (pairAt 2 b) Q ∧
      Q.at_ 1 0 = a 1 0 ∧ Q.at_ 2 0 = b 2 0 ∧ Q.at_ 5 0 = [0, 0, 0, 0] ∧ Q.at_ 8 0 = c 8 0 := by
  obtain ⟨M, hM⟩ := merged_exists .add 1 (pairAt 7 c) (pairAt 0 a) (.inr rfl)
  obtain ⟨Q, hQ⟩ := merged_exists .over 1 M (pairAt 2 b) (.inr rfl)
  have s : Sheet 4 ([pairAt 7 c, pairAt 0 a] ++ [pairAt 2 b]) Q := by
    refine .join (.join (.one rfl hc) (.one rfl ha) ?_ (.inl rfl) hM) (.one rfl hb) ?_
      (.inr ⟨rfl, ?_⟩) hQ
    · intro P hP R hR
      rw [List.mem_singleton.mp hP, List.mem_singleton.mp hR]
      exact pairAt_apart _ _ (by decide)
    · intro P hP R hR
      rw [List.mem_singleton.mp hR]
      rcases List.mem_cons.mp hP with rfl | hP
      · exact pairAt_apart _ _ (by decide)
      · rw [List.mem_singleton.mp hP]
        exact pairAt_apart _ _ (by decide)
    · intro P hP
      rcases List.mem_cons.mp hP with rfl | hP
      · exact sc
      · rw [List.mem_singleton.mp hP]
        exact sa
  obtain ⟨-, -, k1, k2⟩ := C158_sheet (.inr (.inr rfl)) s
  refine ⟨M, Q, hM, hQ, k1 (pairAt 0 a) (by simp) 1 0 (by unfold Has pairAt; dsimp only; omega),
    k1 (pairAt 2 b) (by simp) 2 0 (by unfold Has pairAt; dsimp only; omega),
    k2 5 0 ?_ ?_, k1 (pairAt 7 c) (by simp) 8 0 (by unfold Has pairAt; dsimp only; omega)⟩
  · rw [hQ.data, hM.data]
    unfold Has pairAt
    dsimp only
    omega
  · intro P hP
    simp only [List.cons_append, List.nil_append, List.mem_cons, List.not_mem_nil, or_false] at hP
    rcases hP with rfl | rfl | rfl <;> (unfold Has pairAt; dsimp only; omega)

/-- A grade that works behind two pictures. -/
example (a b : Int → Int → List F32) (ha : AllPlain (pairAt 0 a)) (hb : AllPlain (pairAt 2 b))
    {op : GradeOp F32} {P' : Picture F32} (hP' : IsGraded op (pairAt 0 a) P') :
    ∃ Q, IsMerged .add 1 (pairAt 0 a) (pairAt 2 b) Q ∧
      ∀ Q', IsGraded op Q Q' → Q'.at_ 1 0 = P'.at_ 1 0 := by
  obtain ⟨Q, hQ⟩ := merged_exists .add 1 (pairAt 0 a) (pairAt 2 b) (.inr rfl)
  refine ⟨Q, hQ, fun Q' h => ?_⟩
  refine C158_graded (.inr (.inr rfl)) (Sheet.join (.one rfl ha) (.one rfl hb) ?_ (.inl rfl) hQ) h
    (P := pairAt 0 a) (by simp) hP' (by unfold Has pairAt; dsimp only; omega)
  intro P hP R hR
  rw [List.mem_singleton.mp hP, List.mem_singleton.mp hR]
  exact pairAt_apart _ _ (by decide)

/-- Two pictures, one way round and the other. -/
example (a b : Int → Int → List F32) (ha : AllPlain (pairAt 0 a)) (hb : AllPlain (pairAt 2 b)) :
    ∃ Q R, IsMerged .add 1 (pairAt 0 a) (pairAt 2 b) Q ∧ IsMerged .add 1 (pairAt 2 b) (pairAt 0 a) R ∧
      Q.data = R.data ∧ ∀ x y, Q.pixel x y = R.pixel x y := by
  obtain ⟨Q, hQ⟩ := merged_exists .add 1 (pairAt 0 a) (pairAt 2 b) (.inr rfl)
  obtain ⟨R, hR⟩ := merged_exists .add 1 (pairAt 2 b) (pairAt 0 a) (.inr rfl)
  have far : ∀ {x0 x1 : Int} {a b : Int → Int → List F32}, x0 + 2 ≤ x1 ∨ x1 + 2 ≤ x0 →
      ∀ P ∈ [pairAt x0 a], ∀ R ∈ [pairAt x1 b], Apart P R := by
    intro x0 x1 a b h P hP R hR
    rw [List.mem_singleton.mp hP, List.mem_singleton.mp hR]
    exact pairAt_apart _ _ h
  have h := C158_order (.inr (.inr rfl))
    (Sheet.join (.one rfl ha) (.one rfl hb) (far (by decide)) (.inl rfl) hQ)
    (Sheet.join (.one rfl hb) (.one rfl ha) (far (by decide)) (.inl rfl) hR)
    (fun P => by simp [or_comm])
  exact ⟨Q, R, hQ, hR, h.1, h.2.2⟩

example (a b : Int → Int → List F32) (ha : AllPlain (pairAt 0 a)) (hb : AllPlain (pairAt 2 b)) :
    ∃ Q, IsMerged .add 1 (pairAt 0 a) { pairAt 2 b with display := ⟨0, 0, 8, 8⟩ } Q ∧
      Q.display = ⟨0, 0, 8, 8⟩ := by
  obtain ⟨Q, hQ⟩ := merged_exists .add 1 (pairAt 0 a) { pairAt 2 b with display := ⟨0, 0, 8, 8⟩ }
    (.inr rfl)
  have s : Sheet 4 ([pairAt 0 a] ++ [{ pairAt 2 b with display := ⟨0, 0, 8, 8⟩ }]) Q := by
    refine .join (.one rfl ha) (.one rfl hb) ?_ (.inl rfl) hQ
    intro P hP R hR
    rw [List.mem_singleton.mp hP, List.mem_singleton.mp hR]
    exact pairAt_apart a b (by decide)
  obtain ⟨P, h1, h2⟩ := C158_display s
  cases h1
  exact ⟨Q, hQ, h2⟩

/-- A part of a picture of ordinary numbers. -/
theorem half_made {frame : F32} {P : Picture F32} (c4 : P.channels = 4) (hP : AllPlain P)
    {c : Node F32} {C : Picture F32} (hc : c.attrs.nodeType = .cropImage) (he : c.getI32 "enable" = 1)
    (h : Makes pairFiles frame c [⟨P, []⟩] ⟨C, []⟩) :
    C.data = cropWindow c ∧ C.channels = 4 ∧ AllPlain C := by
  obtain ⟨-, R, r1, r2⟩ := makes_crop hc he h
  have r2 : IsCropped (cropWindow c) (decide (c.getI32 "reformat" = 1)) R C := r2
  obtain ⟨e1, -, e3, -, e4⟩ := carriedOut_unique (rests_nothing pairFiles P) r1
  have pR : AllPlain R := by
    intro x y hx
    rw [e1] at hx
    rw [e4 x y hx, e3]
    exact hP x y hx
  have e3 : R.channels = 4 := e3.trans c4
  have hR : Channels R.channels := .inr (.inr e3)
  refine ⟨r2.data, r2.channels.trans e3, fun x y hx => ?_⟩
  rw [(C121_crop hR pR r2).2 x y (by rw [← r2.data]; exact hx), r2.channels]
  exact plain_pixel pR x y

/-- The halves of a picture are such pictures. -/
theorem cut_laid {frame : F32} {A B Q : Picture F32}
    (hA : Makes pairFiles frame cropLeft [⟨pair, []⟩] ⟨A, []⟩)
    (hB : Makes pairFiles frame cropRight [⟨pair, []⟩] ⟨B, []⟩)
    (hQ : Makes pairFiles frame sumNode [⟨A, []⟩, ⟨B, []⟩] ⟨Q, []⟩) :
    Laid pairFiles frame 4 [A, B] ⟨Q, []⟩ := by
  obtain ⟨a1, a2, a3⟩ := half_made rfl pair_plain rfl rfl hA
  obtain ⟨b1, b2, b3⟩ := half_made rfl pair_plain rfl rfl hB
  refine Laid.join (l := [A]) (k := [B]) (.one (rests_nothing _ _) a2 a3)
    (.one (rests_nothing _ _) b2 b3) ?_ (m := sumNode) rfl rfl rfl (.inl rfl) hQ
  intro P hP R hR x y h1 h2
  rw [List.mem_singleton.mp hP, a1] at h1
  rw [List.mem_singleton.mp hR, b1] at h2
  exact halves_apart h1 h2

example : ∃ A B Q : Picture F32, Laid pairFiles 1 4 [A, B] ⟨Q, []⟩ ∧
    ∃ R, Rests pairFiles ⟨Q, []⟩ R ∧ Sheet 4 [A, B] R := by
  obtain ⟨A, B, Q, hA, hB, hQ⟩ := cut_made 1
  exact ⟨A, B, Q, cut_laid hA hB hQ, C158_nodes (cut_laid hA hB hQ)⟩

/-- Executing the graph writes the two halves. -/
example : ∃ g w job A B Q t, cutGraph.execute (nodeSem .debug pairFiles) insSort 20 3 [1] copyWorld =
      .ok (.success, g, w) ∧ w.writes = [job] ∧
    Makes pairFiles 1 cropLeft [⟨pair, []⟩] ⟨A, []⟩ ∧ Makes pairFiles 1 cropRight [⟨pair, []⟩] ⟨B, []⟩ ∧
    Frames [A, B] Q.data ∧ FileShows t (window writeHalf exrName Q) Q job := by
  obtain ⟨g, w, e⟩ : ∃ g w, cutGraph.execute (nodeSem .debug pairFiles) insSort 20 3 [1] copyWorld =
      .ok (.success, g, w) := by
    have hf := cutGraph_facts
    generalize cutGraph.execute (nodeSem .debug pairFiles) insSort 20 3 [1] copyWorld = r at hf
    rcases r with _ | ⟨st, g, w⟩
    · cases hf
    · cases st <;> first | exact ⟨g, w, rfl⟩ | cases hf
  obtain ⟨A, B, Q, hA, hB, hQ⟩ := cut_made 1
  obtain ⟨-, jobs, h1, h2⟩ := C158_rendered .debug pairFiles insSort
    cutGraph_reach (id := 3) (start := 2) (frames := [1])
    (by
      refine ⟨rfl, fun j hj => ?_⟩
      rcases j with _ | _ | j <;> first | decide | omega) rfl
    (pic := fun _ => cutPic A B Q) (fun fr hfr => by
      obtain rfl := List.mem_singleton.mp hfr
      exact cutGraph_pictures hA hB hQ)
    (n := writeHalf) rfl ⟨rfl, by decide, by decide⟩
    (by
      intro i m _ hi hm
      rcases i with _ | _ | _ | _ | _ | i
      · cases hm; rintro ⟨⟨⟩, -⟩
      · cases hm; rintro ⟨⟨⟩, -⟩
      · exact absurd rfl hi
      · cases hm; rintro ⟨⟨⟩, -⟩
      · cases hm; rintro ⟨⟨⟩, -⟩
      · cases hm)
    (fun fr hfr => by
      obtain rfl := List.mem_singleton.mp hfr
      unfold Linear
      decide +kernel)
    (k := 4) (.inr (.inr rfl)) (parts := fun _ => [A, B])
    (fun fr hfr => by
      obtain rfl := List.mem_singleton.mp hfr
      exact cut_laid hA hB hQ) ⟨rfl, rfl⟩ e
  cases h2 with
  | @cons _ job _ _ h3 h4 =>
    cases h4
    obtain ⟨-, own, R, -, k2, -, -, k3⟩ := h3
    have he : filePath pairFiles writeHalf 1 = exrName := by decide +kernel
    rw [he] at k3
    exact ⟨g, w, job, A, B, R, _, e, h1, hA, hB, k2, k3⟩

end

end OCG.Props
