import Verif.Spec.Light
import Verif.Props.Channels
import Verif.Props.Over
import Verif.Props.Interpolate
/-
C144: light adds up.
-/

namespace OCG.Props

open GraphSpec LightSpec PictureSpec ImageSpecs ComputeSpec BBoxSpec BlockSpec ColorSpec PixelSpec OiioSpec
open ChannelSpec (SameTools)
open CacheSpec (IsOff)

section
variable {F H : Type} [FloatLike F]

theorem value_in {P : Picture F} {x y : Int} (h : Has P.data x y) (c : Nat) :
    P.value x y c = (P.at_ x y).getD c 0 := by
  unfold Picture.value Picture.pixel
  rw [if_pos (by omega), if_pos h, Int.toNat_natCast]

theorem value_out {P : Picture F} {x y : Int} (h : ¬ Has P.data x y) (c : Nat) :
    P.value x y c = 0 := by
  unfold Picture.value Picture.pixel
  rw [if_pos (by omega), if_neg h, Int.toNat_natCast, List.getD_eq_getElem?_getD,
    List.getElem?_replicate]
  split <;> rfl

/-- The pixels of `R` are pixels of `P`, taken from where `f` says. -/
def Looks (f : Int → Int → Option (Int × Int)) (P R : Picture F) : Prop :=
  ∀ x y (c : Nat), R.value x y c = match f x y with
    | none => 0
    | some q => P.value q.1 q.2 c

theorem sheet_refl (P : Picture F) : SameSheet P P := ⟨rfl, rfl, rfl, rfl⟩

theorem whole_sheet {P Q : Picture F} (hP : Whole P) (h : SameSheet P Q)
    (hv : ∀ x y, Has Q.data x y → (Q.at_ x y).length = Q.channels) : Whole Q := by
  refine ⟨h.channels ▸ hP.channels, ?_, hv⟩
  rw [h.data, h.channels]
  exact hP.size

theorem whole_seen [FloatConst F] {P : Picture F} (hP : Whole P) (x y : F) : Has P.data
    (P.data.minX + PictureSpec.seen (P.data.maxX - P.data.minX) P.display.minX P.display.maxX P.data.minX
      P.data.maxX x)
    (P.data.minY + PictureSpec.seen (P.data.maxY - P.data.minY) P.display.minY P.display.maxY P.data.minY
      P.data.maxY y) := by
  obtain ⟨s1, s2, -, -⟩ := hP.size
  simp only [sizeFor] at s1 s2
  refine ⟨?_, ?_, ?_, ?_⟩ <;> (unfold PictureSpec.seen; omega)

/-- Carrying out deformers takes the pixels of all pictures that are alike from the same places. -/
theorem looks_rests [FloatConst F] {lib : DeformLib F} {ds : List (Deformer F)} {P R : Picture F}
    (hP : Whole P) (hR : CarriedOut lib ds P R) : ∃ f, ∀ P' R', SameSheet P P' → Whole P' →
      CarriedOut lib ds P' R' → SameSheet R R' ∧ Whole R' ∧ Looks f P' R' := by
  by_cases hon : ∃ d ∈ ds, d.enable = 1
  · obtain ⟨-, -, -, -, -, ⟨box, b1, b2⟩, k⟩ := hR.moved hon
    choose! q hq _ using k
    classical
    refine ⟨fun x y => if Has R.data x y then some
      (P.data.minX + PictureSpec.seen (P.data.maxX - P.data.minX) P.display.minX P.display.maxX
        P.data.minX P.data.maxX (q x y).1,
       P.data.minY + PictureSpec.seen (P.data.maxY - P.data.minY) P.display.minY P.display.maxY
        P.data.minY P.data.maxY (q x y).2) else none, fun P' R' ha hP' hR' => ?_⟩
    obtain ⟨-, -, -, -, hsz, ⟨box', b1', b2'⟩, k'⟩ := hR'.moved hon
    rw [ha.display, ha.data] at b1'
    have hd : R'.data = R.data := by
      have e := (boxed_eq b1).symm.trans (boxed_eq b1')
      injection e with e
      rw [b2, b2', e]
    have at_ : ∀ x y, Has R.data x y → R'.at_ x y = P'.at_
        (P.data.minX + PictureSpec.seen (P.data.maxX - P.data.minX) P.display.minX P.display.maxX
          P.data.minX P.data.maxX (q x y).1)
        (P.data.minY + PictureSpec.seen (P.data.maxY - P.data.minY) P.display.minY P.display.maxY
          P.data.minY P.data.maxY (q x y).2) := by
      intro x y hxy
      obtain ⟨q', c1, e1⟩ := k' x y (hd ▸ hxy)
      rw [ha.display] at c1
      have := Carried.unique (hq x y hxy) c1
      subst this
      rw [e1, ha.display, ha.data]
    have inside : ∀ a b, Has P'.data _ _ := fun a b => whole_seen hP' a b
    rw [ha.data, ha.display] at inside
    refine ⟨⟨hd, by rw [hR'.display, hR.display, ha.display],
      by rw [hR'.channels, hR.channels, ha.channels], by rw [hR'.space, hR.space, ha.space]⟩,
      ⟨hR'.channels ▸ hP'.channels, hsz, fun x y hxy => ?_⟩, fun x y c => ?_⟩
    · rw [hd] at hxy
      rw [at_ x y hxy, hR'.channels]
      exact hP'.values _ _ (ha.data ▸ inside _ _)
    · by_cases hxy : Has R.data x y
      · simp only [hxy, if_true]
        rw [value_in (hd ▸ hxy), at_ x y hxy, value_in (ha.data ▸ inside _ _)]
      · simp only [hxy, if_false]
        exact value_out (by rw [hd]; exact hxy) c
  · have off : ∀ d ∈ ds, d.enable ≠ 1 := fun d hd he => hon ⟨d, hd, he⟩
    refine ⟨fun x y => some (x, y), fun P' R' ha hP' hR' => ?_⟩
    obtain ⟨d1, -⟩ := hR.still off
    obtain ⟨d2, e2⟩ := hR'.still off
    refine ⟨⟨by rw [d2, d1, ha.data], by rw [hR'.display, hR.display, ha.display],
      by rw [hR'.channels, hR.channels, ha.channels], by rw [hR'.space, hR.space, ha.space]⟩,
      ⟨hR'.channels ▸ hP'.channels, by rw [d2, hR'.channels]; exact hP'.size, fun x y hxy => ?_⟩,
      fun x y c => ?_⟩
    · rw [d2] at hxy
      rw [e2 x y hxy, hR'.channels]
      exact hP'.values x y hxy
    · show R'.value x y c = P'.value x y c
      by_cases hxy : Has P'.data x y
      · rw [value_in (d2 ▸ hxy), value_in hxy, e2 x y hxy]
      · rw [value_out (by rw [d2]; exact hxy), value_out hxy]

/-- Resampling takes the pixels of all pictures that are alike from the same places. -/
theorem looks_picked {black white : F} (hne : white ≠ black) {oiio : Oiio F H} {pick : Int → Int → Int → Int}
    (hpick : Picks oiio pick) {factor : Int} {P Q : Picture F} (hP : Whole P)
    (hw : scaled (P.data.maxX - P.data.minX) factor < 2147483648)
    (hh : scaled (P.data.maxY - P.data.minY) factor < 2147483648)
    (hQ : IsResampled pick factor P Q) : ∃ f, ∀ {oiio' : Oiio F H} {pick' P' Q'}, Picks oiio' pick' →
      (∀ size block interpolate w h t old, oiio.resample size block interpolate w h t old =
        oiio'.resample size block interpolate w h t old) → SameSheet P P' → Whole P' →
      IsResampled pick' factor P' Q' → SameSheet Q Q' ∧ Whole Q' ∧ Looks f P' Q' := by
  classical
  refine ⟨fun x y => if Has Q.data x y then some
    (P.data.minX + pick (P.data.maxX - P.data.minX) Q.data.maxX x,
     P.data.minY + pick (P.data.maxY - P.data.minY) Q.data.maxY y) else none, ?_⟩
  intro oiio' pick' P' Q' hpick' hr ha hP' hQ'
  obtain ⟨s1, s2, s3, s4⟩ := id hP.size
  have n1 := scaledTo_unique (by simp only [sizeFor] at s1; omega) hw hQ.width (ha.data ▸ hQ'.width)
  have n2 := scaledTo_unique (by simp only [sizeFor] at s2; omega) hh hQ.height
    (ha.data ▸ hQ'.height)
  obtain ⟨o1, o2⟩ := hQ.origin
  obtain ⟨o1', o2'⟩ := hQ'.origin
  have hd : ∀ {a b : BBox}, a.minX = b.minX → a.minY = b.minY → a.maxX = b.maxX →
      a.maxY = b.maxY → a = b := by
    rintro ⟨⟩ ⟨⟩ h1 h2 h3 h4
    rw [BBox.mk.injEq]
    exact ⟨h1, h2, h3, h4⟩
  have hd := hd (o1'.trans o1.symm) (o2'.trans o2.symm) n1.symm n2.symm
  have hv : ValidSize ⟨Q.data.maxX, Q.data.maxY, (P.channels : Int)⟩ := by
    have w1 := hQ.width.least
    have w2 := hQ.width.most
    have k1 := hQ.height.least
    have k2 := hQ.height.most
    have c := hP.channels
    refine ⟨by dsimp only; omega, by dsimp only; omega, by dsimp only; omega, ?_⟩
    dsimp only
    generalize Q.data.maxX = k at *
    generalize Q.data.maxY = b at *
    have h3 : k * b ≤ 16384 * 16384 := Int.mul_le_mul w2 k2 (by omega) (by omega)
    have h5 : k * b * P.channels ≤ 16384 * 16384 * 4 :=
      Int.mul_le_mul h3 (by omega) (by omega) (by omega)
    omega
  have at_ : ∀ x y, Has Q.data x y → Q'.at_ x y = P'.at_
      (P.data.minX + pick (P.data.maxX - P.data.minX) Q.data.maxX x)
      (P.data.minY + pick (P.data.maxY - P.data.minY) Q.data.maxY y) ∧ Has P.data
      (P.data.minX + pick (P.data.maxX - P.data.minX) Q.data.maxX x)
      (P.data.minY + pick (P.data.maxY - P.data.minY) Q.data.maxY y) := by
    intro x y hx
    obtain ⟨x0, x1, y0, y1⟩ := id hx
    have pk := picks_alike hne hpick hpick' hr hP.size hv
      (x := x) (y := y) (by omega) x1 (by omega) y1
    rw [hQ'.pixels x y (hd ▸ hx), ha.data, hd]
    unfold sizeFor at pk
    dsimp only at pk
    rw [← pk.1, ← pk.2]
    have r1 := hpick.range (_) _ x s1 (by omega) x1
    have r2 := hpick.range (_) _ y s2 (by omega) y1
    simp only [sizeFor] at r1 r2
    refine ⟨rfl, ?_, ?_, ?_, ?_⟩ <;> omega
  refine ⟨⟨hd, by rw [hQ'.display, hQ.display, hd], by rw [hQ'.channels, hQ.channels, ha.channels],
    by rw [hQ'.space, hQ.space, ha.space]⟩, ⟨hQ'.channels ▸ hP'.channels, ?_, fun x y hxy => ?_⟩,
    fun x y c => ?_⟩
  · rw [hd, hQ'.channels, ha.channels]
    unfold sizeFor
    rw [o1, o2, Int.sub_zero, Int.sub_zero]
    exact hv
  · rw [hd] at hxy
    rw [(at_ x y hxy).1, hQ'.channels]
    exact hP'.values _ _ (ha.data ▸ (at_ x y hxy).2)
  · by_cases hxy : Has Q.data x y
    · simp only [hxy, if_true]
      rw [value_in (hd ▸ hxy), (at_ x y hxy).1, value_in (ha.data ▸ (at_ x y hxy).2)]
    · simp only [hxy, if_false]
      exact value_out (by rw [hd]; exact hxy) c

/-- What a grade makes of a value of channel `c`. -/
noncomputable def gradedBy (op : GradeOp F) (c : Nat) (p : F) : F := by
  classical
  exact if HasWork op then gradeValue (values op c) (decide (op.reverse ≠ 0))
    (FloatLike.ofInt (processes op c) * op.mix) p else p

theorem graded_values {op : GradeOp F} (he : op.getI32 "enable" = 1) {n : Nat} (hn : n = 3 ∨ n = 4) {u v : List F}
    (hu : u.length = n) (h : Carried n [op] u v) :
    v.length = n ∧ ∀ c, c < n → v.getD c 0 = gradedBy op c (u.getD c 0) := by
  cases h with
  | skip h _ => exact absurd he h
  | step _ h1 h2 =>
    cases h2
    unfold gradedBy
    by_cases hw : HasWork op
    · have hpos : 0 < n := by omega
      obtain ⟨out, h1', h2, h3⟩ := grade_values op hw (.inr hn) u
      cases Except.ok.inj (h1.symm.trans h1')
      refine ⟨h2.trans hu, fun c hc => ?_⟩
      obtain ⟨p, h4, h5⟩ := h3 0 c (by rw [hu, Nat.div_self hpos]; omega) hc
      rw [Nat.zero_mul, Nat.zero_add] at h4 h5
      have hch : channelOf n c = c := by unfold channelOf; rw [if_neg (by omega)]
      rw [hch] at h5
      rw [List.getD_eq_getElem?_getD, h5, List.getD_eq_getElem?_getD, h4, if_pos hw]
      rfl
    · rw [applySlice_idle hw] at h1
      cases h1
      refine ⟨hu, fun c hc => ?_⟩
      rw [if_neg hw]

theorem graded_whole {op : GradeOp F} (he : op.getI32 "enable" = 1) {P R : Picture F} (hP : Whole P)
    (hR : IsGraded op P R) : Whole R ∧ ∀ x y (c : Nat), R.value x y c =
      if Has P.data x y ∧ c < P.channels then gradedBy op c (P.value x y c) else 0 := by
  have key := fun x y hxy => graded_values he hP.channels (hP.values x y hxy) (hR.pixels x y hxy)
  refine ⟨⟨hR.channels ▸ hP.channels, by rw [hR.data, hR.channels]; exact hP.size,
    fun x y hxy => ?_⟩, fun x y c => ?_⟩
  · rw [hR.data] at hxy
    rw [hR.channels]
    exact (key x y hxy).1
  · by_cases hxy : Has P.data x y
    · rw [value_in (hR.data ▸ hxy), value_in hxy]
      by_cases hc : c < P.channels
      · rw [if_pos ⟨hxy, hc⟩]
        exact (key x y hxy).2 c hc
      · rw [if_neg fun h => hc h.2, List.getD_eq_getElem?_getD,
          List.getElem?_eq_none (by rw [(key x y hxy).1]; omega)]
        rfl
    · rw [value_out (by rw [hR.data]; exact hxy), if_neg fun h => hxy h.1]

end

section
variable {F H : Type} [Field F] [LinearOrder F] [FloatOps F]

theorem sum_looks {k l : F} {f : Int → Int → Option (Int × Int)} {P P' Q R R' S : Picture F}
    (h : IsSum k l P P' Q) (h1 : Looks f P R) (h2 : Looks f P' R') (h3 : Looks f Q S)
    (a : SameSheet R R') (b : SameSheet R S) : IsSum k l R R' S := by
  refine ⟨a, b, fun x y c hc => ?_, fun x y => ?_⟩
  · rw [h1, h2, h3]
    cases f x y with
    | none => show (0 : F) = k * 0 + l * 0; ring
    | some q => exact h.colours _ _ c hc
  · have e1 := h1 x y 3
    have e2 := h2 x y 3
    have e3 := h3 x y 3
    rw [show ((3 : Nat) : Int) = 3 from rfl] at e1 e2 e3
    rw [e1, e2, e3]
    cases f x y with
    | none => exact ⟨rfl, rfl⟩
    | some q => exact h.alpha _ _

/-- In exact arithmetic the identity colour matrix changes nothing. -/
theorem settled_eq {n : Nat} (hn : n = 3 ∨ n = 4) {v out : List F} (h : Settled n v out) :
    out = v := by
  obtain ⟨mid, h1, h2⟩ := h
  rw [show (Mat4.identity : Mat4 F) = (fun i j => if i = j then (1 : F) else 0) by
      funext i j; fin_cases i <;> fin_cases j <;> rfl,
    C57_identity (.inr hn) v] at h1
  cases h1
  cases h2
  rfl

theorem looks_crop {w : BBox} {r : Bool} {P Q : Picture F} (hP : Whole P)
    (hv : ValidSize (sizeFor w P.channels)) (hQ : IsCropped w r P Q) :
    Whole Q ∧ Looks (fun x y => if Has w x y then some (x, y) else none) P Q := by
  have e : ∀ x y, Has w x y → Q.at_ x y = P.pixel x y := fun x y h =>
    settled_eq hP.channels (hQ.pixels x y h)
  refine ⟨⟨hQ.channels ▸ hP.channels, by rw [hQ.data, hQ.channels]; exact hv, fun x y hxy => ?_⟩,
    fun x y c => ?_⟩
  · rw [hQ.data] at hxy
    rw [e x y hxy, hQ.channels]
    unfold Picture.pixel
    split
    · exact hP.values x y ‹_›
    · exact List.length_replicate
  · by_cases hxy : Has w x y
    · simp only [hxy, if_true]
      rw [value_in (hQ.data ▸ hxy), e x y hxy]
      unfold Picture.value
      rw [if_pos (by omega), Int.toNat_natCast]
    · simp only [hxy, if_false]
      exact value_out (by rw [hQ.data]; exact hxy) c

theorem looks_baked [HalfLike F H] {P Q : Picture F} (hP : Whole P) (hQ : IsBaked H .f32 P Q) :
    Whole Q ∧ Looks (fun x y => some (x, y)) P Q := by
  have e : ∀ x y, Has P.data x y → Q.at_ x y = P.at_ x y := fun x y h => by
    rw [settled_eq hP.channels (hQ.pixels x y h)]
    exact List.map_id _
  refine ⟨⟨hQ.channels ▸ hP.channels, by rw [hQ.data, hQ.channels]; exact hP.size,
    fun x y hxy => ?_⟩, fun x y c => ?_⟩
  · rw [hQ.data] at hxy
    rw [e x y hxy, hQ.channels]
    exact hP.values x y hxy
  · show Q.value x y c = P.value x y c
    by_cases hxy : Has P.data x y
    · rw [value_in (hQ.data ▸ hxy), value_in hxy, e x y hxy]
    · rw [value_out (by rw [hQ.data]; exact hxy), value_out hxy]

theorem looks_resample {oiio : Oiio F H} {pick : Int → Int → Int → Int}
    (hpick : Picks oiio pick) {factor : Int} {P Q : Picture F} (hP : Whole P)
    (hw : scaled (P.data.maxX - P.data.minX) factor < 2147483648)
    (hh : scaled (P.data.maxY - P.data.minY) factor < 2147483648)
    (hQ : IsResampled pick factor P Q) : ∃ f, ∀ {oiio' : Oiio F H} {pick' P' Q'}, Picks oiio' pick' →
      (∀ size block interpolate w h t old, oiio.resample size block interpolate w h t old =
        oiio'.resample size block interpolate w h t old) → SameSheet P P' → Whole P' →
      IsResampled pick' factor P' Q' → SameSheet Q Q' ∧ Whole Q' ∧ Looks f P' Q' :=
  looks_picked one_ne_zero hpick hP hw hh hQ

theorem gains_value (hpow : ∀ x : F, FloatOps.powf x 1 = x) {op : GradeOp F} (hs : Gains op) {c : Nat}
    (hc : c < 3) : ∃ a : F, ∀ p, gradedBy op c p = a * p := by
  unfold gradedBy
  split
  · have hr : decide (op.reverse ≠ 0) = false := decide_eq_false (by
      have := hs.forward
      exact fun h => h this)
    rw [hr]
    rcases hs.colours c hc with h | ⟨white, gain, multiply, h⟩
    · refine ⟨1, fun p => ?_⟩
      rw [h]
      unfold gradeValue
      have : (FloatLike.ofInt 0 : F) = 0 := by rw [ofInt_eq]; simp
      rw [this]
      ring
    · generalize FloatLike.ofInt (processes op c) * op.mix = m
      refine ⟨slope (values op c) * m + (1 - m), fun p => ?_⟩
      unfold gradeValue
      rw [gradeSingle_forward]
      have hg : gammaOf (values op c) = 1 := by rw [h]; rfl
      have hz : shift (values op c) = 0 := by
        rw [h]
        show (0 : F) + 0 - _ * 0 = 0
        ring
      rw [hg, hz, div_one]
      change FloatOps.powf _ 1 * m + _ = _
      rw [hpow]
      ring
  · exact ⟨1, fun p => (one_mul p).symm⟩

theorem sum_graded (hpow : ∀ x : F, FloatOps.powf x 1 = x) {op : GradeOp F}
    (he : op.getI32 "enable" = 1) (hs : Gains op) {k l : F} {P P' Q R R' S : Picture F}
    (hP : Whole P) (hP' : Whole P') (hQ : Whole Q)
    (h : IsSum k l P P' Q) (h1 : IsGraded op P R) (h2 : IsGraded op P' R') (h3 : IsGraded op Q S) :
    IsSum k l R R' S ∧ Whole R ∧ Whole R' ∧ Whole S := by
  have one : ∀ {P R : Picture F}, Whole P → IsGraded op P R → Whole R ∧ ∀ x y (c : Nat),
      R.value x y c = if Has P.data x y ∧ c < P.channels then gradedBy op c (P.value x y c) else 0 :=
    graded_whole he
  obtain ⟨w1, e1⟩ := one hP h1
  obtain ⟨w2, e2⟩ := one hP' h2
  obtain ⟨w3, e3⟩ := one hQ h3
  have sheet : ∀ {P Q R S : Picture F}, SameSheet P Q → IsGraded op P R → IsGraded op Q S →
      SameSheet R S := fun a b c => ⟨by rw [c.data, b.data, a.data], by rw [c.display, b.display, a.display],
    by rw [c.channels, b.channels, a.channels], by rw [c.space, b.space, a.space]⟩
  refine ⟨⟨sheet h.first h1 h2, sheet h.second h1 h3, fun x y c hc => ?_, fun x y => ?_⟩, w1, w2, w3⟩
  · rw [e1, e2, e3, h.first.data, h.first.channels, h.second.data, h.second.channels]
    split
    · next hh =>
      have := hP.channels
      obtain ⟨a, ha⟩ := gains_value hpow hs (c := c) (by omega)
      rw [ha, ha, ha, h.colours x y c hc]
      ring
    · ring
  · have a1 := e1 x y 3
    have a2 := e2 x y 3
    have a3 := e3 x y 3
    rw [show ((3 : Nat) : Int) = 3 from rfl] at a1 a2 a3
    rw [a1, a2, a3, h.first.data, h.first.channels, h.second.data, h.second.channels, (h.alpha x y).1,
      (h.alpha x y).2]
    exact ⟨rfl, rfl⟩

theorem sum_merged {mode : MergeImageMode} (hm : mode ≠ .multiply) (hu : mode ≠ .uninitialized) {mix : F}
    {k l : F} {A A' A'' B B' B'' R R' S : Picture F} (hA : IsSum k l A A' A'') (hB : IsSum k l B B' B'')
    (cb : B.channels = 3 ∨ B.channels = 4)
    (hv : ValidSize (sizeFor ⟨min A.data.minX B.data.minX, min A.data.minY B.data.minY,
        max A.data.maxX B.data.maxX, max A.data.maxY B.data.maxY⟩ 4))
    (h1 : IsMerged mode mix A B R) (h2 : IsMerged mode mix A' B' R') (h3 : IsMerged mode mix A'' B'' S) :
    IsSum k l R R' S ∧ Whole R ∧ Whole R' ∧ Whole S := by
  have one : ∀ {A B R : Picture F}, (B.channels = 3 ∨ B.channels = 4) →
      ValidSize (sizeFor ⟨min A.data.minX B.data.minX, min A.data.minY B.data.minY,
        max A.data.maxX B.data.maxX, max A.data.maxY B.data.maxY⟩ 4) → IsMerged mode mix A B R →
      Whole R ∧ ∀ x y (c : Nat), R.value x y c = if Has R.data x y ∧ c < B.channels then
        blend mode mix (A.value x y) (B.value x y) c else 0 := by
    intro A B R cb hv hR
    have key : ∀ x y, Has R.data x y → (R.at_ x y).length = B.channels ∧
        ∀ c : Nat, c < B.channels → (R.at_ x y)[c]? =
          some (blend mode mix (A.value x y) (B.value x y) c) := by
      intro x y hxy
      obtain ⟨v, s1, l1, e1⟩ := hR.pixels x y hxy
      rw [settled_eq cb s1]
      exact ⟨l1, e1⟩
    refine ⟨⟨hR.channels ▸ cb, ?_, fun x y hxy => ?_⟩, fun x y c => ?_⟩
    · rw [hR.data, hR.channels]
      obtain ⟨v1, v2, v3, v4⟩ := hv
      refine ⟨v1, v2, by simp only [sizeFor]; omega, le_trans ?_ v4⟩
      have hp := Int.mul_pos v1 v2
      simp only [sizeFor] at hp ⊢
      exact Int.mul_le_mul_of_nonneg_left (by omega) (Int.le_of_lt hp)
    · rw [hR.channels]
      exact (key x y hxy).1
    · by_cases hxy : Has R.data x y
      · rw [value_in hxy, List.getD_eq_getElem?_getD]
        by_cases hc : c < B.channels
        · rw [if_pos ⟨hxy, hc⟩, (key x y hxy).2 c hc]
          rfl
        · rw [if_neg fun h => hc h.2, List.getElem?_eq_none (by rw [(key x y hxy).1]; omega)]
          rfl
      · rw [value_out hxy, if_neg fun h => hxy h.1]
  obtain ⟨w1, e1⟩ := one cb hv h1
  obtain ⟨w2, e2⟩ := one (hB.first.channels ▸ cb)
    (by rw [hA.first.data, hB.first.data]; exact hv) h2
  obtain ⟨w3, e3⟩ := one (hB.second.channels ▸ cb)
    (by rw [hA.second.data, hB.second.data]; exact hv) h3
  have sheet : ∀ {A B R A' B' R' : Picture F}, SameSheet A A' → SameSheet B B' →
      IsMerged mode mix A B R → IsMerged mode mix A' B' R' → SameSheet R R' := fun a b c d =>
    ⟨by rw [d.data, c.data, a.data, b.data], by rw [d.display, c.display, b.display],
      by rw [d.channels, c.channels, b.channels], by rw [d.space, c.space]⟩
  have s1 := sheet hA.first hB.first h1 h2
  have s2 := sheet hA.second hB.second h1 h3
  refine ⟨⟨s1, s2, fun x y c hc => ?_, fun x y => ?_⟩, w1, w2, w3⟩
  · rw [e1, e2, e3, s1.data, s2.data, hB.first.channels, hB.second.channels]
    split
    · have a := hA.colours x y c hc
      have b := hB.colours x y c hc
      obtain ⟨t1, t2⟩ := hA.alpha x y
      cases mode with
      | add =>
        show A''.value x y c + B''.value x y c * mix = k * (A.value x y c + B.value x y c * mix) +
          l * (A'.value x y c + B'.value x y c * mix)
        rw [a, b]
        ring
      | over =>
        show A''.value x y c + B''.value x y c * ((1 - A''.value x y 3) * mix) =
          k * (A.value x y c + B.value x y c * ((1 - A.value x y 3) * mix)) +
          l * (A'.value x y c + B'.value x y c * ((1 - A'.value x y 3) * mix))
        rw [a, b, t1, t2]
        ring
      | multiply => exact absurd rfl hm
      | uninitialized => exact absurd rfl hu
    · ring
  · have a1 := e1 x y 3
    have a2 := e2 x y 3
    have a3 := e3 x y 3
    rw [show ((3 : Nat) : Int) = 3 from rfl] at a1 a2 a3
    rw [a1, a2, a3, s1.data, s2.data, hB.first.channels, hB.second.channels]
    obtain ⟨t1, t2⟩ := hA.alpha x y
    obtain ⟨u1, u2⟩ := hB.alpha x y
    have : ∀ {A A' B B' : Int → F}, A' 3 = A 3 → B' 3 = B 3 →
        blend mode mix A' B' 3 = blend mode mix A B 3 := by
      intro A A' B B' p q
      cases mode <;> simp only [blend, p, q]
    rw [this t1 u1, this t2 u2]
    exact ⟨rfl, rfl⟩

variable [FloatConst F] [HalfLike F H]

/-- The layers have the same deformers waiting, and the light of the pictures adds up. -/
def Adds (k l : F) (L L' L'' : Layer F) : Prop :=
  IsSum k l L.still L'.still L''.still ∧ Whole L.still ∧ Whole L'.still ∧ Whole L''.still ∧
    L'.moves = L.moves ∧ L''.moves = L.moves

/-- All three lists have the same length and belong together. -/
inductive AllAdd (k l : F) : List (Layer F) → List (Layer F) → List (Layer F) → Prop
  | nil : AllAdd k l [] [] []
  | cons {L L' L'' Ls Ls' Ls''} : Adds k l L L' L'' → AllAdd k l Ls Ls' Ls'' →
      AllAdd k l (L :: Ls) (L' :: Ls') (L'' :: Ls'')

theorem AllAdd.map {k l : F} {pic pic' pic'' : Nat → Layer F} {ins : List Nat}
    (h : ∀ i ∈ ins, Adds k l (pic i) (pic' i) (pic'' i)) :
    AllAdd k l (ins.map pic) (ins.map pic') (ins.map pic'') := by
  induction ins with
  | nil => exact .nil
  | cons i ins ih =>
    exact .cons (h i List.mem_cons_self) (ih fun j hj => h j (List.mem_cons_of_mem _ hj))

theorem adds_rests {k l : F} {lib lib' lib'' : NodeLib F H} (hl : SameTools lib lib')
    (hl' : SameTools lib lib'') {L L' L'' : Layer F} (h : Adds k l L L' L'') {R R' R'' : Picture F}
    (h1 : Rests lib L R) (h2 : Rests lib' L' R') (h3 : Rests lib'' L'' R'') :
    IsSum k l R R' R'' ∧ Whole R ∧ Whole R' ∧ Whole R'' := by
  obtain ⟨hs, w1, w2, w3, m1, m2⟩ := h
  unfold Rests at h1 h2 h3
  rw [← hl.deform, m1] at h2
  rw [← hl'.deform, m2] at h3
  obtain ⟨f, hf⟩ := looks_rests w1 h1
  obtain ⟨-, b1, c1⟩ := hf _ _ (sheet_refl _) w1 h1
  obtain ⟨a2, b2, c2⟩ := hf _ _ hs.first w2 h2
  obtain ⟨a3, b3, c3⟩ := hf _ _ hs.second w3 h3
  exact ⟨sum_looks hs c1 c2 c3 a2 a3, b1, b2, b3⟩

/-- The picture of a file is whole. -/
theorem file_whole {lib : NodeLib F H} {path : Bytes} {P : Picture F} (h : IsFile lib path P) :
    Whole P := by
  obtain ⟨spec, t, k, v, -, -, h3, h4, h5, h6, h7, h8, h9, h10, -, h12, h13⟩ := h
  have hv : ValidSize (sizeFor P.data P.channels) := by
    have hsz : sizeFor P.data P.channels = ⟨spec.width, spec.height, P.channels⟩ := by
      rw [h7]; unfold sizeFor; dsimp only; rw [BlockSize.mk.injEq]
      exact ⟨by omega, by omega, rfl⟩
    rw [hsz]
    refine ⟨h3.width, h3.height, by dsimp only; omega, le_trans ?_ h3.area⟩
    exact Int.mul_le_mul_of_nonneg_left (by dsimp only; omega)
      (Int.mul_nonneg (Int.le_of_lt h3.width) (Int.le_of_lt h3.height))
  refine ⟨h5, hv, fun x y hxy => ?_⟩
  rw [settled_eq h5 (h13 x y hxy)]
  exact pixelAt_length hv h12 hxy

theorem read_adds {k l : F} {lib lib' lib'' : NodeLib F H} {fr : F} {n : Node F}
    {Ls Ls' Ls'' : List (Layer F)} {L L' L'' : Layer F} (ht : n.attrs.nodeType = .readImage)
    (hs : IsSum k l L.still L'.still L''.still) (h1 : Makes lib fr n Ls L)
    (h2 : Makes lib' fr n Ls' L') (h3 : Makes lib'' fr n Ls'' L'') : Adds k l L L' L'' := by
  have still : ∀ {lib : NodeLib F H} {Ls : List (Layer F)} {L : Layer F}, Makes lib fr n Ls L →
      L.moves = [] := by
    intro lib Ls L h
    cases h <;> first
      | rfl
      | exact (type_clash ht (by assumption) (by decide)).elim
      | (simp [ht] at *; done)
  exact ⟨hs, file_whole (read_isFile ht h1), file_whole (read_isFile ht h2),
    file_whole (read_isFile ht h3), (still h2).trans (still h1).symm,
    (still h3).trans (still h1).symm⟩

/-- A node that adds light makes pictures whose light adds up of pictures whose light adds up. -/
theorem makes_light (hpow : ∀ x : F, FloatOps.powf x 1 = x) {k l : F} {lib lib' lib'' : NodeLib F H}
    (hl : SameTools lib lib') (hl' : SameTools lib lib'') {fr : F} {n : Node F} (ha : AddsLight n)
    {Ls Ls' Ls'' : List (Layer F)} {L L' L'' : Layer F} (h1 : Makes lib fr n Ls L)
    (h2 : Makes lib' fr n Ls' L') (h3 : Makes lib'' fr n Ls'' L'') (hin : AllAdd k l Ls Ls' Ls'')
    (hr : n.attrs.nodeType = .readImage → Adds k l L L' L'') : Adds k l L L' L'' := by
  have one : ∀ {A B C : Layer F}, AllAdd k l [A] [B] [C] → Adds k l A B C := by
    rintro A B C (_ | ⟨h, _⟩)
    exact h
  cases h1 with
  | read ht => exact hr ht
  | null ht =>
    cases h2 with
    | null ht' =>
      cases h3 with
      | null ht'' =>
          exact one hin
      | _ => exfalso; simp_all; done
    | _ => exfalso; simp_all; done
  | grade ht hg ho hQ =>
    cases h2 with
    | grade ht' hg' ho' hQ' =>
      cases h3 with
      | grade ht'' hg'' ho'' hQ'' =>
          obtain ⟨hs, w1, w2, w3, m1, m2⟩ := one hin
          rw [gradeOf_unique ht ho' ho] at hQ'
          rw [gradeOf_unique ht ho'' ho] at hQ''
          obtain ⟨a, b, c, d⟩ := sum_graded hpow ho.1 (ha.grade ht _ ho) w1 w2 w3 hs hQ hQ' hQ''
          exact ⟨a, b, c, d, m1, m2⟩
      | _ => exfalso; simp_all; done
    | _ => exfalso; simp_all; done
  | gradeOff ht hg =>
    cases h2 with
    | gradeOff ht' hg' =>
      cases h3 with
      | gradeOff ht'' hg'' =>
          exact one hin
      | _ => exfalso; simp_all; done
    | _ => exfalso; simp_all; done
  | transform ht he hd hdesc =>
    cases h2 with
    | transform ht' he' hd' hdesc' =>
      cases h3 with
      | transform ht'' he'' hd'' hdesc'' =>
          obtain ⟨hs, w1, w2, w3, m1, m2⟩ := one hin
          refine ⟨hs, w1, w2, w3, ?_, ?_⟩
          · show _ ++ _ = _ ++ _
            dsimp only at m1
            rw [m1, transform_unique ht hd' hdesc' hd hdesc]
          · show _ ++ _ = _ ++ _
            dsimp only at m2
            rw [m2, transform_unique ht hd'' hdesc'' hd hdesc]
      | _ => exfalso; simp_all; done
    | _ => exfalso; simp_all; done
  | lens ht he hd hdesc hcam =>
    cases h2 with
    | lens ht' he' hd' hdesc' hcam' =>
      cases h3 with
      | lens ht'' he'' hd'' hdesc'' hcam'' =>
          obtain ⟨hs, w1, w2, w3, m1, m2⟩ := one hin
          refine ⟨hs, w1, w2, w3, ?_, ?_⟩
          · show _ ++ _ = _ ++ _
            dsimp only at m1
            rw [m1, lens_unique ht hd' hdesc' hcam' hd hdesc hcam]
          · show _ ++ _ = _ ++ _
            dsimp only at m2
            rw [m2, lens_unique ht hd'' hdesc'' hcam'' hd hdesc hcam]
      | _ => exfalso; simp_all; done
    | _ => exfalso; simp_all; done
  | off ht he =>
    cases h2 with
    | off ht' he' =>
      cases h3 with
      | off ht'' he'' =>
          exact one hin
      | _ => exfalso; simp_all; done
    | _ => exfalso; simp_all; done
  | resampleIdle ht he hf =>
    cases h2 with
    | resampleIdle ht' he' hf' =>
      cases h3 with
      | resampleIdle ht'' he'' hf'' =>
          exact one hin
      | _ => exfalso; simp_all; done
    | _ => exfalso; simp_all; done
  | resample ht he hf hi hpick hs hc4 hw hh hQ =>
    cases h2 with
    | resample ht' he' hf' hi' hpick' hs' hc4' hw' hh' hQ' =>
      cases h3 with
      | resample ht'' he'' hf'' hi'' hpick'' hs'' hc4'' hw'' hh'' hQ'' =>
          obtain ⟨hs, w1, w2, w3, m1, m2⟩ := one hin
          obtain ⟨f, hf⟩ := looks_resample hpick w1 hw hh hQ
          obtain ⟨-, b1, c1⟩ := hf hpick (fun _ _ _ _ _ _ _ => rfl) (sheet_refl _) w1 hQ
          obtain ⟨a2, b2, c2⟩ := hf hpick' hl.resample hs.first w2 hQ'
          obtain ⟨a3, b3, c3⟩ := hf hpick'' hl'.resample hs.second w3 hQ''
          exact ⟨sum_looks hs c1 c2 c3 a2 a3, b1, b2, b3, m1, m2⟩
      | _ => exfalso; simp_all; done
    | _ => exfalso; simp_all; done
  | crop ht he hb hR hs hv hQ =>
    cases h2 with
    | crop ht' he' hb' hR' hs' hv' hQ' =>
      cases h3 with
      | crop ht'' he'' hb'' hR'' hs'' hv'' hQ'' =>
          obtain ⟨hs, w1, w2, w3⟩ := adds_rests hl hl' (one hin) hR hR' hR''
          obtain ⟨b1, c1⟩ := looks_crop w1 hv hQ
          obtain ⟨b2, c2⟩ := looks_crop w2 hv' hQ'
          obtain ⟨b3, c3⟩ := looks_crop w3 hv'' hQ''
          refine ⟨sum_looks hs c1 c2 c3 ?_ ?_, b1, b2, b3, rfl, rfl⟩
          · exact ⟨by rw [hQ.data, hQ'.data], by rw [hQ.display, hQ'.display, hs.first.display],
              by rw [hQ.channels, hQ'.channels, hs.first.channels],
              by rw [hQ.space, hQ'.space, hs.first.space]⟩
          · exact ⟨by rw [hQ.data, hQ''.data], by rw [hQ.display, hQ''.display, hs.second.display],
              by rw [hQ.channels, hQ''.channels, hs.second.channels],
              by rw [hQ.space, hQ''.space, hs.second.space]⟩
      | _ => exfalso; simp_all; done
    | _ => exfalso; simp_all; done
  | merge ht he hm hA hB hd ca cb hv hQ =>
    cases h2 with
    | merge ht' he' hm' hA' hB' hd' ca' cb' hv' hQ' =>
      cases h3 with
      | merge ht'' he'' hm'' hA'' hB'' hd'' ca'' cb'' hv'' hQ'' =>
          obtain ⟨a, b⟩ : Adds k l _ _ _ ∧ Adds k l _ _ _ := by
            cases hin with
            | cons a b => exact ⟨a, one b⟩
          obtain ⟨sA, -, -, -⟩ := adds_rests hl hl' a hA hA' hA''
          obtain ⟨sB, -, -, -⟩ := adds_rests hl hl' b hB hB' hB''
          obtain ⟨c1, c2, c3, c4⟩ := sum_merged (ha.merge ht) hm sA sB cb hv hQ hQ' hQ''
          exact ⟨c1, c2, c3, c4, rfl, rfl⟩
      | _ => exfalso; simp_all; done
    | _ => exfalso; simp_all; done
  | viewer ht he hb hc hs hty hQ =>
    cases h2 with
    | viewer ht' he' hb' hc' hs' hty' hQ' =>
      cases h3 with
      | viewer ht'' he'' hb'' hc'' hs'' hty'' hQ'' =>
          obtain ⟨hs, w1, w2, w3, m1, m2⟩ := one hin
          have z := ha.viewer ht
          rw [z] at hty hty' hty''
          have e1 := hty .f32
          have e2 := hty' .f32
          have e3 := hty'' .f32
          change DType.f32 = _ at e1 e2 e3
          subst e1 e2 e3
          obtain ⟨b1, c1⟩ := looks_baked w1 hQ
          obtain ⟨b2, c2⟩ := looks_baked w2 hQ'
          obtain ⟨b3, c3⟩ := looks_baked w3 hQ''
          refine ⟨sum_looks hs c1 c2 c3 ?_ ?_, b1, b2, b3, m1, m2⟩
          · exact ⟨by rw [hQ.data, hQ'.data, hs.first.data], by rw [hQ.display, hQ'.display, hs.first.display],
              by rw [hQ.channels, hQ'.channels, hs.first.channels], by rw [hQ.space, hQ'.space]⟩
          · exact ⟨by rw [hQ.data, hQ''.data, hs.second.data],
              by rw [hQ.display, hQ''.display, hs.second.display],
              by rw [hQ.channels, hQ''.channels, hs.second.channels], by rw [hQ.space, hQ''.space]⟩
      | _ => exfalso; simp_all; done
    | _ => exfalso; simp_all; done
  | viewerSpace ht he hb =>
    cases h2 with
    | viewerSpace ht' he' hb' =>
      cases h3 with
      | viewerSpace ht'' he'' hb'' =>
          exact one hin
      | _ => exfalso; simp_all; done
    | _ => exfalso; simp_all; done
  | viewerOff ht he hb =>
    cases h2 with
    | viewerOff ht' he' hb' =>
      cases h3 with
      | viewerOff ht'' he'' hb'' =>
          exact one hin
      | _ => exfalso; simp_all; done
    | _ => exfalso; simp_all; done
  | write ht he hx =>
    cases h2 with
    | write ht' he' hx' =>
      cases h3 with
      | write ht'' he'' hx'' =>
          exact one hin
      | _ => exfalso; simp_all; done
    | _ => exfalso; simp_all; done
  | writeOff ht he hx =>
    cases h2 with
    | writeOff ht' he' hx' =>
      cases h3 with
      | writeOff ht'' he'' hx'' =>
          exact one hin
      | _ => exfalso; simp_all; done
    | _ => exfalso; simp_all; done

/-- C144: in a graph of nodes that add light, the light of all pictures adds up if that of the
sources does. -/
theorem C144_pictures (hpow : ∀ x : F, FloatOps.powf x 1 = x) {k l : F}
    {lib lib' lib'' : NodeLib F H} (hl : SameTools lib lib') (hl' : SameTools lib lib'')
    {srt : EdgeSort} {g : Graph (Node F) (Stream F H)} (hg : Sound g) {start : Nat}
    (hs : g.graph.contains start = true) {order d : List Nat}
    (hi : SInv g.graph start order ⟨[], d⟩) (ht : Topo g.graph order) {frame : F}
    {pic pic' pic'' : Nat → Layer F} (hp : Pictures lib srt g start frame pic)
    (hp' : Pictures lib' srt g start frame pic') (hp'' : Pictures lib'' srt g start frame pic'')
    (hn : ∀ i n, Upstream g.graph start i → g.nodes[i]? = some n → AddsLight n)
    (hr : ∀ i n, Upstream g.graph start i → g.nodes[i]? = some n → n.attrs.nodeType = .readImage →
      IsSum k l (pic i).still (pic' i).still (pic'' i).still) :
    ∀ i, Upstream g.graph start i → Adds k l (pic i) (pic' i) (pic'' i) := by
  have key : ∀ m i, order.length - order.idxOf i ≤ m → Upstream g.graph start i →
      Adds k l (pic i) (pic' i) (pic'' i) := by
    intro m
    induction m with
    | zero =>
      intro i hk hu
      have := List.idxOf_lt_length_of_mem ((hi.final_mem i).mpr hu)
      omega
    | succ m ih =>
      intro i hk hu
      have hlive := hg.upstream_live hs hu
      obtain ⟨n, hni⟩ : ∃ n, g.nodes[i]? = some n := by
        exact ⟨_, List.getElem?_eq_getElem (hg.live i hlive)⟩
      have a := hp i n _ hu hni (hg.direct srt hlive)
      have b := hp' i n _ hu hni (hg.direct srt hlive)
      have c := hp'' i n _ hu hni (hg.direct srt hlive)
      refine makes_light hpow hl hl' (hn i n hu hni) a b c (AllAdd.map fun u hmem => ?_) fun hnt => ?_
      · obtain ⟨hf, hne⟩ := (hg.mem_parents srt).mp hmem
        have := ht i ((hi.final_mem i).mpr hu) u hf hne
        have h2 := List.idxOf_lt_length_of_mem ((hi.final_mem u).mpr (.step hu hf))
        exact ih u (by omega) (.step hu hf)
      · exact read_adds hnt (hr i n hu hni hnt) a b c
  exact fun i hu => key _ i (Nat.le_refl _) hu

variable [FloatBits F] in
/-- C144: of three executions of a graph of nodes that add light, the third puts out `k` times the
light of the first and `l` times the light of the second, with the same alpha and the same deformers
waiting, if its sources do. -/
theorem C144_execution (p : Profile) (hpow : ∀ x : F, FloatOps.powf x 1 = x) {k l : F}
    (lib lib' lib'' : NodeLib F H) (hl : SameTools lib lib') (hl' : SameTools lib lib'')
    (srt : EdgeSort) {g : Graph (Node F) (Stream F H)} {r r' r'' : Bool}
    (h : Reach (nodeSem p lib) srt r g) (h' : Reach (nodeSem p lib') srt r' g)
    (h'' : Reach (nodeSem p lib'') srt r'' g)
    {id start : Nat} (hid : At g id start) (hs : g.graph.contains start = true)
    {frames : List F} {frame : F} (hlast : frames.getLast? = some frame)
    {pic pic' pic'' : F → Nat → Layer F}
    (hp : ∀ fr ∈ frames, Pictures lib srt g start fr (pic fr))
    (hp' : ∀ fr ∈ frames, Pictures lib' srt g start fr (pic' fr))
    (hp'' : ∀ fr ∈ frames, Pictures lib'' srt g start fr (pic'' fr))
    (hn : ∀ i n, Upstream g.graph start i → g.nodes[i]? = some n → AddsLight n)
    (hr : ∀ i n, Upstream g.graph start i → g.nodes[i]? = some n → n.attrs.nodeType = .readImage →
      IsSum k l (pic frame i).still (pic' frame i).still (pic'' frame i).still)
    {w1 w2 w3 w4 w5 w6 : World F H} (hw : IsOff w1) (hw' : IsOff w3) (hw'' : IsOff w5)
    {fuel fuel' fuel'' : Nat} {st st' st'' : ExecuteStatus}
    {g1 g2 g3 : Graph (Node F) (Stream F H)}
    (hx : g.execute (nodeSem p lib) srt fuel id frames w1 = .ok (st, g1, w2))
    (hx' : g.execute (nodeSem p lib') srt fuel' id frames w3 = .ok (st', g2, w4))
    (hx'' : g.execute (nodeSem p lib'') srt fuel'' id frames w5 = .ok (st'', g3, w6)) :
    ∃ P P' Q, Still lib.bake.color g1.output P ∧ Still lib'.bake.color g2.output P' ∧
      Still lib''.bake.color g3.output Q ∧ IsSum k l P P' Q ∧
      g1.output.deformers.filter (fun d => d.enable = 1) =
        g2.output.deformers.filter (fun d => d.enable = 1) ∧
      g1.output.deformers.filter (fun d => d.enable = 1) =
        g3.output.deformers.filter (fun d => d.enable = 1) := by
  obtain ⟨order, d, e, hi⟩ := order_of_reach h hs
  have ht := execute_topo h.inv.sound hid hs (fun e => by rw [e] at hlast; cases hlast) hx e hi
  have hf : frame ∈ frames := List.mem_of_getLast? hlast
  obtain ⟨-, -, a⟩ := C87_graph_returns_partial p lib srt h hid hs hlast hp hw hx
  obtain ⟨-, -, b⟩ := C87_graph_returns_partial p lib' srt h' hid hs hlast hp' hw' hx'
  obtain ⟨-, -, c⟩ := C87_graph_returns_partial p lib'' srt h'' hid hs hlast hp'' hw'' hx''
  obtain ⟨c1, -, -, -, c5, c6⟩ := C144_pictures hpow hl hl' h.inv.sound hs hi ht (hp frame hf)
    (hp' frame hf) (hp'' frame hf) hn hr start .refl
  exact ⟨_, _, _, a.1, b.1, c.1, c1, (a.2.trans c5.symm).trans b.2.symm,
    (a.2.trans c6.symm).trans c.2.symm⟩

end

/-! ### Examples -/

section
attribute [local instance] zOrder zOps zPi zBits zHalf

/-- A pixel of four floats. -/
def zSpec : FileSpec (ZMod 7) :=
  { x := 0, y := 0, width := 1, height := 1, fullX := 0, fullY := 0, fullWidth := 1
    fullHeight := 1, numChannels := 4, format := .known .f32, colorSpace := colorSpaceLinear
    gamma := 1, pixelAspect := 1, orientation := 1
    unassociatedAlpha := 0, dither := 0 }

/-- The pixel of file `a` is half there, that of all other files is there. -/
def zPixel (a b : ZMod 7) (path : Bytes) : List (ZMod 7) :=
  if path = [97] then [a, a, 2 * a, 4] else [b, 0, b, 1]

/-- All files are one pixel. -/
def zFiles (a b : ZMod 7) : NodeLib (ZMod 7) (ZMod 7) :=
  { zLib with
    pathKind := fun _ => .file
    oiio := { zLib.oiio with
      header := fun _ => some zSpec
      pixels := fun path _ t _ old => match t with
        | .f32 => fillWith (zPixel a b path) old
        | .f16 => old
        | .u8 => old
        | .u16 => old
      pixels_length := by
        intro path n t size old
        cases t
        · exact fillWith_length (A := ZMod 7) _ _
        · rfl
        · rfl
        · rfl } }

/-- Reading a file. -/
def zRead (id : Nat) (path : Bytes) : Node (ZMod 7) :=
  ⟨id, .uninitialized, .readImage { ReadImageAttrs.new with enable := 1, filePath := path }⟩

/-- Three times red, and everything lifted in alpha (which is not processed). -/
def zGain (id : Nat) : Node (ZMod 7) :=
  ⟨id, .uninitialized, .grade { GradeAttrs.new with multiplyR := 3, liftA := 2 }⟩

/-- One picture over another. -/
def zOver (id : Nat) : Node (ZMod 7) := ⟨id, .uninitialized, .mergeImage MergeImageAttrs.new⟩

/-- One file, brighter in red, over another. -/
def zGraph : Graph (Node (ZMod 7)) (Stream (ZMod 7) (ZMod 7)) :=
  ⟨[zRead 1 [97], zRead 2 [98], zGain 3, zOver 4], [1, 2, 3, 4],
    ⟨[some 1, some 2, some 3, some 4], [], [⟨1, 3, 1⟩, ⟨2, 3, 0⟩, ⟨0, 2, 0⟩]⟩, .new, .dirty,
    .uninitialized⟩

theorem zGraph_reach (a b : ZMod 7) : Reach (nodeSem .debug (zFiles a b)) insSort false zGraph := by
  have h0 : Reach (nodeSem .debug (zFiles a b)) insSort false _ := .new .new
  have h1 := Reach.add (g' := ⟨[zRead 1 [97]], [1], ⟨[some 1], [], []⟩, .new, .dirty, .uninitialized⟩) (zRead 1 [97]) h0 rfl
  have h2 := Reach.add (g' := ⟨[zRead 1 [97], zRead 2 [98]], [1, 2], ⟨[some 1, some 2], [], []⟩, .new, .dirty, .uninitialized⟩) (zRead 2 [98]) h1 rfl
  have h3 := Reach.add (g' := ⟨[zRead 1 [97], zRead 2 [98], zGain 3], [1, 2, 3], ⟨[some 1, some 2, some 3], [], []⟩, .new, .dirty, .uninitialized⟩) (zGain 3) h2 rfl
  have h4 := Reach.add (g' := ⟨[zRead 1 [97], zRead 2 [98], zGain 3, zOver 4], [1, 2, 3, 4], ⟨[some 1, some 2, some 3, some 4], [], []⟩, .new, .dirty, .uninitialized⟩) (zOver 4) h3 rfl
  have h5 := Reach.connect (g' := ⟨[zRead 1 [97], zRead 2 [98], zGain 3, zOver 4], [1, 2, 3, 4], ⟨[some 1, some 2, some 3, some 4], [], [⟨0, 2, 0⟩]⟩, .new, .dirty, .uninitialized⟩)
    1 3 0 h4 rfl
  have h6 := Reach.connect (g' := ⟨[zRead 1 [97], zRead 2 [98], zGain 3, zOver 4], [1, 2, 3, 4], ⟨[some 1, some 2, some 3, some 4], [], [⟨2, 3, 0⟩, ⟨0, 2, 0⟩]⟩, .new, .dirty, .uninitialized⟩)
    3 4 0 h5 rfl
  have h7 := Reach.connect (g' := ⟨[zRead 1 [97], zRead 2 [98], zGain 3, zOver 4], [1, 2, 3, 4], ⟨[some 1, some 2, some 3, some 4], [], [⟨1, 3, 1⟩, ⟨2, 3, 0⟩, ⟨0, 2, 0⟩]⟩, .new, .dirty, .uninitialized⟩)
    2 4 1 h6 rfl
  exact h7

theorem zGraph_at : At zGraph 4 3 := by
  refine ⟨rfl, ?_⟩
  intro j hj
  rcases j with _ | _ | _ | j <;> first | decide | omega

/-- One pixel. -/
def zPicture (px : List (ZMod 7)) : Picture (ZMod 7) :=
  ⟨⟨0, 0, 1, 1⟩, ⟨0, 0, 1, 1⟩, 4, colorSpaceLinear, fun _ _ => px⟩

/-- The two files, the brighter one, and what is over what: `1 - 4` of the second shows. -/
def zLayers (a b : ZMod 7) (i : Nat) : Layer (ZMod 7) :=
  ⟨zPicture (if i = 0 then [a, a, 2 * a, 4] else if i = 1 then [b, 0, b, 1] else
    if i = 2 then [3 * a, a, 2 * a, 4] else [3 * a - 3 * b, a, 2 * a - 3 * b, 1]), []⟩

theorem z_still (px : List (ZMod 7)) : applyColorMatrix px 4 (Mat4.identity : Mat4 (ZMod 7)) = .ok px := by
  exact C57_identity (F := ZMod 7) (n := 4) (.inr (.inr rfl)) px

theorem z_file (a b : ZMod 7) (path : Bytes) :
    IsFile (zFiles a b) path (zPicture (zPixel a b path)) := by
  obtain ⟨x, y, z, w, e⟩ : ∃ x y z w, zPixel a b path = [x, y, z, w] := by
    unfold zPixel
    split
    exacts [⟨_, _, _, _, rfl⟩, ⟨_, _, _, _, rfl⟩]
  refine ⟨zSpec, .f32, 4, zPixel a b path, rfl, rfl, by constructor <;> decide, rfl, .inr rfl, rfl,
    rfl, rfl, rfl, rfl, ⟨zPixel a b path, ?_, fun _ => rfl, fun h => absurd rfl h⟩, by rw [e]; rfl, ?_⟩
  · refine (C18_convert_same (⟨_, ⟨.f32, _⟩⟩ : PixelBlock (ZMod 7) (ZMod 7))).trans ?_
    refine congrArg (fun l : List (ZMod 7) => Except.ok (floatImage (H := ZMod 7) _ l)) ?_
    show fillWith (zPixel a b path) _ = _
    rw [e]
    rfl
  · intro u v h
    obtain ⟨rfl, rfl⟩ := has_one h
    refine ⟨zPixel a b path, ?_, .nil _⟩
    refine Eq.trans (congrArg (fun l => applyColorMatrix l 4 (Mat4.identity : Mat4 (ZMod 7))) ?_)
      (z_still _)
    rw [e]
    rfl

/-- The grade of the node. -/
def zGainOp : GradeOp (ZMod 7) := ({ GradeAttrs.new with multiplyR := 3, liftA := 2 } : GradeAttrs (ZMod 7)).op

theorem zGain_op : IsGradeOf (zGain 3) zGainOp := by
  have ht : (zGain 3).attrs.nodeType = .grade := rfl
  refine ⟨rfl, ⟨?_, ?_⟩⟩
  · simp only [ht, AttrSpec.names, List.forall_mem_cons, List.not_mem_nil, false_implies,
      implies_true, and_true]
    (repeat' apply And.intro) <;> first | rfl | exact fun _ => rfl
  · simp only [ht, AttrSpec.names, List.forall_mem_cons, List.not_mem_nil, false_implies,
      implies_true, and_true]
    (repeat' apply And.intro) <;> rfl

theorem zGain_gains : Gains zGainOp := by
  refine ⟨rfl, fun c hc => .inr ⟨1, 1, if c = 0 then 3 else 1, ?_⟩⟩
  interval_cases c <;> rfl

theorem z_graded (a : ZMod 7) : zGainOp.applySlice [a, a, 2 * a, 4] 4 = .ok [3 * a, a, 2 * a, 4] := by
  revert a
  decide +kernel

theorem z_over (a b : ZMod 7) (c : Fin 4) :
    ([3 * a - 3 * b, a, 2 * a - 3 * b, 1] : List (ZMod 7))[c.val]? =
      some (blend .over 1 ((zPicture [3 * a, a, 2 * a, 4]).value 0 0)
        ((zPicture [b, 0, b, 1]).value 0 0) (c.val : Nat)) := by
  revert a b c
  decide +kernel

theorem z_pictures (a b frame : ZMod 7) :
    Pictures (zFiles a b) insSort zGraph 3 frame (zLayers a b) := by
  intro i n ins _ hn hins
  rcases i with _ | _ | _ | _ | i
  · cases hn
    cases hins
    exact .read rfl (by decide) (z_file a b _)
  · cases hn
    cases hins
    exact .read rfl (by decide) (z_file a b _)
  · cases hn
    cases hins
    exact .grade rfl ⟨rfl, .inl (by decide)⟩ zGain_op
      ⟨rfl, rfl, rfl, rfl, fun x y _ => .step rfl (z_graded a) (.nil _)⟩
  · cases hn
    cases hins
    refine .merge rfl rfl (by decide) (rests_refl _ _) (rests_refl _ _) rfl (.inr rfl) (.inr rfl)
      (show ValidSize ⟨1, 1, 4⟩ by unfold ValidSize; decide)
      ⟨rfl, rfl, rfl, rfl, fun x y h => ?_⟩
    obtain ⟨rfl, rfl⟩ := has_one h
    exact ⟨_, ⟨_, z_still _, .nil _⟩, rfl, fun c hc => z_over a b ⟨c, hc⟩⟩
  · cases hn

theorem z_adds : ∀ i n, Upstream zGraph.graph 3 i → zGraph.nodes[i]? = some n → AddsLight n := by
  intro i n _ hn
  rcases i with _ | _ | _ | _ | i
  · cases hn; exact ⟨by rintro ⟨⟩, by rintro ⟨⟩, by rintro ⟨⟩⟩
  · cases hn; exact ⟨by rintro ⟨⟩, by rintro ⟨⟩, by rintro ⟨⟩⟩
  · cases hn
    refine ⟨fun _ op ho => ?_, by rintro ⟨⟩, by rintro ⟨⟩⟩
    rw [gradeOf_unique rfl ho zGain_op]
    exact zGain_gains
  · cases hn; exact ⟨by rintro ⟨⟩, fun _ => by decide, by rintro ⟨⟩⟩
  · cases hn

theorem z_value (px : List (ZMod 7)) (x y : Int) (c : Nat) : (zPicture px).value x y c =
    if Has ⟨0, 0, 1, 1⟩ x y then px.getD c 0 else 0 := by
  split
  · exact value_in (P := zPicture px) ‹_› c
  · exact value_out (P := zPicture px) ‹_› c

theorem z_alpha {px px' : List (ZMod 7)} (x y : Int) (h : px.getD 3 0 = px'.getD 3 0) :
    (zPicture px).value x y 3 = (zPicture px').value x y 3 := by
  have a := z_value px x y 3
  have b := z_value px' x y 3
  rw [h] at a
  exact a.trans b.symm

theorem z_sum (a b a' b' : ZMod 7) (i : Nat) (hi : i < 2) :
    IsSum 1 1 (zLayers a b i).still (zLayers a' b' i).still
      (zLayers (a + a') (b + b') i).still := by
  refine ⟨⟨rfl, rfl, rfl, rfl⟩, ⟨rfl, rfl, rfl, rfl⟩, fun x y c hc => ?_, fun x y => ?_⟩
  · unfold zLayers
    simp only [z_value]
    by_cases h : Has ⟨0, 0, 1, 1⟩ x y
    · simp only [if_pos h]
      have : c = 0 ∨ c = 1 ∨ c = 2 ∨ 4 ≤ c := by omega
      have hi : i = 0 ∨ i = 1 := by omega
      rcases this with rfl | rfl | rfl | hc
      · rcases hi with rfl | rfl <;> simp
      · rcases hi with rfl | rfl <;> simp
      · rcases hi with rfl | rfl <;> simp <;> ring
      · obtain ⟨c, rfl⟩ : ∃ d, c = d + 4 := ⟨c - 4, by omega⟩
        rcases hi with rfl | rfl <;> simp
    · simp only [if_neg h]; rfl
  · have hi : i = 0 ∨ i = 1 := by omega
    rcases hi with rfl | rfl <;>
      exact ⟨z_alpha x y rfl, z_alpha x y rfl⟩

theorem z_tools (a b a' b' : ZMod 7) : SameTools (zFiles a b) (zFiles a' b') :=
  ⟨rfl, fun _ _ _ _ _ _ _ => rfl⟩

/-- The hypotheses of C144 are met: with other values in the two files, and with the sums. -/
example : ∃ g1 w1 g2 w2 g3 w3 P P' Q,
    zGraph.execute (nodeSem .debug (zFiles 1 2)) insSort 20 4 [1] zWorld = .ok (.success, g1, w1) ∧
    zGraph.execute (nodeSem .debug (zFiles 3 1)) insSort 20 4 [1] zWorld = .ok (.success, g2, w2) ∧
    zGraph.execute (nodeSem .debug (zFiles 4 3)) insSort 20 4 [1] zWorld = .ok (.success, g3, w3) ∧
    Still zLib.bake.color g1.output P ∧ Still zLib.bake.color g2.output P' ∧
    Still zLib.bake.color g3.output Q ∧ IsSum 1 1 P P' Q := by
  obtain ⟨g1, w1, e1⟩ : ∃ g1 w1, zGraph.execute (nodeSem .debug (zFiles 1 2)) insSort 20 4 [1] zWorld =
    .ok (.success, g1, w1) := ⟨_, _, rfl⟩
  obtain ⟨g2, w2, e2⟩ : ∃ g1 w1, zGraph.execute (nodeSem .debug (zFiles 3 1)) insSort 20 4 [1] zWorld =
    .ok (.success, g1, w1) := ⟨_, _, rfl⟩
  obtain ⟨g3, w3, e3⟩ : ∃ g1 w1, zGraph.execute (nodeSem .debug (zFiles 4 3)) insSort 20 4 [1] zWorld =
    .ok (.success, g1, w1) := ⟨_, _, rfl⟩
  obtain ⟨P, P', Q, h1, h2, h3, h4, -⟩ := C144_execution .debug (fun x => if_pos rfl) (k := 1) (l := 1)
    (zFiles 1 2) (zFiles 3 1) (zFiles 4 3) (z_tools ..) (z_tools ..) insSort (zGraph_reach ..)
    (zGraph_reach ..) (zGraph_reach ..) zGraph_at rfl (frames := [1]) (frame := 1) rfl
    (pic := fun _ => zLayers 1 2) (pic' := fun _ => zLayers 3 1) (pic'' := fun _ => zLayers 4 3)
    (fun fr _ => z_pictures 1 2 fr) (fun fr _ => z_pictures 3 1 fr) (fun fr _ => z_pictures 4 3 fr)
    z_adds (by
      intro i n _ hn ht
      have hi : i < 2 := by
        rcases i with _ | _ | _ | _ | i
        · decide
        · decide
        · cases hn; cases ht
        · cases hn; cases ht
        · cases hn
      exact z_sum 1 2 3 1 i hi) zWorld_off zWorld_off zWorld_off e1 e2 e3
  exact ⟨g1, w1, g2, w2, g3, w3, P, P', Q, e1, e2, e3, h1, h2, h3, h4⟩

/-- C144 is false for a merge that multiplies: twice the light in both sources is four times the
light. -/
theorem C144_counterexample_multiply : ∃ A B A' B' Q Q' : Picture (ZMod 7),
    IsSum 2 0 A A A' ∧ IsSum 2 0 B B B' ∧ IsMerged .multiply 1 A B Q ∧ IsMerged .multiply 1 A' B' Q' ∧
    ¬ IsSum 2 0 Q Q Q' := by
  have sum : ∀ v : ZMod 7, v = 2 → IsSum 2 0 (zPicture [1, 1, 1, 1]) (zPicture [1, 1, 1, 1])
      (zPicture [v, v, v, 1]) := by
    rintro v rfl
    refine ⟨⟨rfl, rfl, rfl, rfl⟩, ⟨rfl, rfl, rfl, rfl⟩, fun x y c hc => ?_, fun x y => ⟨rfl, ?_⟩⟩
    · simp only [z_value]
      by_cases h : Has ⟨0, 0, 1, 1⟩ x y
      · simp only [if_pos h]
        have : c = 0 ∨ c = 1 ∨ c = 2 ∨ 4 ≤ c := by omega
        rcases this with rfl | rfl | rfl | hc
        · rfl
        · rfl
        · rfl
        · obtain ⟨c, rfl⟩ : ∃ d, c = d + 4 := ⟨c - 4, by omega⟩
          rfl
      · simp only [if_neg h]; rfl
    · exact z_alpha x y rfl
  have key : ∀ (v : ZMod 7) (c : Fin 4), ([v * v, v * v, v * v, 1] : List (ZMod 7))[c.val]? =
      some (blend .multiply 1 ((zPicture [v, v, v, 1]).value 0 0)
        ((zPicture [v, v, v, 1]).value 0 0) (c.val : Nat)) := by
    decide +kernel
  have merged : ∀ v u : ZMod 7, u = v * v → IsMerged .multiply 1 (zPicture [v, v, v, 1])
      (zPicture [v, v, v, 1]) (zPicture [u, u, u, 1]) := by
    rintro v u rfl
    refine ⟨rfl, rfl, rfl, rfl, fun x y h => ?_⟩
    obtain ⟨rfl, rfl⟩ := has_one h
    refine ⟨_, ⟨_, z_still _, .nil _⟩, rfl, fun c hc => ?_⟩
    exact key v ⟨c, hc⟩
  refine ⟨_, _, _, _, _, _, sum 2 rfl, sum 2 rfl, merged 1 1 (by decide), merged 2 4 (by decide),
    fun h => ?_⟩
  have := h.colours 0 0 0 (by decide)
  revert this
  decide +kernel

end
end OCG.Props
