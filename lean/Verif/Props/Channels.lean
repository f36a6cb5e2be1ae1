import Verif.Spec.Channels
import Verif.Props.Local
import Verif.Props.CropEarly
import Verif.Props.Copy
/-
C136: the channels of a picture do not leak into each other.
-/

namespace OCG.Props

open GraphSpec ChannelSpec LocalSpec PictureSpec ImageSpecs ComputeSpec BBoxSpec BlockSpec ColorSpec
open PixelSpec PlainSpec IeeeSpec OiioSpec
open CacheSpec (IsOff)
open Ieee hiding floor ceil round

/-! ### One pixel -/

theorem finite_of_add {x y : F32} (h : IsFinite (add x y)) : IsFinite x ∧ IsFinite y := by
  have n0 : ¬ IsFinite (nan : F32) := by unfold IsFinite; decide +kernel
  constructor
  · by_contra hx
    rcases not_finite_iff.mp hx with hi | hn
    · unfold add at h
      rw [hi] at h
      split at h
      · exact n0 h
      · rw [if_pos rfl] at h
        split at h
        · exact n0 h
        · exact hx h
    · rw [add_nan_left hn] at h
      exact n0 h
  · by_contra hy
    rw [add_swap] at h
    rcases not_finite_iff.mp hy with hi | hn
    · unfold add at h
      rw [hi] at h
      split at h
      · exact n0 h
      · rw [if_pos rfl] at h
        split at h
        · exact n0 h
        · exact hy h
    · rw [add_nan_left hn] at h
      exact n0 h

theorem finite_of_zero_mul {z y : F32} (hz : z.code = 0) (h : IsFinite (mul z y)) : IsFinite y := by
  by_contra hy
  unfold mul at h
  have n0 : ¬ IsFinite (nan : F32) := by unfold IsFinite; decide +kernel
  rcases not_finite_iff.mp hy with hi | hn
  · rw [hi] at h
    simp [hz] at h
    exact n0 h
  · rw [hn] at h
    simp at h
    exact n0 h

section
variable [Libm single32]

/-- What is stored determines what was to be stored up to the sign of zero, if it is finite. -/
theorem stored_finite {n : Nat} (hn : n = 3 ∨ n = 4) {v out : List F32} (hl : v.length = n)
    (ho : ∀ p ∈ out, IsFinite p) (h : Settled n v out) : ∀ p ∈ v, IsFinite p := by
  obtain ⟨mid, e, k⟩ := h
  have q : ∀ {n : Int} {a b : List F32}, Carried n [] a b → a = b := by
    intro n a b h
    cases h
    rfl
  rw [← q k] at ho
  have hn' : Channels n := by rcases hn with rfl | rfl <;> simp [Channels]
  obtain ⟨out', e', hm⟩ := C57_per_pixel (fun i j => if i = j then (1 : F32) else 0) hn' v
  have : out' = mid := by
    have := e'.symm.trans e
    injection this
  subst this
  have hpos : 0 < n := by omega
  have h0 := hm.pixels 0 (by rw [hl, Nat.div_self hpos]; decide)
  have full : ∀ u : List F32, u.length = n → pixel n u 0 = u := by
    intro u hu
    unfold pixel
    rw [Nat.zero_mul, List.drop_zero, ← hu, List.take_length]
  rw [full _ hl, full _ (hm.length.trans hl)] at h0
  rw [h0] at ho
  have z0 : (0 : F32).code = 0 := zero_code _
  rcases hn with rfl | rfl
  · obtain ⟨r, g, b, rfl⟩ := list3 hl
    have a0 : IsFinite ((1 : F32) * r + 0 * g + 0 * b + 0 * 1) := ho _ (by
      show _ ∈ [_, _, _]; exact List.mem_cons_self)
    have a1 : IsFinite ((0 : F32) * r + 1 * g + 0 * b + 0 * 1) := ho _ (by
      show _ ∈ [_, _, _]; exact List.mem_cons_of_mem _ List.mem_cons_self)
    have b0 := (finite_of_add a0).1
    have b1 := (finite_of_add (finite_of_add (finite_of_add a1).1).1).1
    intro p hp
    simp only [List.mem_cons, List.not_mem_nil, or_false] at hp
    rcases hp with rfl | rfl | rfl
    · exact finite_of_zero_mul z0 b1
    · exact finite_of_zero_mul z0 (finite_of_add (finite_of_add b0).1).2
    · exact finite_of_zero_mul z0 (finite_of_add b0).2
  · obtain ⟨r, g, b, a, rfl⟩ := list4 hl
    have a0 : IsFinite ((1 : F32) * r + 0 * g + 0 * b + 0 * a) := ho _ (by
      show _ ∈ [_, _, _, _]; exact List.mem_cons_self)
    have a1 : IsFinite ((0 : F32) * r + 1 * g + 0 * b + 0 * a) := ho _ (by
      show _ ∈ [_, _, _, _]; exact List.mem_cons_of_mem _ List.mem_cons_self)
    have b0 := (finite_of_add a0).1
    have b1 := (finite_of_add (finite_of_add (finite_of_add a1).1).1).1
    intro p hp
    simp only [List.mem_cons, List.not_mem_nil, or_false] at hp
    rcases hp with rfl | rfl | rfl | rfl
    · exact finite_of_zero_mul z0 b1
    · exact finite_of_zero_mul z0 (finite_of_add (finite_of_add b0).1).2
    · exact finite_of_zero_mul z0 (finite_of_add b0).2
    · exact finite_of_zero_mul z0 (finite_of_add a0).2

omit [Libm single32] in
theorem same_plain {x y p : F32} (hx : IsPlain x) (hy : IsPlain y) (h : Same x p) (h' : Same y p) :
    x = y := by
  rcases same_cases (h.trans h'.symm) with e | ⟨a, b⟩
  · exact e
  · have pos : ∀ z : F32, IsPlain z → z.code = 0 → z = zero false := by
      intro z hz hc
      have e := eq_zero_of_code hc
      cases hn : z.neg
      · rw [hn] at e; exact e
      · rw [hn] at e; exact absurd e hz.2
    rw [pos x hx a, pos y hy b]

/-- A stored channel depends on that channel only, as long as ordinary numbers are stored. -/
theorem settled_channel {n : Nat} (hn : n = 3 ∨ n = 4) {v v' out out' : List F32}
    (hl : v.length = n) (hl' : v'.length = n) (ho : ∀ p ∈ out, IsPlain p)
    (ho' : ∀ p ∈ out', IsPlain p) (h : Settled n v out) (h' : Settled n v' out') {c : Nat}
    (hc : v[c]? = v'[c]?) : out[c]? = out'[c]? := by
  have hn' : Channels n := by rcases hn with rfl | rfl <;> simp [Channels]
  have key : ∀ {v out : List F32}, v.length = n → (∀ p ∈ out, IsPlain p) → Settled n v out →
      out.length = n ∧ ∀ k, k < n → ∃ p q, v[k]? = some p ∧ out[k]? = some q ∧ Same q p := by
    intro v out hl ho h
    have hf := stored_finite hn hl (fun p hp => (ho p hp).1) h
    obtain ⟨mid, e, k⟩ := h
    have q : ∀ {n : Int} {a b : List F32}, Carried n [] a b → a = b := by
      intro n a b h
      cases h
      rfl
    rw [← q k]
    obtain ⟨out', e', h1, h2⟩ := C57_single_identity hn' v hf
    have : out' = mid := by
      have := e'.symm.trans e
      injection this
    subst this
    refine ⟨h1.trans hl, fun k hk => ?_⟩
    have := h2 0 k (by rw [hl, Nat.div_self (by omega)]; decide) hk
    rwa [Nat.zero_mul, Nat.zero_add] at this
  obtain ⟨l1, k1⟩ := key hl ho h
  obtain ⟨l2, k2⟩ := key hl' ho' h'
  by_cases hcn : c < n
  · obtain ⟨p, q, e1, e2, e3⟩ := k1 c hcn
    obtain ⟨p', q', e1', e2', e3'⟩ := k2 c hcn
    rw [e1, e1'] at hc
    cases hc
    rw [e2, e2', same_plain (ho q (List.mem_of_getElem? e2)) (ho' q' (List.mem_of_getElem? e2')) e3 e3']
  · rw [List.getElem?_eq_none (by omega), List.getElem?_eq_none (by omega)]

end

section
variable {F H : Type} [FloatLike F]

/-- A graded channel depends on that channel only. -/
theorem graded_channel {n : Nat} (hn : Channels n) {op : GradeOp F} {v v' out out' : List F}
    (hl : v.length = n) (hl' : v'.length = n) (h : Carried n [op] v out)
    (h' : Carried n [op] v' out') {c : Nat} (hc : v[c]? = v'[c]?) : out[c]? = out'[c]? := by
  have hpos : 0 < n := by rcases hn with rfl | rfl | rfl <;> decide
  rw [carried_iff] at h h'
  by_cases he : op.getI32 "enable" = 1
  · rw [List.filter_cons_of_pos (by simpa using he)] at h h'
    obtain ⟨o, e, k⟩ := Res.bind_ok.mp h
    obtain ⟨o', e', k'⟩ := Res.bind_ok.mp h'
    cases k
    cases k'
    dsimp only at e e'
    by_cases hw : HasWork op
    · obtain ⟨o1, f1, g1, m1⟩ := grade_values op hw hn v
      obtain ⟨o2, f2, g2, m2⟩ := grade_values op hw hn v'
      rw [f1] at e
      rw [f2] at e'
      cases e
      cases e'
      by_cases hcn : c < n
      · obtain ⟨p, a1, a2⟩ := m1 0 c (by rw [hl, Nat.div_self hpos]; decide) hcn
        obtain ⟨p', b1, b2⟩ := m2 0 c (by rw [hl', Nat.div_self hpos]; decide) hcn
        rw [Nat.zero_mul, Nat.zero_add] at a1 a2 b1 b2
        rw [a1, b1] at hc
        cases hc
        rw [a2, b2]
      · rw [List.getElem?_eq_none (by omega), List.getElem?_eq_none (by omega)]
    · rw [applySlice_idle hw] at e e'
      cases e
      cases e'
      exact hc
  · rw [List.filter_cons_of_neg (by simpa using he)] at h h'
    cases h
    cases h'
    exact hc

/-! ### Pictures -/

theorem sameIn_pixel {S : Nat → Prop} {P Q : Picture F} (h : SameIn S P Q) {c : Nat} (hc : S c)
    (x y : Int) : (P.pixel x y)[c]? = (Q.pixel x y)[c]? := by
  unfold Picture.pixel
  rw [← h.data, ← h.channels]
  split
  · exact h.values x y ‹_› c hc
  · rfl

theorem sameIn_value {S : Nat → Prop} {P Q : Picture F} (h : SameIn S P Q) {c : Nat} (hc : S c)
    (x y : Int) : P.value x y c = Q.value x y c := by
  unfold Picture.value
  rw [if_pos (by omega), if_pos (by omega), Int.toNat_natCast, List.getD_eq_getElem?_getD,
    List.getD_eq_getElem?_getD, sameIn_pixel h hc]

/-- The same resampling picks the same pixels. -/
theorem picks_alike {F H : Type} {black white : F} (hne : white ≠ black) {oiio oiio' : Oiio F H} {pick pick' : Int → Int → Int → Int}
    (h : Picks oiio pick) (h' : Picks oiio' pick')
    (hr : ∀ size block interpolate w h t old, oiio.resample size block interpolate w h t old =
      oiio'.resample size block interpolate w h t old)
    {size : BlockSize} {w k : Int} (hs : ValidSize size)
    (hw : ValidSize ⟨w, k, size.numChannels⟩) {x y : Int} (x0 : 0 ≤ x) (x1 : x < w) (y0 : 0 ≤ y)
    (y1 : y < k) : pick size.width w x = pick' size.width w x ∧
      pick size.height k y = pick' size.height k y := by
  obtain ⟨s1, s2, s3, s4⟩ := hs
  obtain ⟨a1, a2⟩ := h.range size.width w x s1 x0 x1
  obtain ⟨b1, b2⟩ := h.range size.height k y s2 y0 y1
  obtain ⟨a1', a2'⟩ := h'.range size.width w x s1 x0 x1
  obtain ⟨b1', b2'⟩ := h'.range size.height k y s2 y0 y1
  generalize ePx : pick size.width w x = px at *
  generalize ePy : pick size.height k y = py at *
  generalize eQx : pick' size.width w x = qx at *
  generalize eQy : pick' size.height k y = qy at *
  have inside : ∀ {u v : Int}, 0 ≤ u → u < size.width → 0 ≤ v → v < size.height →
      0 ≤ (v * size.width + u) * size.numChannels ∧
      (v * size.width + u) * size.numChannels < size.width * size.height * size.numChannels := by
    intro u v u0 u1 v0 v1
    have : v * size.width + u < size.width * size.height := by nlinarith
    have q : 0 ≤ v * size.width := Int.mul_nonneg v0 (by omega)
    exact ⟨Int.mul_nonneg (by omega) (by omega), Int.mul_lt_mul_of_pos_right this s3⟩
  obtain ⟨i0, i1⟩ := inside a1 a2 b1 b2
  obtain ⟨j0, j1⟩ := inside a1' a2' b1' b2'
  let N := (size.width * size.height * size.numChannels).toNat
  let data : List F := (List.replicate N black).set
    ((py * size.width + px) * size.numChannels).toNat white
  have hd : ((data : List (Elem F H .f32)).length : Int) = elements size := by
    show (((List.replicate N black).set _ _).length : Int) = _
    rw [List.length_set, List.length_replicate]
    show ((size.width * size.height * size.numChannels).toNat : Int) =
      size.width * size.height * size.numChannels
    omega
  obtain ⟨w1, w2, w3, w4⟩ := hw
  have hwv : ValidSize ⟨w, k, size.numChannels⟩ := ⟨w1, w2, w3, w4⟩
  dsimp only at w1 w2 w3 w4
  have hpos : 0 ≤ w * k * size.numChannels :=
    Int.mul_nonneg (Int.mul_nonneg (by omega) (by omega)) (by omega)
  let old : List F := List.replicate (w * k * size.numChannels).toNat black
  have ho : ((old : List (Elem F H .f32)).length : Int) = elements ⟨w, k, size.numChannels⟩ := by
    show ((List.replicate _ black).length : Int) = w * k * size.numChannels
    rw [List.length_replicate]
    omega
  have e := (h.pixels size w k .f32 data old ⟨s1, s2, s3, s4⟩ hd hwv ho).2 x y 0 x0 x1 y0 y1
    (by omega) s3
  have e' := (h'.pixels size w k .f32 data old ⟨s1, s2, s3, s4⟩ hd hwv ho).2 x y 0 x0 x1 y0 y1
    (by omega) s3
  rw [hr size (⟨.f32, data⟩ : DataBlock F H) false w k .f32 old] at e
  rw [ePx, ePy] at e
  rw [eQx, eQy] at e'
  have e2 := e.symm.trans e'
  unfold channelAt at e2
  rw [Int.add_zero, Int.add_zero] at e2
  have f1 : data[((py * size.width + px) * size.numChannels).toNat]? = some white := by
    show ((List.replicate N black).set _ _)[_]? = _
    rw [List.getElem?_set_self (by rw [List.length_replicate]; omega)]
  have key : ((py * size.width + px) * size.numChannels).toNat =
      ((qy * size.width + qx) * size.numChannels).toNat := by
    by_contra hk
    have f2 : data[((qy * size.width + qx) * size.numChannels).toNat]? = some black := by
      show ((List.replicate N black).set _ _)[_]? = _
      rw [List.getElem?_set_ne hk, List.getElem?_replicate, if_pos (by omega)]
    have := (f1.symm.trans e2).trans f2
    exact hne (Option.some.inj this)
  have key2 : (py * size.width + px) * size.numChannels =
      (qy * size.width + qx) * size.numChannels := by omega
  have key3 := Int.eq_of_mul_eq_mul_right (by omega) key2
  have key4 : py = qy := by
    rcases lt_trichotomy py qy with g | g | g
    · nlinarith
    · exact g
    · nlinarith
  subst key4
  exact ⟨by omega, rfl⟩

theorem picks_same {oiio oiio' : Oiio F32 H} {pick pick' : Int → Int → Int → Int}
    (h : Picks oiio pick) (h' : Picks oiio' pick')
    (hr : ∀ size block interpolate w h t old, oiio.resample size block interpolate w h t old =
      oiio'.resample size block interpolate w h t old)
    {size : BlockSize} {w k : Int} (hs : ValidSize size)
    (hw : ValidSize ⟨w, k, size.numChannels⟩) {x y : Int} (x0 : 0 ≤ x) (x1 : x < w) (y0 : 0 ≤ y)
    (y1 : y < k) : pick size.width w x = pick' size.width w x ∧
      pick size.height k y = pick' size.height k y :=
  picks_alike (black := zero false) (white := ofInt 1) (by decide +kernel) h h' hr hs hw x0 x1 y0 y1

end

section
variable [Libm single32] {H : Type} [HalfLike F32 H]

theorem seen_has {P : Picture F32} (hP : Proper P) (x y : F32) : Has P.data
    (P.data.minX + PictureSpec.seen (P.data.maxX - P.data.minX) P.display.minX P.display.maxX P.data.minX
      P.data.maxX x)
    (P.data.minY + PictureSpec.seen (P.data.maxY - P.data.minY) P.display.minY P.display.maxY P.data.minY
      P.data.maxY y) := by
  obtain ⟨s1, s2, -, -⟩ := hP.size
  simp only [sizeFor] at s1 s2
  refine ⟨?_, ?_, ?_, ?_⟩ <;> (unfold PictureSpec.seen; omega)

theorem boxed_same {lib : DeformLib F32} {w : BBoxF F32} {ds : List (Deformer F32)}
    {b c d : BBoxF F32} (h : Boxed lib w ds b c) (h' : Boxed lib w ds b d) : c = d := by
  have := (boxed_eq h).symm.trans (boxed_eq h')
  injection this

/-- Carrying out deformers moves all channels alike. -/
theorem sameIn_rests {S : Nat → Prop} {lib : DeformLib F32} {ds : List (Deformer F32)}
    {P P' R R' : Picture F32} (hP : Proper P) (hP' : Proper P') (h : SameIn S P P')
    (hR : CarriedOut lib ds P R) (hR' : CarriedOut lib ds P' R') :
    SameIn S R R' ∧ AllPlain R ∧ AllPlain R' := by
  have plain : ∀ {P R : Picture F32}, Proper P → CarriedOut lib ds P R → AllPlain R := by
    intro P R hP hR x y hxy
    rw [hR.channels]
    by_cases hon : ∃ d ∈ ds, d.enable = 1
    · obtain ⟨q, -, e⟩ := (hR.moved hon).2.2.2.2.2.2 x y hxy
      rw [e]
      exact hP.plain _ _ (seen_has hP _ _)
    · obtain ⟨k1, k2⟩ := hR.still (fun d hd he => hon ⟨d, hd, he⟩)
      rw [k1] at hxy
      rw [k2 x y hxy]
      exact hP.plain x y hxy
  refine ⟨?_, plain hP hR, plain hP' hR'⟩
  by_cases hon : ∃ d ∈ ds, d.enable = 1
  · obtain ⟨-, -, -, -, -, ⟨box, b1, b2⟩, k⟩ := hR.moved hon
    obtain ⟨-, -, -, -, -, ⟨box', b1', b2'⟩, k'⟩ := hR'.moved hon
    rw [← h.display, ← h.data] at b1'
    have hd : R.data = R'.data := by rw [b2, b2', boxed_same b1 b1']
    refine ⟨hd, by rw [hR.display, hR'.display, h.display],
      by rw [hR.channels, hR'.channels, h.channels], by rw [hR.space, hR'.space, h.space],
      fun x y hxy c hc => ?_⟩
    obtain ⟨q, c1, e1⟩ := k x y hxy
    obtain ⟨q', c2, e2⟩ := k' x y (hd ▸ hxy)
    rw [← h.display] at c2
    have := Carried.unique c1 c2
    subst this
    rw [e1, e2, ← h.display, ← h.data]
    exact h.values _ _ (seen_has hP _ _) c hc
  · have off : ∀ d ∈ ds, d.enable ≠ 1 := fun d hd he => hon ⟨d, hd, he⟩
    obtain ⟨d1, e1⟩ := hR.still off
    obtain ⟨d2, e2⟩ := hR'.still off
    refine ⟨by rw [d1, d2, h.data], by rw [hR.display, hR'.display, h.display],
      by rw [hR.channels, hR'.channels, h.channels], by rw [hR.space, hR'.space, h.space],
      fun x y hxy c hc => ?_⟩
    rw [d1] at hxy
    rw [e1 x y hxy, e2 x y (h.data ▸ hxy)]
    exact h.values x y hxy c hc

/-- The layers have the same deformers waiting, and pictures that are the same in the channels in
`S`. -/
def SameLayerIn (S : Nat → Prop) (L L' : Layer F32) : Prop :=
  SameIn S L.still L'.still ∧ L.moves = L'.moves

/-- A channel of a merged picture depends on that channel, and for laying over on the alpha
channel. -/
theorem blend_channel {S : Nat → Prop} {mode : MergeImageMode} {mix : F32} {A A' B B' : Picture F32}
    (hA : SameIn S A A') (hB : SameIn S B B') (ha : mode = .over → S 3) {c : Nat} (hc : S c)
    (x y : Int) : blend mode mix (A.value x y) (B.value x y) c =
      blend mode mix (A'.value x y) (B'.value x y) c := by
  cases mode with
  | over =>
    have := sameIn_value hA (ha rfl) x y
    show A.value x y c + B.value x y c * ((1 - A.value x y ((3 : Nat) : Int)) * mix) =
      A'.value x y c + B'.value x y c * ((1 - A'.value x y ((3 : Nat) : Int)) * mix)
    rw [sameIn_value hA hc, sameIn_value hB hc, this]
  | add =>
    show A.value x y c + B.value x y c * mix = A'.value x y c + B'.value x y c * mix
    rw [sameIn_value hA hc, sameIn_value hB hc]
  | multiply =>
    show A.value x y c * (B.value x y c * mix) = A'.value x y c * (B'.value x y c * mix)
    rw [sameIn_value hA hc, sameIn_value hB hc]
  | uninitialized => rfl

/-- Of pictures that are the same in the channels in `S` a node makes pictures that are the same in
the channels in `S`. -/
theorem makes_channels {S : Nat → Prop} {lib lib' : NodeLib F32 H} {fr : F32} {n : Node F32}
    {Ls Ls' : List (Layer F32)} {L L' : Layer F32} (hl : SameTools lib lib') (ha : AlphaIn S n)
    (h1 : Makes lib fr n Ls L) (h2 : Makes lib' fr n Ls' L')
    (hin : List.Forall₂ (SameLayerIn S) Ls Ls')
    (hp : ∀ K ∈ Ls, Proper K.still) (hp' : ∀ K ∈ Ls', Proper K.still) (hL : Proper L.still)
    (hL' : Proper L'.still)
    (hr : n.attrs.nodeType = .readImage → SameIn S L.still L'.still) : SameLayerIn S L L' := by
  have one : ∀ {A B : Layer F32}, List.Forall₂ (SameLayerIn S) [A] [B] → SameLayerIn S A B :=
    fun h => (List.forall₂_cons.mp h).1
  cases h1 with
  | null ht =>
    cases h2 <;> first
      | exact one hin
      | exact (type_clash ht (by assumption) (by decide)).elim
      | (simp [ht] at *; done)
  | read ht =>
    cases h2 <;> first
      | exact ⟨hr ht, rfl⟩
      | exact (type_clash ht (by assumption) (by decide)).elim
      | (simp [ht] at *; done)
  | grade ht hg ho hQ =>
    cases h2 with
    | grade ht' hg' ho' hQ' =>
      obtain ⟨h3, h4⟩ := one hin
      have pP := hp _ List.mem_cons_self
      have pP' := hp' _ List.mem_cons_self
      dsimp only at h3 h4 pP pP'
      rw [gradeOf_unique ht ho' ho] at hQ'
      refine ⟨⟨by rw [hQ.data, hQ'.data, h3.data], by rw [hQ.display, hQ'.display, h3.display],
        by rw [hQ.channels, hQ'.channels, h3.channels], by rw [hQ.space, hQ'.space, h3.space],
        fun x y hx c hc => ?_⟩, h4⟩
      dsimp only at hx
      rw [hQ.data] at hx
      have a := hQ.pixels x y hx
      have b := hQ'.pixels x y (h3.data ▸ hx)
      rw [← h3.channels] at b
      exact graded_channel (.inr pP.channels) (pP.plain x y hx).1
        ((pP'.plain x y (h3.data ▸ hx)).1.trans h3.channels.symm) a b (h3.values x y hx c hc)
    | gradeOff _ hg' => exact absurd hg hg'
    | _ => first | exact (type_clash ht (by assumption) (by decide)).elim | (simp [ht] at *; done)
  | gradeOff ht hg =>
    cases h2 with
    | grade _ hg' => exact absurd hg' hg
    | gradeOff => exact one hin
    | _ => first | exact (type_clash ht (by assumption) (by decide)).elim | (simp [ht] at *; done)
  | transform ht he hd hdesc =>
    cases h2 with
    | transform ht' he' hd' hdesc' =>
      obtain ⟨h3, h4⟩ := one hin
      dsimp only at h3 h4
      refine ⟨h3, ?_⟩
      show _ ++ _ = _ ++ _
      rw [h4, transform_unique ht hd hdesc hd' hdesc']
    | off _ he' => exact absurd (he.symm.trans he') (by decide)
    | _ => first | exact (type_clash ht (by assumption) (by decide)).elim | (simp [ht] at *; done)
  | lens ht he hd hdesc hcam =>
    cases h2 with
    | lens ht' he' hd' hdesc' hcam' =>
      obtain ⟨h3, h4⟩ := one hin
      dsimp only at h3 h4
      refine ⟨h3, ?_⟩
      show _ ++ _ = _ ++ _
      rw [h4, lens_unique ht hd hdesc hcam hd' hdesc' hcam']
    | off _ he' => exact absurd (he.symm.trans he') (by decide)
    | _ => first | exact (type_clash ht (by assumption) (by decide)).elim | (simp [ht] at *; done)
  | resample ht he hf hi hpick hs hc4 hw hh hQ =>
    cases h2 with
    | resample ht' he' hf' hi' hpick' hs' hc4' hw' hh' hQ' =>
      obtain ⟨h3, h4⟩ := one hin
      have pP := hp _ List.mem_cons_self
      dsimp only at h3 h4 pP
      obtain ⟨s1, s2, s3, s4⟩ := id pP.size
      have n1 := scaledTo_unique (by simp only [sizeFor] at s1; omega) hw hQ.width (h3.data ▸ hQ'.width)
      have n2 := scaledTo_unique (by simp only [sizeFor] at s2; omega) hh hQ.height
        (h3.data ▸ hQ'.height)
      obtain ⟨o1, o2⟩ := hQ.origin
      obtain ⟨o1', o2'⟩ := hQ'.origin
      have hd : ∀ {a b : BBox}, a.minX = b.minX → a.minY = b.minY → a.maxX = b.maxX →
          a.maxY = b.maxY → a = b := by
        rintro ⟨⟩ ⟨⟩ h1 h2 h3 h4
        rw [BBox.mk.injEq]
        exact ⟨h1, h2, h3, h4⟩
      have hd := hd (o1.trans o1'.symm) (o2.trans o2'.symm) n1 n2
      refine ⟨⟨hd, by rw [hQ.display, hQ'.display, hd],
        by rw [hQ.channels, hQ'.channels, h3.channels], by rw [hQ.space, hQ'.space, h3.space],
        fun x y hx c hc => ?_⟩, h4⟩
      have hx' := hx
      obtain ⟨x0, x1, y0, y1⟩ := hx'
      dsimp only at x0 x1 y0 y1 hL
      have hv := hL.size
      unfold sizeFor at hv
      rw [o1, o2, Int.sub_zero, Int.sub_zero, hQ.channels] at hv
      have pk := picks_same hpick hpick' hl.resample pP.size hv (x := x) (y := y) (by omega) x1
        (by omega) y1
      rw [hQ.pixels x y hx, hQ'.pixels x y (hd ▸ hx), ← h3.data, ← hd]
      unfold sizeFor at pk
      dsimp only at pk
      rw [← pk.1, ← pk.2]
      have r1 := hpick.range (_) _ x s1 (by omega) x1
      have r2 := hpick.range (_) _ y s2 (by omega) y1
      simp only [sizeFor] at r1 r2
      refine h3.values _ _ ⟨?_, ?_, ?_, ?_⟩ c hc <;> omega
    | off _ he' => exact absurd (he.symm.trans he') (by decide)
    | resampleIdle _ _ hf' => exact absurd hf' hf
    | _ => first | exact (type_clash ht (by assumption) (by decide)).elim | (simp [ht] at *; done)
  | off ht he =>
    cases h2 with
    | off => exact one hin
    | transform _ he' => exact absurd (he.symm.trans he') (by decide)
    | lens _ he' => exact absurd (he.symm.trans he') (by decide)
    | resample _ he' => exact absurd (he.symm.trans he') (by decide)
    | resampleIdle _ he' => exact absurd (he.symm.trans he') (by decide)
    | crop _ he' => exact absurd (he.symm.trans he') (by decide)
    | null ht' => simp [ht'] at ht
    | read ht' => simp [ht'] at ht
    | grade ht' => simp [ht'] at ht
    | gradeOff ht' => simp [ht'] at ht
    | merge ht' => simp [ht'] at ht
    | viewer ht' => simp [ht'] at ht
    | viewerSpace ht' => simp [ht'] at ht
    | viewerOff ht' => simp [ht'] at ht
    | write ht' => simp [ht'] at ht
    | writeOff ht' => simp [ht'] at ht
  | resampleIdle ht he hf =>
    cases h2 with
    | resampleIdle => exact one hin
    | off _ he' => exact absurd (he.symm.trans he') (by decide)
    | resample _ _ hf' => exact absurd hf hf'
    | _ => first | exact (type_clash ht (by assumption) (by decide)).elim | (simp [ht] at *; done)
  | crop ht he hb hR hs hv hQ =>
    cases h2 with
    | crop ht' he' hb' hR' hs' hv' hQ' =>
      obtain ⟨h3, h4⟩ := one hin
      unfold Rests at hR hR'
      rw [← hl.deform, ← h4] at hR'
      obtain ⟨h6, pR, pR'⟩ := sameIn_rests (hp _ List.mem_cons_self) (hp' _ List.mem_cons_self) h3
        hR hR'
      have hch := (hp _ List.mem_cons_self).channels
      rw [← hR.channels] at hch
      refine ⟨⟨by rw [hQ.data, hQ'.data], by rw [hQ.display, hQ'.display, h6.display],
        by rw [hQ.channels, hQ'.channels, h6.channels], by rw [hQ.space, hQ'.space, h6.space],
        fun x y hx c hc => ?_⟩, rfl⟩
      have o := (hL.plain x y hx).2
      have o' := (hL'.plain x y (by dsimp only at hx ⊢; rwa [hQ'.data, ← hQ.data])).2
      dsimp only at hx
      rw [hQ.data] at hx
      have a := hQ.pixels x y hx
      have b := hQ'.pixels x y hx
      rw [← h6.channels] at b
      exact settled_channel hch (plain_pixel pR x y).1
        ((plain_pixel pR' x y).1.trans h6.channels.symm) o o' a b (sameIn_pixel h6 hc x y)
    | off _ he' => exact absurd (he.symm.trans he') (by decide)
    | _ => first | exact (type_clash ht (by assumption) (by decide)).elim | (simp [ht] at *; done)
  | merge ht he hm hA hB hd ca cb hv hQ =>
    cases h2 with
    | merge ht' he' hm' hA' hB' hd' ca' cb' hv' hQ' =>
      obtain ⟨⟨h3, h4⟩, h6⟩ := List.forall₂_cons.mp hin
      obtain ⟨h7, h8⟩ := one h6
      unfold Rests at hA hA' hB hB'
      rw [← hl.deform, ← h4] at hA'
      rw [← hl.deform, ← h8] at hB'
      obtain ⟨kA, -, -⟩ := sameIn_rests (hp _ List.mem_cons_self) (hp' _ List.mem_cons_self) h3
        hA hA'
      obtain ⟨kB, -, -⟩ := sameIn_rests (hp _ (List.mem_cons_of_mem _ List.mem_cons_self))
        (hp' _ (List.mem_cons_of_mem _ List.mem_cons_self)) h7 hB hB'
      refine ⟨⟨by rw [hQ.data, hQ'.data, kA.data, kB.data],
        by rw [hQ.display, hQ'.display, kB.display],
        by rw [hQ.channels, hQ'.channels, kB.channels], by rw [hQ.space, hQ'.space],
        fun x y hx c hc => ?_⟩, rfl⟩
      have hx' : Has _ x y := hx
      dsimp only at hx'
      rw [hQ.data, kA.data, kB.data, ← hQ'.data] at hx'
      obtain ⟨v, s1, l1, e1⟩ := hQ.pixels x y hx
      obtain ⟨v', s2, l2, e2⟩ := hQ'.pixels x y hx'
      rw [← kB.channels] at s2 l2 e2
      refine settled_channel cb l1 l2 (hL.plain x y hx).2 (hL'.plain x y hx').2 s1 s2 ?_
      by_cases hcn : c < v.length
      · rw [e1 c (by omega), e2 c (by omega), blend_channel kA kB (ha ht) hc x y]
      · rw [List.getElem?_eq_none (by omega), List.getElem?_eq_none (by omega)]
    | _ => first | exact (type_clash ht (by assumption) (by decide)).elim | (simp [ht] at *; done)
  | viewer ht he hb hc hs ht2 hQ =>
    cases h2 with
    | viewer ht' he' hb' hc' hs' ht2' hQ' =>
      obtain ⟨h3, h4⟩ := one hin
      have pP := hp _ List.mem_cons_self
      have pP' := hp' _ List.mem_cons_self
      dsimp only at h3 h4 pP pP'
      have := (ht2 .f32).symm.trans (ht2' .f32)
      subst this
      refine ⟨⟨by rw [hQ.data, hQ'.data, h3.data], by rw [hQ.display, hQ'.display, h3.display],
        by rw [hQ.channels, hQ'.channels, h3.channels], by rw [hQ.space, hQ'.space],
        fun x y hx c hcS => ?_⟩, h4⟩
      have hx' : Has _ x y := hx
      dsimp only at hx'
      rw [hQ.data, h3.data, ← hQ'.data] at hx'
      have o := (hL.plain x y hx).2
      have o' := (hL'.plain x y hx').2
      dsimp only at hx
      rw [hQ.data] at hx
      have a := hQ.pixels x y hx
      have b := hQ'.pixels x y (h3.data ▸ hx)
      rw [← h3.channels] at b
      refine settled_channel pP.channels ?_ ?_ o o' a b ?_
      · rw [List.length_map]; exact (pP.plain x y hx).1
      · rw [List.length_map]; exact (pP'.plain x y (h3.data ▸ hx)).1.trans h3.channels.symm
      · rw [List.getElem?_map, List.getElem?_map, h3.values x y hx c hcS]
    | viewerSpace _ _ hb' => exact absurd (hb.symm.trans hb') (by decide)
    | viewerOff _ _ hb' => exact absurd (hb.symm.trans hb') (by decide)
    | _ => first | exact (type_clash ht (by assumption) (by decide)).elim | (simp [ht] at *; done)
  | viewerSpace ht he hb =>
    cases h2 with
    | viewer _ _ hb' => exact absurd (hb.symm.trans hb') (by decide)
    | viewerSpace => exact one hin
    | viewerOff _ _ hb' => exact absurd (hb.symm.trans hb') (by decide)
    | _ => first | exact (type_clash ht (by assumption) (by decide)).elim | (simp [ht] at *; done)
  | viewerOff ht he hb =>
    cases h2 with
    | viewer _ _ hb' => exact absurd (hb.symm.trans hb') (by decide)
    | viewerSpace _ _ hb' => exact absurd (hb.symm.trans hb') (by decide)
    | viewerOff => exact one hin
    | _ => first | exact (type_clash ht (by assumption) (by decide)).elim | (simp [ht] at *; done)
  | write ht =>
    cases h2 <;> first
      | exact one hin
      | exact (type_clash ht (by assumption) (by decide)).elim
      | (simp [ht] at *; done)
  | writeOff ht =>
    cases h2 <;> first
      | exact one hin
      | exact (type_clash ht (by assumption) (by decide)).elim
      | (simp [ht] at *; done)


/-- C136: images of linear light that are the same in the channels in `S` are read as pictures that
are the same in the channels in `S`. -/
theorem C136_file {S : Nat → Prop} {lib lib' : NodeLib F32 H} {path : Bytes} {P P' : Picture F32}
    (h : SameFileIn S lib lib' path) (hP : IsFile lib path P) (hP' : IsFile lib' path P')
    (p1 : Proper P) (p2 : Proper P') : SameIn S P P' := by
  obtain ⟨spec, t, k, v, -, h2, h3, h4, h5, h6, h7, h8, h9, h10, ⟨raw, r1, r2, -⟩, h12, h13⟩ := hP
  obtain ⟨spec', t', k', v', -, i2, i3, i4, i5, i6, i7, i8, i9, i10, ⟨raw', s1, s2, -⟩, i12, i13⟩ := hP'
  have := Option.some.inj ((h2.symm.trans h.header).trans i2)
  subst this
  have := h4.symm.trans i4
  injection this with this
  subst this
  have hl := h.linear spec h2
  have hc : P.channels = P'.channels := by omega
  have hd : P.data = P'.data := h7.trans i7.symm
  rw [← hc, ← hd] at i10 s1 i12
  have : k = k' := by omega
  subst this
  have := r2 hl
  subst this
  have := s2 hl
  subst this
  refine ⟨hd, h8.trans i8.symm, hc, h9.trans i9.symm, fun x y hx c hcS => ?_⟩
  have a := h13 x y hx
  have b := i13 x y (hd ▸ hx)
  rw [← hc, ← hd] at b
  refine settled_channel p1.channels (pixelAt_length p1.size h12 hx) (pixelAt_length p1.size i12 hx)
    (p1.plain x y hx).2 (p2.plain x y (hd ▸ hx)).2 a b ?_
  by_cases hcc : c < P.channels
  · rw [pixelAt_channel p1.size h12 hx hcc, pixelAt_channel p1.size i12 hx hcc]
    obtain ⟨f, hf⟩ := convert_map (F := F32) (H := H) t
    rw [hf] at r1 s1
    have q1 : List.map f _ = v := congrArg (fun b : PixelBlock F32 H => match b with
      | ⟨_, ⟨.f32, d⟩⟩ => d | _ => []) (Except.ok.inj r1)
    have q2 : List.map f _ = v' := congrArg (fun b : PixelBlock F32 H => match b with
      | ⟨_, ⟨.f32, d⟩⟩ => d | _ => []) (Except.ok.inj s1)
    have hs : sizeFor P.data P.channels = ⟨spec.width, spec.height, P.channels⟩ := by
      rw [h7]; unfold sizeFor; dsimp only; rw [BlockSize.mk.injEq]
      exact ⟨by omega, by omega, rfl⟩
    obtain ⟨g1, g2, g3, g4⟩ := hx
    rw [h7] at g1 g2 g3 g4
    dsimp only at g1 g2 g3 g4
    have := h.values spec t h2 h4 P.channels (List.replicate k (whiteElem t))
      (x - (spec.x + spec.fullX)) (y - (spec.y + spec.fullY)) c (by omega) (by omega) (by omega)
      (by omega) (by exact_mod_cast hcc) hcS
    unfold channelAt at this ⊢
    rw [← q1, ← q2, List.getElem?_map, List.getElem?_map, hs, h7]
    dsimp only
    rw [this]
  · rw [List.getElem?_eq_none (by rw [pixelAt_length p1.size h12 hx]; omega),
      List.getElem?_eq_none (by rw [pixelAt_length p1.size i12 hx]; omega)]

/-- C136: sources that are the same in the channels in `S` make pictures that are the same in the
channels in `S`, as long as all pictures are made of ordinary numbers. -/
theorem C136_pictures {S : Nat → Prop} {lib lib' : NodeLib F32 H} (hl : SameTools lib lib')
    {srt : EdgeSort} {g : Graph (Node F32) (Stream F32 H)} (hg : Sound g) {start : Nat}
    (hs : g.graph.contains start = true) {order d : List Nat}
    (hi : SInv g.graph start order ⟨[], d⟩) (ht : Topo g.graph order) {frame : F32}
    {pic pic' : Nat → Layer F32} (hp : Pictures lib srt g start frame pic)
    (hp' : Pictures lib' srt g start frame pic')
    (ho : ∀ i, Upstream g.graph start i → Proper (pic i).still ∧ Proper (pic' i).still)
    (hn : ∀ i n, Upstream g.graph start i → g.nodes[i]? = some n → AlphaIn S n)
    (hr : ∀ i n, Upstream g.graph start i → g.nodes[i]? = some n → n.attrs.nodeType = .readImage →
      filePath lib n frame = filePath lib' n frame ∧ SameFileIn S lib lib' (filePath lib n frame)) :
    ∀ i, Upstream g.graph start i → SameLayerIn S (pic i) (pic' i) := by
  have key : ∀ k i, order.length - order.idxOf i ≤ k → Upstream g.graph start i →
      SameLayerIn S (pic i) (pic' i) := by
    intro k
    induction k with
    | zero =>
      intro i hk hu
      have := List.idxOf_lt_length_of_mem ((hi.final_mem i).mpr hu)
      omega
    | succ k ih =>
      intro i hk hu
      have hlive := hg.upstream_live hs hu
      obtain ⟨n, hni⟩ : ∃ n, g.nodes[i]? = some n := by
        exact ⟨_, List.getElem?_eq_getElem (hg.live i hlive)⟩
      have a := hp i n _ hu hni (hg.direct srt hlive)
      have b := hp' i n _ hu hni (hg.direct srt hlive)
      have up : ∀ u, u ∈ _ → Upstream g.graph start u := fun u hmem =>
        .step hu ((hg.mem_parents srt).mp hmem).1
      refine makes_channels hl (hn i n hu hni) a b ?_ ?_ ?_ (ho i hu).1 (ho i hu).2 ?_
      · rw [List.forall₂_map_left_iff, List.forall₂_map_right_iff, List.forall₂_same]
        intro u hmem
        obtain ⟨hf, hne⟩ := (hg.mem_parents srt).mp hmem
        have := ht i ((hi.final_mem i).mpr hu) u hf hne
        have h2 := List.idxOf_lt_length_of_mem ((hi.final_mem u).mpr (.step hu hf))
        exact ih u (by omega) (.step hu hf)
      · intro K hK
        obtain ⟨u, hu', rfl⟩ := List.mem_map.mp hK
        exact (ho u (up u hu')).1
      · intro K hK
        obtain ⟨u, hu', rfl⟩ := List.mem_map.mp hK
        exact (ho u (up u hu')).2
      · intro hnt
        obtain ⟨e, hsf⟩ := hr i n hu hni hnt
        have fa := read_isFile hnt a
        have fb := read_isFile hnt b
        rw [← e] at fb
        exact C136_file hsf fa fb (ho i hu).1 (ho i hu).2
  exact fun i hu => key _ i (Nat.le_refl _) hu

/-- C136: two executions of a graph over disks with sources that are the same in the channels in `S`
put out pictures that are the same in the channels in `S`, with the same deformers waiting. -/
theorem C136_execution (p : Profile) {S : Nat → Prop} (lib lib' : NodeLib F32 H)
    (hl : SameTools lib lib') (srt : EdgeSort)
    {g : Graph (Node F32) (Stream F32 H)} {r r' : Bool} (h : Reach (nodeSem p lib) srt r g)
    (h' : Reach (nodeSem p lib') srt r' g)
    {id start : Nat} (hid : At g id start) (hs : g.graph.contains start = true)
    {frames : List F32} {frame : F32} (hlast : frames.getLast? = some frame)
    {pic pic' : F32 → Nat → Layer F32}
    (hp : ∀ fr ∈ frames, Pictures lib srt g start fr (pic fr))
    (hp' : ∀ fr ∈ frames, Pictures lib' srt g start fr (pic' fr))
    (ho : ∀ i, Upstream g.graph start i →
      Proper (pic frame i).still ∧ Proper (pic' frame i).still)
    (hn : ∀ i n, Upstream g.graph start i → g.nodes[i]? = some n → AlphaIn S n)
    (hr : ∀ i n, Upstream g.graph start i → g.nodes[i]? = some n → n.attrs.nodeType = .readImage →
      filePath lib n frame = filePath lib' n frame ∧ SameFileIn S lib lib' (filePath lib n frame))
    {w1 w2 w3 w4 : World F32 H} (hw : IsOff w1) (hw' : IsOff w3) {fuel fuel' : Nat}
    {st st' : ExecuteStatus} {g1 g2 : Graph (Node F32) (Stream F32 H)}
    (hx : g.execute (nodeSem p lib) srt fuel id frames w1 = .ok (st, g1, w2))
    (hx' : g.execute (nodeSem p lib') srt fuel' id frames w3 = .ok (st', g2, w4)) :
    ∃ P P', Still lib.bake.color g1.output P ∧ Still lib'.bake.color g2.output P' ∧
      SameIn S P P' ∧ g1.output.deformers.filter (fun d => d.enable = 1) =
        g2.output.deformers.filter (fun d => d.enable = 1) := by
  obtain ⟨order, d, e, hi⟩ := order_of_reach h hs
  have ht := execute_topo h.inv.sound hid hs (fun e => by rw [e] at hlast; cases hlast) hx e hi
  have hf : frame ∈ frames := List.mem_of_getLast? hlast
  obtain ⟨-, -, a⟩ := C87_graph_returns_partial p lib srt h hid hs hlast hp hw hx
  obtain ⟨-, -, b⟩ := C87_graph_returns_partial p lib' srt h' hid hs hlast hp' hw' hx'
  obtain ⟨c1, c2⟩ := C136_pictures hl h.inv.sound hs hi ht (hp frame hf) (hp' frame hf) ho hn hr
    start .refl
  exact ⟨_, _, a.1, b.1, c1, (a.2.trans c2).trans b.2.symm⟩

end

/-! ### Examples -/

attribute [local instance] IeeeConvertExamples.someLibm

/-- A white pixel, or one without red, in half floats. -/
def redPixel (b : Bool) : List F16 := [if b then halfOne else ⟨false, 0, by decide⟩, halfOne, halfOne, halfOne]

/-- The pixel in single floats. -/
def redFloats (b : Bool) : List F32 := [if b then 1 else 0, 1, 1, 1]

/-- Reading a pixel, and cropping to a wider window. -/
def readWide : Graph (Node F32) (Stream F32 F16) :=
  ⟨[⟨1, .uninitialized, .readImage { ReadImageAttrs.new with enable := 1, filePath := [98] }⟩,
    ⟨2, .uninitialized, .cropImage { CropImageAttrs.new with
      enable := 1, windowMinX := -1, windowMinY := 0, windowMaxX := 1, windowMaxY := 1,
      reformat := 1, blackOutside := 0 }⟩],
    [1, 2], ⟨[some 1, some 2], [], [⟨0, 1, 0⟩]⟩, .new, .dirty, .uninitialized⟩

theorem readWide_reach (px : List F16) :
    Reach (nodeSem .debug (halfFiles px)) insSort false readWide :=
  .connect 1 2 0 (.add ⟨2, .uninitialized, .cropImage { CropImageAttrs.new with
      enable := 1, windowMinX := -1, windowMinY := 0, windowMaxX := 1, windowMaxY := 1,
      reformat := 1, blackOutside := 0 }⟩
    (.add ⟨1, .uninitialized, .readImage { ReadImageAttrs.new with enable := 1, filePath := [98] }⟩
      (.new .new) rfl) rfl) rfl

theorem readWide_at : At readWide 2 1 := by
  refine ⟨rfl, ?_⟩
  intro j hj
  rcases j with _ | j <;> first | decide | omega

/-- The pixel, and the pixel with a black one on its left. -/
def wideLayers (b : Bool) (i : Nat) : Layer F32 :=
  ⟨if i = 0 then ⟨⟨0, 0, 1, 1⟩, ⟨0, 0, 1, 1⟩, 4, colorSpaceLinear, fun _ _ => redFloats b⟩
    else ⟨⟨-1, 0, 1, 1⟩, ⟨-1, 0, 1, 1⟩, 4, colorSpaceLinear,
      fun x _ => if x = 0 then redFloats b else [0, 0, 0, 0]⟩, []⟩

theorem wide_file (b : Bool) (path : Bytes) :
    IsFile (halfFiles (redPixel b)) path (wideLayers b 0).still := by
  refine ⟨halfSpec, .f16, 4, redFloats b, rfl, rfl, by constructor <;> decide, rfl, .inr rfl, rfl,
    rfl, rfl, rfl, rfl, ⟨redFloats b, ?_, ?_, ?_⟩, rfl, ?_⟩
  · obtain ⟨size, hs⟩ : ∃ size, size = sizeFor (wideLayers b 0).still.data
      (wideLayers b 0).still.channels := ⟨_, rfl⟩
    rw [← hs]
    cases b
    · refine congrArg (fun l : List F32 => Except.ok (floatImage (H := F16) size l)) ?_
      show List.map (fun x : F16 => (HalfLike.toF32 x : F32)) (redPixel false) = redFloats false
      decide +kernel
    · refine congrArg (fun l : List F32 => Except.ok (floatImage (H := F16) size l)) ?_
      show List.map (fun x : F16 => (HalfLike.toF32 x : F32)) (redPixel true) = redFloats true
      decide +kernel
  · intro _; rfl
  · intro h; exact absurd rfl h
  · rintro x y ⟨h1, h2, h3, h4⟩
    have hy : y = 0 := by change (0 : Int) ≤ y at h3; change y < 1 at h4; omega
    have hx : x = 0 := by change (0 : Int) ≤ x at h1; change x < 1 at h2; omega
    subst hy hx
    exact ⟨redFloats b, by revert b; decide +kernel, .nil _⟩

theorem wide_cut (b : Bool) :
    IsCropped ⟨-1, 0, 1, 1⟩ true (wideLayers b 0).still (wideLayers b 1).still := by
  refine ⟨rfl, rfl, rfl, rfl, ?_⟩
  rintro x y ⟨h1, h2, h3, h4⟩
  have hy : y = 0 := by change (0 : Int) ≤ y at h3; change y < 1 at h4; omega
  have hx : x = -1 ∨ x = 0 := by change (-1 : Int) ≤ x at h1; change x < 1 at h2; omega
  subst hy
  rcases hx with rfl | rfl
  · exact ⟨[0, 0, 0, 0], by revert b; decide +kernel, .nil _⟩
  · exact ⟨redFloats b, by revert b; decide +kernel, .nil _⟩

theorem wide_pictures (b : Bool) (frame : F32) :
    Pictures (halfFiles (redPixel b)) insSort readWide 1 frame (wideLayers b) := by
  intro i n ins _ hn hins
  rcases i with _ | _ | i
  · cases hn
    cases hins
    exact .read rfl (by decide) (wide_file b _)
  · cases hn
    cases hins
    exact .crop rfl rfl (by decide) (rests_refl _ _) rfl
      (show ValidSize ⟨2, 1, 4⟩ by unfold ValidSize; decide) (wide_cut b)
  · cases hn

theorem redFloats_plain (b : Bool) : ∀ v ∈ redFloats b, IsPlain v := by
  intro v hv
  simp only [redFloats, List.mem_cons, List.not_mem_nil, or_false] at hv
  rcases hv with rfl | rfl | rfl | rfl
  · cases b
    exacts [plain_zero, plain_one]
  all_goals exact plain_one

theorem wide_proper (b : Bool) (i : Nat) : Proper (wideLayers b i).still := by
  rcases i with _ | i
  · refine ⟨.inr rfl, show ValidSize ⟨1, 1, 4⟩ by unfold ValidSize; decide, fun x y _ => ⟨rfl, ?_⟩⟩
    exact redFloats_plain b
  · refine ⟨.inr rfl, show ValidSize ⟨2, 1, 4⟩ by unfold ValidSize; decide, fun x y _ => ?_⟩
    show (if x = 0 then redFloats b else [0, 0, 0, 0] : List F32).length = 4 ∧
      ∀ v ∈ (if x = 0 then redFloats b else [0, 0, 0, 0] : List F32), IsPlain v
    split
    · exact ⟨rfl, redFloats_plain b⟩
    · refine ⟨rfl, fun v hv => ?_⟩
      simp only [List.mem_cons, List.not_mem_nil, or_false, or_self] at hv
      rw [hv]
      exact plain_zero

/-- The files are the same apart from red. -/
theorem wide_same (b b' : Bool) (path : Bytes) :
    SameFileIn (fun c => c ≠ 0) (halfFiles (redPixel b)) (halfFiles (redPixel b')) path := by
  refine ⟨rfl, fun spec h => by cases h; rfl, fun spec t h1 h2 channels init x y c k1 k2 k3 k4 k5
    k6 => ?_⟩
  cases h1
  cases h2
  have hy : y = 0 := by change y < 1 at k4; omega
  have hx : x = 0 := by change x < 1 at k2; omega
  subst hy hx
  have key : ∀ l : List F16, (fillWith (redPixel b) l)[((0 * 1 + 0) * channels + (c : Int)).toNat]? =
      (fillWith (redPixel b') l)[((0 * 1 + 0) * channels + (c : Int)).toNat]? := fun l => by
    have hc : ((0 * 1 + 0) * channels + (c : Int)).toNat = c := by omega
    rw [hc]
    unfold fillWith
    obtain ⟨c, rfl⟩ := Nat.exists_eq_succ_of_ne_zero k6
    rcases l with _ | ⟨x, l⟩
    · rfl
    · rfl
  exact key init

theorem half_tools (px px' : List F16) : SameTools (halfFiles px) (halfFiles px') :=
  ⟨rfl, fun _ _ _ _ _ _ _ => rfl⟩

/-- The hypotheses of C136 are met: reading and cropping two files that differ in red. -/
example : ∃ g1 w1 g2 w2 P P',
    readWide.execute (nodeSem .debug (halfFiles (redPixel true))) insSort 20 2 [1] copyWorld =
      .ok (.success, g1, w1) ∧
    readWide.execute (nodeSem .debug (halfFiles (redPixel false))) insSort 20 2 [1] copyWorld =
      .ok (.success, g2, w2) ∧
    Still (halfFiles (redPixel true)).bake.color g1.output P ∧
    Still (halfFiles (redPixel false)).bake.color g2.output P' ∧ SameIn (fun c => c ≠ 0) P P' := by
  obtain ⟨g1, w1, e1⟩ : ∃ g1 w1, readWide.execute (nodeSem .debug (halfFiles (redPixel true))) insSort
      20 2 [1] copyWorld = .ok (.success, g1, w1) := ⟨_, _, rfl⟩
  obtain ⟨g2, w2, e2⟩ : ∃ g1 w1, readWide.execute (nodeSem .debug (halfFiles (redPixel false))) insSort
      20 2 [1] copyWorld = .ok (.success, g1, w1) := ⟨_, _, rfl⟩
  obtain ⟨P, P', h1, h2, h3, -⟩ := C136_execution .debug (S := fun c => c ≠ 0) _ _ (half_tools _ _)
    insSort (readWide_reach (redPixel true)) (readWide_reach (redPixel false)) readWide_at rfl
    (frames := [1]) (frame := 1) rfl
    (pic := fun _ => wideLayers true) (pic' := fun _ => wideLayers false)
    (fun fr _ => wide_pictures true fr) (fun fr _ => wide_pictures false fr)
    (fun i _ => ⟨wide_proper true i, wide_proper false i⟩)
    (by
      intro i n _ hn
      rcases i with _ | _ | i
      · cases hn; intro h; cases h
      · cases hn; intro h; cases h
      · cases hn)
    (fun i n _ _ _ => ⟨rfl, wide_same true false _⟩) ⟨rfl, rfl⟩ ⟨rfl, rfl⟩ e1 e2
  exact ⟨g1, w1, g2, w2, P, P', e1, e2, h1, h2, h3⟩

/-- The pictures do differ, in red. -/
example : ((wideLayers true 1).still.at_ 0 0)[0]? ≠ ((wideLayers false 1).still.at_ 0 0)[0]? := by
  decide +kernel

/-- C136 is false for numbers that are not finite: cutting out a pixel with infinite red changes the
other channels, of a pixel with ordinary red it does not. -/
theorem C136_counterexample_infinite : ∃ P P' Q Q' : Picture F32,
    SameIn (fun c => c ≠ 0) P P' ∧ IsCropped ⟨0, 0, 1, 1⟩ false P Q ∧
      IsCropped ⟨0, 0, 1, 1⟩ false P' Q' ∧ (Q.at_ 0 0)[1]? = some nan ∧ (Q'.at_ 0 0)[1]? = some 1 := by
  refine ⟨pixelPicture [inf false, 1, 1, 1], pixelPicture [1, 1, 1, 1],
    pixelPicture [inf false, nan, nan, nan], pixelPicture [1, 1, 1, 1],
    ⟨rfl, rfl, rfl, rfl, fun x y _ c hc => ?_⟩, pixel_cropped (by decide +kernel),
    pixel_cropped (by decide +kernel), rfl, rfl⟩
  obtain ⟨c, rfl⟩ := Nat.exists_eq_succ_of_ne_zero hc
  rfl

end OCG.Props
