import Verif.Spec.Resample
import Verif.Props.Picture
import Verif.Props.Oiio
/-
C86 for resampling.
-/

namespace OCG.Props

open BlockSpec BBoxSpec ImageSpecs PixelSpec ColorSpec PictureSpec OiioSpec
open ComputeSpec CacheSpec

section
variable {F H : Type} [FloatLike F] [FloatConst F] [FloatBits F] [HalfLike F H]

/-- The new length is the only one that fits. -/
theorem scaledTo_unique {length factor n m : Int} (h0 : 0 ≤ length)
    (hs : scaled length factor < 2147483648) (hn : ScaledTo length factor n)
    (hm : ScaledTo length factor m) : n = m := by
  have q0 : 0 ≤ scaled length factor := by
    unfold scaled
    have : (0 : Rat) ≤ length := by exact_mod_cast h0
    positivity
  by_cases h1 : scaled length factor < 1
  · rw [hn.below q0 h1, hm.below q0 h1]
  · push Not at h1
    by_cases h2 : scaled length factor < 16385
    · obtain ⟨a, b⟩ := hn.inside h1 h2
      obtain ⟨c, d⟩ := hm.inside h1 h2
      have e1 : n < m + 1 := by exact_mod_cast lt_of_le_of_lt a d
      have e2 : m < n + 1 := by exact_mod_cast lt_of_le_of_lt c b
      omega
    · push Not at h2
      rw [hn.above (by linarith) hs, hm.above (by linarith) hs]

omit [FloatConst F] [FloatBits F] in
/-- Floats are made of the elements one by one. -/
theorem convert_map (t : DType) : ∃ f : Elem F H t → F, ∀ size (data : List (Elem F H t)),
    (⟨size, ⟨t, data⟩⟩ : PixelBlock F H).convert (.known .f32) = .ok (floatImage size (data.map f)) := by
  by_cases ht : t = .f32
  · subst ht
    refine ⟨fun x => x, fun size data => ?_⟩
    refine (C18_convert_same (⟨size, ⟨.f32, data⟩⟩ : PixelBlock F H)).trans ?_
    exact congrArg (fun l : List F => Except.ok (floatImage (H := H) size l)) (List.map_id data).symm
  · refine ⟨convElem t .f32, fun size data => ?_⟩
    unfold PixelBlock.convert DataBlock.convert
    simp only [if_neg ht, bind, Except.bind]
    rfl

omit [FloatLike F] [FloatConst F] [FloatBits F] in
theorem picked_pixel {n : Nat} {v v' : List F} {i j : Nat}
    (h : ∀ c, c < n → v'[i * n + c]? = v[j * n + c]?) : pixel n v' i = pixel n v j := by
  unfold pixel
  refine List.ext_getElem? fun c => ?_
  by_cases hc : c < n
  · rw [List.getElem?_take_of_lt hc, List.getElem?_take_of_lt hc, List.getElem?_drop,
      List.getElem?_drop, h c hc]
  · rw [List.getElem?_take_eq_none (by omega), List.getElem?_take_eq_none (by omega)]

/-- C86: a resample node that is switched on and does not interpolate picks pixels.  Colours that are
waiting go on waiting, and it makes no difference whether they are carried out before or after.
Missing: interpolation, where it does; pixels that are not stored in linear light; and pixels of
other types than floats with other than four channels, which C77 is about. -/
theorem C86_resample_partial (p : Profile) (lib : NodeLib F H) (n : Node F) (frame : F) (mode : Mode)
    (s prev : Stream F H) (w : World F H) (ht : n.attrs.nodeType = .resampleImage)
    (he : n.getI32 "enable" = 1) (hf : n.getI32 "factor" ≠ 0) (hi : n.getI32 "interpolate" = 0)
    (hw : IsOff w) {pick : Int → Int → Int → Int} (hpick : Picks lib.oiio pick) {P : Picture F}
    (hP : Still lib.bake.color s P) (hl : P.space = colorSpaceLinear)
    (hc : s.pixelBlock.block.dtype = .f32 ∨ P.channels = 4)
    (hx : scaled (P.data.maxX - P.data.minX) (n.getI32 "factor") < 2147483648)
    (hy : scaled (P.data.maxY - P.data.minY) (n.getI32 "factor") < 2147483648) :
    ∃ out w', n.run p lib frame mode [s] prev w = .ok (.valid, out, w') ∧ IsOff w' ∧
      w'.writes = w.writes ∧ out.deformers = s.deformers ∧
      (∃ Q, IsResampled pick (n.getI32 "factor") P Q) ∧
      ∀ Q, IsResampled pick (n.getI32 "factor") P Q → Still lib.bake.color out Q := by
  obtain ⟨id, st, attrs⟩ := n
  cases attrs <;> simp only [NodeAttrs.nodeType, reduceCtorEq] at ht
  rename_i a
  simp only [attr_eval] at he hf hi hx hy ⊢
  obtain ⟨v, ⟨raw, eraw, hlin, -⟩, hvl, hpx⟩ := hP.pixels
  have hvr := hlin (hP.space.trans hl)
  subst hvr
  obtain ⟨state, shash, disp, dw, cm, ispec, ⟨size, ⟨t, data⟩⟩, defs, ops⟩ := s
  obtain ⟨p1, p2, p3, p4, p5, -⟩ := hP
  dsimp only at p1 p2 p3 hc eraw hpx hvl
  subst p1 p2
  obtain ⟨f, hfm⟩ := convert_map (F := F) (H := H) t
  rw [hfm] at eraw
  have e0 := Except.ok.inj eraw
  have hsize : size = sizeFor P.data P.channels := congrArg PixelBlock.size e0
  have hdata : data.map f = v := by
    injection e0 with e1 e2
    injection e2
  subst hdata hsize
  have hlen : (data.length : Int) = elements (sizeFor P.data P.channels) := by
    rw [List.length_map] at hvl; exact hvl
  obtain ⟨w1, w2, -⟩ := C64_length lib.oiio (P.data.maxX - P.data.minX) a.factor
  obtain ⟨k1, k2, -⟩ := C64_length lib.oiio (P.data.maxY - P.data.minY) a.factor
  have sw := C64_length lib.oiio (P.data.maxX - P.data.minX) a.factor
  have sh := C64_length lib.oiio (P.data.maxY - P.data.minY) a.factor
  have hbc : blockChannels t (P.channels : Int) = P.channels := by
    unfold blockChannels
    rcases hc with h | h
    · rw [if_pos h]
    · split
      · rfl
      · rw [h]; rfl
  have hv : ValidSize ⟨resampleLength lib.oiio (P.data.maxX - P.data.minX) a.factor,
      resampleLength lib.oiio (P.data.maxY - P.data.minY) a.factor, P.channels⟩ := by
    refine ⟨by dsimp only; omega, by dsimp only; omega, by dsimp only; omega, ?_⟩
    dsimp only
    generalize resampleLength lib.oiio (P.data.maxX - P.data.minX) a.factor = k at *
    generalize resampleLength lib.oiio (P.data.maxY - P.data.minY) a.factor = b at *
    have h3 : k * b ≤ 16384 * 16384 := Int.mul_le_mul w2 k2 (by omega) (by omega)
    have h5 : k * b * P.channels ≤ 16384 * 16384 * 4 :=
      Int.mul_le_mul h3 (by omega) (by omega) (by omega)
    omega
  obtain ⟨⟨ab, asp, adisp, adw⟩, d, e1, e2, e3⟩ := allocate_ok (F := F) (H := H) p
    { x := 0, y := 0, width := resampleLength lib.oiio (P.data.maxX - P.data.minX) a.factor
      height := resampleLength lib.oiio (P.data.maxY - P.data.minY) a.factor, fullX := 0, fullY := 0
      fullWidth := resampleLength lib.oiio (P.data.maxX - P.data.minX) a.factor
      fullHeight := resampleLength lib.oiio (P.data.maxY - P.data.minY) a.factor
      numChannels := P.channels
      format := .known t
      colorSpace := [], gamma := 1, pixelAspect := 1, orientation := 0, unassociatedAlpha := 0
      dither := 0 } Image.empty t rfl (by dsimp only; omega)
    (by dsimp only; omega) (by rw [hbc]; exact hv) (by dsimp only; omega) (by dsimp only; omega)
    (by dsimp only; omega) (by dsimp only; omega)
  dsimp only at e2 e3
  rw [hbc] at e2 e3
  subst e2
  have hok := hpick.pixels (sizeFor P.data P.channels)
    (resampleLength lib.oiio (P.data.maxX - P.data.minX) a.factor)
    (resampleLength lib.oiio (P.data.maxY - P.data.minY) a.factor) t data d p5 hlen hv e3
  have eR : oiioResample p lib.oiio ⟨⟨sizeFor P.data P.channels, ⟨t, data⟩⟩, ispec, P.display,
      P.data⟩ Image.empty a.factor false = .ok
      ((lib.oiio.resample (sizeFor P.data P.channels) ⟨t, data⟩ false
        (resampleLength lib.oiio (P.data.maxX - P.data.minX) a.factor)
        (resampleLength lib.oiio (P.data.maxY - P.data.minY) a.factor) t d).1,
      ⟨⟨⟨resampleLength lib.oiio (P.data.maxX - P.data.minX) a.factor,
        resampleLength lib.oiio (P.data.maxY - P.data.minY) a.factor, P.channels⟩, ⟨t,
        (lib.oiio.resample (sizeFor P.data P.channels) ⟨t, data⟩ false
        (resampleLength lib.oiio (P.data.maxX - P.data.minX) a.factor)
        (resampleLength lib.oiio (P.data.maxY - P.data.minY) a.factor) t d).2⟩⟩, asp, adisp,
        adw⟩) := Res.bind_ok.mpr ⟨_, e1, rfl⟩
  have hdl : ((lib.oiio.resample (sizeFor P.data P.channels) ⟨t, data⟩ false
        (resampleLength lib.oiio (P.data.maxX - P.data.minX) a.factor)
        (resampleLength lib.oiio (P.data.maxY - P.data.minY) a.factor) t d).2.length : Int) =
      elements ⟨resampleLength lib.oiio (P.data.maxX - P.data.minX) a.factor,
        resampleLength lib.oiio (P.data.maxY - P.data.minY) a.factor, P.channels⟩ := by
    rw [lib.oiio.resample_length]; exact e3
  obtain ⟨hflag, hok⟩ := hok
  rw [hflag] at eR
  generalize (lib.oiio.resample (sizeFor P.data P.channels) ⟨t, data⟩ false
        (resampleLength lib.oiio (P.data.maxX - P.data.minX) a.factor)
        (resampleLength lib.oiio (P.data.maxY - P.data.minY) a.factor) t d).2 = d' at eR hok hdl
  clear hflag
  generalize resampleLength lib.oiio (P.data.maxX - P.data.minX) a.factor = W at *
  generalize resampleLength lib.oiio (P.data.maxY - P.data.minY) a.factor = T at *
  have eR' : resampleProcess p lib ⟨state, shash, P.display, P.data, cm, ispec,
      ⟨sizeFor P.data P.channels, ⟨t, data⟩⟩, defs, ops⟩ a.factor false = _ := eR
  obtain ⟨-, -, d3, d4⟩ := C64_dimensions p lib.oiio _ _ _ _ _ _ eR
  dsimp only at d3 d4
  subst d4 d3
  have hmake : (do
      let (ok, image) ← resampleProcess p lib ⟨state, shash, P.display, P.data, cm, ispec,
        ⟨sizeFor P.data P.channels, ⟨t, data⟩⟩, defs, ops⟩ a.factor (decide (a.interpolate ≠ 0))
      .ok (image, if ok = false then NodeStatus.error else NodeStatus.valid) :
        Res (Image F H × NodeStatus)) = .ok (⟨⟨⟨W, T, P.channels⟩, ⟨t, d'⟩⟩, asp, ⟨0, 0, W, T⟩,
          ⟨0, 0, W, T⟩⟩, NodeStatus.valid) := by
    rw [decide_eq_false (by rw [hi]; simp), eR']
    rfl
  obtain ⟨w', e, ho, hwr⟩ := lookup_off_mpr (p := p) (u := decide (a.useCache ≠ 0))
    (key := Node.hash lib.hash lib.shell ⟨id, st, .resampleImage a⟩ frame [shash])
    (hit := NodeStatus.valid) hw hmake
  refine ⟨⟨state, Node.hash lib.hash lib.shell ⟨id, st, .resampleImage a⟩ frame [shash],
    ⟨0, 0, W, T⟩, ⟨0, 0, W, T⟩, cm, ispec, ⟨⟨W, T, P.channels⟩, ⟨t, d'⟩⟩, defs, ops⟩, w', ?_, ho, hwr,
    rfl, ?_, ?_⟩
  · simp only [Node.run, ResampleImageAttrs.compute]
    rw [if_neg (by rw [he]; simp)]
    refine Res.bind_ok.mpr ⟨(), by simp [ensure], ?_⟩
    rw [if_pos hf]
    exact Res.bind_ok.mpr ⟨_, e, rfl⟩
  · exact ⟨⟨⟨0, 0, W, T⟩, ⟨0, 0, W, T⟩, P.channels, P.space,
      fun x y => P.at_ (P.data.minX + pick (P.data.maxX - P.data.minX) W x)
        (P.data.minY + pick (P.data.maxY - P.data.minY) T y)⟩,
      ⟨⟨rfl, rfl⟩, sw, sh, rfl, rfl, rfl, fun x y _ => rfl⟩⟩
  · rintro ⟨⟨q0, q1, q2, q3⟩, display, channels, space, at_⟩ ⟨⟨o1, o2⟩, hq1, hq2, hq3, hq4, hq5, hq6⟩
    simp only at o1 o2 hq1 hq2 hq3 hq4 hq5 hq6
    have g1 : 0 < P.data.maxX - P.data.minX := p5.1
    have g2 : 0 < P.data.maxY - P.data.minY := p5.2.1
    have f1 := scaledTo_unique (by omega) hx sw hq1
    have f2 := scaledTo_unique (by omega) hy sh hq2
    subst o1 o2 f1 f2 hq3 hq4 hq5
    have hsz : sizeFor (⟨0, 0, W, T⟩ : BBox) (P.channels : Int) = ⟨W, T, P.channels⟩ := by
      unfold sizeFor
      rw [Int.sub_zero, Int.sub_zero]
    refine ⟨rfl, rfl, p3, p4, ?_, d'.map f, ⟨d'.map f, ?_, fun _ => rfl, fun h => ?_⟩, ?_, ?_⟩
    · rw [hsz]; exact hv
    · rw [hsz]; exact hfm _ _
    · exact absurd (p3.trans hl) h
    · rw [hsz, List.length_map]; exact hdl
    · intro x y hxy
      dsimp only at hxy ⊢
      rw [hq6 x y hxy]
      obtain ⟨x0, x1, y0, y1⟩ : 0 ≤ x ∧ x < W ∧ 0 ≤ y ∧ y < T := by
        unfold Has at hxy; dsimp only at hxy; omega
      obtain ⟨r1, r2⟩ := hpick.range (P.data.maxX - P.data.minX) W x g1 x0 x1
      obtain ⟨r3, r4⟩ := hpick.range (P.data.maxY - P.data.minY) T y g2 y0 y1
      have := hpx (P.data.minX + pick (P.data.maxX - P.data.minX) W x)
        (P.data.minY + pick (P.data.maxY - P.data.minY) T y) (by unfold Has; omega)
      have hpix : pixelAt ⟨0, 0, W, T⟩ P.channels (d'.map f) x y =
          pixelAt P.data P.channels (data.map f)
            (P.data.minX + pick (P.data.maxX - P.data.minX) W x)
            (P.data.minY + pick (P.data.maxY - P.data.minY) T y) := by
        unfold pixelAt
        refine picked_pixel fun c hc => ?_
        have h := hok x y c x0 x1 y0 y1 (by omega) (by dsimp only [sizeFor]; omega)
        unfold channelAt at h
        dsimp only [sizeFor] at h ⊢
        rw [List.getElem?_map, List.getElem?_map]
        have i1 : ((y * W + x) * (P.channels : Int) + c).toNat =
            ((y - 0) * (W - 0) + (x - 0)).toNat * P.channels + c := by
          have n0 : 0 ≤ y * W + x := by have := Int.mul_nonneg y0 (by omega : 0 ≤ W); omega
          rw [Int.sub_zero, Int.sub_zero, Int.sub_zero]
          obtain ⟨k, hk⟩ := Int.eq_ofNat_of_zero_le n0
          rw [hk, Int.toNat_natCast]
          exact_mod_cast Int.toNat_natCast _
        have i2 : ((pick (P.data.maxY - P.data.minY) T y * (P.data.maxX - P.data.minX) +
            pick (P.data.maxX - P.data.minX) W x) * (P.channels : Int) + c).toNat =
            ((P.data.minY + pick (P.data.maxY - P.data.minY) T y - P.data.minY) *
              (P.data.maxX - P.data.minX) + (P.data.minX + pick (P.data.maxX - P.data.minX) W x -
              P.data.minX)).toNat * P.channels + c := by
          rw [add_sub_cancel_left, add_sub_cancel_left]
          have n0 := Int.add_nonneg (Int.mul_nonneg r3 (Int.le_of_lt g1)) r1
          obtain ⟨k, hk⟩ := Int.eq_ofNat_of_zero_le n0
          rw [hk, Int.toNat_natCast]
          exact_mod_cast Int.toNat_natCast _
        rw [i1, i2] at h
        rw [h]
      rw [hpix]
      exact this

end

/-! ### Examples -/

section
variable {F H : Type}

theorem decode {q n r : Int} (h0 : 0 ≤ r) (h1 : r < n) : (q * n + r) / n = q ∧ (q * n + r) % n = r :=
  (Int.ediv_emod_unique (by omega)).mpr ⟨by rw [Int.mul_comm]; omega, h0, h1⟩

/-- The column to the left of the point that belongs to the start of column `i`. -/
def pickLeft (n m i : Int) : Int := i * n / m

/-- Where the value at a place of the new buffer comes from. -/
def pickFrom (size : BlockSize) (w h : Int) (k : Nat) : Nat :=
  ((pickLeft size.height h ((k : Int) / size.numChannels / w) * size.width +
    pickLeft size.width w ((k : Int) / size.numChannels % w)) * size.numChannels +
    (k : Int) % size.numChannels).toNat

/-- Resampling by picking. -/
def pickAll (size : BlockSize) (block : DataBlock F H) (w h : Int) (t : DType)
    (old : List (Elem F H t)) : Bool × List (Elem F H t) :=
  if e : block.dtype = t then
    (true, old.mapIdx fun k z => (e ▸ block.data : List (Elem F H t)).getD (pickFrom size w h k) z)
  else (false, old)

theorem pickLeft_range {n m i : Int} (hn : 0 < n) (h0 : 0 ≤ i) (h1 : i < m) :
    0 ≤ pickLeft n m i ∧ pickLeft n m i < n := by
  unfold pickLeft
  refine ⟨Int.ediv_nonneg (Int.mul_nonneg h0 (by omega)) (by omega), ?_⟩
  refine Int.ediv_lt_of_lt_mul (by omega) ?_
  rw [Int.mul_comm]
  exact Int.mul_lt_mul_of_pos_left h1 hn

/-- A library that resamples by picking meets the assumption. -/
theorem picks_all {oiio : Oiio F H}
    (h : ∀ size block w h t old, oiio.resample size block false w h t old =
      pickAll size block w h t old) : Picks oiio pickLeft := by
  refine ⟨fun n m i => pickLeft_range, fun size w h' t data old hs hd hv ho => ?_⟩
  rw [h]
  unfold pickAll
  rw [dif_pos rfl]
  refine ⟨rfl, fun x y c x0 x1 y0 y1 c0 c1 => ?_⟩
  obtain ⟨s1, s2, s3, -⟩ := hs
  obtain ⟨p1, p2⟩ := pickLeft_range s1 x0 x1
  obtain ⟨p3, p4⟩ := pickLeft_range s2 y0 y1
  unfold channelAt
  dsimp only
  have bound : ∀ {a b n x y c : Int}, 0 ≤ x → x < a → 0 ≤ y → y < b → 0 ≤ c → c < n →
      0 ≤ (y * a + x) * n + c ∧ (y * a + x) * n + c < a * b * n := by
    intro a b n x y c x0 x1 y0 y1 c0 c1
    have h1 : 0 ≤ y * a := Int.mul_nonneg y0 (by omega)
    have h2 : 0 ≤ (y * a + x) * n := Int.mul_nonneg (by omega) (by omega)
    have h3 : (y + 1) * a ≤ b * a := Int.mul_le_mul_of_nonneg_right (by omega) (by omega)
    have h4 : (y * a + x + 1) * n ≤ a * b * n :=
      Int.mul_le_mul_of_nonneg_right (by rw [Int.mul_comm a b]; rw [Int.add_mul] at h3; omega)
        (by omega)
    rw [Int.add_mul] at h4
    omega
  obtain ⟨b1, b2⟩ := bound x0 x1 y0 y1 c0 c1
  obtain ⟨b3, b4⟩ := bound p1 p2 p3 p4 c0 c1
  unfold elements at hd ho
  dsimp only at ho
  have hk : ((y * w + x) * size.numChannels + c).toNat < old.length := by omega
  have hj : ((pickLeft size.height h' y * size.width + pickLeft size.width w x) *
      size.numChannels + c).toNat < data.length := by omega
  rw [List.getElem?_mapIdx, List.getElem?_eq_getElem hk, List.getElem?_eq_getElem hj]
  have hf : pickFrom size w h' ((y * w + x) * size.numChannels + c).toNat =
      ((pickLeft size.height h' y * size.width + pickLeft size.width w x) *
      size.numChannels + c).toNat := by
    unfold pickFrom
    rw [Int.toNat_of_nonneg b1, (decode c0 c1).1, (decode c0 c1).2, (decode x0 x1).1,
      (decode x0 x1).2]
  show some _ = some _
  rw [hf]
  congr 1
  show data.getD _ _ = _
  rw [List.getD_eq_getElem?_getD, List.getElem?_eq_getElem hj]
  rfl

end

attribute [local instance] finFloat finBits finHalf finPi

/-- Libraries that resample by picking. -/
def pickLib : NodeLib (Fin 256) (Fin 256) :=
  { finLib with
    oiio := { fullDisk with
      resample := fun size block _ w h t old => pickAll size block w h t old
      resample_length := by
        intro size block _ w h t old
        dsimp only [pickAll]
        split
        · simp
        · rfl } }

/-- A node that doubles the size. -/
def doubleNode : Node (Fin 256) :=
  nodeOf (.resampleImage { ResampleImageAttrs.new with enable := 1, factor := 1, interpolate := 0 })

theorem scaled_one : scaled 1 1 = 2 := by unfold scaled; norm_num

theorem scaledTo_two {n : Int} (h : ScaledTo 1 1 n) : n = 2 := by
  have h1 := h.inside (by rw [scaled_one]; norm_num) (by rw [scaled_one]; norm_num)
  rw [scaled_one] at h1
  have h2 : (n : Rat) ≤ (2 : Int) := by exact_mod_cast h1.1
  have h3 : ((2 : Int) : Rat) < ((n + 1 : Int) : Rat) := by push_cast; exact h1.2
  have h4 := Rat.intCast_le_intCast.mp h2
  have h5 := Rat.intCast_lt_intCast.mp h3
  omega

-- C86: a single red pixel becomes four.
example : ∃ out w' Q, doubleNode.run .debug pickLib 1 modeAll [onePixel] .new noCache =
      .ok (.valid, out, w') ∧ Still pickLib.bake.color out Q ∧ Q.data = ⟨0, 0, 2, 2⟩ ∧
      Q.at_ 1 1 = [1, 0, 0] := by
  obtain ⟨out, w', e, -, -, -, ⟨Q, hQ⟩, h⟩ := C86_resample_partial .debug pickLib doubleNode 1 modeAll
    onePixel .new noCache rfl (by decide) (by decide) (by decide) noCache_off
    (picks_all fun _ _ _ _ _ _ => rfl) (red_shows _).isStill rfl (.inl rfl)
    (by show scaled 1 1 < _; rw [scaled_one]; norm_num)
    (by show scaled 1 1 < _; rw [scaled_one]; norm_num)
  have hq : Q.data = ⟨0, 0, 2, 2⟩ := by
    have hx : Q.data.maxX = 2 := scaledTo_two hQ.width
    have hy : Q.data.maxY = 2 := scaledTo_two hQ.height
    obtain ⟨h1, h2⟩ := hQ.origin
    generalize Q.data = d at *
    obtain ⟨a, b, c, e⟩ := d
    dsimp only at hx hy h1 h2
    rw [hx, hy, h1, h2]
  refine ⟨out, w', Q, e, h Q hQ, hq, ?_⟩
  exact hQ.pixels 1 1 (by rw [hq]; decide)

end OCG.Props
