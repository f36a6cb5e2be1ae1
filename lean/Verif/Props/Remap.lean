import Verif.Spec.Remap
import Verif.Proofs.Grid
import Verif.Props.PixelBlock
import Verif.Proofs.Pixels
import Mathlib.Tactic.Linarith
import Mathlib.Algebra.Order.Round
import Mathlib.Data.Rat.Floor
/-
Property C56: remapping pixels.
-/

namespace OCG.Props

open BlockSpec RemapSpec

section
variable {F : Type} [FloatLike F]

/-- The source column or row that the code picks. -/
def pick (size dispMin dispMax dataMin dataMax : Int) (x : F) : Int :=
  min (max (FloatLike.toI32 (FloatLike.round (Interp.remap (FloatLike.ofInt dispMin)
    (FloatLike.ofInt dispMax) (FloatLike.ofInt dataMin) (FloatLike.ofInt (dataMax - 1)) x))) 0)
    (size - 1)

theorem pick_range {size a b c d : Int} (h : 0 < size) (x : F) :
    0 ≤ pick size a b c d x ∧ pick size a b c d x < size := by
  unfold pick
  omega

theorem getAt_of {α : Type} {l : List α} {k : Nat} {v : α} (h : l[k]? = some v) :
    getAt l k = .ok v := by
  unfold getAt; rw [h]

/-- The values of a pixel as a list. -/
def pixelValues (b : BlockSize) (data : List F) (x y : Int) : List F :=
  (data.drop ((y * b.width + x) * b.numChannels).toNat).take b.numChannels.toNat

omit [FloatLike F] in
theorem pixelValues_get (b : BlockSize) (data : List F) (x y c : Int) (hb : ValidSize b)
    (h : InBlock b x y) (h0 : 0 ≤ c) (h1 : c < b.numChannels) :
    (pixelValues b data x y)[c.toNat]? = channelAt b data x y c := by
  unfold pixelValues channelAt
  obtain ⟨hw, hh, hn, -⟩ := hb
  obtain ⟨a1, a2, a3, a4⟩ := h
  have r0 : 0 ≤ y * b.width := mul_nonneg a3 hw.le
  have hq : 0 ≤ (y * b.width + x) * b.numChannels := mul_nonneg (by omega) hn.le
  rw [List.getElem?_take_of_lt (by omega), List.getElem?_drop, Int.toNat_add hq h0]

omit [FloatLike F] in
theorem pixelValues_length (b : BlockSize) (data : List F) (x y : Int) (hb : ValidSize b)
    (hl : (data.length : Int) = elements b) (h : InBlock b x y) :
    (pixelValues b data x y).length = b.numChannels.toNat := by
  obtain ⟨-, g2, g3⟩ := getIndex_eq .debug b hb x y h
  have e : y * (b.width * b.numChannels) + x * b.numChannels =
      (y * b.width + x) * b.numChannels := by ring
  rw [e] at g2 g3
  unfold pixelValues
  rw [List.length_take, List.length_drop]
  have := hb.2.2.1
  omega

/-- Fetching a source pixel gives all its channels. -/
theorem getPixel_eq (p : Profile) (b : BlockSize) (hb : ValidSize b) (data : List F)
    (hl : (data.length : Int) = elements b) (hc : b.numChannels = 3 ∨ b.numChannels = 4)
    (x y : F) :
    getPixel p (if b.numChannels = 4 then 4 else 3) data b.width b.height b.numChannels
        (b.width * b.numChannels) x y =
      .ok (pixelValues b data
        (min (max (FloatLike.toI32 (FloatLike.round x)) 0) (b.width - 1))
        (min (max (FloatLike.toI32 (FloatLike.round y)) 0) (b.height - 1))) := by
  obtain ⟨g1, g2, g3, g4, g5, g6, g7, g8, g9, g10⟩ := hb.bounds
  obtain ⟨hw, hh, hn, hm⟩ := id hb
  generalize hsx : min (max (FloatLike.toI32 (FloatLike.round x)) 0) (b.width - 1) = sx
  generalize hsy : min (max (FloatLike.toI32 (FloatLike.round y)) 0) (b.height - 1) = sy
  have hin : InBlock b sx sy := by unfold InBlock; omega
  have nx : nearest p b.width x = .ok sx := by
    unfold nearest
    rw [i32_of (by unfold InI32; omega)]
    exact congrArg Except.ok hsx
  have ny : nearest p b.height y = .ok sy := by
    unfold nearest
    rw [i32_of (by unfold InI32; omega)]
    exact congrArg Except.ok hsy
  obtain ⟨i1, i2, i3⟩ := getIndex_eq p b hb sx sy hin
  have i1' : OCG.getIndex p b.width b.height b.numChannels (b.width * b.numChannels) sx sy =
      .ok (sy * (b.width * b.numChannels) + sx * b.numChannels) := by
    rw [← i1]
    unfold BlockSize.getIndex
    dsimp only
    rw [i32_of (by unfold InI32; omega)]
    rfl
  have e : sy * (b.width * b.numChannels) + sx * b.numChannels =
      (sy * b.width + sx) * b.numChannels := by ring
  rw [e] at i1' i2 i3
  unfold getPixel
  refine Res.bind_ok.mpr ⟨sx, nx, Res.bind_ok.mpr ⟨sy, ny, Res.bind_ok.mpr ⟨_, i1', ?_⟩⟩⟩
  rw [if_pos i2]
  have hv := pixelValues_length b data sx sy hb hl hin
  have hget : ∀ k : Nat, k < b.numChannels.toNat →
      data[((sy * b.width + sx) * b.numChannels).toNat + k]? = (pixelValues b data sx sy)[k]? := by
    intro k hk
    unfold pixelValues
    rw [List.getElem?_take_of_lt hk, List.getElem?_drop]
  dsimp only
  rw [asUsize_of_nonneg i2]
  rcases hc with h3 | h4
  · have hlen : (pixelValues b data sx sy).length = 3 := by rw [hv, h3]; rfl
    obtain ⟨r, g, bl, hp⟩ := list3 hlen
    rw [hp]
    rw [hp] at hget
    rw [if_neg (by omega)]
    refine Res.bind_ok.mpr ⟨r, getAt_of (hget 0 (by omega)), Res.bind_ok.mpr
      ⟨g, getAt_of (hget 1 (by omega)), Res.bind_ok.mpr ⟨bl, getAt_of (hget 2 (by omega)), ?_⟩⟩⟩
    rfl
  · have hlen : (pixelValues b data sx sy).length = 4 := by rw [hv, h4]; rfl
    obtain ⟨r, g, bl, a, hp⟩ := list4 hlen
    rw [hp]
    rw [hp] at hget
    rw [if_pos h4]
    refine Res.bind_ok.mpr ⟨r, getAt_of (hget 0 (by omega)), Res.bind_ok.mpr
      ⟨g, getAt_of (hget 1 (by omega)), Res.bind_ok.mpr ⟨bl, getAt_of (hget 2 (by omega)), ?_⟩⟩⟩
    rw [if_pos rfl]
    exact Res.bind_ok.mpr ⟨a, getAt_of (hget 3 (by omega)), rfl⟩

/-- The result of a remap, written out. -/
theorem remap_eq {H : Type} [HalfLike F H] (p : Profile) (display win : BBox) (coords : List F)
    (ss ds : BlockSize) (sd dd : List F) (hs : ValidSize ss) (hd : ValidSize ds)
    (hsl : (sd.length : Int) = elements ss) (hdl : (dd.length : Int) = elements ds)
    (hc : ss.numChannels = 3 ∨ ss.numChannels = 4) (hcc : ds.numChannels = ss.numChannels)
    (hcount : coords.length / 2 = (ds.width * ds.height).toNat)
    (hwx : InI32 (win.maxX - 1)) (hwy : InI32 (win.maxY - 1)) (cx cy : Nat → F)
    (hcx : ∀ k, k < (ds.width * ds.height).toNat → coords[2 * k]? = some (cx k))
    (hcy : ∀ k, k < (ds.width * ds.height).toNat → coords[2 * k + 1]? = some (cy k)) :
    pixelsRemapCoords (H := H) p display coords (floatImage ss sd) win (floatImage ds dd) =
      .ok (floatImage ds ((List.range (ds.width * ds.height).toNat).flatMap fun k =>
        pixelValues ss sd
          (pick ss.width display.minX display.maxX win.minX win.maxX (cx k))
          (pick ss.height display.minY display.maxY win.minY win.maxY (cy k)))) := by
  obtain ⟨g1, g2, g3, g4, g5, g6, g7, g8, g9, g10⟩ := hd.bounds
  obtain ⟨s1, s2, s3, s4, s5, s6, s7, s8, s9, s10⟩ := hs.bounds
  obtain ⟨hw, hh, hn, hm⟩ := id hd
  obtain ⟨sw, sh, sn, sm⟩ := id hs
  have aw := asUsize_of_nonneg hw.le
  have ah := asUsize_of_nonneg hh.le
  have an := asUsize_of_nonneg hn.le
  have hwh : (ds.width * ds.height).toNat = ds.width.toNat * ds.height.toNat :=
    Int.toNat_mul hw.le hh.le
  have hsmall : asUsize ds.width * asUsize ds.height < usizeMod := by
    rw [aw, ah, ← hwh, usizeMod_eq]
    omega
  unfold pixelsRemapCoords floatImage
  refine Res.bind_ok.mpr ⟨(), ensure_ok rfl, Res.bind_ok.mpr ⟨(), ensure_ok rfl, ?_⟩⟩
  refine Res.bind_ok.mpr ⟨_, umul_small hsmall, ?_⟩
  rw [aw, ah, ← hwh, if_neg (by omega)]
  refine Res.bind_ok.mpr ⟨dd, rfl, Res.bind_ok.mpr ⟨sd, rfl, ?_⟩⟩
  refine Res.bind_ok.mpr ⟨(), ensure_ok hc.symm, ?_⟩
  dsimp only
  refine Res.bind_ok.mpr ⟨_, i32_of (by unfold InI32; omega), ?_⟩
  refine Res.bind_ok.mpr ⟨_, i32_of (by unfold InI32; omega), ?_⟩
  rw [mul_comm ds.height ds.width]
  refine Res.bind_ok.mpr ⟨_, i32_of (by unfold InI32; omega), ?_⟩
  refine Res.bind_ok.mpr ⟨_, i32_of (by unfold InI32; unfold elements at g9 g10; omega), ?_⟩
  refine Res.bind_ok.mpr ⟨(), ensure_ok (by
    rw [asUsize_of_nonneg (by unfold elements at g9; omega)]
    unfold elements at hdl; omega), ?_⟩
  have h1 : ds.width * ds.height + 1 ≤ 2147483647 := by
    have : ds.width * ds.height * 3 ≤ ds.width * ds.height * ds.numChannels :=
      mul_le_mul_of_nonneg_left (by omega) (by omega)
    omega
  refine Res.bind_ok.mpr ⟨_, i32_of (by unfold InI32; omega), ?_⟩
  refine Res.bind_ok.mpr ⟨(), ensure_ok (by
    rw [asUsize_of_nonneg (by omega)]; omega), ?_⟩
  rw [an, asUsize_of_nonneg (by omega)]
  set g : Nat → List F := fun k => pixelValues ss sd
          (pick ss.width display.minX display.maxX win.minX win.maxX (cx k))
          (pick ss.height display.minY display.maxY win.minY win.maxY (cy k)) with hg
  have hgl : ∀ k, (g k).length = ds.numChannels.toNat := by
    intro k
    rw [hcc]
    refine pixelValues_length ss sd _ _ hs hsl ?_
    have a := pick_range (a := display.minX) (b := display.maxX) (c := win.minX) (d := win.maxX)
      sw (cx k)
    have b := pick_range (a := display.minY) (b := display.maxY) (c := win.minY) (d := win.maxY)
      sh (cy k)
    exact ⟨a.1, a.2, b.1, b.2⟩
  have hdd : dd.length = (ds.width * ds.height).toNat * ds.numChannels.toNat := by
    have : ((ds.width * ds.height).toNat * ds.numChannels.toNat : Int) = dd.length := by
      rw [hdl, Int.toNat_of_nonneg (by omega), Int.toNat_of_nonneg hn.le]; rfl
    exact_mod_cast this.symm
  obtain ⟨st, e, h2⟩ := grid_inv
    (fun k (st : List F × Nat) => st.2 = 2 * k ∧ Painted ds.numChannels.toNat g dd k st.1)
    ds.height.toNat ds.width.toNat
    (fun dy dx st => remapStep p display coords sd ss win (ss.width * ss.numChannels)
      ds.numChannels.toNat (ds.width * ds.numChannels).toNat dy dx st) (dd, 0)
    ⟨rfl, Painted.start _ _ _⟩ (by
    rintro y x st hy hx ⟨hk, hP⟩
    have hyx : y * ds.width.toNat + x < (ds.width * ds.height).toNat := by
      have : (y + 1) * ds.width.toNat ≤ ds.height.toNat * ds.width.toNat :=
        Nat.mul_le_mul_right _ hy
      rw [hwh, Nat.mul_comm ds.width.toNat]
      rw [Nat.add_mul, Nat.one_mul] at this
      omega
    obtain ⟨buf', e1, e2⟩ := hP.step (fun i _ => hgl i) hyx (le_of_eq hdd.symm)
      (i := y * (ds.width * ds.numChannels).toNat + x * ds.numChannels.toNat) (by
        rw [Int.toNat_mul hw.le hn.le]; ring)
    refine ⟨(buf', st.2 + 2), ?_, ?_, e2⟩
    · unfold remapStep
      dsimp only
      rw [hk]
      refine Res.bind_ok.mpr ⟨_, getAt_of (hcx _ hyx), Res.bind_ok.mpr ⟨_, getAt_of (hcy _ hyx), ?_⟩⟩
      refine Res.bind_ok.mpr ⟨_, Res.bind_ok.mpr ⟨_, i32_of hwx, rfl⟩, ?_⟩
      refine Res.bind_ok.mpr ⟨_, Res.bind_ok.mpr ⟨_, i32_of hwy, rfl⟩, ?_⟩
      refine Res.bind_ok.mpr ⟨_, getPixel_eq p ss hs sd hsl hc _ _, ?_⟩
      exact Res.bind_ok.mpr ⟨buf', e1, rfl⟩
    · dsimp only; omega)
  refine Res.bind_ok.mpr ⟨st, e, ?_⟩
  have hh2 := h2.2
  rw [Nat.mul_comm, ← hwh] at hh2
  rw [hh2.done hdd]

/-- The coordinate pairs of a coordinate buffer. -/
theorem coords_get (coords : List F) (n : Nat) (h : coords.length / 2 = n) :
    ∃ cx cy : Nat → F, (∀ k, k < n → coords[2 * k]? = some (cx k)) ∧
      ∀ k, k < n → coords[2 * k + 1]? = some (cy k) := by
  refine ⟨fun k => coords.getD (2 * k) 0, fun k => coords.getD (2 * k + 1) 0, ?_, ?_⟩
  · intro k hk
    have : 2 * k < coords.length := by omega
    simp [List.getElem?_eq_getElem this]
  · intro k hk
    have : 2 * k + 1 < coords.length := by omega
    simp [List.getElem?_eq_getElem this]

/-- The pixels of a remapped image. -/
theorem remap_pixels {H : Type} [HalfLike F H] (p : Profile) (display win : BBox)
    (coords : List F) (ss ds : BlockSize) (sd dd : List F) (hs : ValidSize ss) (hd : ValidSize ds)
    (hsl : (sd.length : Int) = elements ss) (hdl : (dd.length : Int) = elements ds)
    (hc : ss.numChannels = 3 ∨ ss.numChannels = 4) (hcc : ds.numChannels = ss.numChannels)
    (hcount : coords.length / 2 = (ds.width * ds.height).toNat)
    (hwx : InI32 (win.maxX - 1)) (hwy : InI32 (win.maxY - 1)) :
    ∃ out : List F, pixelsRemapCoords (H := H) p display coords (floatImage ss sd) win
        (floatImage ds dd) = .ok (floatImage ds out) ∧ (out.length : Int) = elements ds ∧
      ∀ x y, InBlock ds x y → ∃ cx cy, coords[2 * (y * ds.width + x).toNat]? = some cx ∧
        coords[2 * (y * ds.width + x).toNat + 1]? = some cy ∧
        CopiesPixel ds out ss sd x y
          (pick ss.width display.minX display.maxX win.minX win.maxX cx)
          (pick ss.height display.minY display.maxY win.minY win.maxY cy) := by
  obtain ⟨cx, cy, hcx, hcy⟩ := coords_get coords _ hcount
  have e := remap_eq (H := H) p display win coords ss ds sd dd hs hd hsl hdl hc hcc hcount hwx hwy
    cx cy hcx hcy
  obtain ⟨hw, hh, hn, hm⟩ := id hd
  have hpin : ∀ k, InBlock ss (pick ss.width display.minX display.maxX win.minX win.maxX (cx k))
      (pick ss.height display.minY display.maxY win.minY win.maxY (cy k)) := by
    intro k
    have a := pick_range (a := display.minX) (b := display.maxX) (c := win.minX) (d := win.maxX)
      hs.1 (cx k)
    have b := pick_range (a := display.minY) (b := display.maxY) (c := win.minY) (d := win.maxY)
      hs.2.1 (cy k)
    exact ⟨a.1, a.2, b.1, b.2⟩
  have hgl : ∀ k, (pixelValues ss sd
          (pick ss.width display.minX display.maxX win.minX win.maxX (cx k))
          (pick ss.height display.minY display.maxY win.minY win.maxY (cy k))).length =
        ds.numChannels.toNat := by
    intro k
    rw [hcc]
    exact pixelValues_length ss sd _ _ hs hsl (hpin k)
  refine ⟨_, e, ?_, ?_⟩
  · rw [length_flatMap_const _ _ _ (fun i _ => hgl i)]
    unfold elements
    push_cast
    rw [Int.toNat_of_nonneg (mul_nonneg hw.le hh.le), Int.toNat_of_nonneg hn.le]
  · intro x y hxy
    have hk : (y * ds.width + x).toNat < (ds.width * ds.height).toNat := by
      obtain ⟨a1, a2, a3, a4⟩ := hxy
      have r0 : 0 ≤ y * ds.width := mul_nonneg a3 hw.le
      have r1 : (y + 1) * ds.width ≤ ds.height * ds.width :=
        mul_le_mul_of_nonneg_right (by omega) hw.le
      rw [add_mul, one_mul, mul_comm ds.height] at r1
      omega
    refine ⟨_, _, hcx _ hk, hcy _ hk, ?_⟩
    intro c h0 h1
    rw [channelAt_flatMap ds hd _ (fun i _ => hgl i) x y c hxy h0 h1,
      pixelValues_get ss sd _ _ c hs (hpin _) h0 (by omega)]
    obtain ⟨-, i2, i3⟩ := getIndex_eq .debug ss hs _ _ (hpin (y * ds.width + x).toNat)
    generalize pick (F := F) ss.width _ _ _ _ _ = sx at *
    generalize pick (F := F) ss.height _ _ _ _ _ = sy at *
    have hlt : ((sy * ss.width + sx) * ss.numChannels + c).toNat < sd.length := by
      have : sy * (ss.width * ss.numChannels) + sx * ss.numChannels =
        (sy * ss.width + sx) * ss.numChannels := by ring
      omega
    exact ⟨_, List.getElem?_eq_getElem hlt, List.getElem?_eq_getElem hlt⟩

/-- C56: every output pixel of a remap is, in all its channels, a pixel of the source image,
whatever the coordinates are (also NaN or infinite), and no access is out of bounds. -/
theorem C56_source_pixels {H : Type} [HalfLike F H] (p : Profile) (display win : BBox)
    (coords : List F) (ss ds : BlockSize) (sd dd : List F) (hs : ValidSize ss) (hd : ValidSize ds)
    (hsl : (sd.length : Int) = elements ss) (hdl : (dd.length : Int) = elements ds)
    (hc : ss.numChannels = 3 ∨ ss.numChannels = 4) (hcc : ds.numChannels = ss.numChannels)
    (hcount : coords.length / 2 = (ds.width * ds.height).toNat)
    (hwx : InI32 (win.maxX - 1)) (hwy : InI32 (win.maxY - 1)) :
    ∃ out : List F, pixelsRemapCoords (H := H) p display coords (floatImage ss sd) win
        (floatImage ds dd) = .ok (floatImage ds out) ∧ (out.length : Int) = elements ds ∧
      ∀ x y, InBlock ds x y → ∃ sx sy, InBlock ss sx sy ∧ CopiesPixel ds out ss sd x y sx sy := by
  obtain ⟨out, e, hl, h⟩ := remap_pixels (H := H) p display win coords ss ds sd dd hs hd hsl hdl hc
    hcc hcount hwx hwy
  refine ⟨out, e, hl, fun x y hxy => ?_⟩
  obtain ⟨cx, cy, -, -, h⟩ := h x y hxy
  have a := pick_range (a := display.minX) (b := display.maxX) (c := win.minX) (d := win.maxX)
      hs.1 cx
  have b := pick_range (a := display.minY) (b := display.maxY) (c := win.minY) (d := win.maxY)
      hs.2.1 cy
  exact ⟨_, _, ⟨a.1, a.2, b.1, b.2⟩, h⟩

/-- C56: with a coordinate buffer of another size than the image, nothing is changed. -/
theorem C56_count_mismatch {H : Type} [HalfLike F H] (p : Profile) (display win : BBox)
    (coords : List F) (ss ds : BlockSize) (sd dd : List F) (hw : 0 ≤ ds.width) (hh : 0 ≤ ds.height)
    (hfit : ds.width * ds.height < 2 ^ 64)
    (hcount : coords.length / 2 ≠ (ds.width * ds.height).toNat) :
    pixelsRemapCoords (H := H) p display coords (floatImage ss sd) win (floatImage ds dd) =
      .ok (floatImage ds dd) := by
  have hwh : (ds.width * ds.height).toNat = ds.width.toNat * ds.height.toNat :=
    Int.toNat_mul hw hh
  have hsmall : asUsize ds.width * asUsize ds.height < usizeMod := by
    rw [asUsize_of_nonneg hw, asUsize_of_nonneg hh, ← hwh, usizeMod_eq]
    omega
  unfold pixelsRemapCoords floatImage
  refine Res.bind_ok.mpr ⟨(), ensure_ok rfl, Res.bind_ok.mpr ⟨(), ensure_ok rfl, ?_⟩⟩
  refine Res.bind_ok.mpr ⟨_, umul_small hsmall, ?_⟩
  rw [asUsize_of_nonneg hw, asUsize_of_nonneg hh, ← hwh, if_pos (Ne.symm hcount)]

/-- C56 counterexample: remapping into an image without pixels panics. -/
theorem C56_counterexample_empty {H : Type} [HalfLike F H] (p : Profile) (display win : BBox)
    (ss : BlockSize) (sd : List F) (hs : ValidSize ss)
    (hc : ss.numChannels = 3 ∨ ss.numChannels = 4) :
    pixelsRemapCoords (H := H) p display [] (floatImage ss sd) win
      (floatImage ⟨0, 0, ss.numChannels⟩ []) = .error .assertion := by
  obtain ⟨s1, s2, s3, s4, s5, s6, s7, s8, s9, s10⟩ := hs.bounds
  unfold pixelsRemapCoords floatImage
  refine Res.bind_error.mpr (.inr ⟨(), ensure_ok rfl, Res.bind_error.mpr
    (.inr ⟨(), ensure_ok rfl, ?_⟩)⟩)
  refine Res.bind_error.mpr (.inr ⟨_, umul_small (by
    rw [usizeMod_eq, asUsize_of_nonneg (by simp)]; simp), ?_⟩)
  rw [asUsize_of_nonneg (by simp)]
  rw [if_neg (by simp)]
  refine Res.bind_error.mpr (.inr ⟨[], rfl, Res.bind_error.mpr (.inr ⟨sd, rfl, ?_⟩)⟩)
  refine Res.bind_error.mpr (.inr ⟨(), ensure_ok hc.symm, ?_⟩)
  dsimp only
  refine Res.bind_error.mpr (.inr ⟨_, i32_of (by unfold InI32; omega), ?_⟩)
  rw [zero_mul]
  refine Res.bind_error.mpr (.inr ⟨0, i32_of (by decide), ?_⟩)
  rw [mul_zero]
  refine Res.bind_error.mpr (.inr ⟨0, i32_of (by decide), ?_⟩)
  rw [zero_mul]
  refine Res.bind_error.mpr (.inr ⟨0, i32_of (by decide), ?_⟩)
  refine Res.bind_error.mpr (.inr ⟨(), ensure_ok (by
    rw [asUsize_of_nonneg (le_refl _)]; simp), ?_⟩)
  refine Res.bind_error.mpr (.inr ⟨1, i32_of (by decide), ?_⟩)
  refine Res.bind_error.mpr (.inl (ensure_error ?_))
  rw [asUsize_of_nonneg (by decide)]
  simp

end

section
variable {F : Type} [Field F] [LinearOrder F] [IsStrictOrderedRing F] [FloatOps F] [RoundLaws F]

omit [FloatOps F] [RoundLaws F] in
/-- Clamping the nearest integer to a range gives the nearest integer of the range. -/
theorem clamp_nearest {lo hi r : Int} (hs : lo ≤ hi) (x : F)
    (h : ∀ k, lo ≤ k → k ≤ hi → |x - (r : F)| ≤ |x - (k : F)|) (j : Int) (hj0 : lo ≤ j)
    (hj1 : j ≤ hi) : |x - ((min (max r lo) hi : Int) : F)| ≤ |x - (j : F)| := by
  rcases lt_or_ge r lo with hr | hr
  · have e : min (max r lo) hi = lo := by omega
    rw [e]
    have h0 := h lo (le_refl _) hs
    have hr' : (r : F) + 1 ≤ lo := by exact_mod_cast (show r + 1 ≤ lo by omega)
    have hj' : (lo : F) ≤ j := by exact_mod_cast hj0
    have hx : x ≤ lo := by
      by_contra hc
      push Not at hc
      rw [abs_of_pos (by linarith), abs_of_pos (by linarith)] at h0
      linarith
    rw [abs_of_nonpos (by linarith), abs_of_nonpos (by linarith)]
    linarith
  · rcases le_or_gt r hi with hr1 | hr1
    · have e : min (max r lo) hi = r := by omega
      rw [e]
      exact h j hj0 hj1
    · have e : min (max r lo) hi = hi := by omega
      rw [e]
      have h0 := h hi hs (le_refl _)
      have hr' : (hi : F) + 1 ≤ (r : F) := by exact_mod_cast (show hi + 1 ≤ r by omega)
      have hj' : (j : F) ≤ (hi : F) := by exact_mod_cast hj1
      have hx : (hi : F) ≤ x := by
        by_contra hc
        push Not at hc
        rw [abs_of_neg (by linarith), abs_of_neg (by linarith)] at h0
        linarith
      rw [abs_of_nonneg (by linarith), abs_of_nonneg (by linarith)]
      linarith

omit [IsStrictOrderedRing F] [RoundLaws F] in
theorem remap_position (a b c d : Int) (x : F) :
    Interp.remap (FloatLike.ofInt a) (FloatLike.ofInt b) (FloatLike.ofInt c) (FloatLike.ofInt d) x =
      position a b c d x := by
  unfold Interp.remap Interp.lerp Interp.inverseLerp position
  simp only [ofInt_eq]
  rw [div_mul_eq_mul_div, sub_mul, one_mul, div_mul_eq_mul_div, mul_sub, sub_div]
  ring

theorem pick_nearest {size a b c d : Int} (h0 : 0 < size) (h1 : size ≤ 2147483647) (x : F) :
    Nearest size (position a b c (d - 1) x) (pick size a b c d x) := by
  unfold pick
  rw [remap_position]
  refine ⟨by omega, by omega, fun j hj0 hj1 => ?_⟩
  refine clamp_nearest (by omega) _ (fun k hk0 hk1 => ?_) j hj0 (by omega)
  exact RoundLaws.nearest _ _ (by unfold InI32; omega)

/-- C56: every output pixel of a remap is the source pixel nearest to the requested coordinate,
where the ends of the display window stand for the pixel numbers `win.minX` and `win.maxX - 1`
(and the same vertically).  Exact arithmetic. -/
theorem C56_nearest {H : Type} [HalfLike F H] (p : Profile) (display win : BBox)
    (_hdx : display.minX < display.maxX) (_hdy : display.minY < display.maxY)
    (coords : List F) (ss ds : BlockSize) (sd dd : List F) (hs : ValidSize ss) (hd : ValidSize ds)
    (hsl : (sd.length : Int) = elements ss) (hdl : (dd.length : Int) = elements ds)
    (hc : ss.numChannels = 3 ∨ ss.numChannels = 4) (hcc : ds.numChannels = ss.numChannels)
    (hcount : coords.length / 2 = (ds.width * ds.height).toNat)
    (hwx : InI32 (win.maxX - 1)) (hwy : InI32 (win.maxY - 1)) :
    ∃ out : List F, pixelsRemapCoords (H := H) p display coords (floatImage ss sd) win
        (floatImage ds dd) = .ok (floatImage ds out) ∧
      ∀ x y, InBlock ds x y → ∃ cx cy sx sy,
        coords[2 * (y * ds.width + x).toNat]? = some cx ∧
        coords[2 * (y * ds.width + x).toNat + 1]? = some cy ∧
        Nearest ss.width (position display.minX display.maxX win.minX (win.maxX - 1) cx) sx ∧
        Nearest ss.height (position display.minY display.maxY win.minY (win.maxY - 1) cy) sy ∧
        CopiesPixel ds out ss sd x y sx sy := by
  obtain ⟨out, e, hl, h⟩ := remap_pixels (H := H) p display win coords ss ds sd dd hs hd hsl hdl hc
    hcc hcount hwx hwy
  obtain ⟨s1, s2, s3, s4, s5, s6, s7, s8, s9, s10⟩ := hs.bounds
  refine ⟨out, e, fun x y hxy => ?_⟩
  obtain ⟨cx, cy, hx, hy, h⟩ := h x y hxy
  exact ⟨cx, cy, _, _, hx, hy, pick_nearest hs.1 (by omega) cx, pick_nearest hs.2.1 (by omega) cy, h⟩

omit [RoundLaws F] [FloatOps F] in
/-- The pixel nearest to the position of a pixel centre is that pixel. -/
theorem nearest_center {size k j : Int} (h0 : 0 ≤ k) (h1 : k < size)
    (h : Nearest size (position 0 size 0 (size - 1) ((k : F) + 1 / 2)) j) : j = k := by
  obtain ⟨-, -, hn⟩ := h
  have hn := hn k h0 h1
  have hs : (0 : F) < size := by exact_mod_cast (show 0 < size by omega)
  have hk0 : (0 : F) ≤ k := by exact_mod_cast h0
  have hk1 : (k : F) + 1 ≤ size := by exact_mod_cast (show k + 1 ≤ size by omega)
  have e : position 0 size 0 (size - 1) ((k : F) + 1 / 2) = k + 1 / 2 - (k + 1 / 2) / size := by
    unfold position
    push_cast
    rw [zero_add, sub_zero, sub_zero, sub_zero, mul_sub, mul_one, sub_div,
      mul_div_cancel_right₀ _ (ne_of_gt hs)]
  rw [e] at hn
  have q0 : 0 < ((k : F) + 1 / 2) / size := div_pos (by linarith) hs
  have q1 : ((k : F) + 1 / 2) / size < 1 := by rw [div_lt_one hs]; linarith
  have a : |(k : F) + 1 / 2 - (k + 1 / 2) / size - k| < 1 / 2 := by
    rw [abs_lt]; constructor <;> linarith
  have b := abs_lt.mp (lt_of_le_of_lt hn a)
  have c := abs_lt.mp a
  have l : (j : F) < k + 1 := by linarith [b.1, c.2]
  have l' : (k : F) < j + 1 := by linarith [b.2, c.1]
  have l : j < k + 1 := by exact_mod_cast l
  have l' : k < j + 1 := by exact_mod_cast l'
  omega

/-- C56: asking for the pixel centres of an image that fills its display window gives the image
back. -/
theorem C56_identity {H : Type} [HalfLike F H] (p : Profile)
    (coords : List F) (ss : BlockSize) (sd dd : List F) (hs : ValidSize ss)
    (hsl : (sd.length : Int) = elements ss) (hdl : (dd.length : Int) = elements ss)
    (hc : ss.numChannels = 3 ∨ ss.numChannels = 4)
    (hcount : coords.length = 2 * (ss.width * ss.height).toNat)
    (hcenter : ∀ x y, InBlock ss x y →
      coords[2 * (y * ss.width + x).toNat]? = some ((x : F) + 1 / 2) ∧
      coords[2 * (y * ss.width + x).toNat + 1]? = some ((y : F) + 1 / 2)) :
    ∃ out : List F, pixelsRemapCoords (H := H) p ⟨0, 0, ss.width, ss.height⟩ coords
        (floatImage ss sd) ⟨0, 0, ss.width, ss.height⟩ (floatImage ss dd) =
          .ok (floatImage ss out) ∧
      ∀ x y, InBlock ss x y → CopiesPixel ss out ss sd x y x y := by
  obtain ⟨s1, s2, s3, s4, s5, s6, s7, s8, s9, s10⟩ := hs.bounds
  obtain ⟨out, e, h⟩ := C56_nearest (H := H) p ⟨0, 0, ss.width, ss.height⟩
    ⟨0, 0, ss.width, ss.height⟩ hs.1 hs.2.1 coords ss ss sd dd hs hs hsl hdl hc rfl
    (by omega) (by unfold InI32; dsimp only; have := hs.1; omega)
    (by unfold InI32; dsimp only; have := hs.2.1; omega)
  refine ⟨out, e, fun x y hxy => ?_⟩
  obtain ⟨cx, cy, sx, sy, hx, hy, nx, ny, hcopy⟩ := h x y hxy
  obtain ⟨ex, ey⟩ := hcenter x y hxy
  rw [ex] at hx
  rw [ey] at hy
  have hx := Option.some.inj hx
  have hy := Option.some.inj hy
  subst hx hy
  have := nearest_center hxy.1 hxy.2.1 nx
  have := nearest_center hxy.2.2.1 hxy.2.2.2 ny
  subst sx sy
  exact hcopy

end

/-- Exact rationals with rounding to the nearest integer and saturating casts; angles are
treated as zero. -/
@[instance_reducible] def ratRound : FloatOps Rat where
  toI32 x := min (max ⌊x⌋ (-2147483648)) 2147483647
  toU8 _ := 0
  toU16 _ := 0
  powf x _ := x
  round x := (round x : Int)
  floor x := (⌊x⌋ : Int)
  ceil x := (⌈x⌉ : Int)
  sin _ := 0
  cos _ := 1

attribute [local instance] ratRound

theorem ratRound_laws : RoundLaws Rat where
  range x := by
    show InI32 (min (max ⌊((round x : Int) : Rat)⌋ (-2147483648)) 2147483647)
    unfold InI32
    omega
  nearest x k hk := by
    show |x - ((min (max ⌊((round x : Int) : Rat)⌋ (-2147483648)) 2147483647 : Int) : Rat)| ≤ _
    rw [Int.floor_intCast]
    exact clamp_nearest (by omega) x (fun k _ _ => round_le x k) k hk.1 hk.2

attribute [local instance] ratRound_laws

/-- C56 counterexample: the offset of the data window is mistaken for a pixel number.  For a row
of four pixels at x = 10..13 in a display window of width 20, asking for the centres of these
very pixels gives the last pixel four times. -/
theorem C56_counterexample_offset {H : Type} [HalfLike Rat H] (p : Profile) (sd dd : List Rat)
    (hsl : sd.length = 12) (hdl : dd.length = 12) :
    ∃ out : List Rat, pixelsRemapCoords (H := H) p ⟨0, 0, 20, 1⟩
        [21 / 2, 1 / 2, 23 / 2, 1 / 2, 25 / 2, 1 / 2, 27 / 2, 1 / 2]
        (floatImage ⟨4, 1, 3⟩ sd) ⟨10, 0, 14, 1⟩ (floatImage ⟨4, 1, 3⟩ dd) =
          .ok (floatImage ⟨4, 1, 3⟩ out) ∧
      ∀ x, 0 ≤ x → x < 4 → CopiesPixel ⟨4, 1, 3⟩ out ⟨4, 1, 3⟩ sd x 0 3 0 := by
  have hv : ValidSize ⟨4, 1, 3⟩ := by unfold ValidSize; decide
  obtain ⟨out, e, h⟩ := C56_nearest (H := H) p ⟨0, 0, 20, 1⟩ ⟨10, 0, 14, 1⟩ (by decide) (by decide)
    [21 / 2, 1 / 2, 23 / 2, 1 / 2, 25 / 2, 1 / 2, 27 / 2, 1 / 2] ⟨4, 1, 3⟩ ⟨4, 1, 3⟩ sd dd hv hv
    (by rw [hsl]; decide) (by rw [hdl]; decide) (.inl rfl) rfl (by simp) (by decide) (by decide)
  refine ⟨out, e, fun x hx0 hx1 => ?_⟩
  obtain ⟨cx, cy, sx, sy, hx, hy, nx, ny, hcopy⟩ := h x 0 ⟨hx0, hx1, by decide, by decide⟩
  have hsy : sy = 0 := by have := ny.1; have := ny.2.1; dsimp only at this; omega
  have hcx : 21 / 2 ≤ cx := by
    rcases (by omega : x = 0 ∨ x = 1 ∨ x = 2 ∨ x = 3) with rfl | rfl | rfl | rfl <;>
      (simp at hx; rw [← hx]; try norm_num)
  have hsx : sx = 3 := by
    obtain ⟨n0, n1, n2⟩ := nx
    dsimp only at n1 n2
    have := n2 3 (by decide) (by decide)
    have hp : 3 ≤ position (F := Rat) 0 20 10 (14 - 1) cx := by
      unfold position
      push_cast
      linarith
    generalize position (F := Rat) 0 20 10 (14 - 1) cx = q at *
    have hs3 : (sx : Rat) ≤ 3 := by exact_mod_cast (show sx ≤ 3 by omega)
    rw [abs_of_nonneg (by linarith), abs_of_nonneg (by push_cast; linarith)] at this
    push_cast at this
    have : (3 : Rat) ≤ sx := by linarith
    have : 3 ≤ sx := by exact_mod_cast this
    omega
  subst hsx hsy
  exact hcopy

/-- A row of two RGB pixels, asked for in the opposite order. -/
example {H : Type} [HalfLike Rat H] : ∃ out : List Rat, pixelsRemapCoords (F := Rat) (H := H) .debug ⟨0, 0, 2, 1⟩
      [3 / 2, 1 / 2, 1 / 2, 1 / 2] (floatImage ⟨2, 1, 3⟩ [1, 2, 3, 4, 5, 6]) ⟨0, 0, 2, 1⟩
      (floatImage ⟨2, 1, 3⟩ [0, 0, 0, 0, 0, 0]) = .ok (floatImage ⟨2, 1, 3⟩ out) ∧
    CopiesPixel ⟨2, 1, 3⟩ out ⟨2, 1, 3⟩ [1, 2, 3, 4, 5, 6] 0 0 1 0 := by
  have hv : ValidSize ⟨2, 1, 3⟩ := by unfold ValidSize; decide
  obtain ⟨out, e, h⟩ := C56_nearest (F := Rat) (H := H) .debug ⟨0, 0, 2, 1⟩ ⟨0, 0, 2, 1⟩ (by decide)
    (by decide) [3 / 2, 1 / 2, 1 / 2, 1 / 2] ⟨2, 1, 3⟩ ⟨2, 1, 3⟩ [1, 2, 3, 4, 5, 6]
    [0, 0, 0, 0, 0, 0] hv hv (by decide) (by decide) (.inl rfl) rfl (by simp) (by decide)
    (by decide)
  refine ⟨out, e, ?_⟩
  obtain ⟨cx, cy, sx, sy, hx, hy, nx, ny, hcopy⟩ := h 0 0 (by unfold InBlock; decide)
  have hsy : sy = 0 := by have := ny.1; have := ny.2.1; dsimp only at this; omega
  have hx : 3 / 2 = cx := by simpa using hx
  have hsx : sx = 1 := by
    subst hx
    exact nearest_center (F := Rat) (size := 2) (k := 1) (by decide) (by decide) (by
      have : ((1 : Int) : Rat) + 1 / 2 = 3 / 2 := by norm_num
      rw [this]
      exact nx)
  subst hsx hsy
  exact hcopy

end OCG.Props
