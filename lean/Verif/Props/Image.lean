import Verif.Spec.Image
import Verif.Spec.Field
import Verif.Proofs.Grid
import Verif.Props.PixelBlock
import Verif.Props.Remap
import Verif.Props.DeformPixels
/-
Properties C50 (crop), C51 and C52 (merge).
-/

namespace OCG.Props

open ImageSpecs BlockSpec BBoxSpec

section
variable {F H : Type} [FloatLike F] [HalfLike F H]

/-! ### Crop -/

/-- C50 (partial): after a crop the data window is the requested window, every pixel of it that
the old image had keeps its value at the same absolute position, the others are black, and the
display window is the requested window if asked for.  What is missing: `black_outside`, which
panics (`C50_counterexample_black_outside`), and `intersect`, which is ignored
(`C50_counterexample_intersect`). -/
theorem C50_crop_partial (p : Profile) (image : Image F H) (crop : BBox) (reformat intersect : Bool)
    (hb : WellFormed image.pixelBlock)
    (hw : image.pixelBlock.size.width = image.dataWindow.maxX - image.dataWindow.minX)
    (hh : image.pixelBlock.size.height = image.dataWindow.maxY - image.dataWindow.minY)
    (hc : ValidSize (sizeFor crop image.pixelBlock.size.numChannels)) :
    ∃ d : List (Elem F H image.pixelBlock.block.dtype),
      cropImage p image crop reformat false intersect = .ok
        { pixelBlock := ⟨sizeFor crop image.pixelBlock.size.numChannels,
            ⟨image.pixelBlock.block.dtype, d⟩⟩,
          spec := image.spec,
          displayWindow := if reformat then crop else image.displayWindow,
          dataWindow := crop } ∧
      (d.length : Int) = elements (sizeFor crop image.pixelBlock.size.numChannels) ∧
      ∀ x y c, Has crop x y → 0 ≤ c → c < image.pixelBlock.size.numChannels →
        channelAt (sizeFor crop image.pixelBlock.size.numChannels) d
            (x - crop.minX) (y - crop.minY) c =
          if Has image.dataWindow x y then
            channelAt image.pixelBlock.size image.pixelBlock.block.data
              (x - image.dataWindow.minX) (y - image.dataWindow.minY) c
          else some (zeroElem image.pixelBlock.block.dtype) := by
  obtain ⟨g1, g2, g3, g4, g5, g6, g7, g8, g9, g10⟩ := hc.bounds
  obtain ⟨u1, u2, u3, u4⟩ := id hc
  unfold sizeFor at *
  dsimp only at *
  obtain ⟨d, e, hl, hpix⟩ := C16_sub_window_copy p image.pixelBlock image.dataWindow crop hb hw hh hc
  refine ⟨d, ?_, hl, hpix⟩
  unfold cropImage
  refine Res.bind_ok.mpr ⟨crop, rfl, Res.bind_ok.mpr ⟨_, e, ?_⟩⟩
  refine Res.bind_ok.mpr ⟨_, i32_of (by unfold InI32; omega), ?_⟩
  refine Res.bind_ok.mpr ⟨(), ensure_ok rfl, ?_⟩
  refine Res.bind_ok.mpr ⟨_, i32_of (by unfold InI32; omega), ?_⟩
  exact Res.bind_ok.mpr ⟨(), ensure_ok rfl, rfl⟩

/-- A copied block has the width of the window asked for. -/
theorem fromPixelBlock_width (p : Profile) (b r : PixelBlock F H) (data crop : BBox)
    (h : b.fromPixelBlock p data crop = .ok r) : crop.width p = .ok r.size.width := by
  unfold PixelBlock.fromPixelBlock at h
  obtain ⟨dw, -, h⟩ := Res.bind_ok.mp h
  split at h
  · cases h
  obtain ⟨dh, -, h⟩ := Res.bind_ok.mp h
  split at h
  · cases h
  obtain ⟨w, hw, h⟩ := Res.bind_ok.mp h
  obtain ⟨hh, -, h⟩ := Res.bind_ok.mp h
  obtain ⟨new, hnew, h⟩ := Res.bind_ok.mp h
  obtain ⟨area, -, h⟩ := Res.bind_ok.mp h
  split at h
  · cases h
    unfold PixelBlock.new at hnew
    obtain ⟨n, -, hnew⟩ := Res.bind_ok.mp hnew
    obtain ⟨d, -, hnew⟩ := Res.bind_ok.mp hnew
    cases hnew
    exact hw
  · obtain ⟨d, -, h⟩ := Res.bind_ok.mp h
    cases h
    exact hw

/-- C50 counterexample: with `black_outside` no crop succeeds, whatever the image and window. -/
theorem C50_counterexample_black_outside (p : Profile) (image : Image F H) (crop : BBox)
    (reformat intersect : Bool) :
    ∃ e, cropImage p image crop reformat true intersect = .error e := by
  match h : cropImage p image crop reformat true intersect with
  | .error e => exact ⟨e, rfl⟩
  | .ok r =>
    exfalso
    unfold cropImage at h
    obtain ⟨data, hd, h⟩ := Res.bind_ok.mp h
    rw [if_pos rfl] at hd
    obtain ⟨a, ha, hd⟩ := Res.bind_ok.mp hd
    obtain ⟨b, -, hd⟩ := Res.bind_ok.mp hd
    obtain ⟨c, hc, hd⟩ := Res.bind_ok.mp hd
    obtain ⟨d, -, hd⟩ := Res.bind_ok.mp hd
    obtain ⟨block, hblock, h⟩ := Res.bind_ok.mp h
    obtain ⟨w, hw, h⟩ := Res.bind_ok.mp h
    obtain ⟨_, he, h⟩ := Res.bind_ok.mp h
    have hwe : w = block.size.width := by
      unfold ensure at he
      split at he
      · assumption
      · cases he
    have hcw := fromPixelBlock_width p _ _ _ _ hblock
    cases hd
    unfold BBox.width at hw hcw
    rw [← hwe] at hcw
    dsimp only at hw
    have key : ∀ {x v : Int}, i32 p x = .ok v → ∃ k : Int, v = x + k * 4294967296 := by
      intro x v hx
      unfold i32 at hx
      split at hx
      · cases hx; exact ⟨0, by ring⟩
      · cases p with
        | debug => cases hx
        | release =>
          cases hx
          unfold wrapI32
          obtain ⟨k, hk⟩ := Int.dvd_self_sub_bmod (x := x) (m := 4294967296)
          exact ⟨-k, by push_cast at hk; linarith⟩
    obtain ⟨k1, h1⟩ := key ha
    obtain ⟨k2, h2⟩ := key hc
    obtain ⟨k3, h3⟩ := key hw
    obtain ⟨k4, h4⟩ := key hcw
    omega

/-! ### Merge -/

/-- Reading a pixel of an image inside a window that covers it. -/
theorem mergePixel_eq (p : Profile) (image : Image F H) (nc : Int) (values : List F)
    (hf : Filled image nc values) (hn : nc = 3 ∨ nc = 4) (w : BBox) (hin : Inside image.dataWindow w)
    (hv : ValidSize (sizeFor w 4)) (x y : Int) (hxy : Has w x y) :
    mergePixel p image x y = .ok (valueAt image.dataWindow nc values x y 0,
      valueAt image.dataWindow nc values x y 1, valueAt image.dataWindow nc values x y 2,
      valueAt image.dataWindow nc values x y 3) := by
  obtain ⟨hblock, hs, hl⟩ := hf
  obtain ⟨i1, i2, i3, i4⟩ := hin
  obtain ⟨x0, x1, y0, y1⟩ := hxy
  obtain ⟨g1, g2, g3, g4, g5, g6, g7, g8, g9, g10⟩ := hs.bounds
  obtain ⟨hw, hh, hc, hm⟩ := id hs
  obtain ⟨w1, w2, w3, w4, w5, w6, w7, w8, w9, w10⟩ := hv.bounds
  obtain ⟨vw, vh, -, vm⟩ := id hv
  generalize hd : image.dataWindow = d at *
  unfold mergePixel
  rw [hblock, hd]
  generalize hsz : sizeFor d nc = sz at *
  have hszw : sz.width = d.maxX - d.minX := by rw [← hsz]; rfl
  have hszh : sz.height = d.maxY - d.minY := by rw [← hsz]; rfl
  have hsznc : sz.numChannels = nc := by rw [← hsz]; rfl
  unfold sizeFor at w1 w2 w3 w4 w5 w6 w7 vw vh vm
  dsimp only at w1 w2 w3 w4 w5 w6 w7 vw vh vm
  refine Res.bind_ok.mpr ⟨values, rfl, ?_⟩
  refine Res.bind_ok.mpr ⟨_, i32_of (by unfold InI32; omega), ?_⟩
  refine Res.bind_ok.mpr ⟨_, i32_of (by unfold InI32; omega), ?_⟩
  show (sz.getIndex p (x - d.minX) (y - d.minY) >>= _) = _
  by_cases hin : Has d x y
  · have hib : InBlock sz (x - d.minX) (y - d.minY) := by
      unfold Has at hin; unfold InBlock; omega
    obtain ⟨e1, e2, e3⟩ := getIndex_eq p sz hs _ _ hib
    refine Res.bind_ok.mpr ⟨_, e1, ?_⟩
    rw [if_pos e2]
    have hval : ∀ k : Nat, (k : Int) < nc →
        getAt values (asUsize ((y - d.minY) * (sz.width * sz.numChannels) +
          (x - d.minX) * sz.numChannels) + k) = .ok (valueAt d nc values x y k) := by
      intro k hk
      rw [asUsize_of_nonneg e2]
      unfold valueAt
      rw [if_pos ⟨hin, hk⟩, hsz]
      unfold channelAt
      have e : ((y - d.minY) * sz.width + (x - d.minX)) * sz.numChannels + (k : Int) =
          (y - d.minY) * (sz.width * sz.numChannels) + (x - d.minX) * sz.numChannels + k := by ring
      rw [e, Int.toNat_add e2 (by omega), Int.toNat_natCast]
      have hlt : ((y - d.minY) * (sz.width * sz.numChannels) +
          (x - d.minX) * sz.numChannels).toNat + k < values.length := by omega
      rw [List.getElem?_eq_getElem hlt]
      exact getAt_of (List.getElem?_eq_getElem hlt)
    dsimp only
    refine Res.bind_ok.mpr ⟨_, hval 0 (by omega), Res.bind_ok.mpr ⟨_, hval 1 (by omega),
      Res.bind_ok.mpr ⟨_, hval 2 (by omega), ?_⟩⟩⟩
    show (if sz.numChannels = 4 then _ else _) = _
    rcases hn with hn | hn
    · rw [if_neg (by omega)]
      have h3 : valueAt d nc values x y 3 = 0 := by
        unfold valueAt
        rw [if_neg (by omega)]
      rw [h3]
      rfl
    · rw [if_pos (by omega)]
      exact Res.bind_ok.mpr ⟨_, hval 3 (by omega), rfl⟩
  · have hib : ¬ InBlock sz (x - d.minX) (y - d.minY) := by
      unfold Has at hin; unfold InBlock; omega
    have hz : ∀ c, valueAt d nc values x y c = 0 := by
      intro c
      unfold valueAt
      rw [if_neg (fun h => hin h.1)]
    -- the products stay in range
    have hsw : sz.width ≤ w.maxX - w.minX := by omega
    have hn4 : nc ≤ 4 := by omega
    have q1 : sz.width * sz.numChannels ≤ (w.maxX - w.minX) * 4 :=
      mul_le_mul hsw (by omega) (by omega) (by omega)
    have bx : |(x - d.minX)| ≤ w.maxX - w.minX - 1 := by rw [abs_le]; omega
    have bY : |(y - d.minY)| ≤ w.maxY - w.minY - 1 := by rw [abs_le]; omega
    have ax : |(x - d.minX) * sz.numChannels| ≤ (w.maxX - w.minX - 1) * 4 := by
      rw [abs_mul, abs_of_nonneg (by omega : 0 ≤ sz.numChannels)]
      exact mul_le_mul bx (by omega) (by omega) (by omega)
    have ay : |(y - d.minY) * (sz.width * sz.numChannels)| ≤
        (w.maxY - w.minY - 1) * ((w.maxX - w.minX) * 4) := by
      rw [abs_mul, abs_of_nonneg (by omega : 0 ≤ sz.width * sz.numChannels)]
      exact mul_le_mul bY q1 (by omega) (by omega)
    have tot : (w.maxX - w.minX - 1) * 4 + (w.maxY - w.minY - 1) * ((w.maxX - w.minX) * 4) =
        (w.maxX - w.minX) * (w.maxY - w.minY) * 4 - 4 := by ring
    have p0 : 0 ≤ (w.maxX - w.minX - 1) * 4 := by omega
    have p1 : 0 ≤ (w.maxY - w.minY - 1) * ((w.maxX - w.minX) * 4) :=
      mul_nonneg (by omega) (by omega)
    have axy := abs_add_le ((x - d.minX) * sz.numChannels)
      ((y - d.minY) * (sz.width * sz.numChannels))
    rw [abs_le] at ax ay
    have axy' := abs_le.mp axy
    have axy'' : |(x - d.minX) * sz.numChannels + (y - d.minY) * (sz.width * sz.numChannels)| ≤
        (w.maxX - w.minX - 1) * 4 + (w.maxY - w.minY - 1) * ((w.maxX - w.minX) * 4) := by
      rw [abs_le]; constructor <;> linarith
    rw [abs_le] at axy''
    have e1 := getIndex_out p sz hs (x - d.minX) (y - d.minY) (by unfold InI32; constructor <;> linarith)
      (by unfold InI32; constructor <;> linarith) (by unfold InI32; constructor <;> linarith) hib
    refine Res.bind_ok.mpr ⟨_, e1, ?_⟩
    rw [if_neg (by decide), hz, hz, hz, hz]

/-- The smallest cover of two windows. -/
theorem combine_cover (a b : BBox) : SmallestCover a b (BBox.combine a b) := by
  unfold SmallestCover Inside BBox.combine
  dsimp only
  refine ⟨⟨by omega, by omega⟩, fun w' h1 h2 => by omega⟩

/-- The formula, as the spec writes it. -/
theorem formula_eq (mode : MergeImageMode) (hm : mode ≠ .uninitialized) (mix : F) (a b : Int → F) :
    mergeFormula mode mix (a 0, a 1, a 2, a 3) (b 0, b 1, b 2, b 3) =
      .ok (blend mode mix a b 0, blend mode mix a b 1, blend mode mix a b 2,
        blend mode mix a b 3) := by
  cases mode with
  | uninitialized => exact absurd rfl hm
  | add => rfl
  | over => rfl
  | multiply => rfl

/-- C51: merging two float images with three or four channels gives an image whose data window
is the smallest one covering both, and whose pixels are the mode's formula applied to the pixels
of A and B at the same position, missing pixels counting as transparent black.  (For an image
without alpha channel, alpha counts as 0.) -/
theorem C51_pixels (p : Profile) (mode : MergeImageMode) (hm : mode ≠ .uninitialized)
    (imageA imageB out : Image F H) (mix : F) (na nb : Int) (va vb : List F)
    (hA : Filled imageA na va) (hB : Filled imageB nb vb) (hna : na = 3 ∨ na = 4)
    (hnb : nb = 3 ∨ nb = 4)
    (hv : ValidSize (sizeFor (BBox.combine imageA.dataWindow imageB.dataWindow) 4)) :
    ∃ (result : Image F H) (vo : List F),
      mergeImages p mode imageA imageB mix out = .ok (true, result) ∧
      Filled result nb vo ∧
      SmallestCover imageA.dataWindow imageB.dataWindow result.dataWindow ∧
      result.displayWindow = imageB.displayWindow ∧ result.spec = imageB.spec ∧
      ∀ x y c, Has result.dataWindow x y → 0 ≤ c → c < nb →
        valueAt result.dataWindow nb vo x y c =
          blend mode mix (valueAt imageA.dataWindow na va x y)
            (valueAt imageB.dataWindow nb vb x y) c := by
  have hcover := combine_cover imageA.dataWindow imageB.dataWindow
  generalize hw : BBox.combine imageA.dataWindow imageB.dataWindow = w at *
  obtain ⟨w1, w2, w3, w4, w5, w6, w7, w8, w9, w10⟩ := hv.bounds
  have hv' : ValidSize (sizeFor w nb) := by
    obtain ⟨a1, a2, a3, a4⟩ := hv
    refine ⟨a1, a2, by show 0 < nb; omega, ?_⟩
    show (w.maxX - w.minX) * (w.maxY - w.minY) * nb ≤ 2147483647
    have a4' : (w.maxX - w.minX) * (w.maxY - w.minY) * 4 ≤ 2147483647 := a4
    have : (w.maxX - w.minX) * (w.maxY - w.minY) * nb ≤
        (w.maxX - w.minX) * (w.maxY - w.minY) * 4 :=
      mul_le_mul_of_nonneg_left (by omega) w4.le
    linarith
  obtain ⟨v1, v2, v3, v4⟩ := id hv'
  have v1' : 0 < w.maxX - w.minX := v1
  have v2' : 0 < w.maxY - w.minY := v2
  set W := (w.maxX - w.minX).toNat with hW
  set Hh := (w.maxY - w.minY).toNat with hHh
  set val : Int → Int → Int → F := fun x y => blend mode mix (valueAt imageA.dataWindow na va x y)
    (valueAt imageB.dataWindow nb vb x y) with hval
  set g : Nat → List F := fun k =>
    if nb = 4 then [val (w.minX + (k % W : Nat)) (w.minY + (k / W : Nat)) 0,
      val (w.minX + (k % W : Nat)) (w.minY + (k / W : Nat)) 1,
      val (w.minX + (k % W : Nat)) (w.minY + (k / W : Nat)) 2,
      val (w.minX + (k % W : Nat)) (w.minY + (k / W : Nat)) 3]
    else [val (w.minX + (k % W : Nat)) (w.minY + (k / W : Nat)) 0,
      val (w.minX + (k % W : Nat)) (w.minY + (k / W : Nat)) 1,
      val (w.minX + (k % W : Nat)) (w.minY + (k / W : Nat)) 2] with hg
  have hglen : ∀ i, (g i).length = nb.toNat := by
    intro i
    rw [hg]
    dsimp only
    rcases hnb with h | h <;> (subst h; rfl)
  obtain ⟨dd, hr, hdl⟩ := resize_float p out.pixelBlock (sizeFor w nb) hv'
  have hWH : ((sizeFor w nb).width * (sizeFor w nb).height).toNat = Hh * W := by
    show ((w.maxX - w.minX) * (w.maxY - w.minY)).toNat = _
    rw [Int.toNat_mul v1'.le v2'.le, Nat.mul_comm]
  have hddl : dd.length = Hh * W * nb.toNat := by
    have : (dd.length : Int).toNat = (elements (sizeFor w nb)).toNat := by rw [hdl]
    unfold elements at this
    rw [Int.toNat_natCast, Int.toNat_mul (mul_pos v1 v2).le v3.le] at this
    rw [this, ← hWH]
    rfl
  obtain ⟨st, e, hst⟩ := grid_inv
    (fun k (st : List F × Nat) => st.2 = k * nb.toNat ∧ Painted nb.toNat g dd k st.1) Hh W
    (mergeStep p mode mix imageA imageB w nb.toNat) (dd, 0)
    ⟨by simp, Painted.start _ _ _⟩ (by
    rintro y x st hy hx ⟨hk, hP⟩
    have hyx : y * W + x < Hh * W := by
      have : (y + 1) * W ≤ Hh * W := Nat.mul_le_mul_right _ hy
      rw [Nat.add_mul, Nat.one_mul] at this
      omega
    obtain ⟨buf', e1, e2⟩ := Painted.step (n := nb.toNat) (g := g) (N := Hh * W)
      (buf0 := dd) (fun i _ => hglen i) hyx (le_of_eq hddl.symm) hP hk
    refine ⟨(buf', st.2 + nb.toNat), ?_, ?_, e2⟩
    · have hm' : (y * W + x) % W = x := by
        rw [Nat.add_comm, Nat.add_mul_mod_self_right, Nat.mod_eq_of_lt hx]
      have hd' : (y * W + x) / W = y := by
        rw [Nat.add_comm, Nat.add_mul_div_right _ _ (by omega), Nat.div_eq_of_lt hx, Nat.zero_add]
      have hgk : g (y * W + x) = if nb.toNat = 4 then
          [val (w.minX + x) (w.minY + y) 0, val (w.minX + x) (w.minY + y) 1,
            val (w.minX + x) (w.minY + y) 2, val (w.minX + x) (w.minY + y) 3]
          else [val (w.minX + x) (w.minY + y) 0, val (w.minX + x) (w.minY + y) 1,
            val (w.minX + x) (w.minY + y) 2] := by
        rw [hg]
        dsimp only
        rw [hm', hd']
        rcases hnb with h | h <;> (subst h; rfl)
      have hhas : Has w (w.minX + x) (w.minY + y) := by unfold Has; omega
      unfold mergeStep
      dsimp only
      refine Res.bind_ok.mpr ⟨_, mergePixel_eq p imageA na va hA hna w hcover.1.1 hv _ _ hhas, ?_⟩
      refine Res.bind_ok.mpr ⟨_, mergePixel_eq p imageB nb vb hB hnb w hcover.1.2 hv _ _ hhas, ?_⟩
      refine Res.bind_ok.mpr ⟨_, formula_eq mode hm mix
        (valueAt imageA.dataWindow na va (w.minX + x) (w.minY + y))
        (valueAt imageB.dataWindow nb vb (w.minX + x) (w.minY + y)), ?_⟩
      refine Res.bind_ok.mpr ⟨buf', ?_, rfl⟩
      rw [hgk] at e1
      exact e1
    · dsimp only
      rw [hk, Nat.add_mul _ 1, Nat.one_mul])
  have hdone := Painted.done hddl hst.2
  have hvol : (st.1.length : Int) = elements (sizeFor w nb) := by
    rw [hdone, length_flatMap_const g nb.toNat _ (fun i _ => hglen i), ← hddl, hdl]
  refine ⟨⟨floatImage (sizeFor w nb) st.1, imageB.spec, imageB.displayWindow, w⟩, st.1, ?_, ⟨rfl, hv', hvol⟩, hcover,
    rfl, rfl, ?_⟩
  · unfold mergeImages
    rw [if_neg hm, hw]
    have hbs : imageB.pixelBlock.size.numChannels = nb := by rw [hB.block]; rfl
    have hbt : imageB.pixelBlock.block.dtype = .f32 := by rw [hB.block]; rfl
    have hat : imageA.pixelBlock.block.dtype = .f32 := by rw [hA.block]; rfl
    refine Res.bind_ok.mpr ⟨(), ensure_ok hat, Res.bind_ok.mpr ⟨(), ensure_ok hbt, ?_⟩⟩
    dsimp only
    rw [hbs, hbt]
    unfold sizeFor at w5 w6
    dsimp only at w5 w6
    refine Res.bind_ok.mpr ⟨_, i32_of (by unfold InI32; omega), ?_⟩
    refine Res.bind_ok.mpr ⟨_, i32_of (by unfold InI32; omega), ?_⟩
    refine Res.bind_ok.mpr ⟨_, hr, Res.bind_ok.mpr ⟨dd, rfl, ?_⟩⟩
    rw [show asUsize (floatImage (F := F) (H := H) (sizeFor w nb) dd).size.numChannels = nb.toNat from
      asUsize_of_nonneg (by show 0 ≤ nb; omega)]
    exact Res.bind_ok.mpr ⟨st, e, rfl⟩
  · intro x y c hxy hc0 hc1
    dsimp only at hxy ⊢
    unfold valueAt
    rw [if_pos ⟨hxy, hc1⟩]
    rw [hdone, ← hWH]
    have hxy' := hxy
    unfold Has at hxy'
    have hib : InBlock (sizeFor w nb) (x - w.minX) (y - w.minY) := by
      unfold InBlock sizeFor; dsimp only; omega
    rw [channelAt_flatMap (sizeFor w nb) hv' g (fun i _ => hglen i) _ _ c hib hc0 hc1]
    have hk : ((y - w.minY) * (sizeFor w nb).width + (x - w.minX)).toNat =
        (y - w.minY).toNat * W + (x - w.minX).toNat := by
      have h1 : 0 ≤ y - w.minY := by omega
      have h2 : 0 ≤ x - w.minX := by omega
      rw [Int.toNat_add (mul_nonneg h1 v1.le) h2, Int.toNat_mul h1 v1.le]
      rfl
    rw [hk]
    have hxW : (x - w.minX).toNat < W := by omega
    have hm' : ((y - w.minY).toNat * W + (x - w.minX).toNat) % W = (x - w.minX).toNat := by
      rw [Nat.add_comm, Nat.add_mul_mod_self_right, Nat.mod_eq_of_lt hxW]
    have hd' : ((y - w.minY).toNat * W + (x - w.minX).toNat) / W = (y - w.minY).toNat := by
      rw [Nat.add_comm, Nat.add_mul_div_right _ _ (by omega), Nat.div_eq_of_lt hxW, Nat.zero_add]
    rw [hg]
    dsimp only
    rw [hm', hd']
    have ex : w.minX + ((x - w.minX).toNat : Int) = x := by omega
    have ey : w.minY + ((y - w.minY).toNat : Int) = y := by omega
    rw [ex, ey]
    rcases hnb with h | h
    · rw [if_neg (by omega)]
      rcases (by omega : c = 0 ∨ c = 1 ∨ c = 2) with rfl | rfl | rfl <;> rfl
    · rw [if_pos h]
      rcases (by omega : c = 0 ∨ c = 1 ∨ c = 2 ∨ c = 3) with rfl | rfl | rfl | rfl <;> rfl

/-- C51: with an unknown mode nothing is changed and the failure is reported. -/
theorem C51_unknown_mode (p : Profile) (imageA imageB out : Image F H) (mix : F) :
    mergeImages p .uninitialized imageA imageB mix out = .ok (false, out) := rfl

/-- C51 counterexample: two images of one pixel with one channel cannot be merged. -/
theorem C51_counterexample_one_channel (p : Profile) (mode : MergeImageMode)
    (hm : mode ≠ .uninitialized) (va vb mix : F) (sa sb : ImageSpec F) (disp : BBox)
    (out : Image F H) :
    mergeImages (H := H) p mode ⟨floatImage ⟨1, 1, 1⟩ [va], sa, disp, ⟨0, 0, 1, 1⟩⟩
        ⟨floatImage ⟨1, 1, 1⟩ [vb], sb, disp, ⟨0, 0, 1, 1⟩⟩ mix out = .error .index := by
  have hv : ValidSize ⟨1, 1, 1⟩ := by unfold ValidSize; decide
  obtain ⟨dd, hr, hdl⟩ := resize_float p out.pixelBlock ⟨1, 1, 1⟩ hv
  have hpix : mergePixel (H := H) p ⟨floatImage ⟨1, 1, 1⟩ [va], sa, disp, ⟨0, 0, 1, 1⟩⟩ 0 0 =
      .error .index := by
    unfold mergePixel
    refine Res.bind_error.mpr (.inr ⟨[va], rfl, ?_⟩)
    refine Res.bind_error.mpr (.inr ⟨0, i32_of (show InI32 0 by decide), ?_⟩)
    refine Res.bind_error.mpr (.inr ⟨0, i32_of (show InI32 0 by decide), ?_⟩)
    have e := (getIndex_eq p ⟨1, 1, 1⟩ hv 0 0 (by unfold InBlock; decide)).1
    refine Res.bind_error.mpr (.inr ⟨0, e, ?_⟩)
    rw [if_pos (by decide)]
    refine Res.bind_error.mpr (.inr ⟨va, rfl, ?_⟩)
    exact Res.bind_error.mpr (.inl rfl)
  unfold mergeImages
  rw [if_neg hm]
  refine Res.bind_error.mpr (.inr ⟨(), ensure_ok rfl, ?_⟩)
  refine Res.bind_error.mpr (.inr ⟨(), ensure_ok rfl, ?_⟩)
  refine Res.bind_error.mpr (.inr ⟨1, i32_of (show InI32 1 by decide), ?_⟩)
  refine Res.bind_error.mpr (.inr ⟨1, i32_of (show InI32 1 by decide), ?_⟩)
  refine Res.bind_error.mpr (.inr ⟨_, hr, ?_⟩)
  refine Res.bind_error.mpr (.inr ⟨dd, rfl, ?_⟩)
  refine Res.bind_error.mpr (.inl ?_)
  refine Res.bind_error.mpr (.inl ?_)
  refine Res.bind_error.mpr (.inl ?_)
  exact Res.bind_error.mpr (.inl hpix)

/-- C50 counterexample: `intersect` makes no difference. -/
theorem C50_counterexample_intersect (p : Profile) (image : Image F H) (crop : BBox)
    (reformat blackOutside : Bool) :
    cropImage p image crop reformat blackOutside true =
      cropImage p image crop reformat blackOutside false := rfl

end

section
variable {F H : Type} [Field F] [LinearOrder F] [IsStrictOrderedRing F] [FloatOps F] [HalfLike F H]

omit [IsStrictOrderedRing F] in
/-- The formulas with mix 0. -/
theorem blend_zero (mode : MergeImageMode) (a b : Int → F) (c : Int) :
    blend mode 0 a b c =
      match mode with
      | .add => a c
      | .over => a c
      | .multiply => 0
      | .uninitialized => 0 := by
  cases mode with
  | add => show a c + b c * 0 = a c; ring
  | over => show a c + b c * ((1 - a 3) * 0) = a c; ring
  | multiply => show a c * (b c * 0) = 0; ring
  | uninitialized => rfl

/-- C52 (partial): with mix 0 the merged pixel equals B's pixel exactly when A's pixel equals it
(modes Add and Over) or when it is zero (Multiply); it is not B's pixel in general
(`C52_counterexample`).  Exact arithmetic. -/
theorem C52_mix_zero_partial (p : Profile) (mode : MergeImageMode) (hm : mode ≠ .uninitialized)
    (imageA imageB out : Image F H) (na nb : Int) (va vb : List F)
    (hA : Filled imageA na va) (hB : Filled imageB nb vb) (hna : na = 3 ∨ na = 4)
    (hnb : nb = 3 ∨ nb = 4)
    (hv : ValidSize (sizeFor (BBox.combine imageA.dataWindow imageB.dataWindow) 4)) :
    ∃ (result : Image F H) (vo : List F),
      mergeImages p mode imageA imageB 0 out = .ok (true, result) ∧ Filled result nb vo ∧
      ∀ x y c, Has result.dataWindow x y → 0 ≤ c → c < nb →
        (valueAt result.dataWindow nb vo x y c = valueAt imageB.dataWindow nb vb x y c ↔
          if mode = .multiply then valueAt imageB.dataWindow nb vb x y c = 0
          else valueAt imageA.dataWindow na va x y c = valueAt imageB.dataWindow nb vb x y c) := by
  obtain ⟨r, vo, e, hf, -, -, -, h⟩ := C51_pixels p mode hm imageA imageB out 0 na nb va vb hA hB
    hna hnb hv
  refine ⟨r, vo, e, hf, fun x y c hxy h0 h1 => ?_⟩
  rw [h x y c hxy h0 h1, blend_zero]
  cases mode with
  | uninitialized => exact absurd rfl hm
  | add => rw [if_neg (by decide)]
  | over => rw [if_neg (by decide)]
  | multiply =>
    rw [if_pos rfl]
    exact eq_comm

end

attribute [local instance] ratRound

/-- C52 counterexample: A is one white pixel, B one black pixel; with mix 0 the result of Add is
white. -/
theorem C52_counterexample {H : Type} [HalfLike Rat H] (p : Profile) (out : Image Rat H)
    (sp : ImageSpec Rat) :
    ∃ (result : Image Rat H) (vo : List Rat),
      mergeImages p .add ⟨floatImage ⟨1, 1, 3⟩ [1, 1, 1], sp, ⟨0, 0, 1, 1⟩, ⟨0, 0, 1, 1⟩⟩
        ⟨floatImage ⟨1, 1, 3⟩ [0, 0, 0], sp, ⟨0, 0, 1, 1⟩, ⟨0, 0, 1, 1⟩⟩ 0 out =
          .ok (true, result) ∧ Filled result 3 vo ∧
      valueAt result.dataWindow 3 vo 0 0 0 = 1 := by
  have hv : ValidSize ⟨1, 1, 3⟩ := by unfold ValidSize; decide
  obtain ⟨r, vo, e, hf, hc, -, -, h⟩ := C51_pixels (H := H) p .add (by decide)
    ⟨floatImage ⟨1, 1, 3⟩ [1, 1, 1], sp, ⟨0, 0, 1, 1⟩, ⟨0, 0, 1, 1⟩⟩
    ⟨floatImage ⟨1, 1, 3⟩ [0, 0, 0], sp, ⟨0, 0, 1, 1⟩, ⟨0, 0, 1, 1⟩⟩ out (0 : Rat) 3 3 [1, 1, 1]
    [0, 0, 0] ⟨rfl, hv, rfl⟩ ⟨rfl, hv, rfl⟩ (.inl rfl) (.inl rfl)
    (by dsimp only; unfold ValidSize; decide)
  refine ⟨r, vo, e, hf, ?_⟩
  have hin := hc.1.1
  unfold Inside at hin
  dsimp only at hin
  rw [h 0 0 0 (by unfold Has; omega) (by decide) (by decide)]
  rw [blend_zero]
  rfl

/-- C51 (consequence): an image A without alpha channel counts as transparent everywhere, so
Over is the same as Add. -/
theorem C51_over_without_alpha {F : Type} [Field F] [LinearOrder F] [IsStrictOrderedRing F]
    [FloatOps F] (window : BBox) (va : List F) (b : Int → F) (mix : F) (x y c : Int) :
    blend .over mix (valueAt window 3 va x y) b c = blend .add mix (valueAt window 3 va x y) b c := by
  have h3 : valueAt window 3 va x y 3 = 0 := by
    unfold valueAt
    rw [if_neg (by omega)]
  show _ + _ * ((1 - valueAt window 3 va x y 3) * mix) = _ + _ * mix
  rw [h3]
  ring

/-- The hypotheses of `C51_pixels` and `C52_mix_zero_partial` are met by an RGBA pixel left of an
RGB pixel. -/
example {H : Type} [HalfLike Rat H] (p : Profile) (out : Image Rat H) (sp : ImageSpec Rat) :
    ∃ (result : Image Rat H) (vo : List Rat),
      mergeImages p .over ⟨floatImage ⟨1, 1, 4⟩ [1, 2, 3, 1], sp, ⟨0, 0, 2, 1⟩, ⟨-1, 0, 0, 1⟩⟩
        ⟨floatImage ⟨1, 1, 3⟩ [4, 5, 6], sp, ⟨0, 0, 2, 1⟩, ⟨0, 0, 1, 1⟩⟩ (1 / 2) out =
          .ok (true, result) ∧ Filled result 3 vo := by
  obtain ⟨r, vo, e, hf, -⟩ := C51_pixels (H := H) p .over (by decide)
    ⟨floatImage ⟨1, 1, 4⟩ [1, 2, 3, 1], sp, ⟨0, 0, 2, 1⟩, ⟨-1, 0, 0, 1⟩⟩
    ⟨floatImage ⟨1, 1, 3⟩ [4, 5, 6], sp, ⟨0, 0, 2, 1⟩, ⟨0, 0, 1, 1⟩⟩ out (1 / 2 : Rat) 4 3
    [1, 2, 3, 1] [4, 5, 6] ⟨rfl, by dsimp only; unfold ValidSize; decide, rfl⟩
    ⟨rfl, by dsimp only; unfold ValidSize; decide, rfl⟩ (.inr rfl) (.inl rfl) (by dsimp only; unfold ValidSize; decide)
  exact ⟨r, vo, e, hf⟩

example {H : Type} [HalfLike Rat H] (p : Profile) (out : Image Rat H) (sp : ImageSpec Rat) :
    ∃ (result : Image Rat H) (vo : List Rat),
      mergeImages p .multiply ⟨floatImage ⟨1, 1, 4⟩ [1, 2, 3, 1], sp, ⟨0, 0, 2, 1⟩, ⟨-1, 0, 0, 1⟩⟩
        ⟨floatImage ⟨1, 1, 3⟩ [4, 5, 6], sp, ⟨0, 0, 2, 1⟩, ⟨0, 0, 1, 1⟩⟩ 0 out =
          .ok (true, result) ∧ Filled result 3 vo := by
  obtain ⟨r, vo, e, hf, -⟩ := C52_mix_zero_partial (H := H) p .multiply (by decide)
    ⟨floatImage ⟨1, 1, 4⟩ [1, 2, 3, 1], sp, ⟨0, 0, 2, 1⟩, ⟨-1, 0, 0, 1⟩⟩
    ⟨floatImage ⟨1, 1, 3⟩ [4, 5, 6], sp, ⟨0, 0, 2, 1⟩, ⟨0, 0, 1, 1⟩⟩ out 4 3
    [1, 2, 3, 1] [4, 5, 6] ⟨rfl, by dsimp only; unfold ValidSize; decide, rfl⟩
    ⟨rfl, by dsimp only; unfold ValidSize; decide, rfl⟩ (.inr rfl) (.inl rfl) (by dsimp only; unfold ValidSize; decide)
  exact ⟨r, vo, e, hf⟩

/-- The hypotheses of `C50_crop_partial` are met by a crop that sticks out on the left. -/
example {H : Type} [HalfLike Rat H] (p : Profile) (sp : ImageSpec Rat) :
    ∃ r, cropImage (H := H) p
      ⟨floatImage ⟨2, 1, 3⟩ [1, 2, 3, 4, 5, 6], sp, ⟨0, 0, 9, 9⟩, ⟨5, 5, 7, 6⟩⟩
      ⟨4, 5, 6, 6⟩ true false false = .ok r ∧ r.dataWindow = ⟨4, 5, 6, 6⟩ := by
  obtain ⟨d, e, -⟩ := C50_crop_partial (H := H) p
    ⟨floatImage ⟨2, 1, 3⟩ [1, 2, 3, 4, 5, 6], sp, ⟨0, 0, 9, 9⟩, ⟨5, 5, 7, 6⟩⟩ ⟨4, 5, 6, 6⟩ true false
    ⟨show ValidSize ⟨2, 1, 3⟩ by unfold ValidSize; decide, rfl⟩ rfl rfl
    (show ValidSize ⟨2, 1, 3⟩ by unfold ValidSize; decide)
  exact ⟨_, e, rfl⟩

end OCG.Props
