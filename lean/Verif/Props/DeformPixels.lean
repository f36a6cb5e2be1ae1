import Verif.Props.Deform
import Verif.Props.Remap
import Verif.Props.Xform
/-
Property C48, second half: deforming pixels.
-/

namespace OCG.Props

open DeformSpec PixelSpec BlockSpec RemapSpec

section
variable {F H : Type} [FloatLike F] [FloatConst F] [HalfLike F H]

omit [FloatConst F] in
/-- Resizing to floats gives a float image of the requested size. -/
theorem resize_float (p : Profile) (b : PixelBlock F H) (size : BlockSize) (hs : ValidSize size) :
    ∃ d, PixelBlock.dataResize p b size (.known .f32) = .ok (floatImage size d) ∧
      (d.length : Int) = elements size := by
  obtain ⟨s0, t, d⟩ := b
  by_cases ht : t = .f32
  · subst ht
    obtain ⟨d', e, hl, -⟩ := C17_resize_same_type p s0 size .f32 d hs
    exact ⟨d', e, hl⟩
  · obtain ⟨d', e, hl, -⟩ := C17_resize_other_type p (⟨s0, ⟨t, d⟩⟩ : PixelBlock F H) size .f32 ht hs
    exact ⟨d', e, hl⟩

/-- The centre of pixel `k` (counted row by row) of a window. -/
def centre (window : BBox) (k : Nat) : F × F :=
  let w := (window.maxX - window.minX).toNat
  (FloatLike.ofInt (window.minX + (k % w : Nat)) + 1 / FloatLike.ofInt 2,
    FloatLike.ofInt (window.minY + (k / w : Nat)) + 1 / FloatLike.ofInt 2)

omit [FloatConst F] [HalfLike F H] in
/-- The coordinate buffer lists the pixel centres, row by row. -/
theorem pixelCoords_eq (window : BBox) :
    pixelCoords (F := F) window
        ((window.maxY - window.minY).toNat * (window.maxX - window.minX).toNat * 2) =
      .ok ((List.range ((window.maxY - window.minY).toNat * (window.maxX - window.minX).toNat)).flatMap
        fun k => [(centre (F := F) window k).1, (centre (F := F) window k).2]) := by
  set h := (window.maxY - window.minY).toNat with hh
  set w := (window.maxX - window.minX).toNat with hw
  set g : Nat → List F := fun k => [(centre (F := F) window k).1, (centre (F := F) window k).2]
    with hg
  unfold pixelCoords
  obtain ⟨st, e, h2⟩ := grid_inv
    (fun k (st : List F × Nat) => st.2 = k * 2 ∧
      Painted 2 g (List.replicate (h * w * 2) (0 : F)) k st.1) h w
    (fun i j st => (do
      let row := window.minY + i
      let col := window.minX + j
      let x : F := FloatLike.ofInt col + 1 / FloatLike.ofInt 2
      let y : F := FloatLike.ofInt row + 1 / FloatLike.ofInt 2
      let buf ← setAt st.1 (st.2 + 0) x
      let buf ← setAt buf (st.2 + 1) y
      .ok (buf, st.2 + 2) : Res (List F × Nat))) (List.replicate (h * w * 2) (0 : F), 0)
    ⟨rfl, Painted.start _ _ _⟩ (by
    rintro y x st hy hx ⟨hk, hP⟩
    have hyx : y * w + x < h * w := by
      have : (y + 1) * w ≤ h * w := Nat.mul_le_mul_right _ hy
      rw [Nat.add_mul, Nat.one_mul] at this
      omega
    obtain ⟨buf', e1, e2⟩ := Painted.step (n := 2) (g := g) (N := h * w)
      (buf0 := List.replicate (h * w * 2) (0 : F)) (fun i _ => rfl) hyx (le_of_eq (by simp)) hP hk
    refine ⟨(buf', st.2 + 2), ?_, by dsimp only; omega, e2⟩
    have c : centre (F := F) window (y * w + x) =
        (FloatLike.ofInt (window.minX + (x : Nat)) + 1 / FloatLike.ofInt 2,
          FloatLike.ofInt (window.minY + (y : Nat)) + 1 / FloatLike.ofInt 2) := by
      unfold centre
      rw [← hw]
      have m : (y * w + x) % w = x := by
        rw [Nat.add_comm, Nat.add_mul_mod_self_right, Nat.mod_eq_of_lt hx]
      have d : (y * w + x) / w = y := by
        rw [Nat.add_comm, Nat.add_mul_div_right _ _ (by omega), Nat.div_eq_of_lt hx, Nat.zero_add]
      dsimp only
      rw [m, d]
    rw [hg] at e1
    dsimp only at e1
    rw [c] at e1
    obtain ⟨b1, w1, w2⟩ := Res.bind_ok.mp e1
    obtain ⟨b2, w3, w4⟩ := Res.bind_ok.mp w2
    refine Res.bind_ok.mpr ⟨b1, w1, Res.bind_ok.mpr ⟨b2, w3, ?_⟩⟩
    have := Except.ok.inj w4
    rw [this])
  refine Res.bind_ok.mpr ⟨st, e, ?_⟩
  exact congrArg Except.ok (h2.2.done (by simp))

omit [FloatConst F] in
/-- The bounding box of usable deformers does not panic. -/
theorem deformedBox_total (lib : DeformLib F) (w : BBoxF F) :
    ∀ (ds : List (Deformer F)), (∀ d ∈ ds, Usable d) → ∀ b, ∃ r, deformedBox lib ds w b = .ok r := by
  intro ds
  induction ds with
  | nil => intro _ b; exact ⟨b, rfl⟩
  | cons d ds ih =>
    intro hu b
    obtain ⟨b', hb⟩ : ∃ b', d.box lib b w = .ok b' := by
      cases d with
      | transform d => exact ⟨b, rfl⟩
      | tde4 d =>
        rcases hu _ List.mem_cons_self with h | h
        · simp only [Deformer.box, Tde4Deformer.box, h, if_pos, bind, Except.bind]
          exact ⟨_, rfl⟩
        · simp only [Deformer.box, Tde4Deformer.box, h, if_pos, bind, Except.bind,
            if_neg (show ¬ (1 : Int) = 0 by decide)]
          exact ⟨_, rfl⟩
    obtain ⟨r, hr⟩ := ih (fun e he => hu e (List.mem_cons_of_mem _ he)) b'
    exact ⟨r, Res.bind_ok.mpr ⟨b', hb, hr⟩⟩

/-- The pixels of a deformed image: where each comes from. -/
theorem deform_pixels (p : Profile) (lib : DeformLib F) (ds : List (Deformer F))
    (hu : ∀ d ∈ ds, d.enable = 1 → Usable d) (hon : ∃ d ∈ ds, d.enable = 1)
    (display srcWindow : BBox) (ss : BlockSize) (sd : List F) (dst : PixelBlock F H)
    (hs : ValidSize ss) (hsl : (sd.length : Int) = elements ss)
    (hc : ss.numChannels = 3 ∨ ss.numChannels = 4)
    (hwx : InI32 (srcWindow.maxX - 1)) (hwy : InI32 (srcWindow.maxY - 1))
    (box : BBoxF F)
    (hbox : deformedBox lib (enabledDeformers ds) (BBoxF.ofBBox display) (BBoxF.ofBBox srcWindow) =
      .ok box)
    (hv : ValidSize ⟨(outerBox box).maxX - (outerBox box).minX,
      (outerBox box).maxY - (outerBox box).minY, ss.numChannels⟩) :
    ∃ out : List F,
      applyDeformersToPixels p lib ds display (floatImage ss sd) srcWindow dst =
        .ok (floatImage ⟨(outerBox box).maxX - (outerBox box).minX,
          (outerBox box).maxY - (outerBox box).minY, ss.numChannels⟩ out, outerBox box) ∧
      (out.length : Int) = elements ⟨(outerBox box).maxX - (outerBox box).minX,
        (outerBox box).maxY - (outerBox box).minY, ss.numChannels⟩ ∧
      ∀ x y, InBlock ⟨(outerBox box).maxX - (outerBox box).minX,
          (outerBox box).maxY - (outerBox box).minY, ss.numChannels⟩ x y →
        ∃ q : F × F, Carried lib (BBoxF.ofBBox display) true ds
            (FloatLike.ofInt ((outerBox box).minX + x) + 1 / FloatLike.ofInt 2,
              FloatLike.ofInt ((outerBox box).minY + y) + 1 / FloatLike.ofInt 2) q ∧
          CopiesPixel ⟨(outerBox box).maxX - (outerBox box).minX,
            (outerBox box).maxY - (outerBox box).minY, ss.numChannels⟩ out ss sd x y
            (pick ss.width display.minX display.maxX srcWindow.minX srcWindow.maxX q.1)
            (pick ss.height display.minY display.maxY srcWindow.minY srcWindow.maxY q.2) := by
  generalize hwin : outerBox box = win at *
  obtain ⟨g1, g2, g3, g4, g5, g6, g7, g8, g9, g10⟩ := hv.bounds
  obtain ⟨hw, hh, hn, hm⟩ := id hv
  dsimp only at g1 g2 g3 g4 g5 g6 g7 hw hh hn hm
  obtain ⟨d1, hmem, hd1⟩ := hon
  have henab : (enabledDeformers ds).length ≠ 0 := by
    intro h
    rw [List.length_eq_zero_iff] at h
    have : d1 ∈ enabledDeformers ds := by
      unfold enabledDeformers
      rw [List.mem_filter]
      exact ⟨hmem, by simpa using hd1⟩
    rw [h] at this
    cases this
  have hne : ds.length ≠ 0 := by
    intro h
    rw [List.length_eq_zero_iff] at h
    subst h
    cases hmem
  obtain ⟨dd, hr, hdl⟩ := resize_float p dst ⟨win.maxX - win.minX, win.maxY - win.minY,
    ss.numChannels⟩ hv
  obtain ⟨f, hcar, hf⟩ := forEach_mapped lib (BBoxF.ofBBox display) true (le_refl 2) ds hu
  set W := (win.maxX - win.minX).toNat with hW
  set Hh := (win.maxY - win.minY).toNat with hHh
  have hWH : ((win.maxX - win.minX) * (win.maxY - win.minY)).toNat = W * Hh :=
    Int.toNat_mul hw.le hh.le
  set centres : List F := (List.range (Hh * W)).flatMap
        fun k => [(centre (F := F) win k).1, (centre (F := F) win k).2] with hcen
  have hclen : centres.length = Hh * W * 2 := length_flatMap_const _ 2 _ (fun _ _ => rfl)
  obtain ⟨coords, ecoords, hmap⟩ := hf centres
  have hcount : coords.length / 2 =
      ((win.maxX - win.minX) * (win.maxY - win.minY)).toNat := by
    rw [hmap.length, hclen, hWH, Nat.mul_comm W]
    omega
  obtain ⟨out, eout, hlen, hpix⟩ := remap_pixels (H := H) p display srcWindow coords ss
    ⟨win.maxX - win.minX, win.maxY - win.minY, ss.numChannels⟩ sd dd hs hv hsl hdl hc rfl hcount
    hwx hwy
  refine ⟨out, ?_, hlen, ?_⟩
  · unfold applyDeformersToPixels
    rw [if_neg hne]
    dsimp only
    rw [if_neg henab]
    refine Res.bind_ok.mpr ⟨box, hbox, ?_⟩
    rw [hwin]
    refine Res.bind_ok.mpr ⟨_, i32_of (by unfold InI32; omega), ?_⟩
    refine Res.bind_ok.mpr ⟨_, i32_of (by unfold InI32; omega), ?_⟩
    refine Res.bind_ok.mpr ⟨_, hr, ?_⟩
    rw [asUsize_of_nonneg hw.le, asUsize_of_nonneg hh.le, ← hW, ← hHh]
    have hsm : W * Hh ≤ 2147483647 := by omega
    refine Res.bind_ok.mpr ⟨_, umul_small (by rw [usizeMod_eq]; omega), ?_⟩
    refine Res.bind_ok.mpr ⟨_, umul_small (by rw [usizeMod_eq]; omega), ?_⟩
    rw [Nat.mul_comm W Hh]
    refine Res.bind_ok.mpr ⟨_, pixelCoords_eq win, ?_⟩
    refine Res.bind_ok.mpr ⟨_, ecoords, ?_⟩
    exact Res.bind_ok.mpr ⟨_, eout, rfl⟩
  · intro x y hxy
    obtain ⟨cx, cy, hx, hy, hcopy⟩ := hpix x y hxy
    refine ⟨(cx, cy), ?_, hcopy⟩
    obtain ⟨x0, x1, y0, y1⟩ := hxy
    dsimp only at x0 x1 y0 y1 hx hy
    -- the pixel's place in the coordinate buffer
    have hk : (y * (win.maxX - win.minX) + x).toNat = y.toNat * W + x.toNat := by
      rw [Int.toNat_add (mul_nonneg y0 hw.le) x0, Int.toNat_mul y0 hw.le]
    have hyx : y.toNat * W + x.toNat < Hh * W := by
      have : (y.toNat + 1) * W ≤ Hh * W := Nat.mul_le_mul_right _ (by omega)
      rw [Nat.add_mul, Nat.one_mul] at this
      omega
    set k := y.toNat * W + x.toNat with hkdef
    rw [hk] at hx hy
    have mv := moved_of_mapped (move := Carried lib (BBoxF.ofBBox display) true ds) (le_refl 2)
      hcar hmap
    have c0 := getElem?_flatMap_const (fun k => [(centre (F := F) win k).1,
      (centre (F := F) win k).2]) 2 (Hh * W) k 0 (fun _ _ => rfl) hyx (by decide)
    have c1 := getElem?_flatMap_const (fun k => [(centre (F := F) win k).1,
      (centre (F := F) win k).2]) 2 (Hh * W) k 1 (fun _ _ => rfl) hyx (by decide)
    rw [← hcen] at c0 c1
    rw [Nat.mul_comm 2 k] at hx hy
    have := mv.points k (by rw [hclen]; omega) _ _ cx cy c0 c1 hx hy
    have cc : centre (F := F) win k =
        (FloatLike.ofInt (win.minX + x) + 1 / FloatLike.ofInt 2,
          FloatLike.ofInt (win.minY + y) + 1 / FloatLike.ofInt 2) := by
      unfold centre
      rw [← hW, hkdef]
      have hxW : x.toNat < W := by omega
      have m : (y.toNat * W + x.toNat) % W = x.toNat := by
        rw [Nat.add_comm, Nat.add_mul_mod_self_right, Nat.mod_eq_of_lt hxW]
      have d : (y.toNat * W + x.toNat) / W = y.toNat := by
        rw [Nat.add_comm, Nat.add_mul_div_right _ _ (by omega), Nat.div_eq_of_lt hxW, Nat.zero_add]
      dsimp only
      rw [m, d, Int.toNat_of_nonneg x0, Int.toNat_of_nonneg y0]
    rw [← cc]
    exact this

omit [HalfLike F H] in
/-- Going forwards through the deformers in the opposite order undoes going backwards. -/
theorem carried_undo {lib : DeformLib F} {w : BBoxF F} :
    ∀ {ds : List (Deformer F)} {q r : F × F}, (∀ d ∈ ds, d.enable = 1 → Undoes lib w d) →
      Carried lib w true ds q r → Carried lib w false ds.reverse r q := by
  have snoc : ∀ {ds : List (Deformer F)} {d : Deformer F} {q r s : F × F},
      Carried lib w false ds q r → Carried lib w false [d] r s →
      Carried lib w false (ds ++ [d]) q s := by
    intro ds d q r s h h'
    induction h with
    | nil => exact h'
    | off hd _ ih => exact .off hd (ih h')
    | on hd e _ ih => exact .on hd e (ih h')
  intro ds q r hu h
  induction h with
  | nil => exact .nil
  | off hd _ ih =>
    rw [List.reverse_cons]
    exact snoc (ih (fun d hm => hu d (List.mem_cons_of_mem _ hm))) (.off hd .nil)
  | @on d ds q q' r hd e _ ih =>
    rw [List.reverse_cons]
    refine snoc (ih (fun d hm => hu d (List.mem_cons_of_mem _ hm))) (.on hd ?_ .nil)
    obtain ⟨q'', e1, e2⟩ := hu d List.mem_cons_self hd q.1 q.2
    rw [e] at e1
    cases e1
    exact e2

omit [HalfLike F H] in
/-- Only the deformers that are switched on matter. -/
theorem carried_enabled {lib : DeformLib F} {w : BBoxF F} {inv : Bool} (ds : List (Deformer F))
    (q r : F × F) :
    Carried lib w inv ds q r ↔ Carried lib w inv (enabledDeformers ds) q r := by
  induction ds generalizing q with
  | nil => exact Iff.rfl
  | cons d ds ih =>
    unfold enabledDeformers at *
    by_cases h : d.enable = 1
    · rw [List.filter_cons_of_pos (by simpa using h)]
      constructor
      · intro hc
        cases hc with
        | off h' _ => exact absurd h h'
        | on _ e hc => exact .on h e ((ih _).mp hc)
      · intro hc
        cases hc with
        | off h' _ => exact absurd h h'
        | on _ e hc => exact .on h e ((ih _).mpr hc)
    · rw [List.filter_cons_of_neg (by simpa using h)]
      constructor
      · intro hc
        cases hc with
        | off _ hc => exact (ih _).mp hc
        | on h' _ _ => exact absurd h' h
      · exact fun hc => .off h ((ih _).mpr hc)

end

/-- C48: with no deformer switched on, the pixels and the window are returned as they are. -/
theorem C48_pixels_none {F H : Type} [FloatLike F] [FloatConst F] [HalfLike F H] (p : Profile)
    (lib : DeformLib F) (ds : List (Deformer F)) (h : ∀ d ∈ ds, d.enable ≠ 1)
    (display srcWindow : BBox) (src dst : PixelBlock F H) :
    applyDeformersToPixels p lib ds display src srcWindow dst = .ok (src, srcWindow) := by
  have e : enabledDeformers ds = [] := by
    unfold enabledDeformers
    rw [List.filter_eq_nil_iff]
    intro d hd
    simpa using h d hd
  unfold applyDeformersToPixels
  split
  · rfl
  · dsimp only
    rw [if_pos (by rw [e]; rfl)]

section
variable {F : Type} [Field F] [LinearOrder F] [IsStrictOrderedRing F] [FloatOps F] [FloatConst F]

/-- A transform deformer whose scales are not zero can be undone (from C60). -/
theorem undoes_transform (lib : DeformLib F) (hi : GoodInverse lib.tryInverse)
    (d : TransformDeformer F) (hinv : 0 ≤ d.invert) (hsx : d.scaleX ≠ 0) (hsy : d.scaleY ≠ 0)
    (hcs : cosDeg d.rotate ^ 2 + sinDeg d.rotate ^ 2 ≠ 0) (w : BBoxF F) :
    Undoes lib w (.transform d) := by
  intro x y
  obtain ⟨x', y', e1, e2⟩ := C60_inverse lib.tryInverse hi d hinv hsx hsy hcs w x y true
  exact ⟨(x', y'), e1, e2⟩

variable [RoundLaws F]

/-- C48 (partial): every pixel of the deformed image is a source pixel.  For an output pixel
whose centre is `c`, it is the source pixel nearest to the position `q` that the enabled
deformers, *in the opposite order*, carry to `c`.  What is missing: C48 asks for the position
that the deformers in list order carry to `c`; see `C48_pixels_single` for when they agree and
`C48_counterexample_order` for when they do not.  Exact arithmetic; the display window's ends
stand for the first and last pixel, as in C56. -/
theorem C48_pixels_partial {H : Type} [HalfLike F H] (p : Profile) (lib : DeformLib F)
    (ds : List (Deformer F)) (hu : ∀ d ∈ ds, d.enable = 1 → Usable d)
    (hon : ∃ d ∈ ds, d.enable = 1) (display srcWindow : BBox)
    (hundo : ∀ d ∈ ds, d.enable = 1 → Undoes lib (BBoxF.ofBBox display) d)
    (ss : BlockSize) (sd : List F) (dst : PixelBlock F H)
    (hs : ValidSize ss) (hsl : (sd.length : Int) = elements ss)
    (hc : ss.numChannels = 3 ∨ ss.numChannels = 4)
    (hwx : InI32 (srcWindow.maxX - 1)) (hwy : InI32 (srcWindow.maxY - 1))
    (box : BBoxF F)
    (hbox : deformedBox lib (enabledDeformers ds) (BBoxF.ofBBox display) (BBoxF.ofBBox srcWindow) =
      .ok box) (win : BBox) (hwin : win = outerBox box) (os : BlockSize)
    (hos : os = ⟨win.maxX - win.minX, win.maxY - win.minY, ss.numChannels⟩) (hv : ValidSize os) :
    ∃ out : List F,
      applyDeformersToPixels p lib ds display (floatImage ss sd) srcWindow dst =
        .ok (floatImage os out, win) ∧
      ∀ x y, InBlock os x y → ∃ (q : F × F) (sx sy : Int),
        Carried lib (BBoxF.ofBBox display) false ds.reverse q
          ((win.minX + x : Int) + 1 / 2, (win.minY + y : Int) + 1 / 2) ∧
        Nearest ss.width
          (position display.minX display.maxX srcWindow.minX (srcWindow.maxX - 1) q.1) sx ∧
        Nearest ss.height
          (position display.minY display.maxY srcWindow.minY (srcWindow.maxY - 1) q.2) sy ∧
        CopiesPixel os out ss sd x y sx sy := by
  subst hwin hos
  obtain ⟨out, e, -, h⟩ := deform_pixels (H := H) p lib ds hu hon display srcWindow ss sd dst hs hsl hc
    hwx hwy box hbox hv
  refine ⟨out, e, fun x y hxy => ?_⟩
  obtain ⟨q, hq, hcopy⟩ := h x y hxy
  obtain ⟨s1, s2, s3, s4, s5, s6, s7, s8, s9, s10⟩ := hs.bounds
  have hq' := carried_undo hundo hq
  have two : (FloatLike.ofInt 2 : F) = 2 := by
    show ((2 : Int) : F) = 2
    norm_num
  rw [two] at hq'
  exact ⟨q, _, _, hq', pick_nearest hs.1 (by omega) q.1, pick_nearest hs.2.1 (by omega) q.2, hcopy⟩

/-- C48: with one deformer switched on, every pixel of the deformed image is the source pixel
nearest to the position that the deformers carry to the pixel's centre: pixels are sampled
through the inverse of the mapping applied to positions. -/
theorem C48_pixels_single {H : Type} [HalfLike F H] (p : Profile) (lib : DeformLib F)
    (ds : List (Deformer F)) (d : Deformer F) (hon : enabledDeformers ds = [d]) (hud : Usable d)
    (display srcWindow : BBox) (hundo : Undoes lib (BBoxF.ofBBox display) d)
    (ss : BlockSize) (sd : List F) (dst : PixelBlock F H)
    (hs : ValidSize ss) (hsl : (sd.length : Int) = elements ss)
    (hc : ss.numChannels = 3 ∨ ss.numChannels = 4)
    (hwx : InI32 (srcWindow.maxX - 1)) (hwy : InI32 (srcWindow.maxY - 1))
    (box : BBoxF F)
    (hbox : d.box lib (BBoxF.ofBBox srcWindow) (BBoxF.ofBBox display) = .ok box)
    (win : BBox) (hwin : win = outerBox box) (os : BlockSize)
    (hos : os = ⟨win.maxX - win.minX, win.maxY - win.minY, ss.numChannels⟩) (hv : ValidSize os) :
    ∃ out : List F,
      applyDeformersToPixels p lib ds display (floatImage ss sd) srcWindow dst =
        .ok (floatImage os out, win) ∧
      ∀ x y, InBlock os x y → ∃ (q : F × F) (sx sy : Int),
        Carried lib (BBoxF.ofBBox display) false ds q
          ((win.minX + x : Int) + 1 / 2, (win.minY + y : Int) + 1 / 2) ∧
        Nearest ss.width
          (position display.minX display.maxX srcWindow.minX (srcWindow.maxX - 1) q.1) sx ∧
        Nearest ss.height
          (position display.minY display.maxY srcWindow.minY (srcWindow.maxY - 1) q.2) sy ∧
        CopiesPixel os out ss sd x y sx sy := by
  have hmem : ∀ e, e ∈ ds ∧ e.enable = 1 ↔ e = d := by
    intro e
    have : e ∈ enabledDeformers ds ↔ e ∈ ds ∧ e.enable = 1 := by
      unfold enabledDeformers
      rw [List.mem_filter]
      exact and_congr_right fun _ => by simp
    rw [← this, hon, List.mem_singleton]
  have hd := (hmem d).mpr rfl
  obtain ⟨out, e, h⟩ := C48_pixels_partial (H := H) p lib ds
    (fun e h1 h2 => by rw [(hmem e).mp ⟨h1, h2⟩]; exact hud) ⟨d, hd⟩ display srcWindow
    (fun e h1 h2 => by rw [(hmem e).mp ⟨h1, h2⟩]; exact hundo) ss sd dst hs hsl hc hwx hwy box
    (by rw [hon]; exact Res.bind_ok.mpr ⟨box, hbox, rfl⟩) win hwin os hos hv
  refine ⟨out, e, fun x y hxy => ?_⟩
  obtain ⟨q, sx, sy, hq, hr⟩ := h x y hxy
  refine ⟨q, sx, sy, ?_, hr⟩
  rw [carried_enabled] at hq ⊢
  have : enabledDeformers ds.reverse = enabledDeformers ds := by
    unfold enabledDeformers at *
    rw [List.filter_reverse, hon]
    rfl
  rwa [this] at hq

end

attribute [local instance] ratRound ratRound_laws ratPi

/-- A transform without rotation, run forwards. -/
theorem apply_scale_shift (tx ty sx sy x y : Rat) (w : BBoxF Rat) (inv : Mat4 Rat → Option (Mat4 Rat)) :
    TransformDeformer.apply (F := Rat) inv ⟨1, 0, tx, ty, 0, 0, 0, sx, sy, 0, 0⟩ x y w false =
      .ok (sx * x + (tx - w.minX) / (w.maxX - w.minX),
        sy * y + (ty - w.minX) / (w.maxX - w.minX)) := by
  obtain ⟨⟨m, h, e⟩, _⟩ := C60_order_partial (F := Rat) ((tx - w.minX) / (w.maxX - w.minX))
    ((ty - w.minX) / (w.maxX - w.minX)) 0 0 0 sx sy (x - 0, y - 0)
  unfold TransformDeformer.apply
  refine Res.bind_ok.mpr ⟨m, h, ?_⟩
  have e' : Xform.mulVec m (Xform.vec (x - 0) (y - 0) 0 1) = _ := e
  have hc : cosDeg (0 : Rat) = 1 := rfl
  have hs : sinDeg (0 : Rat) = 0 := rfl
  dsimp only
  rw [if_neg (by simp), e', hc, hs]
  simp only [planePt, Xform.vec, translatePt, rotatePt, scalePt]
  refine congrArg Except.ok (Prod.ext ?_ ?_)
  · simp only; ring
  · simp only; ring

/-- Doubles horizontal positions. -/
def doubleX : Deformer Rat := .transform ⟨1, 0, 0, 0, 0, 0, 0, 2, 1, 0, 0⟩

/-- Moves horizontally, by one when the window is 8 wide. -/
def shiftX : Deformer Rat := .transform ⟨1, 0, 8, 0, 0, 0, 0, 1, 1, 0, 0⟩

/-- The matrix inverse and a lens without distortion. -/
noncomputable def matLib : DeformLib Rat :=
  ⟨matInverse, ⟨fun _ x y => (x, y), fun _ x y => (x, y), fun _ b => b, fun _ b => b⟩⟩

theorem undoes_doubleX (w : BBoxF Rat) : Undoes matLib w doubleX :=
  undoes_transform _ matInverse_good _ (by norm_num) (by norm_num) (by norm_num)
    (by show ((1 : Rat) ^ 2 + 0 ^ 2) ≠ 0; norm_num) _

theorem undoes_shiftX (w : BBoxF Rat) : Undoes matLib w shiftX :=
  undoes_transform _ matInverse_good _ (by norm_num) (by norm_num) (by norm_num)
    (by show ((1 : Rat) ^ 2 + 0 ^ 2) ≠ 0; norm_num) _

theorem outer_row : outerBox (BBoxF.ofBBox (F := Rat) ⟨0, 0, 8, 1⟩) = ⟨0, 0, 8, 1⟩ := by
  decide +kernel

/-- C48 counterexample: an image is deformed by doubling and then moving by one pixel, so that
the position 13/4 is carried to the centre of pixel 7.  That pixel of the deformed image is
however not the source pixel 3 nearest to that position, but pixel 2. -/
theorem C48_counterexample_order {H : Type} [HalfLike Rat H] (p : Profile) (sd : List Rat)
    (hsl : sd.length = 24) (dst : PixelBlock Rat H) :
    (Carried matLib (BBoxF.ofBBox ⟨0, 0, 8, 1⟩) false [doubleX, shiftX] (13 / 4, 1 / 2)
        (7 + 1 / 2, 0 + 1 / 2) ∧
      Nearest 8 (position 0 8 0 7 (13 / 4 : Rat)) 3) ∧
    ∃ out : List Rat,
      applyDeformersToPixels (H := H) p matLib [doubleX, shiftX] ⟨0, 0, 8, 1⟩
        (floatImage ⟨8, 1, 3⟩ sd) ⟨0, 0, 8, 1⟩ dst =
          .ok (floatImage ⟨8, 1, 3⟩ out, ⟨0, 0, 8, 1⟩) ∧
      CopiesPixel ⟨8, 1, 3⟩ out ⟨8, 1, 3⟩ sd 7 0 2 0 := by
  have hd : ∀ x y : Rat, doubleX.point matLib (BBoxF.ofBBox ⟨0, 0, 8, 1⟩) false x y =
      .ok (2 * x, y) := by
    intro x y
    refine (apply_scale_shift 0 0 2 1 x y _ _).trans (congrArg Except.ok ?_)
    simp [BBoxF.ofBBox, FloatLike.ofInt]
  have hs : ∀ x y : Rat, shiftX.point matLib (BBoxF.ofBBox ⟨0, 0, 8, 1⟩) false x y =
      .ok (x + 1, y) := by
    intro x y
    refine (apply_scale_shift 8 0 1 1 x y _ _).trans (congrArg Except.ok ?_)
    simp [BBoxF.ofBBox, FloatLike.ofInt]
  have near : ∀ (k : Int) (x : Rat), 0 ≤ k → k < 8 → |x - k| < 1 / 2 →
      ∀ j, Nearest 8 x j ↔ j = k := by
    intro k x h0 h1 h j
    constructor
    · rintro ⟨-, -, hj⟩
      have := hj k h0 h1
      have h2 : |((j : Rat) - k)| < 1 := by
        have : (j : Rat) - k = (x - k) - (x - j) := by ring
        rw [this]
        exact lt_of_le_of_lt (abs_sub _ _) (by linarith)
      have h3 : |j - k| < 1 := by exact_mod_cast h2
      rw [Int.abs_lt_one_iff] at h3
      omega
    · rintro rfl
      refine ⟨h0, h1, fun i _ _ => ?_⟩
      by_cases hi : i = j
      · rw [hi]
      · have h3 : (1 : Rat) ≤ |((i : Rat) - j)| := by
          have : 1 ≤ |i - j| := Int.one_le_abs (by omega)
          exact_mod_cast this
        have : (i : Rat) - j = (x - j) - (x - i) := by ring
        rw [this] at h3
        have := abs_sub (x - (j : Rat)) (x - i)
        linarith
  refine ⟨⟨?_, ?_⟩, ?_⟩
  · refine .on rfl (hd _ _) (.on rfl (hs _ _) ?_)
    norm_num
    exact .nil
  · refine (near 3 _ (by decide) (by decide) ?_ 3).mpr rfl
    unfold position
    rw [abs_lt]
    constructor <;> norm_num
  · have hv : ValidSize ⟨8, 1, 3⟩ := by unfold ValidSize; decide
    obtain ⟨out, e, h⟩ := C48_pixels_partial (H := H) p matLib [doubleX, shiftX]
      (by intro d hd _; simp at hd; rcases hd with rfl | rfl <;> trivial)
      ⟨doubleX, by simp, rfl⟩ ⟨0, 0, 8, 1⟩ ⟨0, 0, 8, 1⟩
      (by intro d hd _; simp at hd; rcases hd with rfl | rfl
          · exact undoes_doubleX _
          · exact undoes_shiftX _)
      ⟨8, 1, 3⟩ sd dst hv (by rw [hsl]; decide) (.inl rfl) (by decide) (by decide)
      (BBoxF.ofBBox ⟨0, 0, 8, 1⟩) rfl ⟨0, 0, 8, 1⟩ outer_row.symm ⟨8, 1, 3⟩ rfl hv
    refine ⟨out, e, ?_⟩
    obtain ⟨q, sx, sy, hq, nx, ny, hcopy⟩ := h 7 0 (by unfold InBlock; decide)
    have hsy : sy = 0 := by have := ny.1; have := ny.2.1; dsimp only at this; omega
    have hq1 : q.1 = 11 / 4 := by
      cases hq with
      | off h _ => exact absurd rfl h
      | on _ e1 hq =>
        cases hq with
        | off h _ => exact absurd rfl h
        | on _ e2 hq =>
          rw [hs] at e1
          cases e1
          rw [hd] at e2
          cases e2
          generalize hr : ((((0 : Int) + 7 : Int) : Rat) + 1 / 2, (((0 : Int) + 0 : Int) : Rat) + 1 / 2) = r at hq
          cases hq
          have := congrArg Prod.fst hr
          simp only at this
          push_cast at this
          linarith
    dsimp only at nx
    have hsx : sx = 2 := by
      refine (near 2 _ (by decide) (by decide) ?_ sx).mp nx
      rw [hq1]
      unfold position
      rw [abs_lt]
      constructor <;> norm_num
    subst hsx hsy
    exact hcopy

/-- The hypotheses of `C48_pixels_partial` are met by two deformers (see
`C48_counterexample_order`), those of `C48_pixels_single` by one that is switched on after one
that is switched off. -/
example {H : Type} [HalfLike Rat H] (p : Profile) (dst : PixelBlock Rat H) :
    ∃ out : List Rat,
      applyDeformersToPixels (H := H) p matLib
        [.transform ⟨0, 0, 5, 5, 0, 0, 0, 1, 1, 0, 0⟩, doubleX] ⟨0, 0, 8, 1⟩
        (floatImage ⟨8, 1, 3⟩ (List.replicate 24 1)) ⟨0, 0, 8, 1⟩ dst =
          .ok (floatImage ⟨8, 1, 3⟩ out, ⟨0, 0, 8, 1⟩) := by
  have hv : ValidSize ⟨8, 1, 3⟩ := by unfold ValidSize; decide
  obtain ⟨out, e, -⟩ := C48_pixels_single (H := H) p matLib
    [.transform ⟨0, 0, 5, 5, 0, 0, 0, 1, 1, 0, 0⟩, doubleX] doubleX rfl trivial
    ⟨0, 0, 8, 1⟩ ⟨0, 0, 8, 1⟩ (undoes_doubleX _) ⟨8, 1, 3⟩ (List.replicate 24 1) dst hv
    (by rw [List.length_replicate]; decide) (.inl rfl) (by decide) (by decide)
    (BBoxF.ofBBox ⟨0, 0, 8, 1⟩) rfl ⟨0, 0, 8, 1⟩ outer_row.symm ⟨8, 1, 3⟩ rfl hv
  exact ⟨out, e⟩

/-- `C48_pixels_none` for a deformer that is switched off. -/
example {H : Type} [HalfLike Rat H] (p : Profile) (src dst : PixelBlock Rat H) :
    applyDeformersToPixels p matLib [.transform ⟨0, 0, 5, 5, 0, 0, 0, 1, 1, 0, 0⟩] ⟨0, 0, 8, 1⟩ src
      ⟨1, 0, 4, 2⟩ dst = .ok (src, ⟨1, 0, 4, 2⟩) :=
  C48_pixels_none p _ _ (by intro d hd; simp at hd; subst hd; decide) _ _ _ _

/-- `C49_positions` for two transforms and an incomplete last vertex. -/
example : ∃ out, applyDeformersToPositions matLib [doubleX, shiftX] ⟨0, 0, 8, 1⟩
      [1, 2, 3, 4, 5, 6, 7] = .ok out ∧
    out.length = 7 ∧ out[2]? = some 3 ∧ out[6]? = some 7 := by
  obtain ⟨out, e, m⟩ := C49_positions matLib [doubleX, shiftX] ⟨0, 0, 8, 1⟩
    (by intro d hd _; simp at hd; rcases hd with rfl | rfl <;> trivial) [1, 2, 3, 4, 5, 6, 7]
  exact ⟨out, e, m.length, m.others 2 (.inl (by decide)), m.others 6 (.inr (by decide))⟩

/-- `C49_independent`: the same vertex at two places of two buffers. -/
example (out out' : List Rat)
    (h : applyDeformersToPositions matLib [doubleX] ⟨0, 0, 8, 1⟩ [1, 2, 3, 4, 5, 6] = .ok out)
    (h' : applyDeformersToPositions matLib [doubleX] ⟨0, 0, 8, 1⟩ [4, 5, 6] = .ok out') :
    out[3]? = out'[0]? :=
  C49_independent matLib [doubleX] ⟨0, 0, 8, 1⟩
    (by intro d hd _; simp at hd; subst hd; trivial) _ _ _ _ h h' 1 0 (by decide) (by decide)
    (by intro c hc; rcases (by omega : c = 0 ∨ c = 1 ∨ c = 2) with rfl | rfl | rfl <;> rfl) 0
    (by decide)

/-- `C49_none` for a deformer that is switched off. -/
example : applyDeformersToPositions matLib [.transform ⟨0, 0, 5, 5, 0, 0, 0, 1, 1, 0, 0⟩]
    ⟨0, 0, 8, 1⟩ [1, 2, 3] = .ok [1, 2, 3] :=
  C49_none _ _ _ (by intro d hd; simp at hd; subst hd; decide) _

/-- `C48_counterexample_direction` for a lens deformer with direction 2. -/
example (d : Tde4Deformer Rat) (he : d.enable = 1) (hd : d.direction = 2) :
    applyDeformersToPositions matLib [doubleX, .tde4 d] ⟨0, 0, 8, 1⟩ [1, 2, 3] =
      .error .explicit :=
  C48_counterexample_direction matLib _ (.tde4 d) he
    (by show ¬ (d.direction = 0 ∨ d.direction = 1); rw [hd]; decide) _ (by simp) _ (by simp)

end OCG.Props
