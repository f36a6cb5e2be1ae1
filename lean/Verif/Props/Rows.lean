import Verif.Props.Remap
import Verif.Props.ColorOps
import Verif.Props.Compute
/-
Property C96: the rows of an image; and small facts that complete C20, C56, C57 and C65.
-/

namespace OCG.Props

open BlockSpec

section
variable {F H : Type} [FloatLike F] [HalfLike F H]

omit [FloatLike F] [HalfLike F H] in
/-- C96: reading a row of an image as a slice gives the pixels of the row from left to right, and
the rows are all the rows from top to bottom. -/
theorem C96_slices (size : BlockSize) (d : List F) (hs : ValidSize size)
    (hd : (d.length : Int) = elements size) :
    (floatImage (H := H) size d).rows = List.range size.height.toNat ∧
    ∀ y ∈ (floatImage (H := H) size d).rows,
      ∃ row, (floatImage (H := H) size d).rowSlice y = .ok row ∧
        (row.length : Int) = size.width * size.numChannels ∧
        ∀ x c : Int, 0 ≤ x → x < size.width → 0 ≤ c → c < size.numChannels →
          row[(x * size.numChannels + c).toNat]? = channelAt size d x y c := by
  obtain ⟨h1, h2, h3, h4⟩ := hs
  obtain ⟨w, hw⟩ := Int.eq_ofNat_of_zero_le h1.le
  obtain ⟨h, hh⟩ := Int.eq_ofNat_of_zero_le h2.le
  obtain ⟨n, hn⟩ := Int.eq_ofNat_of_zero_le h3.le
  have aw : asUsize size.width = w := by
    rw [asUsize_of_nonneg h1.le, hw]; rfl
  have ah : asUsize size.height = h := by
    rw [asUsize_of_nonneg h2.le, hh]; rfl
  have an : asUsize size.numChannels = n := by
    rw [asUsize_of_nonneg h3.le, hn]; rfl
  have hrows : (floatImage (H := H) size d).rows = List.range size.height.toNat := by
    unfold PixelBlock.rows floatImage
    rw [ah, hh]; rfl
  refine ⟨hrows, fun y hy => ?_⟩
  rw [hrows, List.mem_range, hh] at hy
  have hy : y < h := hy
  have hl : d.length = w * h * n := by
    have : (d.length : Int) = ((w * h * n : Nat) : Int) := by
      rw [hd]; unfold elements; rw [hw, hh, hn]; push_cast; rfl
    exact_mod_cast this
  have hle : (y + 1) * (w * n) ≤ d.length := by
    rw [hl]
    calc (y + 1) * (w * n) ≤ h * (w * n) := Nat.mul_le_mul_right _ hy
      _ = w * h * n := by ring
  refine ⟨(d.drop (y * (w * n))).take (w * n), ?_, ?_, ?_⟩
  · unfold PixelBlock.rowSlice floatImage
    simp only [PixelBlock.asSliceF32, aw, an, bind, Except.bind]
    rw [if_pos hle]
  · rw [List.length_take, List.length_drop, min_eq_left]
    · rw [hw, hn]; push_cast; rfl
    · have : (y + 1) * (w * n) = y * (w * n) + w * n := by ring
      omega
  · intro x c hx1 hx2 hc1 hc2
    obtain ⟨x, rfl⟩ := Int.eq_ofNat_of_zero_le hx1
    obtain ⟨c, rfl⟩ := Int.eq_ofNat_of_zero_le hc1
    rw [hw] at hx2
    rw [hn] at hc2
    have hx2 : x < w := by exact_mod_cast hx2
    have hc2 : c < n := by exact_mod_cast hc2
    unfold channelAt
    have e1 : ((x : Int) * size.numChannels + (c : Int)).toNat = x * n + c := by
      rw [hn]; norm_cast
    have e2 : (((y : Int) * size.width + (x : Int)) * size.numChannels + (c : Int)).toNat =
        y * (w * n) + (x * n + c) := by
      rw [hn, hw]
      have : (((y : Int) * (w : Int) + (x : Int)) * (n : Int) + (c : Int)) =
          ((y * (w * n) + (x * n + c) : Nat) : Int) := by push_cast; ring
      rw [this]; rfl
    rw [e1, e2, List.getElem?_take, if_pos, List.getElem?_drop]
    calc x * n + c < x * n + n := by omega
      _ = (x + 1) * n := by ring
      _ ≤ w * n := Nat.mul_le_mul_right _ hx2

omit [FloatLike F] [HalfLike F H] in
/-- C96 (partial): reading a value of a row by index gives the value of the slice in the first row
and in images with one channel.  What is missing: other rows of other images, for which it is
false, see `C96_counterexample`. -/
theorem C96_index_partial (b : PixelBlock F H) (y : Nat) (row : List F)
    (h : b.rowSlice y = .ok row) (hy : y = 0 ∨ b.size.numChannels = 1) (i : Nat) (v : F)
    (hi : row[i]? = some v) : b.rowIndex y i = .ok v := by
  unfold PixelBlock.rowSlice at h
  unfold PixelBlock.rowIndex
  obtain ⟨d, e, h⟩ := Res.bind_ok.mp h
  refine Res.bind_ok.mpr ⟨d, e, ?_⟩
  dsimp only at h
  split at h
  · cases h
    rw [List.getElem?_take] at hi
    split at hi
    · rw [List.getElem?_drop] at hi
      have : y * asUsize b.size.width + i =
          y * (asUsize b.size.width * asUsize b.size.numChannels) + i := by
        rcases hy with rfl | hy
        · simp
        · rw [hy, show asUsize 1 = 1 from by decide, mul_one]
      rw [this, hi]
    · cases hi
  · cases h

omit [FloatLike F] [HalfLike F H] in
/-- C96: what reading by index really gives: the value at `row * width + i` of the whole image, that
is, in an image with several channels the value of a row further up. -/
theorem C96_index (size : BlockSize) (d : List F) (y i : Nat) (hw : 0 ≤ size.width) (v : F) :
    (floatImage (H := H) size d).rowIndex y i = .ok v ↔
      d[y * size.width.toNat + i]? = some v := by
  unfold PixelBlock.rowIndex floatImage
  simp only [PixelBlock.asSliceF32, bind, Except.bind, asUsize_of_nonneg hw]
  cases d[y * size.width.toNat + i]? <;> simp

/-- C96 counterexample: in an RGB image of one column, red of the second row read by index is green
of the first row. -/
theorem C96_counterexample :
    (floatImage (H := Rat) ⟨1, 2, 3⟩ [1, 2, 3, 4, 5, (6 : Rat)]).rowSlice 1 = .ok [4, 5, 6] ∧
    (floatImage (H := Rat) ⟨1, 2, 3⟩ [1, 2, 3, 4, 5, (6 : Rat)]).rowIndex 1 0 = .ok 2 :=
  ⟨rfl, rfl⟩

example : ValidSize ⟨1, 2, 3⟩ ∧
    (([1, 2, 3, 4, 5, (6 : Rat)] : List Rat).length : Int) = elements ⟨1, 2, 3⟩ :=
  ⟨by unfold ValidSize; decide, rfl⟩

example : (floatImage (H := Rat) ⟨2, 2, 1⟩ [1, 2, 3, (4 : Rat)]).rowSlice 1 = .ok [3, 4] ∧
    (floatImage (H := Rat) ⟨2, 2, 1⟩ [1, 2, 3, (4 : Rat)]).rowIndex 1 1 = .ok 4 := ⟨rfl, rfl⟩

/-- C56: an image without columns samples black everywhere. -/
theorem C56_empty_source (p : Profile) (channels : Nat) (pixels : List F) (height n : Int)
    (hn : 0 < n) (hn' : n ≤ 4) (hh : 0 < height) (hh' : InI32 height) (x y : F) :
    getPixel p channels pixels 0 height n 0 x y = .ok (List.replicate channels 0) := by
  have hi : ∀ {z : Int}, InI32 z → i32 p z = .ok z := fun h => i32_of h
  unfold InI32 at hh' hi
  have hx : nearest p 0 x = .ok (-1) := by
    unfold nearest
    rw [hi (by omega)]
    simp only [bind, Except.bind, Except.ok.injEq]
    omega
  have hy : ∃ k, nearest p height y = .ok k := by
    unfold nearest
    rw [hi (by omega)]
    exact ⟨_, rfl⟩
  obtain ⟨k, hy⟩ := hy
  unfold getPixel
  rw [hx, hy]
  simp only [bind, Except.bind]
  have hidx : getIndex p 0 height n 0 (-1) k = .ok (-1) := by
    unfold getIndex
    rw [hi (by omega), hi (z := k * 0) (by omega), hi (z := 0 - 1) (by omega)]
    simp only [bind, Except.bind]
    rw [hi (z := (0 - 1) * n) (by omega), hi (z := height - 1) (by omega)]
    simp only
    rw [hi (z := (height - 1) * 0) (by omega)]
    simp only
    rw [hi (z := -1 * n + k * 0) (by omega)]
    simp only
    rw [if_pos (by omega)]
  rw [hidx]
  rfl

/-- C65: the answer of writing is whether there is a plug-in for the file, which is also when
something is handed over. -/
theorem C65_answer (p : Profile) (oiio : Oiio F H) (image : Image F H) (path : Bytes)
    (crop : Bool) (c : ImageCompression) (flag : Bool) (job : Option (WriteJob F H))
    (e : writeImage p oiio image path crop c = .ok (flag, job)) :
    (flag = true ↔ oiio.hasWriter path = true) ∧ (flag = true ↔ job.isSome = true) := by
  unfold writeImage at e
  have ho : ∀ out, oiioWrite oiio path out c = .ok (flag, job) →
      (flag = true ↔ oiio.hasWriter path = true) ∧ (flag = true ↔ job.isSome = true) := by
    intro out e
    unfold oiioWrite at e
    split at e
    · obtain ⟨s, -, e⟩ := Res.bind_ok.mp e
      cases e
      simp_all
    · cases e
      simp_all
  dsimp only at e
  split at e
  · obtain ⟨o, -, e⟩ := Res.bind_ok.mp e
    exact ho _ e
  · exact ho _ e

end

section
variable {F : Type} [Field F] [LinearOrder F] [FloatOps F]

/-- C20: the frame in a path is a nearest whole number to the frame, among the numbers that fit.
Exact arithmetic. -/
theorem C20_nearest_frame [RemapSpec.RoundLaws F] (frame : F) (k : Int) (hk : InI32 k) :
    |frame - (frameNum frame : F)| ≤ |frame - (k : F)| :=
  RemapSpec.RoundLaws.nearest frame k hk

/-- C57: a scaled colour matrix multiplies every channel of what the matrix gives.  Exact
arithmetic. -/
theorem C57_scale (m : Mat4 F) (r g b a : F) (v : Vec4 F) :
    Xform.mulVec (applyScaleRgba m r g b a) v =
      Xform.vec (r * Xform.mulVec m v 0) (g * Xform.mulVec m v 1) (b * Xform.mulVec m v 2)
        (a * Xform.mulVec m v 3) := by
  funext i
  have : i = 0 ∨ i = 1 ∨ i = 2 ∨ i = 3 := by omega
  rcases this with rfl | rfl | rfl | rfl <;>
    simp [applyScaleRgba, Xform.mulVec, Xform.mul, Xform.mk, Xform.vec] <;> ring

end

section
attribute [local instance] finFloat finBits finHalf finPi

example : getPixel .debug 3 [] 0 2 3 0 (5 : Fin 256) 1 = .ok [0, 0, 0] :=
  C56_empty_source .debug 3 [] 2 3 (by decide) (by decide) (by decide) (by unfold InI32; decide) 5 1

/-- A disk without plug-ins. -/
def noWriters : Oiio (Fin 256) (Fin 256) := { fullDisk with hasWriter := fun _ => false }

example : ∃ job, writeImage .debug fullDisk ⟨onePixel.pixelBlock, .new, ⟨0, 0, 1, 1⟩, ⟨0, 0, 1, 1⟩⟩
      [97] false WriteImageAttrs.new.compression = .ok (true, some job) ∧
    writeImage .debug noWriters ⟨onePixel.pixelBlock, .new, ⟨0, 0, 1, 1⟩, ⟨0, 0, 1, 1⟩⟩
      [97] false WriteImageAttrs.new.compression = .ok (false, none) := ⟨_, rfl, rfl⟩

end

section
attribute [local instance] ratRound

example : RemapSpec.RoundLaws Rat := ratRound_laws

example : Xform.mulVec (applyScaleRgba (Xform.mk 1 0 0 0  0 1 0 0  0 0 1 0  0 0 0 1) 2 3 4 (5 : Rat))
    (Xform.vec 1 1 1 1) 3 = 5 := by
  rw [C57_scale]
  simp [Xform.vec, Xform.mulVec, Xform.mk]

end
end OCG.Props
