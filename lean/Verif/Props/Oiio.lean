import Verif.Spec.Oiio
import Verif.Props.PixelBlock
import Verif.Props.Compute
import Mathlib.Algebra.Order.Floor.Ring
import Mathlib.Data.Rat.Floor
/-
C63, C64, C76 and more: reading, writing and resampling.
-/

namespace OCG.Props

open OiioSpec BlockSpec

section
variable {F H : Type} [FloatLike F] [HalfLike F H]

theorem cint_ok {x y : Int} : cint x = .ok y ↔ InI32 x ∧ y = x := by
  unfold cint i32
  by_cases h : InI32 x
  · simp [h, eq_comm]
  · simp [h]

/-- What allocating an image for a file gives. -/
theorem allocate_windows {p : Profile} {spec : FileSpec F} {image out : Image F H}
    (e : oiioAllocate p spec image = .ok out) :
    out.displayWindow = ⟨0, 0, spec.fullWidth, spec.fullHeight⟩ ∧
    out.dataWindow = ⟨spec.x + spec.fullX, spec.y + spec.fullY, spec.x + spec.width + spec.fullX,
      spec.y + spec.height + spec.fullY⟩ ∧ out.spec = image.spec ∧
    ∃ n, strideNumChannels spec.numChannels spec.format = .ok n ∧
      image.pixelBlock.dataResize p ⟨spec.width, spec.height, wrapI32 n⟩ spec.format =
        .ok out.pixelBlock := by
  unfold oiioAllocate at e
  obtain ⟨a1, h1, e⟩ := Res.bind_ok.mp e
  obtain ⟨a2, h2, e⟩ := Res.bind_ok.mp e
  obtain ⟨a3, h3, e⟩ := Res.bind_ok.mp e
  obtain ⟨a4, h4, e⟩ := Res.bind_ok.mp e
  obtain ⟨a5, h5, e⟩ := Res.bind_ok.mp e
  obtain ⟨a6, h6, e⟩ := Res.bind_ok.mp e
  obtain ⟨a7, h7, e⟩ := Res.bind_ok.mp e
  obtain ⟨a8, h8, e⟩ := Res.bind_ok.mp e
  obtain ⟨a9, h9, e⟩ := Res.bind_ok.mp e
  obtain ⟨a10, h10, e⟩ := Res.bind_ok.mp e
  obtain ⟨n, hn, e⟩ := Res.bind_ok.mp e
  obtain ⟨b, hb, e⟩ := Res.bind_ok.mp e
  simp only [Except.ok.injEq] at e
  rw [cint_ok] at h1 h2 h3 h4 h5 h6 h7 h8 h9 h10
  subst e
  refine ⟨?_, ?_, rfl, n, hn, hb⟩
  · dsimp only
    rw [h9.2, h10.2, h3.2, h4.2]
    simp only [BBox.mk.injEq, true_and]
    omega
  · dsimp only
    rw [h5.2, h6.2, h7.2, h8.2, h1.2, h2.2]

/-- Reading a file whose header can be used. -/
theorem read_allocates {p : Profile} {oiio : Oiio F H} {path : Bytes} {spec : FileSpec F}
    {image : Image F H} (hh : oiio.header path = some spec) (hc : 3 ≤ spec.numChannels)
    (e : readImage p oiio path = .ok image) :
    ∃ out, oiioAllocate p spec Image.empty = .ok out ∧
      image = { out with
        spec := spec.imageSpec
        pixelBlock := ⟨out.pixelBlock.size, ⟨out.pixelBlock.block.dtype,
          oiio.pixels path spec.numChannels out.pixelBlock.block.dtype out.pixelBlock.size
            out.pixelBlock.block.data⟩⟩ } := by
  unfold readImage at e
  obtain ⟨⟨flag, i⟩, e1, e⟩ := Res.bind_ok.mp e
  simp only [Except.ok.injEq] at e
  unfold oiioRead at e1
  rw [hh] at e1
  dsimp only at e1
  rw [if_neg (by omega)] at e1
  obtain ⟨out, e2, e1⟩ := Res.bind_ok.mp e1
  simp only [Except.ok.injEq, Prod.mk.injEq] at e1
  exact ⟨out, e2, by rw [← e, ← e1.2]⟩

/-! ### C63 -/

/-- C63: after reading, the display window starts at (0,0) and has the size of the file's, and
the data window has the size of the file's.  The offset is right when the file's display window
starts at (0,0). -/
theorem C63_windows_partial (p : Profile) (oiio : Oiio F H) (path : Bytes) (spec : FileSpec F)
    (image : Image F H) (hh : oiio.header path = some spec) (hc : 3 ≤ spec.numChannels)
    (e : readImage p oiio path = .ok image) :
    image.displayWindow.minX = 0 ∧ image.displayWindow.minY = 0 ∧
    width image.displayWindow = spec.fullWidth ∧ height image.displayWindow = spec.fullHeight ∧
    width image.dataWindow = spec.width ∧ height image.dataWindow = spec.height ∧
    image.pixelBlock.size.width = spec.width ∧ image.pixelBlock.size.height = spec.height ∧
    (spec.fullX = 0 → spec.fullY = 0 → offset image = fileOffset spec) := by
  obtain ⟨out, e1, rfl⟩ := read_allocates hh hc e
  obtain ⟨h1, h2, -, n, -, h3⟩ := allocate_windows e1
  obtain ⟨m, -, h3⟩ := Res.bind_ok.mp h3
  obtain ⟨d, -, h3⟩ := Res.bind_ok.mp h3
  simp only [Except.ok.injEq] at h3
  refine ⟨by rw [h1], by rw [h1], by simp only [h1, width]; omega, by simp only [h1, height]; omega,
    by simp only [h2, width]; omega, by simp only [h2, height]; omega, by rw [← h3], by rw [← h3], ?_⟩
  intro hx hy
  simp only [offset, fileOffset, h1, h2, hx, hy]
  simp

/-- C63 fails exactly for the other files: the display origin is added instead of subtracted. -/
theorem C63_offset_iff (p : Profile) (oiio : Oiio F H) (path : Bytes) (spec : FileSpec F)
    (image : Image F H) (hh : oiio.header path = some spec) (hc : 3 ≤ spec.numChannels)
    (e : readImage p oiio path = .ok image) :
    offset image = (spec.x + spec.fullX, spec.y + spec.fullY) ∧
    (offset image = fileOffset spec ↔ spec.fullX = 0 ∧ spec.fullY = 0) := by
  obtain ⟨out, e1, rfl⟩ := read_allocates hh hc e
  obtain ⟨h1, h2, -⟩ := allocate_windows e1
  simp only [offset, fileOffset, h1, h2, Prod.mk.injEq]
  omega

theorem resize_ok (p : Profile) (b : PixelBlock F H) (size : BlockSize) (t : DType)
    (hs : ValidSize size) : ∃ d, b.dataResize p size (.known t) = .ok ⟨size, ⟨t, d⟩⟩ ∧
      (d.length : Int) = elements size := by
  obtain ⟨s0, ⟨t0, d0⟩⟩ := b
  by_cases h : t0 = t
  · subst h
    obtain ⟨d, h1, h2, -⟩ := C17_resize_same_type p s0 size t0 d0 hs
    exact ⟨d, h1, h2⟩
  · obtain ⟨d, h1, h2, -⟩ := C17_resize_other_type p ⟨s0, ⟨t0, d0⟩⟩ size t h hs
    exact ⟨d, h1, h2⟩

/-- The channels of the block for a file. -/
def blockChannels (t : DType) (n : Int) : Int := if t = .f32 then n else 4

theorem stride_eq (t : DType) {n : Int} (h0 : 0 ≤ n) (h1 : n ≤ 2147483647) :
    ∃ k, strideNumChannels n (.known t) = .ok k ∧ (k : Int) = blockChannels t n ∧
      wrapI32 k = blockChannels t n := by
  have w : ∀ x : Int, 0 ≤ x → x ≤ 2147483647 → wrapI32 x = x := fun x h h' => by
    unfold wrapI32; exact Int.bmod_eq_of_le (by omega) (by omega)
  cases t
  case f32 =>
    refine ⟨n.toNat, ?_, ?_, ?_⟩
    · simp only [strideNumChannels, asUsize_of_nonneg h0]
    · simp only [blockChannels, if_true]; omega
    · rw [w _ (by omega) (by omega)]
      simp only [blockChannels, if_true]; omega
  all_goals exact ⟨4, rfl, rfl, by rw [w _ (by omega) (by omega)]; rfl⟩

/-- Allocating succeeds when the corners and the size of the block fit. -/
theorem allocate_ok (p : Profile) (spec : FileSpec F) (image : Image F H) (t : DType)
    (ht : spec.format = .known t) (hn : 0 ≤ spec.numChannels) (hn' : spec.numChannels ≤ 2147483647)
    (hv : ValidSize ⟨spec.width, spec.height, blockChannels t spec.numChannels⟩)
    (hx : -500000000 ≤ spec.x ∧ spec.x + spec.width ≤ 500000000)
    (hy : -500000000 ≤ spec.y ∧ spec.y + spec.height ≤ 500000000)
    (hfx : -500000000 ≤ spec.fullX ∧ spec.fullX + spec.fullWidth ≤ 500000000 ∧ 0 ≤ spec.fullWidth)
    (hfy : -500000000 ≤ spec.fullY ∧ spec.fullY + spec.fullHeight ≤ 500000000 ∧
      0 ≤ spec.fullHeight) :
    ∃ out d, oiioAllocate p spec image = .ok out ∧
      out.pixelBlock = ⟨⟨spec.width, spec.height, blockChannels t spec.numChannels⟩, ⟨t, d⟩⟩ ∧
      (d.length : Int) = spec.width * spec.height * blockChannels t spec.numChannels := by
  have c : ∀ x : Int, -2147483648 ≤ x ∧ x ≤ 2147483647 → cint x = .ok x := fun x h =>
    cint_ok.mpr ⟨h, rfl⟩
  have hw : 0 < spec.width := hv.1
  have hh : 0 < spec.height := hv.2.1
  obtain ⟨k, hk, -, hk'⟩ := stride_eq t hn hn'
  obtain ⟨d, hd, hl⟩ := resize_ok p image.pixelBlock
    ⟨spec.width, spec.height, blockChannels t spec.numChannels⟩ t hv
  refine ⟨{ image with
    pixelBlock := ⟨⟨spec.width, spec.height, blockChannels t spec.numChannels⟩, ⟨t, d⟩⟩
    dataWindow := ⟨spec.x + spec.fullX, spec.y + spec.fullY, spec.x + spec.width + spec.fullX,
      spec.y + spec.height + spec.fullY⟩
    displayWindow := ⟨0, 0, spec.fullX + spec.fullWidth - spec.fullX,
      spec.fullY + spec.fullHeight - spec.fullY⟩ }, d, ?_, rfl, hl⟩
  · unfold oiioAllocate
    rw [c _ (by omega)]
    refine Res.bind_ok.mpr ⟨_, rfl, ?_⟩
    rw [c _ (by omega)]
    refine Res.bind_ok.mpr ⟨_, rfl, ?_⟩
    rw [c _ (by omega)]
    refine Res.bind_ok.mpr ⟨_, rfl, ?_⟩
    rw [c _ (by omega)]
    refine Res.bind_ok.mpr ⟨_, rfl, ?_⟩
    rw [c _ (by omega)]
    refine Res.bind_ok.mpr ⟨_, rfl, ?_⟩
    rw [c _ (by omega)]
    refine Res.bind_ok.mpr ⟨_, rfl, ?_⟩
    rw [c _ (by omega)]
    refine Res.bind_ok.mpr ⟨_, rfl, ?_⟩
    rw [c _ (by omega)]
    refine Res.bind_ok.mpr ⟨_, rfl, ?_⟩
    rw [c _ (by omega)]
    refine Res.bind_ok.mpr ⟨_, rfl, ?_⟩
    rw [c _ (by omega)]
    refine Res.bind_ok.mpr ⟨_, rfl, ?_⟩
    rw [ht]
    refine Res.bind_ok.mpr ⟨_, hk, ?_⟩
    rw [hk']
    exact Res.bind_ok.mpr ⟨_, hd, rfl⟩

theorem sane_block {spec : FileSpec F} (hs : Sane spec) (t : DType) :
    ValidSize ⟨spec.width, spec.height, blockChannels t spec.numChannels⟩ ∧
      spec.numChannels ≤ 2147483647 := by
  obtain ⟨k1, k2, k3, k4, -⟩ := hs
  have hwh : 0 < spec.width * spec.height := Int.mul_pos k1 k2
  have hle : blockChannels t spec.numChannels ≤ max 4 spec.numChannels := by
    unfold blockChannels; split <;> omega
  have h0 : 0 < blockChannels t spec.numChannels := by unfold blockChannels; split <;> omega
  refine ⟨⟨k1, k2, h0, le_trans (Int.mul_le_mul_of_nonneg_left hle hwh.le) k4⟩, ?_⟩
  have : 1 * max 4 spec.numChannels ≤ spec.width * spec.height * max 4 spec.numChannels :=
    Int.mul_le_mul_of_nonneg_right (by omega) (by omega)
  omega

/-- Files with sane headers are read, into a block of the file's size and type, with the file's
metadata. -/
theorem C63_sane_reads (p : Profile) (oiio : Oiio F H) (path : Bytes) (spec : FileSpec F) (t : DType)
    (hh : oiio.header path = some spec) (hs : Sane spec) (ht : spec.format = .known t) :
    ∃ image, readImage p oiio path = .ok image ∧ image.spec = spec.imageSpec ∧
      WellFormed image.pixelBlock ∧ image.pixelBlock.block.dtype = t ∧
      image.pixelBlock.size.numChannels = (if t = .f32 then spec.numChannels else 4) := by
  obtain ⟨hv, hn⟩ := sane_block hs t
  have hc := hs.channels
  obtain ⟨out, d, h1, h2, h3⟩ := allocate_ok p spec (Image.empty : Image F H) t ht
    (by omega) hn hv hs.x hs.y hs.fullX
    hs.fullY
  refine ⟨{ out with
        spec := spec.imageSpec
        pixelBlock := ⟨out.pixelBlock.size, ⟨out.pixelBlock.block.dtype,
          oiio.pixels path spec.numChannels out.pixelBlock.block.dtype out.pixelBlock.size
            out.pixelBlock.block.data⟩⟩ }, ?_, rfl, ?_, ?_, ?_⟩
  · unfold readImage oiioRead
    rw [hh]
    dsimp only
    rw [if_neg (by omega)]
    refine Res.bind_ok.mpr ⟨(true, _), Res.bind_ok.mpr ⟨_, h1, rfl⟩, rfl⟩
  · rw [h2]
    refine ⟨hv, ?_⟩
    dsimp only
    rw [oiio.pixels_length]
    exact h3
  · rw [h2]
  · rw [h2]
    rfl

/-! ### C76 -/

/-- C76: reading a file with at most four channels, or with 32 bit floats, stores every value
inside the buffer of the block. -/
theorem C76_read_inside_iff (p : Profile) (spec : FileSpec F) (image out : Image F H) (t : DType)
    (stride : Nat) (hs : Sane spec) (ht : spec.format = .known t)
    (e : oiioAllocate p spec image = .ok out) (e' : readStride spec = .ok stride) :
    StaysInside spec stride (bufferBytes out.pixelBlock) ↔
      t = .f32 ∨ spec.numChannels ≤ 4 := by
  obtain ⟨hv, hn⟩ := sane_block hs t
  have hc := hs.channels
  have hw := hs.width
  have hh := hs.height
  obtain ⟨out', d, h1, h2, h3⟩ := allocate_ok p spec image t ht (by omega) hn hv hs.x hs.y hs.fullX
    hs.fullY
  rw [h1] at e
  cases e
  obtain ⟨k, hk, hk1, -⟩ := stride_eq t (by omega : 0 ≤ spec.numChannels) hn
  unfold readStride at e'
  rw [ht, hk] at e'
  have hb : t.sizeBytes = valueBytes (.known t) := by cases t <;> rfl
  have hpos : 0 < valueBytes (.known t) := by cases t <;> decide
  simp only [bind, Except.bind, Except.ok.injEq, hb] at e'
  unfold bufferBytes StaysInside
  rw [h2, ht]
  dsimp only
  subst e'
  generalize valueBytes (.known t) = v at *
  obtain ⟨A, hA⟩ : ∃ A : Nat, (A : Int) = spec.width * spec.height :=
    ⟨(spec.width * spec.height).toNat, Int.toNat_of_nonneg (Int.mul_pos hw hh).le⟩
  have hA0 : 0 < A := by have := Int.mul_pos hw hh; omega
  have hl : d.length = A * k := by
    have : (d.length : Int) = (A : Int) * (k : Int) := by rw [h3, hA, hk1]
    exact_mod_cast this
  rw [hl, ← hA]
  have hiff : (t = .f32 ∨ spec.numChannels ≤ 4) ↔ spec.numChannels ≤ (k : Int) := by
    rw [hk1]
    unfold blockChannels
    split <;> simp_all
  rw [hiff]
  constructor
  · intro h
    by_contra hlt
    have h4 := h (A - 1) (spec.numChannels.toNat - 1) (by omega) (by omega)
    have e1 : (A - 1) * (k * v) + (spec.numChannels.toNat - 1) * v + v =
        ((A - 1) * k + spec.numChannels.toNat) * v := by
      have : (spec.numChannels.toNat - 1) * v + v = spec.numChannels.toNat * v := by
        conv_lhs => rhs; rw [← Nat.one_mul v]
        rw [← Nat.add_mul, Nat.sub_add_cancel (by omega)]
      rw [Nat.add_assoc, this, Nat.add_mul, Nat.mul_assoc]
    rw [e1] at h4
    have h5 := Nat.le_of_mul_le_mul_right h4 hpos
    have e2 : A * k = (A - 1) * k + k := by
      conv_lhs => rw [← Nat.sub_add_cancel hA0, Nat.add_mul, Nat.one_mul]
    omega
  · intro h i c hi hc'
    have e1 : i * (k * v) + c * v + v = (i * k + (c + 1)) * v := by ring
    rw [e1]
    apply Nat.mul_le_mul_right
    have : (i + 1) * k ≤ A * k := Nat.mul_le_mul_right _ (by omega)
    have : (i + 1) * k = i * k + k := by ring
    omega

/-! ### C64 -/

omit [FloatLike F] [HalfLike F H] in
/-- One dimension. -/
theorem C64_length (oiio : Oiio F H) (length factor : Int) :
    ScaledTo length factor (resampleLength oiio length factor) := by
  suffices h : ∀ n, n = resampleLength oiio length factor → 1 ≤ n ∧ n ≤ 16384 ∧
      (1 ≤ scaled length factor → scaled length factor < 16385 →
        (n : Rat) ≤ scaled length factor ∧ scaled length factor < n + 1) ∧
      (0 ≤ scaled length factor → scaled length factor < 1 → n = 1) ∧
      (16384 ≤ scaled length factor → scaled length factor < 2147483648 → n = 16384) by
    obtain ⟨h1, h2, h3, h4, h5⟩ := h _ rfl
    exact ⟨h1, h2, h3, h4, h5⟩
  rintro n rfl
  unfold resampleLength
  rw [show (length : Rat) * (2 : Rat) ^ factor = scaled length factor from rfl]
  generalize scaled length factor = q
  refine ⟨by omega, by omega, fun h1 h2 => ?_, fun h1 h2 => ?_, fun h1 h2 => ?_⟩
  · rw [oiio.toInt_fits q (by linarith) (by linarith), if_pos (by linarith)]
    have a : 1 ≤ q.floor := Rat.le_floor_iff.mpr (by exact_mod_cast h1)
    have b : q.floor < 16385 := Rat.floor_lt_iff.mpr (by exact_mod_cast h2)
    have c : min 16384 (max 1 q.floor) = q.floor := by omega
    rw [c]
    exact ⟨Rat.le_floor_iff.mp le_rfl, by exact_mod_cast Rat.floor_lt_iff.mp (Int.lt_succ q.floor)⟩
  · rw [oiio.toInt_fits q (by linarith) (by linarith), if_pos (by linarith)]
    have b : q.floor < 1 := Rat.floor_lt_iff.mpr (by exact_mod_cast h2)
    omega
  · rw [oiio.toInt_fits q (by linarith) (by linarith), if_pos (by linarith)]
    have a : 16384 ≤ q.floor := Rat.le_floor_iff.mpr (by exact_mod_cast h1)
    omega

/-- C64: the resampled image has the scaled dimensions, within the limits; its windows are
those of the block. -/
theorem C64_dimensions (p : Profile) (oiio : Oiio F H) (src dst out : Image F H) (factor : Int)
    (interpolate flag : Bool)
    (e : oiioResample p oiio src dst factor interpolate = .ok (flag, out)) :
    ScaledTo src.pixelBlock.size.width factor out.pixelBlock.size.width ∧
    ScaledTo src.pixelBlock.size.height factor out.pixelBlock.size.height ∧
    out.dataWindow = ⟨0, 0, out.pixelBlock.size.width, out.pixelBlock.size.height⟩ ∧
    out.displayWindow = out.dataWindow := by
  unfold oiioResample at e
  dsimp only at e
  obtain ⟨a, e1, e⟩ := Res.bind_ok.mp e
  obtain ⟨h1, h2, -, n, -, h3⟩ := allocate_windows e1
  obtain ⟨m, -, h3⟩ := Res.bind_ok.mp h3
  obtain ⟨d, -, h3⟩ := Res.bind_ok.mp h3
  simp only [Except.ok.injEq] at h3
  simp only [Except.ok.injEq, Prod.mk.injEq] at e
  have hw : out.pixelBlock.size = a.pixelBlock.size := by rw [← e.2]
  have hd : out.dataWindow = a.dataWindow := by rw [← e.2]
  have hy : out.displayWindow = a.displayWindow := by rw [← e.2]
  rw [hw, hd, hy, h1, h2, ← h3]
  exact ⟨C64_length _ _ _, C64_length _ _ _, by simp, by simp⟩

/-- C64: resampling succeeds whenever the block of the new size can exist; up to seven channels
that is always. -/
theorem C64_succeeds (p : Profile) (oiio : Oiio F H) (src dst : Image F H) (factor : Int)
    (interpolate : Bool) (h1 : 1 ≤ src.pixelBlock.size.numChannels)
    (h7 : src.pixelBlock.size.numChannels ≤ 7) :
    ∃ flag out, oiioResample p oiio src dst factor interpolate = .ok (flag, out) ∧
      WellFormed out.pixelBlock ∧
      out.pixelBlock.block.dtype = src.pixelBlock.block.dtype ∧
      out.pixelBlock.size.numChannels = (if src.pixelBlock.block.dtype = .f32 then
        src.pixelBlock.size.numChannels else 4) := by
  obtain ⟨w1, w2, -⟩ := C64_length oiio src.pixelBlock.size.width factor
  obtain ⟨k1, k2, -⟩ := C64_length oiio src.pixelBlock.size.height factor
  have hb : 1 ≤ blockChannels src.pixelBlock.block.dtype src.pixelBlock.size.numChannels ∧
      blockChannels src.pixelBlock.block.dtype src.pixelBlock.size.numChannels ≤ 7 := by
    unfold blockChannels; split <;> omega
  have hv : ValidSize ⟨resampleLength oiio src.pixelBlock.size.width factor,
      resampleLength oiio src.pixelBlock.size.height factor,
      blockChannels src.pixelBlock.block.dtype src.pixelBlock.size.numChannels⟩ := by
    refine ⟨by dsimp only; omega, by dsimp only; omega, by dsimp only; omega, ?_⟩
    dsimp only
    generalize resampleLength oiio src.pixelBlock.size.width factor = a at *
    generalize resampleLength oiio src.pixelBlock.size.height factor = b at *
    generalize blockChannels src.pixelBlock.block.dtype src.pixelBlock.size.numChannels = c at *
    have h3 : a * b ≤ 16384 * 16384 := Int.mul_le_mul w2 k2 (by omega) (by omega)
    have h4 : 0 ≤ a * b := Int.mul_nonneg (by omega) (by omega)
    have h5 : a * b * c ≤ 16384 * 16384 * 7 := Int.mul_le_mul h3 hb.2 (by omega) (by omega)
    omega
  have ha := allocate_ok (F := F) (H := H) p
    { x := 0, y := 0, width := resampleLength oiio src.pixelBlock.size.width factor
      height := resampleLength oiio src.pixelBlock.size.height factor, fullX := 0, fullY := 0
      fullWidth := resampleLength oiio src.pixelBlock.size.width factor
      fullHeight := resampleLength oiio src.pixelBlock.size.height factor
      numChannels := src.pixelBlock.size.numChannels
      format := .known src.pixelBlock.block.dtype
      colorSpace := [], gamma := 1, pixelAspect := 1, orientation := 0, unassociatedAlpha := 0
      dither := 0 } dst src.pixelBlock.block.dtype rfl (by dsimp only; omega)
    (by dsimp only; omega) hv (by dsimp only; omega) (by dsimp only; omega)
    (by dsimp only; omega) (by dsimp only; omega)
  obtain ⟨out, d, e1, e2, e3⟩ := ha
  refine ⟨_, _, Res.bind_ok.mpr ⟨_, e1, rfl⟩, ?_, ?_, ?_⟩
  · dsimp only
    rw [e2]
    refine ⟨hv, ?_⟩
    dsimp only
    rw [oiio.resample_length]
    exact e3
  · dsimp only
    rw [e2]
  · dsimp only
    rw [e2]
    rfl

/-- C64 fails beyond `int32_t`: the limits hold, but nothing keeps a scaled length of 2^31 or more
from becoming 1, and with the usual conversion (the least `int32_t`) it does. -/
theorem C64_beyond (oiio : Oiio F H) (length factor : Int)
    (h : oiio.toInt (scaled length factor) = -2147483648) :
    resampleLength oiio length factor = 1 := by
  unfold resampleLength
  rw [show (length : Rat) * (2 : Rat) ^ factor = scaled length factor from rfl, h]
  decide

/-! ### C77 -/

/-- C77: resampling keeps the number of channels exactly for 32 bit floats and for four
channels. -/
theorem C77_channels_iff (p : Profile) (oiio : Oiio F H) (src dst out : Image F H) (factor : Int)
    (interpolate flag : Bool) (h1 : 1 ≤ src.pixelBlock.size.numChannels)
    (h7 : src.pixelBlock.size.numChannels ≤ 7)
    (e : oiioResample p oiio src dst factor interpolate = .ok (flag, out)) :
    out.pixelBlock.block.dtype = src.pixelBlock.block.dtype ∧
    (out.pixelBlock.size.numChannels = src.pixelBlock.size.numChannels ↔
      src.pixelBlock.block.dtype = .f32 ∨ src.pixelBlock.size.numChannels = 4) := by
  obtain ⟨flag', out', e', -, h2, h3⟩ := C64_succeeds p oiio src dst factor interpolate h1 h7
  rw [e] at e'
  cases e'
  refine ⟨h2, ?_⟩
  rw [h3]
  split <;> simp_all [eq_comm]

/-! ### C78 -/

/-- The fields for EXR files. -/
def SameExr (c d : ImageCompression) : Prop :=
  c.exrCompression = d.exrCompression ∧ c.exrDwaLevel = d.exrDwaLevel
/-- The fields for JPEG files. -/
def SameJpeg (c d : ImageCompression) : Prop :=
  c.jpegLevel = d.jpegLevel ∧ c.jpegSubsampling = d.jpegSubsampling ∧
    c.jpegProgressive = d.jpegProgressive

theorem ending_exr : ending ".exr" = dotExr := by decide +kernel
theorem ending_png : ending ".png" = dotPng := by decide +kernel
theorem jpegEndings_eq : jpegEndings = dotJpegs := by decide +kernel

theorem suffix_clash {s t name : Bytes} (hs : hasSuffix name s = true) (ht : hasSuffix name t = true) :
    s <:+ t ∨ t <:+ s :=
  List.suffix_or_suffix_of_suffix (List.isSuffixOf_iff_suffix.mp hs)
    (List.isSuffixOf_iff_suffix.mp ht)

/-- C78: the settings of a file come only from the fields for its format (the format is told by
the ending of the path, in lower or upper case). -/
theorem C78_own_fields (path : Bytes) (c d : ImageCompression) :
    (ending ".exr" <:+ path.map toLower → SameExr c d →
      compressionAttrs path c = compressionAttrs path d) ∧
    (ending ".png" <:+ path.map toLower → c.pngLevel = d.pngLevel →
      compressionAttrs path c = compressionAttrs path d) ∧
    ((∃ e ∈ jpegEndings, e <:+ path.map toLower) → SameJpeg c d →
      compressionAttrs path c = compressionAttrs path d) ∧
    (¬ (∃ e ∈ ending ".exr" :: ending ".png" :: jpegEndings, e <:+ path.map toLower) →
      compressionAttrs path c = []) := by
  rw [ending_exr, ending_png, jpegEndings_eq]
  simp only [← List.isSuffixOf_iff_suffix]
  refine ⟨?_, ?_, ?_, ?_⟩
  · rintro h ⟨h1, h2⟩
    replace h : hasSuffix (path.map toLower) dotExr = true := h
    simp only [compressionAttrs, if_pos h, h1, h2]
  · intro h h1
    replace h : hasSuffix (path.map toLower) dotPng = true := h
    have h0 : ¬ hasSuffix (path.map toLower) dotExr = true := by
      intro h2
      rcases suffix_clash h h2 with h3 | h3 <;> revert h3 <;> decide
    simp only [compressionAttrs, if_neg h0, if_pos h, h1]
  · rintro ⟨e, he, h⟩ ⟨h1, h2, h3⟩
    have hc : ∀ s ∈ [dotExr, dotPng], ¬ hasSuffix (path.map toLower) s = true := by
      intro s hs h4
      have h5 := suffix_clash (s := e) h h4
      have h6 : ∀ e ∈ dotJpegs, ∀ s ∈ [dotExr, dotPng], ¬ (e <:+ s ∨ s <:+ e) := by decide
      exact h6 e he s hs h5
    have h5 : (dotJpegs.any (hasSuffix (path.map toLower))) = true :=
      List.any_eq_true.mpr ⟨e, he, h⟩
    simp only [compressionAttrs, if_neg (hc dotExr (by simp)), if_neg (hc dotPng (by simp)),
      if_pos h5, h1, h2, h3]
  · intro h
    simp only [List.exists_mem_cons_iff, not_or] at h
    obtain ⟨h1, h2, h3⟩ := h
    replace h1 : ¬ hasSuffix (path.map toLower) dotExr = true := h1
    replace h2 : ¬ hasSuffix (path.map toLower) dotPng = true := h2
    have h5 : ¬ (dotJpegs.any (hasSuffix (path.map toLower))) = true :=
      fun h => h3 (List.any_eq_true.mp h)
    simp only [compressionAttrs, if_neg h1, if_neg h2, if_neg h5]

/-- C78: no two EXR compressions that can be chosen are mixed up, the level is passed on exactly
when the compression has one, and then unchanged. -/
theorem C78_exr (path : Bytes) (c d : ImageCompression)
    (h : ending ".exr" <:+ path.map toLower) :
    (compressionAttrs path c = compressionAttrs path d →
      c.exrCompression ∉ [ExrCompression.default, .uninitialized] →
      c.exrCompression = d.exrCompression) ∧
    (∀ v, ("openexr:dwaCompressionLevel", v) ∈ compressionAttrs path c ↔
      (c.exrCompression = .dwaa ∨ c.exrCompression = .dwab) ∧ v = .level c.exrDwaLevel) := by
  rw [ending_exr, ← List.isSuffixOf_iff_suffix] at h
  replace h : hasSuffix (path.map toLower) dotExr = true := h
  simp only [compressionAttrs, if_pos h]
  generalize c.exrCompression = x
  generalize d.exrCompression = y
  generalize c.exrDwaLevel = l
  generalize d.exrDwaLevel = m
  constructor
  · cases x <;> cases y <;> simp [ExrCompression.attrs]
  · intro v
    cases x <;> simp [ExrCompression.attrs]

/-- C78: the settings of PNG and JPEG files are passed on unchanged. -/
theorem C78_levels (path : Bytes) (c : ImageCompression) :
    (ending ".png" <:+ path.map toLower →
      compressionAttrs path c = [("png:compressionLevel", .int c.pngLevel)]) ∧
    ((∃ e ∈ jpegEndings, e <:+ path.map toLower) →
      (∀ v, ("CompressionQuality", v) ∈ compressionAttrs path c ↔ v = .int c.jpegLevel) ∧
      (∀ v, ("jpeg:progressive", v) ∈ compressionAttrs path c ↔
        v = .int (if c.jpegProgressive then 1 else 0)) ∧
      ∀ v, ("jpeg:subsampling", v) ∈ compressionAttrs path c ↔
        (c.jpegSubsampling = .none444 ∧ v = .text "4:4:4" ∨
         c.jpegSubsampling = .sample422 ∧ v = .text "4:2:2" ∨
         c.jpegSubsampling = .sample420 ∧ v = .text "4:2:0" ∨
         c.jpegSubsampling = .sample421 ∧ v = .text "4:2:1")) := by
  rw [ending_png, jpegEndings_eq]
  simp only [← List.isSuffixOf_iff_suffix]
  constructor
  · intro h
    replace h : hasSuffix (path.map toLower) dotPng = true := h
    have h0 : ¬ hasSuffix (path.map toLower) dotExr = true := by
      intro h2
      rcases suffix_clash h h2 with h3 | h3 <;> revert h3 <;> decide
    simp only [compressionAttrs, if_neg h0, if_pos h]
  · rintro ⟨e, he, h⟩
    have hc : ∀ s ∈ [dotExr, dotPng], ¬ hasSuffix (path.map toLower) s = true := by
      intro s hs h4
      have h5 := suffix_clash (s := e) h h4
      have h6 : ∀ e ∈ dotJpegs, ∀ s ∈ [dotExr, dotPng], ¬ (e <:+ s ∨ s <:+ e) := by decide
      exact h6 e he s hs h5
    have h5 : (dotJpegs.any (hasSuffix (path.map toLower))) = true :=
      List.any_eq_true.mpr ⟨e, he, h⟩
    simp only [compressionAttrs, if_neg (hc dotExr (by simp)), if_neg (hc dotPng (by simp)),
      if_pos h5]
    generalize c.jpegSubsampling = x
    refine ⟨fun v => ?_, fun v => ?_, fun v => ?_⟩ <;>
      cases x <;> simp [JpegChromaSubSampling.attrs]

/-! ### C79 -/

/-- C79: for paths in lower case, sRGB pixels are written exactly to the files that are treated as
PNG or JPEG. -/
theorem C79_color_space_partial (path : Bytes) (hl : path.map toLower = path) :
    writeColorSpace path = colorSpaceSrgb ↔
      ending ".png" <:+ path.map toLower ∨ ∃ e ∈ jpegEndings, e <:+ path.map toLower := by
  rw [hl, ending_png, jpegEndings_eq]
  simp only [← List.isSuffixOf_iff_suffix]
  unfold writeColorSpace
  have : (colorSpaceLinear : Bytes) ≠ colorSpaceSrgb := by decide
  split
  · rename_i h
    simp only [Bool.or_eq_true, List.any_eq_true] at h
    simp only [true_iff]
    exact h
  · rename_i h
    simp only [Bool.or_eq_true, List.any_eq_true, not_or] at h
    simp only [this, false_iff, not_or]
    exact h

/-- C79 fails for upper case: `A.PNG` is a PNG file, but its pixels are not converted to sRGB,
and `A.EXR` is an EXR file, but it is cropped to the display window. -/
theorem C79_counterexample :
    (compressionAttrs [65, 46, 80, 78, 71] ⟨.zip, 0, 7, 0, .default, false⟩ =
        [("png:compressionLevel", .int 7)] ∧
      writeColorSpace [65, 46, 80, 78, 71] = colorSpaceLinear) ∧
    (compressionAttrs [65, 46, 69, 88, 82] ⟨.zip, 0, 7, 0, .default, false⟩ =
        [("Compression", .text "zip")] ∧
      writeCrop [65, 46, 69, 88, 82] .auto = .ok true ∧
      writeCrop [97, 46, 101, 120, 114] .auto = .ok false) := by
  decide

/-! ### C80 -/

/-- C80: an image whose display window starts at (0,0) is described to OpenImageIO such that
reading the file gives the same windows, block size, type and metadata. -/
theorem C80_round_trip_partial (p : Profile) (oiio reader : Oiio F H) (image : Image F H)
    (path path' : Bytes) (c : ImageCompression) (flag : Bool) (job : WriteJob F H)
    (back : Image F H) (h0 : image.displayWindow.minX = 0 ∧ image.displayWindow.minY = 0)
    (hd : width image.dataWindow = image.pixelBlock.size.width ∧
      height image.dataWindow = image.pixelBlock.size.height)
    (h3 : 3 ≤ image.pixelBlock.size.numChannels)
    (e : oiioWrite oiio path image c = .ok (flag, some job))
    (hr : reader.header path' = some job.spec)
    (e' : readImage p reader path' = .ok back) :
    back.displayWindow = image.displayWindow ∧ back.dataWindow = image.dataWindow ∧
    back.pixelBlock.size.width = image.pixelBlock.size.width ∧
    back.pixelBlock.size.height = image.pixelBlock.size.height ∧
    back.spec = image.spec := by
  unfold oiioWrite at e
  split at e
  rotate_left
  · simp at e
  obtain ⟨sp, e1, e⟩ := Res.bind_ok.mp e
  unfold writeSpec at e1
  obtain ⟨fw, f1, e1⟩ := Res.bind_ok.mp e1
  obtain ⟨fh, f2, e1⟩ := Res.bind_ok.mp e1
  rw [cint_ok] at f1 f2
  simp only [Except.ok.injEq, Prod.mk.injEq, Option.some.injEq] at e e1
  have hs : job.spec = sp := by rw [← e.2]
  rw [hs] at hr
  have hn : sp.numChannels = image.pixelBlock.size.numChannels := by rw [← e1]
  obtain ⟨out, e2, rfl⟩ := read_allocates hr (by omega) e'
  obtain ⟨k1, k2, -⟩ := allocate_windows e2
  obtain ⟨-, -, -, -, -, -, k3, k4, -⟩ := C63_windows_partial p reader path' sp _ hr (by omega) e'
  obtain ⟨a1, a2⟩ := hd
  obtain ⟨z1, z2⟩ := h0
  unfold width at a1
  unfold height at a2
  refine ⟨?_, ?_, k3.trans (by rw [← e1]), k4.trans (by rw [← e1]), ?_⟩
  · dsimp only
    rw [k1, ← e1]
    dsimp only
    rw [f1.2, f2.2]
    have : ∀ b : BBox, b.minX = 0 → b.minY = 0 →
        (⟨0, 0, b.maxX - b.minX, b.maxY - b.minY⟩ : BBox) = b := by
      rintro ⟨a, b, c, d⟩ h1 h2
      simp only at h1 h2
      simp only [BBox.mk.injEq]
      omega
    exact this _ z1 z2
  · dsimp only
    rw [k2, ← e1]
    dsimp only
    rw [z1, z2, ← a1, ← a2]
    have : ∀ b : BBox, (⟨b.minX + 0, b.minY + 0, b.minX + (b.maxX - b.minX) + 0,
        b.minY + (b.maxY - b.minY) + 0⟩ : BBox) = b := by
      rintro ⟨a, b, c, d⟩
      simp only [BBox.mk.injEq]
      omega
    exact this _
  · dsimp only
    rw [← e1]
    unfold FileSpec.imageSpec
    obtain ⟨_, ⟨a, b, c, d, u, f⟩, _, _⟩ := image
    dsimp only
    simp only [ImageSpec.mk.injEq, true_and, and_true]
    exact ⟨by cases d <;> rfl, by cases u <;> rfl⟩

/-- C80 fails for other images: the display window moves to (0,0), and the data window moves away
from it by twice the display window's origin, compared with where it belongs. -/
theorem C80_shift (p : Profile) (oiio reader : Oiio F H) (image : Image F H)
    (path path' : Bytes) (c : ImageCompression) (flag : Bool) (job : WriteJob F H)
    (back : Image F H) (h3 : 3 ≤ image.pixelBlock.size.numChannels)
    (e : oiioWrite oiio path image c = .ok (flag, some job))
    (hr : reader.header path' = some job.spec)
    (e' : readImage p reader path' = .ok back) :
    offset back = ((offset image).1 + 2 * image.displayWindow.minX,
      (offset image).2 + 2 * image.displayWindow.minY) := by
  unfold oiioWrite at e
  split at e
  rotate_left
  · simp at e
  obtain ⟨sp, e1, e⟩ := Res.bind_ok.mp e
  unfold writeSpec at e1
  obtain ⟨fw, f1, e1⟩ := Res.bind_ok.mp e1
  obtain ⟨fh, f2, e1⟩ := Res.bind_ok.mp e1
  simp only [Except.ok.injEq, Prod.mk.injEq, Option.some.injEq] at e e1
  have hs : job.spec = sp := by rw [← e.2]
  rw [hs] at hr
  have hn : sp.numChannels = image.pixelBlock.size.numChannels := by rw [← e1]
  rw [(C63_offset_iff p reader path' sp back hr (by omega) e').1, ← e1]
  simp only [offset, Prod.mk.injEq]
  omega

/-! ### C81 -/

theorem crop_spec {p : Profile} {image out : Image F H} {crop : BBox} {a b c : Bool}
    (e : cropImage p image crop a b c = .ok out) : out.spec = image.spec := by
  unfold cropImage at e
  dsimp only at e
  split at e
  all_goals
    obtain ⟨d, -, e⟩ := Res.bind_ok.mp e
    obtain ⟨bl, -, e⟩ := Res.bind_ok.mp e
    obtain ⟨w, -, e⟩ := Res.bind_ok.mp e
    obtain ⟨u, -, e⟩ := Res.bind_ok.mp e
    obtain ⟨h, -, e⟩ := Res.bind_ok.mp e
    obtain ⟨v, -, e⟩ := Res.bind_ok.mp e
    simp only [Except.ok.injEq] at e
    rw [← e]

/-- C81 fails: whatever metadata an image has, what is written is the metadata of a new image. -/
theorem C81_counterexample (p : Profile) (oiio : Oiio F H) (image : Image F H) (path : Bytes)
    (crop : Bool) (c : ImageCompression) (flag : Bool) (job : WriteJob F H)
    (e : writeImage p oiio image path crop c = .ok (flag, some job)) :
    job.spec.imageSpec = (ImageSpec.new : ImageSpec F) ∧
      job.spec.colorSpace = colorSpaceLinear := by
  have h : ∃ out : Image F H, out.spec = .new ∧ oiioWrite oiio path out c = .ok (flag, some job) := by
    unfold writeImage at e
    dsimp only at e
    split at e
    · obtain ⟨i, e1, e⟩ := Res.bind_ok.mp e
      exact ⟨i, crop_spec e1, e⟩
    · obtain ⟨i, e1, e⟩ := Res.bind_ok.mp e
      simp only [Except.ok.injEq] at e1
      exact ⟨i, by rw [← e1], e⟩
  obtain ⟨out, ho, e⟩ := h
  unfold oiioWrite at e
  split at e
  rotate_left
  · simp at e
  obtain ⟨sp, e1, e⟩ := Res.bind_ok.mp e
  unfold writeSpec at e1
  obtain ⟨fw, f1, e1⟩ := Res.bind_ok.mp e1
  obtain ⟨fh, f2, e1⟩ := Res.bind_ok.mp e1
  simp only [Except.ok.injEq, Prod.mk.injEq, Option.some.injEq] at e e1
  have hs : job.spec = sp := by rw [← e.2]
  rw [hs, ← e1]
  unfold FileSpec.imageSpec
  dsimp only
  rw [ho]
  exact ⟨rfl, rfl⟩

end

/-! ### Examples -/

section
attribute [local instance] finFloat finBits finHalf

/-- A file of 2 by 1 pixels with three channels of bytes, whose display window is 4 by 3 and
starts at (10, 20), where the data starts too. -/
def shiftedFile : FileSpec (Fin 256) :=
  { x := 10, y := 20, width := 2, height := 1, fullX := 10, fullY := 20, fullWidth := 4
    fullHeight := 3, numChannels := 3, format := .known .u8, colorSpace := [], gamma := 1
    pixelAspect := 1, orientation := 1, unassociatedAlpha := 0, dither := 0 }

theorem shifted_sane : Sane shiftedFile := by
  constructor <;> decide

/-- A library that reads this file only, and takes everything for writing. -/
def fileLib (spec : FileSpec (Fin 256)) : Oiio (Fin 256) (Fin 256) :=
  { fullDisk with header := fun _ => some spec }

/-- C63 fails for it: the data should start in the corner of the display window. -/
theorem C63_counterexample : ∃ image, readImage .debug (fileLib shiftedFile) [] = .ok image ∧
    fileOffset shiftedFile = (0, 0) ∧ offset image = (20, 40) := by
  obtain ⟨image, e, -⟩ := C63_sane_reads .debug (fileLib shiftedFile) [] shiftedFile .u8 rfl
    shifted_sane rfl
  exact ⟨image, e, rfl, (C63_offset_iff .debug (fileLib shiftedFile) [] shiftedFile image rfl
    (by decide) e).1⟩

/-- The same file with the display window at the origin is read as it should. -/
example : ∃ image, readImage .debug (fileLib { shiftedFile with fullX := 0, fullY := 0 }) [] =
    .ok image ∧ offset image = (10, 20) := by
  have hs : Sane { shiftedFile with fullX := 0, fullY := 0 } := by constructor <;> decide
  obtain ⟨image, e, -⟩ := C63_sane_reads .debug (fileLib { shiftedFile with fullX := 0, fullY := 0 })
    [] _ .u8 rfl hs rfl
  exact ⟨image, e, (C63_windows_partial _ _ _ { shiftedFile with fullX := 0, fullY := 0 } _ rfl
    (by decide) e).2.2.2.2.2.2.2.2 rfl rfl⟩

/-- A file of bytes with five channels. -/
def fiveChannels : FileSpec (Fin 256) := { shiftedFile with numChannels := 5 }

/-- C76 fails for it. -/
theorem C76_counterexample : Sane fiveChannels ∧ ∃ out : Image (Fin 256) (Fin 256),
    oiioAllocate .debug fiveChannels Image.empty = .ok out ∧ readStride fiveChannels = .ok 4 ∧
    ¬ StaysInside fiveChannels 4 (bufferBytes out.pixelBlock) := by
  have hs : Sane fiveChannels := by constructor <;> decide
  obtain ⟨hv, hn⟩ := sane_block hs .u8
  obtain ⟨out, d, h1, -⟩ := allocate_ok .debug fiveChannels
    (Image.empty : Image (Fin 256) (Fin 256)) .u8 rfl (by decide) hn hv hs.x hs.y hs.fullX hs.fullY
  refine ⟨hs, out, h1, rfl, fun h => ?_⟩
  have := (C76_read_inside_iff .debug fiveChannels _ out .u8 4 hs rfl h1 rfl).mp h
  revert this
  decide

example : Sane shiftedFile ∧ ∃ out : Image (Fin 256) (Fin 256),
    oiioAllocate .debug shiftedFile Image.empty = .ok out ∧
    StaysInside shiftedFile 4 (bufferBytes out.pixelBlock) := by
  obtain ⟨hv, hn⟩ := sane_block shifted_sane .u8
  obtain ⟨out, d, h1, -⟩ := allocate_ok .debug shiftedFile
    (Image.empty : Image (Fin 256) (Fin 256)) .u8 rfl (by decide) hn hv shifted_sane.x
    shifted_sane.y shifted_sane.fullX shifted_sane.fullY
  exact ⟨shifted_sane, out, h1,
    (C76_read_inside_iff .debug shiftedFile _ out .u8 4 shifted_sane rfl h1 rfl).mpr (by decide)⟩

/-- Doubling a length of 5. -/
example : resampleLength fullDisk 5 1 = 10 ∧ scaled 5 1 = 10 := by
  constructor
  · decide +kernel
  · norm_num [scaled]

/-- Three half-size images of 3 by 5 pixels. -/
example : resampleLength fullDisk 3 (-1) = 1 ∧ resampleLength fullDisk 5 (-1) = 2 ∧
    resampleLength fullDisk 5 20 = 16384 := by
  decide +kernel

/-- A library with the usual conversion of doubles to `int32_t`. -/
def usualLib : Oiio (Fin 256) (Fin 256) :=
  { fullDisk with
    toInt := fun q => if -2147483649 < q ∧ q < 2147483648 then (if 0 ≤ q then q.floor else q.ceil)
      else -2147483648
    toInt_fits := fun q h1 h2 => by rw [if_pos ⟨h1, h2⟩] }

/-- C64: an image scaled up far enough becomes a single pixel. -/
theorem C64_counterexample_beyond :
    resampleLength usualLib 1 31 = 1 ∧ resampleLength usualLib 1 30 = 16384 := by
  decide +kernel

/-- An image with three bytes for its only pixel. -/
def byteImage : Image (Fin 256) (Fin 256) :=
  { pixelBlock := ⟨⟨1, 1, 3⟩, ⟨.u8, ([1, 2, 3] : List (Fin 256))⟩⟩, spec := .new
    displayWindow := ⟨0, 0, 1, 1⟩, dataWindow := ⟨0, 0, 1, 1⟩ }

/-- C77 fails for it: three channels become four. -/
theorem C77_counterexample : ∃ flag out,
    oiioResample .debug fullDisk byteImage Image.empty 1 false = .ok (flag, out) ∧
    out.pixelBlock.size.numChannels = 4 ∧ byteImage.pixelBlock.size.numChannels = 3 := by
  obtain ⟨flag, out, e, -, -, h⟩ := C64_succeeds .debug fullDisk byteImage Image.empty 1 false
    (by decide) (by decide)
  exact ⟨flag, out, e, h, rfl⟩

/-- The same image with floats keeps its channels, and doubles its size. -/
example : ∃ flag out, oiioResample .debug fullDisk
      { byteImage with pixelBlock := ⟨⟨1, 1, 3⟩, ⟨.f32, ([1, 2, 3] : List (Fin 256))⟩⟩ }
      Image.empty 1 false = .ok (flag, out) ∧
    out.pixelBlock.size.numChannels = 3 ∧ ScaledTo 1 1 out.pixelBlock.size.width := by
  obtain ⟨flag, out, e, -⟩ := C64_succeeds .debug fullDisk
    { byteImage with pixelBlock := ⟨⟨1, 1, 3⟩, ⟨.f32, ([1, 2, 3] : List (Fin 256))⟩⟩ }
    Image.empty 1 false (by decide) (by decide)
  exact ⟨flag, out, e, (C77_channels_iff _ _ _ _ _ _ _ _ (by decide) (by decide) e).2.mpr (.inl rfl),
    (C64_dimensions _ _ _ _ _ _ _ _ e).1⟩

/-- Two settings that differ in the fields for JPEG only are the same for `a.exr`. -/
example : compressionAttrs [97, 46, 101, 120, 114] ⟨.dwaa, 45, 7, 1, .default, false⟩ =
    compressionAttrs [97, 46, 101, 120, 114] ⟨.dwaa, 45, 8, 2, .none444, true⟩ :=
  (C78_own_fields _ _ _).1 (by decide) ⟨rfl, rfl⟩

example : compressionAttrs (ending "a.Png") ⟨.dwaa, 45, 7, 1, .default, false⟩ =
    [("png:compressionLevel", .int 7)] :=
  (C78_levels _ _).1 (by decide +kernel)

example : ("CompressionQuality", SpecValue.int 90) ∈
    compressionAttrs (ending "a.JPE") ⟨.dwaa, 45, 7, 90, .sample420, false⟩ :=
  (((C78_levels _ _).2 (by decide +kernel)).1 _).mpr rfl

example : ("openexr:dwaCompressionLevel", SpecValue.level 45) ∈
    compressionAttrs [97, 46, 101, 120, 114] ⟨.dwaa, 45, 7, 1, .default, false⟩ :=
  ((C78_exr [97, 46, 101, 120, 114] ⟨.dwaa, 45, 7, 1, .default, false⟩
    ⟨.dwaa, 45, 7, 1, .default, false⟩ (by decide)).2 _).mpr ⟨.inl rfl, rfl⟩

/-- `a.png` is in lower case. -/
example : writeColorSpace [97, 46, 112, 110, 103] = colorSpaceSrgb :=
  (C79_color_space_partial _ (by decide)).mpr (.inl (by decide))

/-- Writing and reading an image. -/
example : ∃ flag job back, oiioWrite fullDisk [97] byteImage ⟨.zip, 0, 7, 0, .default, false⟩ =
      .ok (flag, some job) ∧
    readImage .debug (fileLib job.spec) [97] = .ok back ∧ back.dataWindow = byteImage.dataWindow ∧
    back.spec = byteImage.spec := by
  have e : ∃ job, oiioWrite fullDisk [97] byteImage ⟨.zip, 0, 7, 0, .default, false⟩ =
      .ok (true, some job) ∧ Sane job.spec ∧ job.spec.format = .known .u8 :=
    ⟨_, rfl, by constructor <;> decide, rfl⟩
  obtain ⟨job, e, hs, ht⟩ := e
  obtain ⟨back, e', -⟩ := C63_sane_reads .debug (fileLib job.spec) [97] job.spec .u8 rfl hs ht
  have h := C80_round_trip_partial .debug fullDisk (fileLib job.spec) byteImage [97] [97]
    ⟨.zip, 0, 7, 0, .default, false⟩ true job back (by decide) (by decide) (by decide) e rfl e'
  exact ⟨true, job, back, e, e', h.2.1, h.2.2.2.2⟩

/-- The same image in a display window that starts at (10, 0). -/
example : ∃ flag job back, oiioWrite fullDisk [97]
      { byteImage with displayWindow := ⟨10, 0, 11, 1⟩, dataWindow := ⟨10, 0, 11, 1⟩ }
      ⟨.zip, 0, 7, 0, .default, false⟩ = .ok (flag, some job) ∧
    readImage .debug (fileLib job.spec) [97] = .ok back ∧ offset back = (20, 0) := by
  have e : ∃ job, oiioWrite fullDisk [97]
      { byteImage with displayWindow := ⟨10, 0, 11, 1⟩, dataWindow := ⟨10, 0, 11, 1⟩ }
      ⟨.zip, 0, 7, 0, .default, false⟩ =
      .ok (true, some job) ∧ Sane job.spec ∧ job.spec.format = .known .u8 :=
    ⟨_, rfl, by constructor <;> decide, rfl⟩
  obtain ⟨job, e, hs, ht⟩ := e
  obtain ⟨back, e', -⟩ := C63_sane_reads .debug (fileLib job.spec) [97] job.spec .u8 rfl hs ht
  have h := C80_shift .debug fullDisk (fileLib job.spec) _ [97] [97]
    ⟨.zip, 0, 7, 0, .default, false⟩ true job back (by decide) e rfl e'
  exact ⟨true, job, back, e, e', h⟩

/-- An sRGB image is written as a linear one. -/
example : ∃ flag job, writeImage .debug fullDisk
      { byteImage with spec := { ImageSpec.new with colorSpace := colorSpaceSrgb } } [97] false
      ⟨.zip, 0, 7, 0, .default, false⟩ = .ok (flag, some job) ∧
    job.spec.colorSpace = colorSpaceLinear := by
  have e : ∃ job, writeImage .debug fullDisk
      { byteImage with spec := { ImageSpec.new with colorSpace := colorSpaceSrgb } } [97] false
      ⟨.zip, 0, 7, 0, .default, false⟩ = .ok (true, some job) := ⟨_, rfl⟩
  obtain ⟨job, e⟩ := e
  exact ⟨true, job, e, (C81_counterexample _ _ _ _ _ _ _ _ e).2⟩

end
end OCG.Props
