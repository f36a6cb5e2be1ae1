import Verif.Model.Enums
import Mathlib.Tactic.Linarith
/-
C66: enumeration codes.
-/

namespace OCG.Props

/-- A conversion from integers agrees with the declared codes: every declared code converts to
its value, every other integer converts to `other`, and no two values share a code. -/
def RoundTrips {E : Type} (code : E → Nat) (ofI32 : Int → E) (other : E) : Prop :=
  (∀ v : E, ofI32 (code v) = v) ∧
  (∀ n : Int, (∀ v : E, v ≠ other → (code v : Int) ≠ n) → ofI32 n = other) ∧
  (∀ v w : E, code v = code w → v = w) ∧
  (∀ v : E, code v < 256)

/-- C66 for `DataTypeCode`. -/
theorem C66_DataTypeCode : RoundTrips DataTypeCode.code DataTypeCode.ofI32 .unknown := by
  refine ⟨?_, ?_, ?_, ?_⟩
  · intro v; cases v <;> rfl
  · intro n h
    have h0 := h .float32 (by decide)
    have h1 := h .half16 (by decide)
    have h2 := h .uint8 (by decide)
    have h3 := h .uint16 (by decide)
    unfold DataTypeCode.ofI32
    simp only [DataTypeCode.code] at *
    repeat' first | rw [if_neg (by omega)] | rfl
  · intro v w h; cases v <;> cases w <;> first | rfl | (exact absurd h (by decide))
  · intro v; cases v <;> decide

example : DataTypeCode.ofI32 3 = .uint16 ∧ DataTypeCode.ofI32 (-1) = .unknown ∧ DataTypeCode.ofI32 255 = .unknown := by decide

/-- C66 for `BakeOption`. -/
theorem C66_BakeOption : RoundTrips BakeOption.code BakeOption.ofI32 .uninitialized := by
  refine ⟨?_, ?_, ?_, ?_⟩
  · intro v; cases v <;> rfl
  · intro n h
    have h0 := h .nothing (by decide)
    have h1 := h .colorSpace (by decide)
    have h2 := h .colorSpaceAndGrade (by decide)
    have h3 := h .all (by decide)
    unfold BakeOption.ofI32
    simp only [BakeOption.code] at *
    repeat' first | rw [if_neg (by omega)] | rfl
  · intro v w h; cases v <;> cases w <;> first | rfl | (exact absurd h (by decide))
  · intro v; cases v <;> decide

example : BakeOption.ofI32 3 = .all ∧ BakeOption.ofI32 (-1) = .uninitialized ∧ BakeOption.ofI32 255 = .uninitialized := by decide

/-- C66 for `MergeImageMode`. -/
theorem C66_MergeImageMode : RoundTrips MergeImageMode.code MergeImageMode.ofI32 .uninitialized := by
  refine ⟨?_, ?_, ?_, ?_⟩
  · intro v; cases v <;> rfl
  · intro n h
    have h0 := h .add (by decide)
    have h1 := h .over (by decide)
    have h2 := h .multiply (by decide)
    unfold MergeImageMode.ofI32
    simp only [MergeImageMode.code] at *
    repeat' first | rw [if_neg (by omega)] | rfl
  · intro v w h; cases v <;> cases w <;> first | rfl | (exact absurd h (by decide))
  · intro v; cases v <;> decide

example : MergeImageMode.ofI32 2 = .multiply ∧ MergeImageMode.ofI32 (-1) = .uninitialized ∧ MergeImageMode.ofI32 255 = .uninitialized := by decide

/-- C66 for `LensDistortDirection`. -/
theorem C66_LensDistortDirection : RoundTrips LensDistortDirection.code LensDistortDirection.ofI32 .uninitialized := by
  refine ⟨?_, ?_, ?_, ?_⟩
  · intro v; cases v <;> rfl
  · intro n h
    have h0 := h .undistort (by decide)
    have h1 := h .distort (by decide)
    unfold LensDistortDirection.ofI32
    simp only [LensDistortDirection.code] at *
    repeat' first | rw [if_neg (by omega)] | rfl
  · intro v w h; cases v <;> cases w <;> first | rfl | (exact absurd h (by decide))
  · intro v; cases v <;> decide

example : LensDistortDirection.ofI32 1 = .distort ∧ LensDistortDirection.ofI32 (-1) = .uninitialized ∧ LensDistortDirection.ofI32 255 = .uninitialized := by decide

/-- C66 for `ImageOrientation`. -/
theorem C66_ImageOrientation : RoundTrips ImageOrientation.code ImageOrientation.ofI32 .uninitialized := by
  refine ⟨?_, ?_, ?_, ?_⟩
  · intro v; cases v <;> rfl
  · intro n h
    have h0 := h .normal (by decide)
    have h1 := h .flippedHorizontally (by decide)
    have h2 := h .rotated180 (by decide)
    have h3 := h .flippedVertically (by decide)
    have h4 := h .transposed (by decide)
    have h5 := h .rotated90Clockwise (by decide)
    have h6 := h .transverse (by decide)
    have h7 := h .rotated90CounterClockwise (by decide)
    unfold ImageOrientation.ofI32
    simp only [ImageOrientation.code] at *
    repeat' first | rw [if_neg (by omega)] | rfl
  · intro v w h; cases v <;> cases w <;> first | rfl | (exact absurd h (by decide))
  · intro v; cases v <;> decide

example : ImageOrientation.ofI32 7 = .rotated90CounterClockwise ∧ ImageOrientation.ofI32 (-1) = .uninitialized ∧ ImageOrientation.ofI32 255 = .uninitialized := by decide

/-- C66 for `DiskCacheImageType`. -/
theorem C66_DiskCacheImageType : RoundTrips DiskCacheImageType.code DiskCacheImageType.ofI32 .uninitialized := by
  refine ⟨?_, ?_, ?_, ?_⟩
  · intro v; cases v <;> rfl
  · intro n h
    have h0 := h .jpegUInt8 (by decide)
    have h1 := h .jpeg2000LossyUInt8 (by decide)
    have h2 := h .jpeg2000LosslessUInt8 (by decide)
    have h3 := h .exrLossyHalf16 (by decide)
    have h4 := h .exrLosslessHalf16 (by decide)
    unfold DiskCacheImageType.ofI32
    simp only [DiskCacheImageType.code] at *
    repeat' first | rw [if_neg (by omega)] | rfl
  · intro v w h; cases v <;> cases w <;> first | rfl | (exact absurd h (by decide))
  · intro v; cases v <;> decide

example : DiskCacheImageType.ofI32 4 = .exrLosslessHalf16 ∧ DiskCacheImageType.ofI32 (-1) = .uninitialized ∧ DiskCacheImageType.ofI32 255 = .uninitialized := by decide

/-- C66 for `CropOnWrite`. -/
theorem C66_CropOnWrite : RoundTrips CropOnWrite.code CropOnWrite.ofI32 .uninitialized := by
  refine ⟨?_, ?_, ?_, ?_⟩
  · intro v; cases v <;> rfl
  · intro n h
    have h0 := h .disable (by decide)
    have h1 := h .enable (by decide)
    have h2 := h .auto (by decide)
    unfold CropOnWrite.ofI32
    simp only [CropOnWrite.code] at *
    repeat' first | rw [if_neg (by omega)] | rfl
  · intro v w h; cases v <;> cases w <;> first | rfl | (exact absurd h (by decide))
  · intro v; cases v <;> decide

example : CropOnWrite.ofI32 2 = .auto ∧ CropOnWrite.ofI32 (-1) = .uninitialized ∧ CropOnWrite.ofI32 255 = .uninitialized := by decide

/-- C66 for `JpegChromaSubSampling`. -/
theorem C66_JpegChromaSubSampling : RoundTrips JpegChromaSubSampling.code JpegChromaSubSampling.ofI32 .uninitialized := by
  refine ⟨?_, ?_, ?_, ?_⟩
  · intro v; cases v <;> rfl
  · intro n h
    have h0 := h .default (by decide)
    have h1 := h .none444 (by decide)
    have h2 := h .sample422 (by decide)
    have h3 := h .sample420 (by decide)
    have h4 := h .sample421 (by decide)
    unfold JpegChromaSubSampling.ofI32
    simp only [JpegChromaSubSampling.code] at *
    repeat' first | rw [if_neg (by omega)] | rfl
  · intro v w h; cases v <;> cases w <;> first | rfl | (exact absurd h (by decide))
  · intro v; cases v <;> decide

example : JpegChromaSubSampling.ofI32 4 = .sample421 ∧ JpegChromaSubSampling.ofI32 (-1) = .uninitialized ∧ JpegChromaSubSampling.ofI32 255 = .uninitialized := by decide

/-- C66 for `ExrCompression`. -/
theorem C66_ExrCompression : RoundTrips ExrCompression.code ExrCompression.ofI32 .uninitialized := by
  refine ⟨?_, ?_, ?_, ?_⟩
  · intro v; cases v <;> rfl
  · intro n h
    have h0 := h .default (by decide)
    have h1 := h .none (by decide)
    have h2 := h .rle (by decide)
    have h3 := h .zip (by decide)
    have h4 := h .zipScanline (by decide)
    have h5 := h .piz (by decide)
    have h6 := h .pxr24 (by decide)
    have h7 := h .b44 (by decide)
    have h8 := h .b44a (by decide)
    have h9 := h .dwaa (by decide)
    have h10 := h .dwab (by decide)
    unfold ExrCompression.ofI32
    simp only [ExrCompression.code] at *
    repeat' first | rw [if_neg (by omega)] | rfl
  · intro v w h; cases v <;> cases w <;> first | rfl | (exact absurd h (by decide))
  · intro v; cases v <;> decide

example : ExrCompression.ofI32 10 = .dwab ∧ ExrCompression.ofI32 (-1) = .uninitialized ∧ ExrCompression.ofI32 255 = .uninitialized := by decide

end OCG.Props
