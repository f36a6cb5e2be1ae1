import Verif.Proofs.Block
import Verif.Props.BBox
/-
Properties C14 to C18: pixel addressing, sub-window copies, resizing and conversion.
-/

namespace OCG.Props

open BlockSpec BBoxSpec

/-! ### C14 -/

/-- C14: the element index of an in-range pixel lies in the buffer, with room for all its
channels. -/
theorem C14_index_in_buffer (p : Profile) (b : BlockSize) (hv : ValidSize b) (x y : Int)
    (h : InBlock b x y) :
    ∃ i, b.getIndex p x y = .ok i ∧ 0 ≤ i ∧ i + b.numChannels ≤ elements b := by
  obtain ⟨h1, h2, h3⟩ := getIndex_eq p b hv x y h
  exact ⟨_, h1, h2, h3⟩

/-- C14: different pixels have disjoint element ranges, and pixels are laid out row by row. -/
theorem C14_index_disjoint (p : Profile) (b : BlockSize) (hv : ValidSize b) (x y x' y' : Int)
    (h : InBlock b x y) (h' : InBlock b x' y') (i i' : Int)
    (hi : b.getIndex p x y = .ok i) (hi' : b.getIndex p x' y' = .ok i') :
    (i + b.numChannels ≤ i' ↔ y < y' ∨ (y = y' ∧ x < x')) ∧
      (i = i' ↔ x = x' ∧ y = y') := by
  obtain ⟨h1, -, -⟩ := getIndex_eq p b hv x y h
  obtain ⟨h1', -, -⟩ := getIndex_eq p b hv x' y' h'
  rw [h1] at hi
  rw [h1'] at hi'
  obtain ⟨hw, hh, hn, -⟩ := hv
  have e : i = (y * b.width + x) * b.numChannels := by
    rw [← Except.ok.inj hi]; ring
  have e' : i' = (y' * b.width + x') * b.numChannels := by
    rw [← Except.ok.inj hi']; ring
  obtain ⟨a1, a2, a3, a4⟩ := h
  obtain ⟨b1, b2, b3, b4⟩ := h'
  have row : ∀ y y' : Int, y < y' → y * b.width + b.width ≤ y' * b.width := by
    intro y y' hy
    have := mul_le_mul_of_nonneg_right (show y + 1 ≤ y' by omega) hw.le
    linarith [add_mul y 1 b.width]
  have lt_of : ∀ P Q : Int, P < Q → P * b.numChannels + b.numChannels ≤ Q * b.numChannels := by
    intro P Q hPQ
    have := mul_le_mul_of_nonneg_right (show P + 1 ≤ Q by omega) hn.le
    linarith [add_mul P 1 b.numChannels]
  have le_of : ∀ P Q : Int, P ≤ Q → P * b.numChannels ≤ Q * b.numChannels := fun P Q hPQ =>
    mul_le_mul_of_nonneg_right hPQ hn.le
  have lex : y * b.width + x < y' * b.width + x' ↔ y < y' ∨ (y = y' ∧ x < x') := by
    rcases lt_trichotomy y y' with hy | hy | hy
    · have := row y y' hy
      constructor <;> intro _ <;> omega
    · subst hy; omega
    · have := row y' y hy
      constructor <;> intro _ <;> omega
  have lex' : y * b.width + x = y' * b.width + x' ↔ x = x' ∧ y = y' := by
    rcases lt_trichotomy y y' with hy | hy | hy
    · have := row y y' hy
      constructor <;> intro _ <;> omega
    · subst hy; omega
    · have := row y' y hy
      constructor <;> intro _ <;> omega
  subst e e'
  constructor
  · rw [← lex]
    constructor
    · intro hle
      by_contra hc
      have := le_of _ _ (not_lt.mp hc)
      omega
    · exact lt_of _ _
  · rw [← lex']
    constructor
    · intro he
      exact mul_right_cancel₀ (ne_of_gt hn) he
    · intro he; rw [he]

/-- C14: every buffer element belongs to some pixel (by `C14_index_disjoint` only one). -/
theorem C14_index_onto (p : Profile) (b : BlockSize) (hv : ValidSize b) (e : Int)
    (h0 : 0 ≤ e) (h1 : e < elements b) :
    ∃ x y i, InBlock b x y ∧ b.getIndex p x y = .ok i ∧ i ≤ e ∧ e < i + b.numChannels := by
  obtain ⟨hw, hh, hn, _⟩ := id hv
  have q0 : 0 ≤ e / b.numChannels := Int.ediv_nonneg h0 hn.le
  have q1 : e / b.numChannels < b.width * b.height := Int.ediv_lt_of_lt_mul hn h1
  have in' : InBlock b (e / b.numChannels % b.width) (e / b.numChannels / b.width) := by
    refine ⟨Int.emod_nonneg _ (by omega), Int.emod_lt_of_pos _ hw, Int.ediv_nonneg q0 hw.le, ?_⟩
    exact Int.ediv_lt_of_lt_mul hw (by rwa [mul_comm])
  obtain ⟨g1, -, -⟩ := getIndex_eq p b hv _ _ in'
  refine ⟨_, _, _, in', g1, ?_⟩
  have r := Int.mul_ediv_add_emod e b.numChannels
  have r2 := Int.mul_ediv_add_emod (e / b.numChannels) b.width
  have r3 := Int.emod_nonneg e (ne_of_gt hn)
  have r4 := Int.emod_lt_of_pos e hn
  have key : e / b.numChannels / b.width * (b.width * b.numChannels) +
      e / b.numChannels % b.width * b.numChannels = b.numChannels * (e / b.numChannels) := by
    conv_rhs => rw [← r2]
    ring
  omega

/-- C14 (coordinates whose products fit `i32`): out-of-range coordinates are reported as -1.
Missing: huge coordinates, see `C14_counterexample_release`. -/
theorem C14_out_of_range_partial (p : Profile) (b : BlockSize) (hv : ValidSize b) (x y : Int)
    (hx : InI32 (x * b.numChannels)) (hy : InI32 (y * (b.width * b.numChannels)))
    (hxy : InI32 (x * b.numChannels + y * (b.width * b.numChannels)))
    (h : ¬ InBlock b x y) : b.getIndex p x y = .ok (-1) :=
  getIndex_out p b hv x y hx hy hxy h

/-- C14: with 4 channels, the coordinate x = 2^30 of an 8x8 block gets the index of pixel
(0, 0) in release builds, and panics in debug builds. -/
theorem C14_counterexample_release :
    (⟨8, 8, 4⟩ : BlockSize).getIndex .release 1073741824 0 = .ok 0 ∧
      (⟨8, 8, 4⟩ : BlockSize).getIndex .debug 1073741824 0 = .error .overflow := by
  constructor <;> decide

example : ValidSize ⟨1920, 1080, 4⟩ ∧ InBlock ⟨1920, 1080, 4⟩ 17 1079 ∧
    InI32 (1920 * 4) ∧ ¬ InBlock ⟨1920, 1080, 4⟩ 1920 3 ∧
    (⟨1920, 1080, 4⟩ : BlockSize).getIndex .debug 1920 3 = .ok (-1) := by
  refine ⟨by unfold ValidSize; decide, by unfold InBlock; decide, by decide,
    by unfold InBlock; decide, by decide⟩

/-! ### C15 -/

/-- C15: index, then coordinates: the coordinates come back. -/
theorem C15_xy_of_index (p : Profile) (b : BlockSize) (hv : ValidSize b) (x y : Int)
    (h : InBlock b x y) :
    ∃ i, b.getIndex p x y = .ok i ∧ b.getXY p i.toNat = .ok (x, y) := by
  obtain ⟨g1, g2, g3⟩ := getIndex_eq p b hv x y h
  refine ⟨_, g1, ?_⟩
  obtain ⟨s1, s2, -⟩ := hv.bounds
  obtain ⟨hw, hh, hn, _⟩ := id hv
  obtain ⟨a1, a2, a3, a4⟩ := h
  obtain ⟨c1, c2⟩ := mul_bound a1 a2 hn
  unfold BlockSize.getXY
  rw [i32_of (x := b.width * b.numChannels) (by unfold InI32; omega)]
  dsimp only [bind, Except.bind]
  rw [asUsize_of_nonneg s1.le, asUsize_of_nonneg hn.le, if_neg (by omega)]
  have e1 : (y * (b.width * b.numChannels) + x * b.numChannels) % (b.width * b.numChannels)
      = x * b.numChannels := by
    rw [add_comm, Int.add_mul_emod_self_right]
    exact Int.emod_eq_of_lt c1 (by omega)
  have e2 : (y * (b.width * b.numChannels) + x * b.numChannels) / (b.width * b.numChannels)
      = y := by
    rw [add_comm, Int.add_mul_ediv_right _ _ (by omega), Int.ediv_eq_zero_of_lt c1 (by omega)]
    omega
  have e3 : x * b.numChannels / b.numChannels = x := Int.mul_ediv_cancel _ (by omega)
  congr 1
  refine Prod.ext ?_ ?_
  · simp only [Int.natCast_ediv, Int.natCast_emod, Int.toNat_of_nonneg g2,
      Int.toNat_of_nonneg s1.le, Int.toNat_of_nonneg hn.le]
    rw [e1, e3]
  · simp only [Int.natCast_ediv, Int.toNat_of_nonneg g2, Int.toNat_of_nonneg s1.le]
    exact e2

/-- C15: coordinates, then index: the index of the first channel of that pixel comes back,
so it is the identity on pixel indices (multiples of the channel count). -/
theorem C15_index_of_xy (p : Profile) (b : BlockSize) (hv : ValidSize b) (ix : Nat)
    (h : (ix : Int) < elements b) :
    ∃ x y, b.getXY p ix = .ok (x, y) ∧ InBlock b x y ∧
      b.getIndex p x y = .ok ((ix : Int) - ix % b.numChannels) := by
  obtain ⟨s1, s2, -⟩ := hv.bounds
  obtain ⟨hw, hh, hn, _⟩ := id hv
  have hxy : b.getXY p ix = .ok ((ix : Int) % (b.width * b.numChannels) / b.numChannels,
      (ix : Int) / (b.width * b.numChannels)) := by
    unfold BlockSize.getXY
    rw [i32_of (x := b.width * b.numChannels) (by unfold InI32; omega)]
    dsimp only [bind, Except.bind]
    rw [asUsize_of_nonneg s1.le, asUsize_of_nonneg hn.le, if_neg (by omega)]
    simp only [Int.natCast_ediv, Int.natCast_emod, Int.toNat_of_nonneg s1.le,
      Int.toNat_of_nonneg hn.le]
  have h0 : (0 : Int) ≤ ix := by omega
  have in' : InBlock b ((ix : Int) % (b.width * b.numChannels) / b.numChannels)
      ((ix : Int) / (b.width * b.numChannels)) := by
    refine ⟨?_, ?_, ?_, ?_⟩
    · exact Int.ediv_nonneg (Int.emod_nonneg _ (by omega)) hn.le
    · exact Int.ediv_lt_of_lt_mul hn (Int.emod_lt_of_pos _ s1)
    · exact Int.ediv_nonneg h0 s1.le
    · apply Int.ediv_lt_of_lt_mul s1
      unfold elements at h
      have : b.height * (b.width * b.numChannels) = b.width * b.height * b.numChannels := by ring
      omega
  refine ⟨_, _, hxy, in', ?_⟩
  obtain ⟨g1, -, -⟩ := getIndex_eq p b hv _ _ in'
  rw [g1]
  congr 1
  have r := Int.mul_ediv_add_emod (ix : Int) (b.width * b.numChannels)
  have r2 := Int.mul_ediv_add_emod ((ix : Int) % (b.width * b.numChannels)) b.numChannels
  have r3 : (ix : Int) % (b.width * b.numChannels) % b.numChannels = ix % b.numChannels :=
    Int.emod_emod_of_dvd _ (dvd_mul_left _ _)
  have c1 := mul_comm ((ix : Int) / (b.width * b.numChannels)) (b.width * b.numChannels)
  have c2 := mul_comm ((ix : Int) % (b.width * b.numChannels) / b.numChannels) b.numChannels
  omega

example : ValidSize ⟨5, 4, 3⟩ ∧ InBlock ⟨5, 4, 3⟩ 2 3 ∧
    (⟨5, 4, 3⟩ : BlockSize).getIndex .debug 2 3 = .ok 51 ∧
    (⟨5, 4, 3⟩ : BlockSize).getXY .debug 53 = .ok (2, 3) := by
  refine ⟨by unfold ValidSize; decide, by unfold InBlock; decide, by decide, by decide⟩

/-- C15: the second index type (`BlockIndex`) accepts exactly the pixels of the block, and its index
is that of the first channel of the pixel. -/
theorem C15_block_index (p : Profile) (b : BlockSize) (hv : ValidSize b) (x y : Nat) :
    ((∃ i, BlockIndex.fromXY b x y = .ok i) ↔ InBlock b x y) ∧
    ∀ i, BlockIndex.fromXY b x y = .ok i → b.getIndex p x y = .ok i.index := by
  obtain ⟨hw, hh, hn, _⟩ := id hv
  have key : ∀ i, BlockIndex.fromXY b x y = .ok i → InBlock b x y ∧
      i.index = y * (b.width.toNat * b.numChannels.toNat) + x * b.numChannels.toNat := by
    intro i e
    unfold BlockIndex.fromXY at e
    rw [asUsize_of_nonneg hw.le, asUsize_of_nonneg hh.le, asUsize_of_nonneg hn.le] at e
    dsimp only at e
    split at e
    · cases e
    · split at e
      · cases e
      · cases e
        exact ⟨by unfold InBlock; omega, rfl⟩
  refine ⟨⟨fun ⟨i, e⟩ => (key i e).1, fun hb => ?_⟩, fun i e => ?_⟩
  · unfold InBlock at hb
    unfold BlockIndex.fromXY
    rw [asUsize_of_nonneg hw.le, asUsize_of_nonneg hh.le, asUsize_of_nonneg hn.le]
    dsimp only
    rw [if_neg (by omega), if_neg (by omega)]
    exact ⟨_, rfl⟩
  · obtain ⟨h1, h2⟩ := key i e
    obtain ⟨g1, -, -⟩ := getIndex_eq p b hv _ _ h1
    rw [g1, h2]
    push_cast
    rw [Int.toNat_of_nonneg hw.le, Int.toNat_of_nonneg hn.le]

example : (∃ i, BlockIndex.fromXY ⟨5, 4, 3⟩ 2 3 = .ok i ∧ i.index = 51) ∧
    ¬ ∃ i, BlockIndex.fromXY ⟨5, 4, 3⟩ 5 3 = .ok i := by
  have hv : ValidSize ⟨5, 4, 3⟩ := by unfold ValidSize; decide
  refine ⟨⟨_, rfl, by decide⟩, fun h => ?_⟩
  exact absurd ((C15_block_index .debug _ hv 5 3).1.mp h) (by unfold InBlock; decide)

/-- C15 is false for the second index type (`BlockIndex`): pixel (1, 2) of a 4x2 RGBA block
reports column 4, and pixel (0, 1) of that block reports row 2. -/
theorem C15_block_index_counterexample :
    (∃ i, BlockIndex.fromXY ⟨4, 2, 4⟩ 1 0 = .ok i ∧ i.column = 4) ∧
      (∃ i, BlockIndex.fromXY ⟨4, 2, 4⟩ 0 1 = .ok i ∧ i.row = 2) := by
  constructor <;> exact ⟨_, rfl, by decide⟩

/-! ### C16 -/

section
variable {F H : Type} [FloatLike F] [HalfLike F H]

/-- C16: copying through windows keeps every pixel at its absolute position; positions
outside the source window are zero.  The windows must fit the memory (`ValidSize`) and the
source window must have the size of the source block (otherwise the code asserts). -/
theorem C16_sub_window_copy (p : Profile) (b : PixelBlock F H) (data crop : BBox)
    (hb : WellFormed b) (hw : b.size.width = data.maxX - data.minX)
    (hh : b.size.height = data.maxY - data.minY)
    (hc : ValidSize ⟨crop.maxX - crop.minX, crop.maxY - crop.minY, b.size.numChannels⟩) :
    ∃ d : List (Elem F H b.block.dtype),
      b.fromPixelBlock p data crop = .ok
        { size := ⟨crop.maxX - crop.minX, crop.maxY - crop.minY, b.size.numChannels⟩,
          block := ⟨b.block.dtype, d⟩ } ∧
      (d.length : Int) = (crop.maxX - crop.minX) * (crop.maxY - crop.minY) *
        b.size.numChannels ∧
      ∀ x y c, Has crop x y → 0 ≤ c → c < b.size.numChannels →
        channelAt ⟨crop.maxX - crop.minX, crop.maxY - crop.minY, b.size.numChannels⟩ d
            (x - crop.minX) (y - crop.minY) c =
          if Has data x y then
            channelAt b.size b.block.data (x - data.minX) (y - data.minY) c
          else some (zeroElem b.block.dtype) := by
  obtain ⟨hv, hlen⟩ := hb
  obtain ⟨g1, g2, g3, g4, g5, g6, g7, g8, g9, g10⟩ := hv.bounds
  obtain ⟨k1, k2, k3, k4, k5, k6, k7, k8, k9, k10⟩ := hc.bounds
  simp only at k1 k2 k3 k4 k5 k6 k7 k8 k9 k10
  obtain ⟨v1, v2, v3, v4⟩ := id hv
  obtain ⟨u1, u2, u3, u4⟩ := id hc
  simp only at u1 u2 u3 u4
  have hsz : b.size = ⟨data.maxX - data.minX, data.maxY - data.minY, b.size.numChannels⟩ := by
    rw [← hw, ← hh]
  unfold PixelBlock.fromPixelBlock BBox.width BBox.height
  rw [i32_of (x := data.maxX - data.minX) (by unfold InI32; omega)]
  dsimp only [bind, Except.bind]
  rw [if_neg (by omega)]
  rw [i32_of (x := data.maxY - data.minY) (by unfold InI32; omega)]
  dsimp only
  rw [if_neg (by omega)]
  rw [i32_of (x := crop.maxX - crop.minX) (by unfold InI32; omega),
    i32_of (x := crop.maxY - crop.minY) (by unfold InI32; omega)]
  dsimp only
  have hnew : PixelBlock.new (F := F) (H := H) p
      ⟨crop.maxX - crop.minX, crop.maxY - crop.minY, b.size.numChannels⟩
      (.known b.block.dtype) = .ok
      { size := ⟨crop.maxX - crop.minX, crop.maxY - crop.minY, b.size.numChannels⟩,
        block := ⟨b.block.dtype, List.replicate
          (elements ⟨crop.maxX - crop.minX, crop.maxY - crop.minY, b.size.numChannels⟩).toNat
          (zeroElem b.block.dtype)⟩ } := by
    unfold PixelBlock.new
    rw [size_eq p _ hc]
    rfl
  rw [hnew]
  dsimp only
  -- what the zero-filled block holds
  have hzero : ∀ x y c, Has crop x y → 0 ≤ c → c < b.size.numChannels →
      channelAt ⟨crop.maxX - crop.minX, crop.maxY - crop.minY, b.size.numChannels⟩
        (List.replicate
          (elements ⟨crop.maxX - crop.minX, crop.maxY - crop.minY, b.size.numChannels⟩).toNat
          (zeroElem (F := F) (H := H) b.block.dtype))
        (x - crop.minX) (y - crop.minY) c = some (zeroElem b.block.dtype) := by
    intro x y c hx hc0 hcn
    unfold channelAt
    rw [List.getElem?_replicate, if_pos]
    obtain ⟨x1, x2, x3, x4⟩ := hx
    have in' : InBlock ⟨crop.maxX - crop.minX, crop.maxY - crop.minY, b.size.numChannels⟩
        (x - crop.minX) (y - crop.minY) := ⟨by omega, by simp only; omega, by omega,
          by simp only; omega⟩
    obtain ⟨-, n1, n2⟩ := getIndex_eq p _ hc _ _ in'
    simp only at n1 n2
    have : ((y - crop.minY) * (crop.maxX - crop.minX) + (x - crop.minX)) * b.size.numChannels =
        (y - crop.minY) * ((crop.maxX - crop.minX) * b.size.numChannels) +
          (x - crop.minX) * b.size.numChannels := by ring
    simp only
    omega
  -- the intersection
  have hprop := C11_intersection_proper data crop
  have hhas := C11_intersection_exact data crop
  obtain ⟨diff, hdiff⟩ : ∃ d, d = BBox.intersection data crop := ⟨_, rfl⟩
  rw [← hdiff] at hprop hhas ⊢
  unfold Proper at hprop
  have hempty : (∀ x y, ¬ Has diff x y) → ∃ d : List (Elem F H b.block.dtype),
      (Except.ok
        { size := ⟨crop.maxX - crop.minX, crop.maxY - crop.minY, b.size.numChannels⟩,
          block := ⟨b.block.dtype, List.replicate
            (elements ⟨crop.maxX - crop.minX, crop.maxY - crop.minY, b.size.numChannels⟩).toNat
            (zeroElem b.block.dtype)⟩ } : Res (PixelBlock F H)) = .ok
        { size := ⟨crop.maxX - crop.minX, crop.maxY - crop.minY, b.size.numChannels⟩,
          block := ⟨b.block.dtype, d⟩ } ∧
      (d.length : Int) = (crop.maxX - crop.minX) * (crop.maxY - crop.minY) *
        b.size.numChannels ∧
      ∀ x y c, Has crop x y → 0 ≤ c → c < b.size.numChannels →
        channelAt ⟨crop.maxX - crop.minX, crop.maxY - crop.minY, b.size.numChannels⟩ d
            (x - crop.minX) (y - crop.minY) c =
          if Has data x y then
            channelAt b.size b.block.data (x - data.minX) (y - data.minY) c
          else some (zeroElem b.block.dtype) := by
    intro he
    refine ⟨_, rfl, ?_, ?_⟩
    · rw [List.length_replicate, Int.toNat_of_nonneg k9.le]; rfl
    · intro x y c hx hc0 hcn
      rw [hzero x y c hx hc0 hcn, if_neg]
      intro hd
      exact he x y ((hhas x y).mpr ⟨hd, hx⟩)
  by_cases hne : diff.minX < diff.maxX ∧ diff.minY < diff.maxY
  · -- non-empty: inside both windows
    have hc1 : Has diff diff.minX diff.minY := ⟨by omega, by omega, by omega, by omega⟩
    have hc2 : Has diff (diff.maxX - 1) (diff.maxY - 1) := ⟨by omega, by omega, by omega, by omega⟩
    have hc1' := (hhas _ _).mp hc1
    have hc2' := (hhas _ _).mp hc2
    unfold Has at hc1' hc2'
    have i1 : Inside diff data := ⟨by omega, by omega, by omega, by omega⟩
    have i2 : Inside diff crop := ⟨by omega, by omega, by omega, by omega⟩
    have hpos : 0 < (diff.maxX - diff.minX) * (diff.maxY - diff.minY) :=
      mul_pos (by omega) (by omega)
    have hle : (diff.maxX - diff.minX) * (diff.maxY - diff.minY) ≤
        b.size.width * b.size.height := by
      apply mul_le_mul <;> omega
    have harea : diff.area p = .ok
        ((diff.maxX - diff.minX) * (diff.maxY - diff.minY)).toNat := by
      unfold BBox.area BBox.width BBox.height
      rw [i32_of (x := diff.maxX - diff.minX) (by unfold InI32; omega),
        i32_of (x := diff.maxY - diff.minY) (by unfold InI32; omega)]
      dsimp only [bind, Except.bind]
      rw [i32_of (by unfold InI32; omega)]
      dsimp only
      unfold asU32
      congr 2
      omega
    rw [harea]
    dsimp only
    rw [if_neg (by omega)]
    obtain ⟨r, r1, r2, r3⟩ := copyRows_spec p b.size.numChannels data crop diff b.block.data v3
      (by rw [← hsz]; exact hv) hc i1 i2 hne.1 (by rw [← hsz]; exact hlen)
      (diff.maxY - diff.minY).toNat diff.minY
      (List.replicate
          (elements ⟨crop.maxX - crop.minX, crop.maxY - crop.minY, b.size.numChannels⟩).toNat
          (zeroElem b.block.dtype)) (le_refl _) (by omega)
      (by rw [List.length_replicate, Int.toNat_of_nonneg k9.le])
    have hl : (DataBlock.len (F := F) (H := H)
        ⟨b.block.dtype, List.replicate
          (elements ⟨crop.maxX - crop.minX, crop.maxY - crop.minY, b.size.numChannels⟩).toNat
          (zeroElem b.block.dtype)⟩) =
        (elements ⟨crop.maxX - crop.minX, crop.maxY - crop.minY, b.size.numChannels⟩).toNat := by
      unfold DataBlock.len; exact List.length_replicate
    rw [hl, r1]
    dsimp only
    refine ⟨r, rfl, ?_, ?_⟩
    · rw [r2, List.length_replicate, Int.toNat_of_nonneg k9.le]; rfl
    · intro x y c hx hc0 hcn
      rw [r3 x y c hx hc0 hcn, hzero x y c hx hc0 hcn, ← hsz]
      by_cases hd : Has data x y
      · have hdf := (hhas x y).mpr ⟨hd, hx⟩
        rw [if_pos ⟨hdf, hdf.2.2.1⟩, if_pos hd]
      · rw [if_neg (fun h => hd ((hhas x y).mp h.1).1), if_neg hd]
  · have harea : diff.area p = .ok 0 := by
      have hz : (diff.maxX - diff.minX) * (diff.maxY - diff.minY) = 0 := by
        rcases not_and_or.mp hne with h | h
        · have : diff.maxX - diff.minX = 0 := by omega
          rw [this]; ring
        · have : diff.maxY - diff.minY = 0 := by omega
          rw [this]; ring
      have hb1 : diff.maxX - diff.minX ≤ 2147483647 ∧ diff.maxY - diff.minY ≤ 2147483647 := by
        rw [hdiff]; unfold BBox.intersection
        split
        · simp
        · simp only; omega
      unfold BBox.area BBox.width BBox.height
      rw [i32_of (x := diff.maxX - diff.minX) (by unfold InI32; omega),
        i32_of (x := diff.maxY - diff.minY) (by unfold InI32; omega)]
      dsimp only [bind, Except.bind]
      rw [i32_of (by rw [hz]; unfold InI32; omega), hz]
      rfl
    rw [harea]
    dsimp only
    rw [if_pos rfl]
    apply hempty
    intro x y hxy
    unfold Has at hxy
    omega

/-- A toy instance used only in examples: exact integers stand for floats. -/
@[reducible] def toyFloat : FloatLike Int where
  add := (· + ·)
  sub := (· - ·)
  mul := (· * ·)
  div := (· / ·)
  neg := (- ·)
  zero := 0
  one := 1
  lt a b := decide (a < b)
  eq a b := decide (a = b)
  ofInt := id
  toI32 := id
  toU8 x := Fin.ofNat 256 x.toNat
  toU16 x := Fin.ofNat 65536 x.toNat
  powf a _ := a
  round := id
  floor := id
  ceil := id
  sin := id
  cos := id

/-- A toy instance used only in examples. -/
@[reducible] def toyHalf : HalfLike Int Int := ⟨id, id⟩

-- C16: a 2x2 block at (0,0) copied to the window (1,1)-(3,3): one pixel survives.
example :
    let _ := toyFloat
    let _ := toyHalf
    let b : PixelBlock Int Int := ⟨⟨2, 2, 1⟩, ⟨.u8, [(1 : Fin 256), (2 : Fin 256), (3 : Fin 256), (4 : Fin 256)]⟩⟩
    WellFormed b ∧ ValidSize ⟨3 - 1, 3 - 1, b.size.numChannels⟩ ∧
      b.fromPixelBlock .debug ⟨0, 0, 2, 2⟩ ⟨1, 1, 3, 3⟩ =
        .ok ⟨⟨2, 2, 1⟩, ⟨.u8, [(4 : Fin 256), (0 : Fin 256), (0 : Fin 256), (0 : Fin 256)]⟩⟩ := by
  intro _ _ b
  have hb : WellFormed b := ⟨by unfold ValidSize; decide, by decide⟩
  have hc : ValidSize ⟨3 - 1, 3 - 1, b.size.numChannels⟩ := by unfold ValidSize; decide
  refine ⟨hb, hc, ?_⟩
  obtain ⟨d, h1, h2, h3⟩ := C16_sub_window_copy .debug b ⟨0, 0, 2, 2⟩ ⟨1, 1, 3, 3⟩ hb rfl rfl hc
  have e0 := h3 1 1 0 (by decide) (by decide) (by decide)
  have e1 := h3 2 1 0 (by decide) (by decide) (by decide)
  have e2 := h3 1 2 0 (by decide) (by decide) (by decide)
  have e3 := h3 2 2 0 (by decide) (by decide) (by decide)
  rw [if_pos (by decide)] at e0
  rw [if_neg (by decide)] at e1 e2 e3
  have hd : d = [(4 : Fin 256), (0 : Fin 256), (0 : Fin 256), (0 : Fin 256)] := by
    apply List.ext_getElem?
    intro i
    match i with
    | 0 => exact e0
    | 1 => exact e1
    | 2 => exact e2
    | 3 => exact e3
    | n + 4 =>
      have hl : d.length = 4 := by
        have : (d.length : Int) = 4 := h2
        omega
      rw [List.getElem?_eq_none (by omega)]
      rfl
  rw [h1, hd]
  rfl

/-! ### C17 -/

/-- C17: after a resize the buffer holds exactly width*height*channels elements of the
requested type; if the type is unchanged the old prefix is kept and growth is white. -/
theorem C17_resize_same_type (p : Profile) (size0 size : BlockSize) (t : DType)
    (d : List (Elem F H t)) (hs : ValidSize size) :
    ∃ d', PixelBlock.dataResize p ⟨size0, ⟨t, d⟩⟩ size (.known t) = .ok ⟨size, ⟨t, d'⟩⟩ ∧
      (d'.length : Int) = size.width * size.height * size.numChannels ∧
      ∀ i, i < d'.length → d'[i]? = if i < d.length then d[i]? else some (whiteElem t) := by
  obtain ⟨g1, g2, g3, g4, g5, g6, g7, g8, g9, g10⟩ := hs.bounds
  have hsz := size_eq p size hs
  refine ⟨DataBlock.resizeList d (elements size).toNat (whiteElem t), ?_, ?_, ?_⟩
  · unfold PixelBlock.dataResize DataBlock.dataResize
    rw [hsz]
    simp only [bind, Except.bind, dite_true]
  · have : (DataBlock.resizeList d (elements size).toNat (whiteElem t)).length =
        (elements size).toNat := by
      simp only [DataBlock.resizeList, List.length_append, List.length_take,
        List.length_replicate]
      omega
    rw [this, Int.toNat_of_nonneg g9.le]
    rfl
  · intro i hi
    unfold DataBlock.resizeList at *
    simp only [List.length_append, List.length_take, List.length_replicate] at hi
    by_cases h : i < d.length
    · rw [if_pos h, List.getElem?_append_left (by simp only [List.length_take]; omega),
        List.getElem?_take_of_lt (by omega)]
    · rw [if_neg h, List.getElem?_append_right (by simp only [List.length_take]; omega),
        List.getElem?_replicate, if_pos (by simp only [List.length_take]; omega)]

/-- C17: changing the type gives a buffer of the new type and exactly the requested size. -/
theorem C17_resize_other_type (p : Profile) (b : PixelBlock F H) (size : BlockSize) (t : DType)
    (ht : b.block.dtype ≠ t) (hs : ValidSize size) :
    ∃ d', PixelBlock.dataResize p b size (.known t) = .ok ⟨size, ⟨t, d'⟩⟩ ∧
      (d'.length : Int) = size.width * size.height * size.numChannels ∧
      ∀ i, i < d'.length → d'[i]? = some (whiteElem t) := by
  obtain ⟨g1, g2, g3, g4, g5, g6, g7, g8, g9, g10⟩ := hs.bounds
  have hsz := size_eq p size hs
  refine ⟨List.replicate (elements size).toNat (whiteElem t), ?_, ?_, ?_⟩
  · unfold PixelBlock.dataResize DataBlock.dataResize
    rw [hsz]
    simp only [bind, Except.bind, dif_neg ht]
  · rw [List.length_replicate, Int.toNat_of_nonneg g9.le]
    rfl
  · intro i hi
    rw [List.length_replicate] at hi
    rw [List.getElem?_replicate, if_pos hi]

example :
    let _ := toyFloat
    let _ := toyHalf
    ValidSize ⟨2, 1, 2⟩ ∧
    PixelBlock.dataResize .debug (⟨⟨1, 1, 1⟩, ⟨.u8, [(7 : Fin 256)]⟩⟩ : PixelBlock Int Int) ⟨2, 1, 2⟩
      (.known .u8) =
      .ok ⟨⟨2, 1, 2⟩, ⟨.u8, [(7 : Fin 256), (255 : Fin 256), (255 : Fin 256), (255 : Fin 256)]⟩⟩ :=
  ⟨by unfold ValidSize; decide, rfl⟩

/-! ### C18 -/

/-- C18: conversion never changes the size of the block nor the number of elements, and the
result has the requested type. -/
theorem C18_convert_keeps_size (b : PixelBlock F H) (t : DType) :
    ∃ r, b.convert (.known t) = .ok r ∧ r.size = b.size ∧ r.block.dtype = t ∧
      r.block.data.length = b.block.data.length := by
  unfold PixelBlock.convert DataBlock.convert
  by_cases h : b.block.dtype = t
  · refine ⟨b, ?_, rfl, h, rfl⟩
    simp only [if_pos h, bind, Except.bind]
  · refine ⟨{ b with block := ⟨t, b.block.data.map (convElem b.block.dtype t)⟩ }, ?_, rfl, rfl, ?_⟩
    · simp only [if_neg h, bind, Except.bind]
    · simp

/-- C18: converting to the current type changes nothing. -/
theorem C18_convert_same (b : PixelBlock F H) : b.convert (.known b.block.dtype) = .ok b := by
  unfold PixelBlock.convert DataBlock.convert
  simp only [if_true, bind, Except.bind]

/-- C18: every element is converted on its own: element `i` of the result depends only on
element `i` of the source. -/
theorem C18_convert_pointwise (b b' : PixelBlock F H) (t : DType) (d d' : List (Elem F H t))
    (s s' : BlockSize) (a : DType) (e e' : List (Elem F H a))
    (hb : b.block = ⟨a, e⟩) (hb' : b'.block = ⟨a, e'⟩)
    (h : b.convert (.known t) = .ok ⟨s, ⟨t, d⟩⟩) (h' : b'.convert (.known t) = .ok ⟨s', ⟨t, d'⟩⟩)
    (i : Nat) (hi : e[i]? = e'[i]?) : d[i]? = d'[i]? := by
  obtain ⟨bs, bb⟩ := b
  obtain ⟨bs', bb'⟩ := b'
  simp only at hb hb'
  subst hb hb'
  unfold PixelBlock.convert DataBlock.convert at h h'
  by_cases hat : a = t
  · subst hat
    simp only [if_true, bind, Except.bind] at h h'
    simp only [Except.ok.injEq, PixelBlock.mk.injEq, DataBlock.mk.injEq, heq_eq_eq, true_and] at h h'
    rw [← h.2, ← h'.2]; exact hi
  · simp only [if_neg hat, bind, Except.bind] at h h'
    simp only [Except.ok.injEq, PixelBlock.mk.injEq, DataBlock.mk.injEq, heq_eq_eq, true_and] at h h'
    rw [← h.2, ← h'.2, List.getElem?_map, List.getElem?_map, hi]

example :
    let _ := toyFloat
    let _ := toyHalf
    ∃ r, PixelBlock.convert (⟨⟨1, 1, 2⟩, ⟨.u8, [(0 : Fin 256), (255 : Fin 256)]⟩⟩ : PixelBlock Int Int)
      (.known .u16) = .ok r ∧ r.block.data.length = 2 := ⟨_, rfl, rfl⟩

/-! ### C67 -/

/-- C67 (8-bit images): the byte view has one byte per stored byte.
Missing: all other types, see `C67_counterexample`. -/
theorem C67_byte_view_partial (d : DataBlock F H) (h : d.dtype = .u8) :
    byteViewLength d = d.sizeBytes := by
  unfold byteViewLength DataBlock.sizeBytes
  rw [h]
  simp [DType.sizeBytes]

example : (⟨.u8, [(7 : Fin 256), (8 : Fin 256)]⟩ : DataBlock F H).dtype = .u8 := rfl

/-- C67 is false for every non-empty image of another type: the byte view is strictly shorter
than the image data (a quarter of it for 32-bit floats). -/
theorem C67_counterexample (d : DataBlock F H) (h : d.dtype ≠ .u8) (hd : d.data ≠ []) :
    byteViewLength d < d.sizeBytes ∧ (d.dtype = .f32 → 4 * byteViewLength d = d.sizeBytes) := by
  have hl : 0 < d.data.length := List.length_pos_iff.mpr hd
  unfold byteViewLength DataBlock.sizeBytes DataBlock.len
  obtain ⟨t, data⟩ := d
  cases t <;> simp_all [DType.sizeBytes] <;> omega

/-! ### C68 -/

/-- C68 (32-bit float images and four-channel images): the reported number of channels per
pixel is the number the buffer layout uses.  Missing: 8-bit and 16-bit images with fewer
channels, see `C68_counterexample`. -/
theorem C68_stride_partial (nc : Int) (t : DType) (h0 : 0 ≤ nc) (h : t = .f32 ∨ nc = 4) :
    ∃ n, strideNumChannels nc (.known t) = .ok n ∧ (n : Int) = nc := by
  rcases h with rfl | rfl
  · exact ⟨_, rfl, by rw [asUsize_of_nonneg h0]; omega⟩
  · cases t <;> exact ⟨4, by first | rfl | (simp [strideNumChannels, asUsize]), rfl⟩

example : strideNumChannels 3 (.known .f32) = .ok 3 := by
  simp [strideNumChannels, asUsize]

/-- C68 is false for an 8-bit RGB image: the buffer has 3 elements per pixel, the reported
stride is 4. -/
theorem C68_counterexample :
    strideNumChannels 3 (.known .u8) = .ok 4 ∧
      (⟨2, 1, 3⟩ : BlockSize).getIndex .debug 1 0 = .ok 3 := by
  constructor
  · rfl
  · decide

end

end OCG.Props
