import Verif.Spec.Block
import Mathlib.Tactic.Ring
import Mathlib.Tactic.Linarith
import Mathlib.Tactic.Positivity
/-
Helper lemmas about block addressing.
-/

namespace OCG

open BlockSpec

theorem mul_bound {x w nc : Int} (h0 : 0 ≤ x) (h1 : x < w) (hn : 0 < nc) :
    0 ≤ x * nc ∧ x * nc + nc ≤ w * nc := by
  constructor
  · exact mul_nonneg h0 hn.le
  · have : (x + 1) * nc ≤ w * nc := mul_le_mul_of_nonneg_right (by omega) hn.le
    linarith [add_mul x 1 nc]

/-- Size facts of a valid block. -/
theorem BlockSpec.ValidSize.bounds {b : BlockSize} (h : ValidSize b) :
    0 < b.width * b.numChannels ∧ b.width * b.numChannels ≤ 2147483647 ∧
      b.width * b.height ≤ 2147483647 ∧ 0 < b.width * b.height ∧
      b.width ≤ 2147483647 ∧ b.height ≤ 2147483647 ∧ b.numChannels ≤ 2147483647 ∧
      b.height * (b.width * b.numChannels) = elements b ∧
      0 < elements b ∧ elements b ≤ 2147483647 := by
  obtain ⟨hw, hh, hn, hb⟩ := h
  have h1 : 0 < b.width * b.numChannels := mul_pos hw hn
  have h2 : 0 < b.width * b.height := mul_pos hw hh
  have e1 : b.height * (b.width * b.numChannels) = b.width * b.height * b.numChannels := by ring
  have h3 : b.width * b.numChannels ≤ b.height * (b.width * b.numChannels) :=
    le_mul_of_one_le_left h1.le (by omega)
  have h4 : b.width * b.height ≤ b.width * b.height * b.numChannels :=
    le_mul_of_one_le_right h2.le (by omega)
  have h5 : b.width ≤ b.width * b.height := le_mul_of_one_le_right hw.le (by omega)
  have h6 : b.height ≤ b.width * b.height := le_mul_of_one_le_left hh.le (by omega)
  have h7 : b.numChannels ≤ b.width * b.numChannels := le_mul_of_one_le_left hn.le (by omega)
  unfold elements
  refine ⟨h1, ?_, ?_, h2, ?_, ?_, ?_, e1, mul_pos h2 hn, hb⟩ <;> linarith

/-- The address of an in-range pixel. -/
theorem getIndex_eq (p : Profile) (b : BlockSize) (hv : ValidSize b) (x y : Int)
    (h : InBlock b x y) :
    b.getIndex p x y = .ok (y * (b.width * b.numChannels) + x * b.numChannels) ∧
      0 ≤ y * (b.width * b.numChannels) + x * b.numChannels ∧
      y * (b.width * b.numChannels) + x * b.numChannels + b.numChannels ≤ elements b := by
  obtain ⟨g1, g2, g3, g4, g5, g6, g7, g8, g9, g10⟩ := hv.bounds
  obtain ⟨hw, hh, hn, hb⟩ := hv
  obtain ⟨hx0, hx1, hy0, hy1⟩ := h
  obtain ⟨a1, a2⟩ := mul_bound hx0 hx1 hn
  obtain ⟨b1, b2⟩ := mul_bound hy0 hy1 g1
  obtain ⟨c1, c2⟩ := mul_bound (x := b.width - 1) (by omega) (by omega : b.width - 1 < b.width) hn
  obtain ⟨d1, d2⟩ := mul_bound (x := b.height - 1) (by omega)
    (by omega : b.height - 1 < b.height) g1
  have e1 : x * b.numChannels ≤ (b.width - 1) * b.numChannels :=
    mul_le_mul_of_nonneg_right (by omega) hn.le
  have e2 : y * (b.width * b.numChannels) ≤ (b.height - 1) * (b.width * b.numChannels) :=
    mul_le_mul_of_nonneg_right (by omega) g1.le
  refine ⟨?_, by linarith, by linarith⟩
  unfold BlockSize.getIndex OCG.getIndex
  dsimp only
  rw [i32_of (x := b.width * b.numChannels) (by unfold InI32; omega)]
  dsimp only [bind, Except.bind]
  rw [i32_of (x := x * b.numChannels) (by unfold InI32; omega)]
  dsimp only
  rw [i32_of (x := y * (b.width * b.numChannels)) (by unfold InI32; omega)]
  dsimp only
  rw [i32_of (x := b.width - 1) (by unfold InI32; omega)]
  dsimp only
  rw [i32_of (x := (b.width - 1) * b.numChannels) (by unfold InI32; omega)]
  dsimp only
  rw [i32_of (x := b.height - 1) (by unfold InI32; omega)]
  dsimp only
  rw [i32_of (x := (b.height - 1) * (b.width * b.numChannels)) (by unfold InI32; omega)]
  dsimp only
  rw [i32_of (x := x * b.numChannels + y * (b.width * b.numChannels)) (by unfold InI32; omega)]
  dsimp only
  rw [if_neg (by omega), add_comm]

/-- Out-of-range coordinates give -1 if the products do not overflow. -/
theorem getIndex_out (p : Profile) (b : BlockSize) (hv : ValidSize b) (x y : Int)
    (hx : InI32 (x * b.numChannels)) (hy : InI32 (y * (b.width * b.numChannels)))
    (hxy : InI32 (x * b.numChannels + y * (b.width * b.numChannels)))
    (h : ¬ InBlock b x y) : b.getIndex p x y = .ok (-1) := by
  obtain ⟨g1, g2, g3, g4, g5, g6, g7, g8, g9, g10⟩ := hv.bounds
  obtain ⟨hw, hh, hn, hb⟩ := hv
  obtain ⟨c1, c2⟩ := mul_bound (x := b.width - 1) (by omega) (by omega : b.width - 1 < b.width) hn
  obtain ⟨d1, d2⟩ := mul_bound (x := b.height - 1) (by omega)
    (by omega : b.height - 1 < b.height) g1
  unfold BlockSize.getIndex OCG.getIndex
  dsimp only
  rw [i32_of (x := b.width * b.numChannels) (by unfold InI32; omega)]
  dsimp only [bind, Except.bind]
  rw [i32_of hx]
  dsimp only
  rw [i32_of hy]
  dsimp only
  rw [i32_of (x := b.width - 1) (by unfold InI32; omega)]
  dsimp only
  rw [i32_of (x := (b.width - 1) * b.numChannels) (by unfold InI32; omega)]
  dsimp only
  rw [i32_of (x := b.height - 1) (by unfold InI32; omega)]
  dsimp only
  rw [i32_of (x := (b.height - 1) * (b.width * b.numChannels)) (by unfold InI32; omega)]
  dsimp only
  rw [i32_of hxy]
  dsimp only
  rw [if_pos]
  by_contra hc
  apply h
  push Not at hc
  obtain ⟨k1, k2, k3, k4⟩ := hc
  refine ⟨?_, ?_, ?_, ?_⟩
  · by_contra hx0
    have : x * b.numChannels < 0 := mul_neg_of_neg_of_pos (by omega) hn
    omega
  · have := le_of_mul_le_mul_right k2 hn
    omega
  · by_contra hy0
    have : y * (b.width * b.numChannels) < 0 := mul_neg_of_neg_of_pos (by omega) g1
    omega
  · have := le_of_mul_le_mul_right k4 g1
    omega

theorem size_eq (p : Profile) (b : BlockSize) (hv : ValidSize b) :
    b.size p = .ok (elements b).toNat := by
  obtain ⟨g1, g2, g3, g4, g5, g6, g7, g8, g9, g10⟩ := hv.bounds
  unfold BlockSize.size
  rw [i32_of (by unfold InI32; omega)]
  dsimp only [bind, Except.bind]
  unfold elements at g9 g10 ⊢
  rw [i32_of (by unfold InI32; omega)]
  dsimp only
  rw [asUsize_of_nonneg g9.le]

end OCG

namespace OCG

open BlockSpec BBoxSpec

/-- Element addresses are ordered like pixel numbers. -/
theorem idx_lt {a b nc c : Int} (h : a < b) (hc0 : 0 ≤ c) (hc : c < nc) :
    a * nc + c < b * nc := by
  have : (a + 1) * nc ≤ b * nc := mul_le_mul_of_nonneg_right (by omega) (by omega)
  linarith [add_mul a 1 nc]

theorem idx_le {a b nc c : Int} (h : a ≤ b) (hc0 : 0 ≤ c) (hn : 0 ≤ nc) :
    a * nc ≤ b * nc + c := by
  have : a * nc ≤ b * nc := mul_le_mul_of_nonneg_right h hn
  linarith

/-- An element lies in the range of row `y`, columns `[x0, x0+w)` exactly when its pixel
does. -/
theorem in_row_range {cw nc x0 w Y X Y' c : Int} (_hcw : 0 < cw) (hc0 : 0 ≤ c)
    (hc : c < nc) (hx0 : 0 ≤ x0) (_hw : 0 ≤ w) (hxw : x0 + w ≤ cw) (hX0 : 0 ≤ X) (hX : X < cw) :
    ((Y * cw + x0) * nc ≤ (Y' * cw + X) * nc + c ∧
      (Y' * cw + X) * nc + c < (Y * cw + x0) * nc + w * nc) ↔
    (Y' = Y ∧ x0 ≤ X ∧ X < x0 + w) := by
  have hn : 0 < nc := by omega
  have e : (Y * cw + x0) * nc + w * nc = (Y * cw + x0 + w) * nc := by ring
  rw [e]
  constructor
  · rintro ⟨h1, h2⟩
    have g1 : Y * cw + x0 ≤ Y' * cw + X := by
      by_contra hcon
      have := idx_lt (a := Y' * cw + X) (b := Y * cw + x0) (by omega) hc0 hc
      omega
    have g2 : Y' * cw + X < Y * cw + x0 + w := by
      by_contra hcon
      have := idx_le (a := Y * cw + x0 + w) (b := Y' * cw + X) (by omega) hc0 hn.le
      omega
    have hY : Y' = Y := by
      rcases lt_trichotomy Y' Y with h | h | h
      · exfalso
        have : (Y' + 1) * cw ≤ Y * cw := mul_le_mul_of_nonneg_right (by omega) (by omega)
        have e2 := add_mul Y' 1 cw
        omega
      · exact h
      · exfalso
        have : (Y + 1) * cw ≤ Y' * cw := mul_le_mul_of_nonneg_right (by omega) (by omega)
        have e2 := add_mul Y 1 cw
        omega
    subst hY
    omega
  · rintro ⟨rfl, h1, h2⟩
    exact ⟨idx_le (by omega) hc0 hn.le, idx_lt (by omega) hc0 hc⟩

/-- Reading a spliced list. -/
theorem copyRange_get {α : Type} (dst src : List α) (d0 d1 s0 s1 : Nat)
    (h : d0 ≤ d1 ∧ d1 ≤ dst.length ∧ s0 ≤ s1 ∧ s1 ≤ src.length ∧ d1 - d0 = s1 - s0) :
    ∃ r, copyRange dst d0 d1 src s0 s1 = .ok r ∧ r.length = dst.length ∧
      ∀ k, r[k]? = if d0 ≤ k ∧ k < d1 then src[s0 + (k - d0)]? else dst[k]? := by
  refine ⟨_, by unfold copyRange; rw [if_pos h], ?_, ?_⟩
  · simp only [List.length_append, List.length_take, List.length_drop]
    omega
  · intro k
    by_cases h1 : k < d0
    · rw [if_neg (by omega), List.append_assoc,
        List.getElem?_append_left (by simp only [List.length_take]; omega),
        List.getElem?_take_of_lt h1]
    · rw [List.append_assoc, List.getElem?_append_right (by simp only [List.length_take]; omega)]
      simp only [List.length_take, Nat.min_eq_left (show d0 ≤ dst.length by omega)]
      by_cases h2 : k < d1
      · rw [if_pos (by omega), List.getElem?_append_left
          (by simp only [List.length_take, List.length_drop]; omega),
          List.getElem?_take_of_lt (by omega), List.getElem?_drop]
      · rw [if_neg (by omega), List.getElem?_append_right
          (by simp only [List.length_take, List.length_drop]; omega), List.getElem?_drop]
        simp only [List.length_take, List.length_drop]
        congr 1
        omega

theorem uadd_small (p : Profile) {a b : Nat} (h : a + b < 4294967296) :
    uadd p a b = .ok (a + b) := by
  unfold uadd
  rw [if_pos]
  have := usizeMod_eq
  omega

/-- The scanline loop copies the rows of `diff`. -/
theorem copyRows_spec {α : Type} (p : Profile) (nc : Int) (data crop diff : BBox)
    (src : List α) (hnc : 0 < nc)
    (hd : ValidSize ⟨data.maxX - data.minX, data.maxY - data.minY, nc⟩)
    (hc : ValidSize ⟨crop.maxX - crop.minX, crop.maxY - crop.minY, nc⟩)
    (hin1 : Inside diff data) (hin2 : Inside diff crop)
    (hprop : diff.minX < diff.maxX)
    (hsrc : (src.length : Int) = elements ⟨data.maxX - data.minX, data.maxY - data.minY, nc⟩) :
    ∀ (n : Nat) (y : Int) (dst : List α), diff.minY ≤ y → y + n = diff.maxY →
      (dst.length : Int) = elements ⟨crop.maxX - crop.minX, crop.maxY - crop.minY, nc⟩ →
      ∃ r, copyRows p nc data crop diff src n y dst = .ok r ∧ r.length = dst.length ∧
        ∀ X Y c, Has crop X Y → 0 ≤ c → c < nc →
          channelAt ⟨crop.maxX - crop.minX, crop.maxY - crop.minY, nc⟩ r
              (X - crop.minX) (Y - crop.minY) c =
            if Has diff X Y ∧ y ≤ Y then
              channelAt ⟨data.maxX - data.minX, data.maxY - data.minY, nc⟩ src
                (X - data.minX) (Y - data.minY) c
            else channelAt ⟨crop.maxX - crop.minX, crop.maxY - crop.minY, nc⟩ dst
                (X - crop.minX) (Y - crop.minY) c := by
  intro n
  induction n with
  | zero =>
    intro y dst hy hn _
    refine ⟨dst, rfl, rfl, ?_⟩
    intro X Y c _ _ _
    rw [if_neg]
    unfold Has
    omega
  | succ n ih =>
    intro y dst hy hn hdst
    obtain ⟨g1, g2, g3, g4, g5, g6, g7, g8, g9, g10⟩ := hd.bounds
    obtain ⟨k1, k2, k3, k4, k5, k6, k7, k8, k9, k10⟩ := hc.bounds
    simp only at g1 g2 g3 g4 g5 g6 g7 g8 g9 g10 k1 k2 k3 k4 k5 k6 k7 k8 k9 k10
    unfold Inside at hin1 hin2
    obtain ⟨i1, i2, i3, i4⟩ := hin1
    obtain ⟨j1, j2, j3, j4⟩ := hin2
    -- abbreviations
    obtain ⟨W, hW⟩ : ∃ W, W = diff.maxX - diff.minX := ⟨_, rfl⟩
    obtain ⟨dW, hdW⟩ : ∃ W, W = data.maxX - data.minX := ⟨_, rfl⟩
    obtain ⟨cW, hcW⟩ : ∃ W, W = crop.maxX - crop.minX := ⟨_, rfl⟩
    obtain ⟨dH, hdH⟩ : ∃ W, W = data.maxY - data.minY := ⟨_, rfl⟩
    obtain ⟨cH, hcH⟩ : ∃ W, W = crop.maxY - crop.minY := ⟨_, rfl⟩
    obtain ⟨dx, hdx⟩ : ∃ W, W = diff.minX - crop.minX := ⟨_, rfl⟩
    obtain ⟨sx, hsx⟩ : ∃ W, W = diff.minX - data.minX := ⟨_, rfl⟩
    obtain ⟨dy, hdy⟩ : ∃ W, W = y - crop.minY := ⟨_, rfl⟩
    obtain ⟨sy, hsy⟩ : ∃ W, W = y - data.minY := ⟨_, rfl⟩
    simp only [← hdW, ← hdH] at hsrc g1 g2 g3 g4 g5 g6 g8 g9 g10
    simp only [← hcW, ← hcH] at hdst k1 k2 k3 k4 k5 k6 k8 k9 k10
    have m1 : (sx + W) * nc ≤ dW * nc := mul_le_mul_of_nonneg_right (by omega) hnc.le
    have m2 : 0 ≤ sx * nc := mul_nonneg (by omega) hnc.le
    have m3 : 0 < W * nc := mul_pos (by omega) hnc
    have m4 : sx * nc + W * nc = (sx + W) * nc := by ring
    -- destination
    have m5 : (dy + 1) * cW ≤ cH * cW := mul_le_mul_of_nonneg_right (by omega) (by omega)
    have m6 : cH * cW = cW * cH := by ring
    have m7 : 0 ≤ dy * cW := mul_nonneg (by omega) (by omega)
    have m8 : (dy + 1) * cW = dy * cW + cW := by ring
    have m9 : (dy * cW + dx + W) * nc ≤ (cW * cH) * nc :=
      mul_le_mul_of_nonneg_right (by omega) hnc.le
    have m10 : (dy * cW + dx + W) * nc = (dy * cW + dx) * nc + W * nc := by ring
    have m11 : 0 ≤ (dy * cW + dx) * nc := mul_nonneg (by omega) hnc.le
    -- source
    have q5 : (sy + 1) * dW ≤ dH * dW := mul_le_mul_of_nonneg_right (by omega) (by omega)
    have q6 : dH * dW = dW * dH := by ring
    have q7 : 0 ≤ sy * dW := mul_nonneg (by omega) (by omega)
    have q8 : (sy + 1) * dW = sy * dW + dW := by ring
    have q9 : (sy * dW + sx + W) * nc ≤ (dW * dH) * nc :=
      mul_le_mul_of_nonneg_right (by omega) hnc.le
    have q10 : (sy * dW + sx + W) * nc = sy * dW * nc + sx * nc + W * nc := by ring
    have q11 : 0 ≤ sy * dW * nc := mul_nonneg q7 hnc.le
    unfold elements at g9 g10 k9 k10 hsrc hdst
    simp only at g9 g10 k9 k10 hsrc hdst
    unfold copyRows
    unfold BBox.width
    rw [← hdx, ← hsx, ← hW, ← hdy, ← hcW, ← hsy, ← hdW]
    rw [i32_of (x := dx) (by unfold InI32; omega), i32_of (x := sx) (by unfold InI32; omega)]
    dsimp only [bind, Except.bind]
    rw [i32_of (x := sx * nc) (by unfold InI32; omega), i32_of (x := W) (by unfold InI32; omega)]
    dsimp only
    rw [i32_of (x := W * nc) (by unfold InI32; omega)]
    dsimp only
    rw [i32_of (x := sx * nc + W * nc) (by unfold InI32; omega),
      i32_of (x := dy) (by unfold InI32; omega), i32_of (x := cW) (by unfold InI32; omega)]
    dsimp only
    rw [i32_of (x := dy * cW) (by unfold InI32; omega)]
    dsimp only
    rw [i32_of (x := dy * cW + dx) (by unfold InI32; omega)]
    dsimp only
    rw [i32_of (x := (dy * cW + dx) * nc) (by unfold InI32; omega)]
    dsimp only
    rw [asUsize_of_nonneg m11, asUsize_of_nonneg m3.le, uadd_small p (by omega)]
    dsimp only
    rw [i32_of (x := sy) (by unfold InI32; omega), i32_of (x := dW) (by unfold InI32; omega)]
    dsimp only
    rw [i32_of (x := sy * dW) (by unfold InI32; omega)]
    dsimp only
    rw [i32_of (x := sy * dW * nc) (by unfold InI32; omega)]
    dsimp only
    rw [asUsize_of_nonneg q11, asUsize_of_nonneg m2,
      asUsize_of_nonneg (show 0 ≤ sx * nc + W * nc by omega), uadd_small p (by omega)]
    dsimp only
    rw [uadd_small p (by omega)]
    dsimp only
    obtain ⟨dst', e1, e2, e3⟩ := copyRange_get dst src ((dy * cW + dx) * nc).toNat
      (((dy * cW + dx) * nc).toNat + (W * nc).toNat)
      ((sy * dW * nc).toNat + (sx * nc).toNat)
      ((sy * dW * nc).toNat + (sx * nc + W * nc).toNat) (by omega)
    rw [e1]
    dsimp only
    obtain ⟨r, r1, r2, r3⟩ := ih (y + 1) dst' (by omega) (by push_cast at hn; omega)
      (by rw [e2]; unfold elements; simp only; rw [← hcW, ← hcH]; exact hdst)
    refine ⟨r, r1, by rw [r2, e2], ?_⟩
    intro X Y c hX hc0 hcn
    have hr := r3 X Y c hX hc0 hcn
    simp only [← hcW, ← hdW] at hr
    rw [hr]
    by_cases hY : Has diff X Y ∧ y + 1 ≤ Y
    · rw [if_pos hY, if_pos ⟨hY.1, by omega⟩]
    · rw [if_neg hY]
      unfold Has at hX hY
      unfold channelAt
      simp only
      rw [e3]
      have key := in_row_range (cw := cW) (nc := nc) (x0 := dx) (w := W) (Y := dy)
        (X := X - crop.minX) (Y' := Y - crop.minY) (c := c) (by omega) hc0 hcn (by omega)
        (by omega) (by omega) (by omega) (by omega)
      have nn : 0 ≤ ((Y - crop.minY) * cW + (X - crop.minX)) * nc + c := by
        have a1 : 0 ≤ (Y - crop.minY) * cW := mul_nonneg (by omega) (by omega)
        have a2 : 0 ≤ ((Y - crop.minY) * cW + (X - crop.minX)) * nc :=
          mul_nonneg (by omega) hnc.le
        omega
      by_cases hk : Y - crop.minY = dy ∧ dx ≤ X - crop.minX ∧ X - crop.minX < dx + W
      · have hk' := key.mpr hk
        rw [if_pos (by omega), if_pos (by unfold Has; omega)]
        congr 1
        have z1 : Y - data.minY = sy := by omega
        have z2 : (sy * dW + (X - data.minX)) * nc + c =
            sy * dW * nc + sx * nc +
              (((Y - crop.minY) * cW + (X - crop.minX)) * nc + c - (dy * cW + dx) * nc) := by
          rw [hk.1]
          have : X - data.minX = sx + (X - crop.minX - dx) := by omega
          rw [this]
          ring
        rw [z1, z2]
        omega
      · have hk' := mt key.mp hk
        rw [if_neg (by omega), if_neg (by unfold Has; omega)]

end OCG
