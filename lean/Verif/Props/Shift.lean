import Verif.Spec.Shift
import Verif.Props.IeeeTransform
import Verif.Props.MatrixError
import Verif.Props.Precomp
/-
C149: translations by whole pixels move the picture, pixel by pixel, whatever their order.
-/

namespace OCG.Props

open IeeeSpec PixelSpec BlockSpec RemapSpec DeformSpec PictureSpec ShiftSpec BBoxSpec ImageSpecs
open Ieee hiding floor ceil round

/-! ### The matrix -/

theorem unitMat_cases (k j : Fin 4) : unitMat k j = 0 ∨ unitMat k j = 1 := by
  unfold unitMat
  split <;> simp

/-- What a transform that only translates computes, looking back. -/
theorem translate_point {F : Type} [FloatLike F] [FloatConst F] (lib : DeformLib F)
    (x0 y0 x1 y1 : Int) (invert : Int) (tx ty x y : F) {m : Mat4 F}
    (e : Xform.transform2d .srt
      (Interp.inverseLerp (FloatLike.ofInt x0) (FloatLike.ofInt x1) tx)
      (Interp.inverseLerp (FloatLike.ofInt x0) (FloatLike.ofInt x1) ty) 0 0 0 1 1 = .ok m) :
    Deformer.point lib (BBoxF.ofBBox ⟨x0, y0, x1, y1⟩) true (.transform
        { TransformDeformer.default with invert := invert, translateX := tx, translateY := ty }) x y =
      .ok (Xform.mulVec (if invert = 0 then (lib.tryInverse m).getD m else m)
          (Xform.vec (x - 1 / FloatLike.ofInt 2) (y - 1 / FloatLike.ofInt 2) 0 1) 0 +
            1 / FloatLike.ofInt 2,
        Xform.mulVec (if invert = 0 then (lib.tryInverse m).getD m else m)
          (Xform.vec (x - 1 / FloatLike.ofInt 2) (y - 1 / FloatLike.ofInt 2) 0 1) 1 +
            1 / FloatLike.ofInt 2) := by
  unfold Deformer.point TransformDeformer.apply TransformDeformer.default
  refine Res.bind_ok.mpr ⟨m, e, congrArg Except.ok ?_⟩
  dsimp only
  by_cases h0 : invert = 0
  · cases h : lib.tryInverse m <;> simp [h0]
  · simp [h0]

section
variable [Libm single32]

theorem mul_unit_right {m n : Mat4 F32} {a : Fin 4 → Fin 4 → Int} (hm : StandsMat m a)
    (ha : ∀ i j, (a i j).natAbs ≤ 2 ^ 24) (hn : StandsMat n unitMat) :
    StandsMat (Xform.mul m n) a := by
  intro i j
  unfold Xform.mul
  rw [op_add, op_add, op_add, op_mul, op_mul, op_mul, op_mul]
  have h := fun k => (hm i k).mul (hn k j) (by
    have := ha i k
    rcases unitMat_cases k j with e | e <;> rw [e] <;> omega)
  have b0 := ha i 0
  have b1 := ha i 1
  have b2 := ha i 2
  have b3 := ha i 3
  have h0 := h 0
  have h1 := h 1
  have h2 := h 2
  have h3 := h 3
  clear h
  have u : ∀ k, unitMat k j = if k = j then 1 else 0 := fun _ => rfl
  have := ((h0.add h1 (by
      fin_cases j <;> simp [unitMat] <;> omega)).add h2 (by
      fin_cases j <;> simp [unitMat] <;> omega)).add h3 (by
      fin_cases j <;> simp [unitMat] <;> omega)
  have e : a i 0 * unitMat 0 j + a i 1 * unitMat 1 j + a i 2 * unitMat 2 j +
      a i 3 * unitMat 3 j = a i j := by
    fin_cases j <;> simp [unitMat]
  rwa [e] at this

omit [Libm single32] in
theorem shiftMat_bound {k l : Int} (hk : k.natAbs ≤ 2 ^ 22) (hl : l.natAbs ≤ 2 ^ 22) (i j : Fin 4) :
    (shiftMat k l i j).natAbs ≤ 2 ^ 24 := by
  unfold shiftMat
  split
  · decide
  split
  · omega
  split
  · omega
  · decide

/-- The matrix of a transform that only translates. -/
theorem transform_shift (ht : TrigAtZero) {tx ty : F32} {k l : Int} (htx : Stands tx k)
    (hty : Stands ty l) (hk : k.natAbs ≤ 2 ^ 22) (hl : l.natAbs ≤ 2 ^ 22) :
    ∃ m, Xform.transform2d .srt tx ty 0 0 0 1 1 = .ok m ∧ IsShift m k l := by
  have z : Stands (0 : F32) (0 : Int) := by rw [op_zero]; exact Stands.of_code (zero_code _)
  have o : Stands (1 : F32) (1 : Int) := by rw [op_one]; exact stands_ofInt (by decide)
  refine ⟨_, rfl, ?_⟩
  refine mul_unit_right (a := shiftMat k l) (mul_unit_right (a := shiftMat k l) ?_
    (shiftMat_bound hk hl) ?_) (shiftMat_bound hk hl) ?_
  · intro i j
    unfold Xform.translate2d Xform.mk
    fin_cases i <;> fin_cases j <;> first | exact o | exact z | exact htx | exact hty
  · have hpi : IsFinite (FloatConst.pi : F32) := by rw [finite_iff]; decide +kernel
    have hr : ((0 : F32) * FloatConst.pi / FloatLike.ofInt 180).code = 0 := by
      rw [op_div, op_mul, op_ofInt]
      exact ((z.zero_mul hpi).zero_div (stands_ofInt (n := 180) (by decide)) (by norm_num)).code
    have hc : Stands (FloatLike.cos ((0 : F32) * FloatConst.pi / FloatLike.ofInt 180)) (1 : Int) := by
      rw [op_cos, ht.cos _ hr]; exact stands_ofInt (by decide)
    have hs : Stands (FloatLike.sin ((0 : F32) * FloatConst.pi / FloatLike.ofInt 180)) (0 : Int) := by
      rw [op_sin]; exact Stands.of_code (ht.sin _ hr)
    intro i j
    unfold Xform.rotate2d Xform.mk
    generalize FloatLike.cos ((0 : F32) * FloatConst.pi / FloatLike.ofInt 180) = c at *
    generalize FloatLike.sin ((0 : F32) * FloatConst.pi / FloatLike.ofInt 180) = s at *
    have h1 : Stands ((0 : F32) * (1 - c) + 0 * s) (0 : Int) := by
      rw [op_add, op_mul, op_mul, op_sub]
      exact (z.mul (o.sub hc (by decide)) (by decide)).add (z.mul hs (by decide)) (by decide)
    have h2 : Stands ((0 : F32) * (1 - c) - 0 * s) (0 : Int) := by
      rw [op_sub, op_mul, op_mul, op_sub]
      exact (z.mul (o.sub hc (by decide)) (by decide)).sub (z.mul hs (by decide)) (by decide)
    have h3 : Stands (-s) (0 : Int) := by rw [op_neg]; exact hs.opp
    fin_cases i <;> fin_cases j <;>
      first | exact o | exact z | exact hc | exact hs | exact h3 | exact h1 | exact h2
  · intro i j
    unfold Xform.scale2d Xform.mk
    fin_cases i <;> fin_cases j <;> first | exact o | exact z

/-- The matrix moves whole coordinates. -/
theorem mulVec_shift {m : Mat4 F32} {k l : Int} (hm : IsShift m k l) (hk : k.natAbs ≤ 2 ^ 22)
    (hl : l.natAbs ≤ 2 ^ 22) {x y : F32} {i j : Int} (hx : Stands x i) (hy : Stands y j)
    (hi : i.natAbs ≤ 2 ^ 22) (hj : j.natAbs ≤ 2 ^ 22) :
    Stands (Xform.mulVec m (Xform.vec x y 0 1) 0) (i + k : Int) ∧
      Stands (Xform.mulVec m (Xform.vec x y 0 1) 1) (j + l : Int) := by
  have z : Stands (0 : F32) (0 : Int) := by rw [op_zero]; exact Stands.of_code (zero_code _)
  have o : Stands (1 : F32) (1 : Int) := by rw [op_one]; exact stands_ofInt (by decide)
  have h : ∀ i j, Stands (m i j) (shiftMat k l i j : Int) := hm
  have e00 : Stands (m 0 0) (1 : Int) := h 0 0
  have e01 : Stands (m 0 1) (0 : Int) := h 0 1
  have e02 : Stands (m 0 2) (0 : Int) := h 0 2
  have e03 : Stands (m 0 3) (k : Int) := h 0 3
  have e10 : Stands (m 1 0) (0 : Int) := h 1 0
  have e11 : Stands (m 1 1) (1 : Int) := h 1 1
  have e12 : Stands (m 1 2) (0 : Int) := h 1 2
  have e13 : Stands (m 1 3) (l : Int) := h 1 3
  unfold Xform.mulVec Xform.vec
  rw [op_add, op_add, op_add, op_mul, op_mul, op_mul, op_mul]
  rw [op_add, op_add, op_add, op_mul, op_mul, op_mul, op_mul]
  constructor
  · have := (((e00.mul hx (by omega)).add (e01.mul hy (by omega)) (by omega)).add
      (e02.mul z (by omega)) (by omega)).add (e03.mul o (by omega)) (by omega)
    rwa [show 1 * i + 0 * j + 0 * 0 + k * 1 = i + k by ring] at this
  · have := (((e10.mul hx (by omega)).add (e11.mul hy (by omega)) (by omega)).add
      (e12.mul z (by omega)) (by omega)).add (e13.mul o (by omega)) (by omega)
    rwa [show 0 * i + 1 * j + 0 * 0 + l * 1 = j + l by ring] at this

/-- A whole number of widths, divided by the width. -/
theorem shift_offset {w k : Int} (hw0 : 0 < w) (hw : w ≤ 2 ^ 22) (hk : k.natAbs ≤ 2 ^ 22) {t : F32}
    (ht : Stands t (k * w : Int)) :
    Stands (Interp.inverseLerp (FloatLike.ofInt 0) (FloatLike.ofInt w) t : F32) k := by
  rw [inverseLerp_eq, op_div, op_sub, op_sub, op_ofInt, op_ofInt]
  obtain ⟨z1, z2⟩ := int_single (n := 0) (by decide)
  obtain ⟨w1, w2⟩ := int_single (n := w) (by omega)
  obtain ⟨k1, k2⟩ := int_single (n := k) (by omega)
  have hwq : (w : ℚ) ≠ 0 := by exact_mod_cast hw0.ne'
  have a := (rounds_sub ht.1 z1).exact ht.1 (by rw [z2]; push_cast; ring)
  have b := (rounds_sub w1 z1).exact w1 (by rw [z2]; push_cast; ring)
  have := (rounds_div a.1 b.1 (by rw [b.2.2, w2]; exact hwq)).exact k1 (by
    rw [a.2.2, b.2.2, w2, ht.2, k2]
    push_cast
    field_simp)
  exact ⟨this.1, by rw [this.2.2, k2]⟩

omit [Libm single32] in
/-- The centres of the pixels, also of those left of the origin. -/
theorem centre_signed {k : Int} (h : k.natAbs < 2 ^ 22) :
    ∃ y : F32, Stands y ((k : ℚ) + 1 / 2) := by
  rcases le_or_gt 0 k with h0 | h0
  · exact ⟨_, centre_single h0 (by omega)⟩
  · obtain ⟨a, b⟩ := centre_single (k := -k - 1) (by omega) (by omega)
    refine ⟨_, finite_opp a, ?_⟩
    rw [val_opp, b]
    push_cast
    ring

/-- Where a translation by whole pixels takes the centre of a pixel, looking back. -/
theorem shift_point (ht : TrigAtZero) {lib : DeformLib F32} (hinv : InvertsShifts lib) {w : Int}
    (hw0 : 0 < w) (hw : w ≤ 2 ^ 22) (y0 y1 : Int) {d : Deformer F32} {s : Int × Int}
    (hd : ShiftsBy w d s) (hk : s.1.natAbs ≤ 2 ^ 22) (hl : s.2.natAbs ≤ 2 ^ 22) {x y : F32} {i j : Int}
    (hx : Stands x ((i : ℚ) + 1 / 2)) (hy : Stands y ((j : ℚ) + 1 / 2))
    (hi : i.natAbs < 2 ^ 22) (hj : j.natAbs < 2 ^ 22)
    (hi' : (i - s.1).natAbs < 2 ^ 22) (hj' : (j - s.2).natAbs < 2 ^ 22) :
    ∃ q : F32 × F32, d.point lib (BBoxF.ofBBox ⟨0, y0, w, y1⟩) true x y = .ok q ∧
      Stands q.1 (((i - s.1 : Int) : ℚ) + 1 / 2) ∧ Stands q.2 (((j - s.2 : Int) : ℚ) + 1 / 2) := by
  obtain ⟨t, rfl, fx, vx, fy, vy⟩ := hd.shape
  obtain ⟨k, l⟩ := s
  dsimp only at *
  have htx := shift_offset (k := if t.invert = 0 then k else -k) hw0 hw (by split <;> omega) ⟨fx, vx⟩
  have hty := shift_offset (k := if t.invert = 0 then l else -l) hw0 hw (by split <;> omega) ⟨fy, vy⟩
  obtain ⟨m, e, hm⟩ := transform_shift ht htx hty (by split <;> omega) (by split <;> omega)
  obtain ⟨v, ev, hv⟩ : ∃ v : Mat4 F32, (if t.invert = 0 then (lib.tryInverse m).getD m
      else m) = v ∧ IsShift v (-k) (-l) := by
    by_cases h0 : t.invert = 0
    · rw [if_pos h0, if_pos h0] at hm
      obtain ⟨v, e, hv⟩ := hinv m k l hk hl hm
      exact ⟨v, by rw [if_pos h0, e]; rfl, hv⟩
    · rw [if_neg h0, if_neg h0] at hm
      exact ⟨m, if_neg h0, hm⟩
  obtain ⟨half1, half2⟩ := half_single
  have corner : ∀ {x : F32} {i : Int}, Stands x ((i : ℚ) + 1 / 2) → i.natAbs < 2 ^ 22 →
      Stands (x - 1 / FloatLike.ofInt 2) i := by
    intro x i hx hi
    rw [op_sub, op_div, op_one, op_ofInt]
    obtain ⟨a1, a2⟩ := int_single (n := i) (by omega)
    have := (rounds_sub hx.1 half1).exact a1 (by rw [hx.2, half2, a2]; ring)
    exact ⟨this.1, by rw [this.2.2, a2]⟩
  have back : ∀ {x : F32} {i : Int}, Stands x i → i.natAbs < 2 ^ 22 →
      Stands (x + 1 / FloatLike.ofInt 2) ((i : ℚ) + 1 / 2) := by
    intro x i hx hi
    rw [op_add, op_div, op_one, op_ofInt]
    obtain ⟨y, y1, y2⟩ := centre_signed hi
    have := (rounds_add hx.1 half1).exact y1 (by rw [hx.2, half2, y2])
    exact ⟨this.1, by rw [this.2.2, y2]⟩
  obtain ⟨r0, r1⟩ := mulVec_shift hv (by omega) (by omega) (corner hx hi) (corner hy hj) (by omega)
    (by omega)
  refine ⟨(Xform.mulVec v (Xform.vec (x - 1 / FloatLike.ofInt 2) (y - 1 / FloatLike.ofInt 2) 0 1) 0 +
      1 / FloatLike.ofInt 2,
    Xform.mulVec v (Xform.vec (x - 1 / FloatLike.ofInt 2) (y - 1 / FloatLike.ofInt 2) 0 1) 1 +
      1 / FloatLike.ofInt 2), ?_, ?_, ?_⟩
  · rw [translate_point lib 0 y0 w y1 t.invert _ _ x y e, ev]
  · exact back (by rw [sub_eq_add_neg]; exact r0) hi'
  · exact back (by rw [sub_eq_add_neg]; exact r1) hj'

/-! ### The pixel that is seen -/

theorem pick_outside {n : Int} (hn0 : 0 < n) (hn : n ≤ 2 ^ 22) {x : F32} {i : Int}
    (hx : Stands x ((i : ℚ) + 1 / 2)) (hi : i.natAbs < 2 ^ 22) (ho : i < 0 ∨ n ≤ i) :
    pick n 0 n 0 n x = if i < 0 then 0 else n - 1 := by
  rw [pick_ieee]
  obtain ⟨c1, c2⟩ := hx
  obtain ⟨z1, z2⟩ := int_single (n := 0) (by decide)
  obtain ⟨s1, s2⟩ := int_single (n := n) (by omega)
  obtain ⟨n1, n2⟩ := int_single (n := n - 1) (by omega)
  obtain ⟨o1, o2⟩ := int_single (n := 1) (by decide)
  have hz : (ofInt 0 : F32).code = 0 := (Stands.code (x := ofInt 0) ⟨z1, z2⟩)
  have hnq : (1 : ℚ) ≤ n := by exact_mod_cast hn0
  have hnq' : (n : ℚ) ≤ 2 ^ 22 := by exact_mod_cast hn
  have hi1 : (i : ℚ) ≤ 2 ^ 22 := by exact_mod_cast (show i ≤ 2 ^ 22 by omega)
  have hi2 : -(2 ^ 22 : ℚ) ≤ i := by exact_mod_cast (show -(2 ^ 22 : Int) ≤ i by omega)
  have a := (rounds_sub c1 z1).exact c1 (by rw [z2]; push_cast; ring)
  have b := (rounds_sub s1 z1).exact s1 (by rw [z2]; push_cast; ring)
  have hd := rounds_div a.1 b.1 (by rw [b.2.2, s2]; positivity)
  rw [a.2.2, b.2.2, s2, c2] at hd
  generalize (div (sub x (ofInt 0)) (sub (ofInt n) (ofInt 0)) : F32) = t at *
  have hq : |((i : ℚ) + 1 / 2) / n| ≤ 2 ^ 23 := by
    rw [abs_div, abs_of_pos (show (0 : ℚ) < n by linarith), div_le_iff₀ (by linarith)]
    have : |(i : ℚ) + 1 / 2| ≤ 2 ^ 23 := by
      rw [abs_le]; constructor <;> norm_num at * <;> linarith
    nlinarith
  obtain ⟨t1, -⟩ := rounds_bounded hd hq (by norm_num)
  have tb : |val t| ≤ 2 ^ 24 := t1.2.trans (by norm_num)
  have u1 : IsFinite (sub (ofInt 1) t : F32) := by
    have := rounds_bounded (rounds_sub o1 t1.1) (M := 2 ^ 25) (by
      rw [o2]
      rw [abs_le] at tb ⊢
      constructor <;> push_cast <;> norm_num at * <;> linarith [tb.1, tb.2]) (by norm_num)
    exact this.1.1
  have hp := rounds_mul t1.1 n1
  rw [n2] at hp
  have pf : IsFinite (mul t (ofInt (n - 1)) : F32) := by
    have := rounds_bounded hp (M := 2 ^ 46) (by
      rw [abs_mul]
      have : |((n - 1 : Int) : ℚ)| ≤ 2 ^ 22 := by
        rw [abs_le]; push_cast; constructor <;> norm_num at * <;> linarith
      calc _ ≤ (2 ^ 24 : ℚ) * 2 ^ 22 := mul_le_mul tb this (abs_nonneg _) (by positivity)
        _ = 2 ^ 46 := by norm_num) (by norm_num)
    exact this.1.1
  have hs := zero_add_same ok_single pf (mul_zero_code ok_single u1 hz)
  rw [toRange_round ok_single hs.1]
  have hc := roundInt_close (add (mul (sub (ofInt 1) t) (ofInt 0)) (mul t (ofInt (n - 1))) : F32)
  rw [hs.2.2] at hc
  generalize roundInt (add (mul (sub (ofInt 1) t) (ofInt 0)) (mul t (ofInt (n - 1))) : F32) = r at *
  generalize (mul t (ofInt (n - 1)) : F32) = v at *
  rw [abs_le] at hc
  rcases ho with h | h
  · have hneg : (i : ℚ) + 1 ≤ 0 := by exact_mod_cast (show i + 1 ≤ 0 by omega)
    have ht : val t ≤ 0 := by
      have := hd.le (y := ofInt 0) t1.1 (by
        rw [z2]; push_cast
        exact div_nonpos_of_nonpos_of_nonneg (by linarith) (by linarith))
      rw [z2] at this; exact_mod_cast this
    have hv : val v ≤ 0 := by
      have := hp.le (y := ofInt 0) pf (by
        rw [z2]; push_cast
        exact mul_nonpos_of_nonpos_of_nonneg ht (by linarith))
      rw [z2] at this; exact_mod_cast this
    have hr : r ≤ 0 := by
      by_contra hr
      have : (1 : ℚ) ≤ r := by exact_mod_cast (show 1 ≤ r by omega)
      linarith [hc.1]
    rw [if_pos h]
    omega
  · have hpos : (n : ℚ) ≤ i := by exact_mod_cast h
    have ht : 1 ≤ val t := by
      have := hd.ge (y := ofInt 1) t1.1 (by
        rw [o2]; push_cast
        rw [le_div_iff₀ (by linarith)]; linarith)
      rw [o2] at this; exact_mod_cast this
    have hv : ((n - 1 : Int) : ℚ) ≤ val v := by
      have := hp.ge (y := ofInt (n - 1)) pf (by
        rw [n2]; push_cast; nlinarith)
      rwa [n2] at this
    have hr : n - 1 ≤ r := by
      by_contra hr
      have : (r : ℚ) + 1 ≤ ((n - 1 : Int) : ℚ) := by exact_mod_cast (show r + 1 ≤ n - 1 by omega)
      linarith [hc.2]
    rw [if_neg (by omega)]
    omega

theorem pick_nearest_shift {n : Int} (hn0 : 0 < n) (hn : n ≤ 2 ^ 22) {x : F32} {i : Int}
    (hx : Stands x ((i : ℚ) + 1 / 2)) (hi : i.natAbs < 2 ^ 22) :
    pick n 0 n 0 n x = closest n i := by
  unfold closest
  rcases lt_or_ge i 0 with h | h
  · rw [pick_outside hn0 hn hx hi (.inl h), if_pos h, if_pos h]
  rcases lt_or_ge i n with h' | h'
  · rw [if_neg (by omega), if_neg (by omega)]
    obtain ⟨c1, c2⟩ := centre_single h (by omega)
    have hk : (0 : ℚ) ≤ i := by exact_mod_cast h
    rw [same_eq (x := x) (y := add (ofInt i) (div (ofInt 1) (ofInt 2)))
      ⟨hx.1, c1, by rw [hx.2, c2]⟩ (by rw [c2]; positivity), ← centre_ieee]
    exact centre_pick hn h h'
  · rw [pick_outside hn0 hn hx hi (.inr h'), if_neg (by omega), if_neg (by omega), if_pos h']

/-! ### Several moves -/

omit [Libm single32] in
theorem way_nonneg (s : List (Int × Int)) : 0 ≤ wayX s ∧ 0 ≤ wayY s := by
  unfold wayX wayY
  induction s with
  | nil => simp
  | cons a s ih =>
    simp only [List.map_cons, List.sum_cons]
    exact ⟨add_nonneg (abs_nonneg _) ih.1, add_nonneg (abs_nonneg _) ih.2⟩

/-- Where translations by whole pixels, one after another, take the centre of a pixel, looking back:
there is such a place, and only one. -/
theorem shifts_point (ht : TrigAtZero) {lib : DeformLib F32} (hinv : InvertsShifts lib) {w : Int}
    (hw0 : 0 < w) (hw : w ≤ 2 ^ 22) (y0 y1 : Int) {ds : List (Deformer F32)} {s : List (Int × Int)}
    (hd : List.Forall₂ (ShiftsBy w) ds s) :
    ∀ {x y : F32} {i j : Int}, Stands x ((i : ℚ) + 1 / 2) → Stands y ((j : ℚ) + 1 / 2) →
      i.natAbs + wayX s < 2 ^ 22 → j.natAbs + wayY s < 2 ^ 22 →
      ∃ q : F32 × F32, Carried lib (BBoxF.ofBBox ⟨0, y0, w, y1⟩) true ds (x, y) q ∧
        (∀ q', Carried lib (BBoxF.ofBBox ⟨0, y0, w, y1⟩) true ds (x, y) q' → q' = q) ∧
        Stands q.1 (((i - totalX s : Int) : ℚ) + 1 / 2) ∧
        Stands q.2 (((j - totalY s : Int) : ℚ) + 1 / 2) ∧
        (i - totalX s).natAbs < 2 ^ 22 ∧ (j - totalY s).natAbs < 2 ^ 22 := by
  induction hd with
  | nil =>
    intro x y i j hx hy hi hj
    have e : wayX [] = 0 := rfl
    have e' : wayY [] = 0 := rfl
    have f : totalX [] = 0 := rfl
    have f' : totalY [] = 0 := rfl
    rw [e] at hi
    rw [e'] at hj
    rw [f, f', sub_zero, sub_zero]
    refine ⟨(x, y), .nil, ?_, hx, hy, by omega, by omega⟩
    intro q' h
    cases h
    rfl
  | @cons d a ds s h _ ih =>
    intro x y i j hx hy hi hj
    have e : wayX (a :: s) = |a.1| + wayX s := by simp [wayX]
    have e' : wayY (a :: s) = |a.2| + wayY s := by simp [wayY]
    have f : totalX (a :: s) = a.1 + totalX s := by simp [totalX]
    have f' : totalY (a :: s) = a.2 + totalY s := by simp [totalY]
    obtain ⟨n1, n2⟩ := way_nonneg s
    rw [e, Int.abs_eq_natAbs] at hi
    rw [e', Int.abs_eq_natAbs] at hj
    obtain ⟨q, hq, q1, q2⟩ := shift_point ht hinv hw0 hw y0 y1 h (by omega) (by omega) hx hy (by omega)
      (by omega) (by omega) (by omega)
    obtain ⟨r, hr, hu, r1, r2, b1, b2⟩ := ih q1 q2 (by omega) (by omega)
    have on : d.enable = 1 := by
      obtain ⟨t, rfl, -⟩ := h.shape
      rfl
    rw [f, f', show i - (a.1 + totalX s) = i - a.1 - totalX s by ring,
      show j - (a.2 + totalY s) = j - a.2 - totalY s by ring]
    refine ⟨r, .on on hq hr, ?_, r1, r2, b1, b2⟩
    intro q' h'
    cases h' with
    | off h0 _ => exact absurd on h0
    | on _ e h'' =>
      have := Except.ok.inj (hq.symm.trans e)
      rw [← this] at h''
      exact hu _ h''

/-! ### The picture -/

theorem boxed_shifts {lib : DeformLib F32} {window b : BBoxF F32} {w : Int} {ds : List (Deformer F32)}
    {s : List (Int × Int)} (h : List.Forall₂ (ShiftsBy w) ds s) :
    Boxed lib window ds b b ∧ ∀ c, Boxed lib window ds b c → c = b := by
  induction h with
  | nil =>
    refine ⟨.nil, fun c hc => ?_⟩
    cases hc
    rfl
  | cons h _ ih =>
    obtain ⟨t, rfl, -⟩ := h.shape
    refine ⟨.on rfl rfl ih.1, fun c hc => ?_⟩
    cases hc with
    | off h0 _ => exact absurd rfl h0
    | on _ e h' =>
      cases e
      exact ih.2 _ h'

theorem fits_positive {w h : Int} {ds : List (Deformer F32)} {s : List (Int × Int)}
    {P : Picture F32} (k : FitsMoves w h ds s P) : 0 < w ∧ 0 < h ∧ w ≤ 2 ^ 22 ∧ h ≤ 2 ^ 22 := by
  obtain ⟨a, b⟩ := way_nonneg s
  have := k.farX
  have := k.farY
  obtain ⟨c, d, -⟩ := k.size
  rw [k.data] at c d
  have c : 0 < w - 0 := c
  have d : 0 < h - 0 := d
  exact ⟨by omega, by omega, by omega, by omega⟩

theorem around_single {w h : Int} (hw0 : 0 < w) (hh0 : 0 < h) (hw : w ≤ 2 ^ 22) (hh : h ≤ 2 ^ 22) :
    around (BBoxF.ofBBox ⟨0, 0, w, h⟩ : BBoxF F32) = ⟨0, 0, w, h⟩ :=
  outer_single ⟨0, 0, w, h⟩ (by dsimp only; decide) (by dsimp only; decide) (by dsimp only; omega) (by dsimp only; omega)

theorem centre_stands {k : Int} (h0 : 0 ≤ k) (h1 : k < 2 ^ 22) :
    Stands (FloatLike.ofInt k + 1 / FloatLike.ofInt 2 : F32) ((k : ℚ) + 1 / 2) := by
  rw [centre_ieee]
  exact centre_single h0 h1

/-- The pixel that is seen through the translations. -/
theorem seen_shifts (ht : TrigAtZero) {lib : DeformLib F32} (hinv : InvertsShifts lib) {w h : Int}
    {ds : List (Deformer F32)} {s : List (Int × Int)} {P : Picture F32} (k : FitsMoves w h ds s P)
    {x y : Int} (hxy : Has P.data x y) :
    ∃ q : F32 × F32, Carried lib (BBoxF.ofBBox P.display) true ds
        (FloatLike.ofInt x + 1 / FloatLike.ofInt 2, FloatLike.ofInt y + 1 / FloatLike.ofInt 2) q ∧
      (∀ q', Carried lib (BBoxF.ofBBox P.display) true ds
        (FloatLike.ofInt x + 1 / FloatLike.ofInt 2, FloatLike.ofInt y + 1 / FloatLike.ofInt 2) q' →
          q' = q) ∧
      P.data.minX + PictureSpec.seen (P.data.maxX - P.data.minX) P.display.minX P.display.maxX P.data.minX
        P.data.maxX q.1 = closest w (x - totalX s) ∧
      P.data.minY + PictureSpec.seen (P.data.maxY - P.data.minY) P.display.minY P.display.maxY P.data.minY
        P.data.maxY q.2 = closest h (y - totalY s) := by
  obtain ⟨w0, h0, w1, h1⟩ := fits_positive k
  have e1 := k.data
  have e2 := k.display
  have e3 := k.farX
  have e4 := k.farY
  rw [e1] at hxy ⊢
  rw [e2]
  obtain ⟨a, b, c, d⟩ := hxy
  dsimp only at a b c d ⊢
  simp only [sub_zero, zero_add]
  obtain ⟨n1, n2⟩ := way_nonneg s
  obtain ⟨q, hq, hu, q1, q2, b1, b2⟩ := shifts_point ht hinv w0 w1 0 h k.moves
    (centre_stands (k := x) (by omega) (by omega)) (centre_stands (k := y) (by omega) (by omega))
    (by omega) (by omega)
  exact ⟨q, hq, hu, pick_nearest_shift w0 w1 q1 b1, pick_nearest_shift h0 h1 q2 b2⟩

theorem closest_same {n v : Int} (h0 : 0 ≤ v) (h1 : v < n) : closest n v = v := by
  unfold closest
  rw [if_neg (by omega), if_neg (by omega)]

/-- C149: translations by whole pixels that wait behind a picture move it by the sum of all of them,
pixel by pixel; nothing is blurred, and pixels at the border are repeated. -/
theorem C149_moved (ht : TrigAtZero) {lib : DeformLib F32} (hinv : InvertsShifts lib) {w h : Int}
    {ds : List (Deformer F32)} {s : List (Int × Int)} {P : Picture F32} (k : FitsMoves w h ds s P) :
    CarriedOut lib ds P (shifted w h (totalX s) (totalY s) P) := by
  obtain ⟨w0, h0, w1, h1⟩ := fits_positive k
  have ar := around_single w0 h0 w1 h1
  refine ⟨rfl, rfl, rfl, fun hoff => ⟨rfl, fun x y hxy => ?_⟩, fun _ => ⟨k.channels, ?_, ?_, ?_, k.size,
    ⟨_, (boxed_shifts k.moves).1, ?_⟩, fun x y hxy => ?_⟩⟩
  · have e : ds = [] ∧ s = [] := by
      obtain ⟨-, -, -, -, m, -, -⟩ := k
      cases m with
      | nil => exact ⟨rfl, rfl⟩
      | cons h _ =>
        obtain ⟨t, rfl, -⟩ := h.shape
        exact absurd rfl (hoff _ (List.mem_cons_self ..))
    obtain ⟨rfl, rfl⟩ := e
    show P.at_ (closest w (x - 0)) (closest h (y - 0)) = P.at_ x y
    rw [k.data] at hxy
    obtain ⟨a, b, c, d⟩ := hxy
    dsimp only at a b c d
    rw [sub_zero, sub_zero, closest_same (by omega) (by omega), closest_same (by omega) (by omega)]
  · intro d hd _
    have : ∀ {ds : List (Deformer F32)} {s}, List.Forall₂ (ShiftsBy w) ds s → ∀ d ∈ ds, Usable d := by
      intro ds s m
      induction m with
      | nil => intro d hd; cases hd
      | cons h _ ih =>
        intro d hd
        rcases List.mem_cons.mp hd with rfl | hd
        · obtain ⟨t, rfl, -⟩ := h.shape
          trivial
        · exact ih d hd
    exact this k.moves d hd
  · rw [k.data]; unfold InI32; dsimp only; omega
  · rw [k.data]; unfold InI32; dsimp only; omega
  · show P.data = _
    rw [k.data, ar]
  · obtain ⟨q, hq, -, e1, e2⟩ := seen_shifts ht hinv k (x := x) (y := y) hxy
    refine ⟨q, hq, ?_⟩
    rw [e1, e2]
    rfl

/-- C149: there is no other picture. -/
theorem C149_only (ht : TrigAtZero) {lib : DeformLib F32} (hinv : InvertsShifts lib) {w h : Int}
    {ds : List (Deformer F32)} {s : List (Int × Int)} {P R : Picture F32} (k : FitsMoves w h ds s P)
    (hR : CarriedOut lib ds P R) :
    R.data = P.data ∧ R.display = P.display ∧ R.channels = P.channels ∧ R.space = P.space ∧
      ∀ x y, Has P.data x y →
        R.at_ x y = P.at_ (closest w (x - totalX s)) (closest h (y - totalY s)) := by
  obtain ⟨w0, h0, w1, h1⟩ := fits_positive k
  have ar := around_single w0 h0 w1 h1
  by_cases hon : ∃ d ∈ ds, d.enable = 1
  · obtain ⟨-, -, -, -, -, ⟨box, hb, hd⟩, hp⟩ := hR.moved hon
    rw [(boxed_shifts k.moves).2 _ hb, k.data, ar, ← k.data] at hd
    refine ⟨hd, hR.display, hR.channels, hR.space, fun x y hxy => ?_⟩
    obtain ⟨q, hq, e⟩ := hp x y (by rw [hd]; exact hxy)
    obtain ⟨q', -, hu, e1, e2⟩ := seen_shifts ht hinv k hxy
    obtain rfl := hu _ hq
    rw [e, e1, e2]
  · have hoff : ∀ d ∈ ds, d.enable ≠ 1 := fun d hd h => hon ⟨d, hd, h⟩
    obtain ⟨hd, hp⟩ := hR.still hoff
    refine ⟨hd, hR.display, hR.channels, hR.space, fun x y hxy => ?_⟩
    rw [hp x y hxy]
    exact (((C149_moved ht hinv k).still hoff).2 x y hxy).symm

/-- C149: the order of the translations, and how the way is divided into them, do not matter. -/
theorem C149_order (ht : TrigAtZero) {lib : DeformLib F32} (hinv : InvertsShifts lib) {w h : Int}
    {ds ds' : List (Deformer F32)} {s s' : List (Int × Int)} {P R R' : Picture F32}
    (k : FitsMoves w h ds s P) (k' : FitsMoves w h ds' s' P) (hX : totalX s = totalX s')
    (hY : totalY s = totalY s') (hR : CarriedOut lib ds P R) (hR' : CarriedOut lib ds' P R') :
    R'.data = R.data ∧ R'.display = R.display ∧ R'.channels = R.channels ∧ R'.space = R.space ∧
      ∀ x y, Has R.data x y → R'.at_ x y = R.at_ x y := by
  obtain ⟨a1, a2, a3, a4, a5⟩ := C149_only ht hinv k hR
  obtain ⟨b1, b2, b3, b4, b5⟩ := C149_only ht hinv k' hR'
  refine ⟨b1.trans a1.symm, b2.trans a2.symm, b3.trans a3.symm, b4.trans a4.symm, fun x y hxy => ?_⟩
  rw [a1] at hxy
  rw [a5 x y hxy, b5 x y hxy, hX, hY]

/-- C149: there and back again is the same picture, nothing at the border lost. -/
theorem C149_back (ht : TrigAtZero) {lib : DeformLib F32} (hinv : InvertsShifts lib) {w h : Int}
    {ds : List (Deformer F32)} {s : List (Int × Int)} {P R : Picture F32} (k : FitsMoves w h ds s P)
    (hX : totalX s = 0) (hY : totalY s = 0) (hR : CarriedOut lib ds P R) :
    R.data = P.data ∧ ∀ x y, Has P.data x y → R.at_ x y = P.at_ x y := by
  obtain ⟨a1, -, -, -, a5⟩ := C149_only ht hinv k hR
  refine ⟨a1, fun x y hxy => ?_⟩
  rw [a5 x y hxy, hX, hY, sub_zero, sub_zero]
  rw [k.data] at hxy
  obtain ⟨a, b, c, d⟩ := hxy
  dsimp only at a b c d
  rw [closest_same (by omega) (by omega), closest_same (by omega) (by omega)]

/-- C149 for transform nodes: a node that is switched on and only translates adds such a translation
to those that wait. -/
theorem C149_node {H : Type} [HalfLike F32 H] {lib : NodeLib F32 H} {frame : F32} {n : Node F32}
    (hn : n.attrs.nodeType = .transform) (hon : n.getI32 "enable" = 1) {w : Int} {s : Int × Int}
    (fx : IsFinite (n.getF32 "translate_x")) (vx : val (n.getF32 "translate_x") =
      ((if n.getI32 "invert" = 0 then s.1 else -s.1) * w : Int))
    (fy : IsFinite (n.getF32 "translate_y")) (vy : val (n.getF32 "translate_y") =
      ((if n.getI32 "invert" = 0 then s.2 else -s.2) * w : Int))
    (h1 : n.getF32 "rotate" = 0) (h2 : n.getF32 "rotate_center_x" = 0)
    (h3 : n.getF32 "rotate_center_y" = 0) (h4 : n.getF32 "scale_x" = 1) (h5 : n.getF32 "scale_y" = 1)
    (h6 : n.getF32 "pivot_x" = 1 / FloatLike.ofInt 2) (h7 : n.getF32 "pivot_y" = 1 / FloatLike.ofInt 2)
    {L M : Layer F32} (hm : Makes lib frame n [L] M) :
    M.still = L.still ∧ ∃ d, M.moves = L.moves ++ [d] ∧ ShiftsBy w d s := by
  have key : ∀ {P : Picture F32} {ds : List (Deformer F32)} {M : Layer F32} {Ls : List (Layer F32)},
      Makes lib frame n Ls M → Ls = [⟨P, ds⟩] →
      M.still = P ∧ ∃ d, M.moves = ds ++ [d] ∧ ShiftsBy w d s := by
    intro P ds M Ls hm e
    cases hm with
    | @transform P' ds' d _ _ he hd =>
      cases e
      refine ⟨rfl, _, rfl, ⟨d, ?_, ?_, ?_, ?_, ?_⟩⟩
      · obtain ⟨en, inv, tx, ty, ro, cx, cy, sx, sy, px, py⟩ := d
        have g := fun name h => hd.reals name (by rw [hn]; exact h)
        have g1 : ro = n.getF32 "rotate" := g "rotate" (by decide)
        have g2 : cx = n.getF32 "rotate_center_x" := g "rotate_center_x" (by decide)
        have g3 : cy = n.getF32 "rotate_center_y" := g "rotate_center_y" (by decide)
        have g4 : sx = n.getF32 "scale_x" := g "scale_x" (by decide)
        have g5 : sy = n.getF32 "scale_y" := g "scale_y" (by decide)
        have g6 : px = n.getF32 "pivot_x" := g "pivot_x" (by decide)
        have g7 : py = n.getF32 "pivot_y" := g "pivot_y" (by decide)
        have g8 : en = 1 := he
        rw [g1, g2, g3, g4, g5, g6, g7, g8, h1, h2, h3, h4, h5, h6, h7]
        rfl
      all_goals
        have i : d.invert = n.getI32 "invert" := hd.ints "invert" (by rw [hn]; decide) (by decide)
        have a : d.translateX = n.getF32 "translate_x" := hd.reals "translate_x" (by rw [hn]; decide)
        have b : d.translateY = n.getF32 "translate_y" := hd.reals "translate_y" (by rw [hn]; decide)
        first
          | rw [a]; exact fx
          | rw [a, i]; exact vx
          | rw [b]; exact fy
          | rw [b, i]; exact vy
    | off _ h => rw [hon] at h; cases h
    | _ => exfalso; simp_all; done
  exact key hm rfl

/-- C149 for files: what is written for a picture with translations by whole pixels waiting is the
moved picture. -/
theorem C149_written {H : Type} [HalfLike F32 H] (ht : TrigAtZero) {lib : NodeLib F32 H}
    (hinv : InvertsShifts lib.bake.deform) {w h : Int} {ds : List (Deformer F32)}
    {s : List (Int × Int)} {P : Picture F32} (k : FitsMoves w h ds s P) {frame : F32} {n : Node F32}
    {job : WriteJob F32 H} :
    WrittenLayer lib frame n ⟨P, ds⟩ job ↔
      ∃ alpha own, Written lib frame n alpha own (shifted w h (totalX s) (totalY s) P) job := by
  constructor
  · rintro ⟨alpha, own, R, hR, hW⟩
    obtain ⟨a1, a2, a3, a4, a5⟩ := C149_only ht hinv k hR
    refine ⟨alpha, own, ?_⟩
    obtain ⟨block, ⟨v, hv, hc⟩, p1, p2⟩ := hW.pixels
    refine ⟨hW.path, hW.extra, ⟨block, ⟨v, ⟨?_, ?_⟩, ?_⟩, ?_, ?_⟩, hW.width, hW.height, ?_, hW.format, ?_,
      ?_, ?_, ?_⟩
    · rw [hv.length, a1, a3]; rfl
    · intro x y hxy
      refine Eq.trans ?_ ((hv.pixels x y (by rw [a1]; exact hxy)).trans (a5 x y hxy))
      rw [a1, a3]; rfl
    · rw [a1, a3] at hc; exact hc
    · intro hx
      have := p1 hx
      rw [a1] at this
      exact this
    · intro hx
      have := p2 hx
      rw [a1, a2] at this
      exact this
    · rw [hW.channels, a3]; rfl
    · rw [hW.fullX, a2]; rfl
    · rw [hW.fullY, a2]; rfl
    · rw [hW.fullWidth, a2]; rfl
    · rw [hW.fullHeight, a2]; rfl
  · rintro ⟨alpha, own, hW⟩
    exact ⟨alpha, own, _, C149_moved ht hinv k, hW⟩

end

/-! ### Examples -/

attribute [local instance] zeroLibm

/-- A library that turns moves around. -/
def shiftLib : DeformLib F32 :=
  ⟨fun m => some fun i j => if i ≠ j ∧ j = 3 then Ieee.opp (m i j) else m i j, unitLib.lens⟩

theorem shiftLib_inverts : InvertsShifts shiftLib := by
  intro m k l _ _ hm
  refine ⟨_, rfl, fun i j => ?_⟩
  have h : Stands (m i j) (shiftMat k l i j : Int) := hm i j
  show Stands (if i ≠ j ∧ j = 3 then Ieee.opp (m i j) else m i j) (shiftMat (-k) (-l) i j : Int)
  split
  · have := h.opp
    revert this
    generalize Ieee.opp (m i j) = z
    fin_cases i <;> fin_cases j <;> simp_all [shiftMat]
  · revert h
    generalize m i j = z
    fin_cases i <;> fin_cases j <;> simp_all [shiftMat]

/-- A translation by `(k, l)` pixels of a picture that is 3 pixels wide. -/
def moveBy (k l : Int) : Deformer F32 :=
  .transform { TransformDeformer.default with
    invert := 0, translateX := ofInt (k * 3), translateY := ofInt (l * 3) }

theorem moveBy_shifts {k l : Int} (hk : k.natAbs ≤ 1000) (hl : l.natAbs ≤ 1000) :
    ShiftsBy 3 (moveBy k l) (k, l) := by
  obtain ⟨a, b⟩ := int_single (n := k * 3) (by omega)
  obtain ⟨c, d⟩ := int_single (n := l * 3) (by omega)
  exact ⟨⟨⟨1, 0, ofInt (k * 3), ofInt (l * 3), 0, 0, 0, 1, 1, 0, 0⟩, rfl, a, b, c, d⟩⟩

/-- A picture of 3 by 2 pixels. -/
def numbered (at_ : Int → Int → List F32) : Picture F32 :=
  ⟨⟨0, 0, 3, 2⟩, ⟨0, 0, 3, 2⟩, 4, colorSpaceLinear, at_⟩

theorem numbered_fits (at_ : Int → Int → List F32) : FitsMoves 3 2 [moveBy 2 1, moveBy (-1) 0]
    [(2, 1), (-1, 0)] (numbered at_) :=
  ⟨rfl, rfl, .inr rfl, (show ValidSize ⟨3, 2, 4⟩ by unfold ValidSize; decide),
    .cons (moveBy_shifts (by decide) (by decide)) (.cons (moveBy_shifts (by decide) (by decide)) .nil),
    by decide, by decide⟩

/-- Two pixels to the right, one up, and one to the left. -/
example (at_ : Int → Int → List F32) : ∃ R, CarriedOut shiftLib [moveBy 2 1, moveBy (-1) 0]
    (numbered at_) R ∧ R.data = ⟨0, 0, 3, 2⟩ ∧ R.at_ 2 1 = at_ 1 0 ∧ R.at_ 0 1 = at_ 0 0 ∧
      R.at_ 1 0 = at_ 0 0 :=
  ⟨_, C149_moved zero_trig shiftLib_inverts (numbered_fits at_), rfl, rfl, rfl, rfl⟩

/-- The moves in the other order. -/
example (at_ : Int → Int → List F32) (R R' : Picture F32)
    (hR : CarriedOut shiftLib [moveBy 2 1, moveBy (-1) 0] (numbered at_) R)
    (hR' : CarriedOut shiftLib [moveBy (-1) 0, moveBy 2 1] (numbered at_) R') :
    R'.at_ 2 1 = R.at_ 2 1 ∧ R.at_ 2 1 = at_ 1 0 := by
  have k' : FitsMoves 3 2 [moveBy (-1) 0, moveBy 2 1] [(-1, 0), (2, 1)] (numbered at_) :=
    ⟨rfl, rfl, .inr rfl, (show ValidSize ⟨3, 2, 4⟩ by unfold ValidSize; decide),
      .cons (moveBy_shifts (by decide) (by decide)) (.cons (moveBy_shifts (by decide) (by decide)) .nil),
      by decide, by decide⟩
  obtain ⟨a, -, -, -, b⟩ := C149_only zero_trig shiftLib_inverts (numbered_fits at_) hR
  obtain ⟨-, -, -, -, c⟩ := C149_order zero_trig shiftLib_inverts (numbered_fits at_) k' (by decide)
    (by decide) hR hR'
  exact ⟨c 2 1 (by rw [a]; unfold Has numbered; dsimp only; decide), b 2 1 (by unfold Has numbered; dsimp only; decide)⟩

/-- There and back. -/
example (at_ : Int → Int → List F32) : ∃ R, CarriedOut shiftLib [moveBy 7 (-5), moveBy (-7) 5]
    (numbered at_) R ∧ R.at_ 2 1 = at_ 2 1 := by
  have k : FitsMoves 3 2 [moveBy 7 (-5), moveBy (-7) 5] [(7, -5), (-7, 5)] (numbered at_) :=
    ⟨rfl, rfl, .inr rfl, (show ValidSize ⟨3, 2, 4⟩ by unfold ValidSize; decide),
      .cons (moveBy_shifts (by decide) (by decide)) (.cons (moveBy_shifts (by decide) (by decide)) .nil),
      by decide, by decide⟩
  have hR := C149_moved zero_trig shiftLib_inverts k
  exact ⟨_, hR, (C149_back zero_trig shiftLib_inverts k (by decide) (by decide) hR).2 2 1
    (by unfold Has numbered; dsimp only; decide)⟩

/-- A transform node that moves by two columns of three. -/
example {H : Type} [HalfLike F32 H] (lib : NodeLib F32 H) (frame : F32) (P : Picture F32) :
    ∃ M d, Makes lib frame ⟨1, .uninitialized, .transform { TransformAttrs.new with
      enable := 1, translateX := ofInt 6 }⟩ [⟨P, []⟩] M ∧ M.moves = [d] ∧ ShiftsBy 3 d (2, 0) := by
  have hm : Makes lib frame ⟨1, .uninitialized, .transform { TransformAttrs.new with
      enable := 1, translateX := ofInt 6 }⟩ [⟨P, []⟩] ⟨P, [] ++ [.transform
        { TransformDeformer.default with enable := 1, invert := 0, translateX := ofInt 6 }]⟩ := by
    refine .transform rfl rfl rfl ⟨?_, ?_⟩
    · intro name h _
      simp only [Node.attrs, NodeAttrs.nodeType] at h
      fin_cases h <;> first | rfl | contradiction
    · intro name h
      fin_cases h <;> rfl
  obtain ⟨-, d, e, hd⟩ := C149_node (n := ⟨1, .uninitialized, .transform
      { TransformAttrs.new with enable := 1, translateX := ofInt 6 }⟩) (s := (2, 0)) (w := 3) rfl rfl
    (int_single (n := 6) (by decide)).1 (int_single (n := 6) (by decide)).2
    (Stands.of_code (zero_code _)).1 (Stands.of_code (zero_code _)).2 rfl rfl rfl rfl rfl rfl rfl hm
  exact ⟨_, d, hm, e, hd⟩

/-- What is written for the moved picture is written for the picture with the moves waiting. -/
example {H : Type} [HalfLike F32 H] (lib : NodeLib F32 H) (hl : lib.bake.deform = shiftLib)
    (at_ : Int → Int → List F32) (n : Node F32) (job : WriteJob F32 H) (alpha : Bool) (own : DType)
    (hW : Written lib 1 n alpha own (numbered fun x y => at_ (closest 3 (x - 1)) (closest 2 (y - 1))) job) :
    WrittenLayer lib 1 n ⟨numbered at_, [moveBy 2 1, moveBy (-1) 0]⟩ job :=
  (C149_written zero_trig (by rw [hl]; exact shiftLib_inverts) (numbered_fits at_)).mpr
    ⟨alpha, own, hW⟩

end OCG.Props
