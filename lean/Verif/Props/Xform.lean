import Verif.Model.DeformTransform
import Verif.Spec.Field
import Mathlib.LinearAlgebra.Matrix.NonsingularInverse
import Mathlib.LinearAlgebra.Matrix.Determinant.Basic
import Mathlib.Tactic.FieldSimp
import Mathlib.Tactic.Ring
import Mathlib.Tactic.LinearCombination
import Mathlib.Tactic.Linarith
import Mathlib.Tactic.NormNum
import Mathlib.Data.Fin.VecNotation
import Mathlib.Algebra.Order.Ring.Rat
/-
C60: two-dimensional transforms.  C72: the translation of the transform node.
Exact arithmetic.
-/

namespace OCG.Props
open Xform

section
variable {F : Type} [Field F] [LinearOrder F] [IsStrictOrderedRing F] [FloatOps F]
  [FloatConst F]

/-! ### Independent specification: maps of the plane -/

/-- Scaling about the origin. -/
def scalePt (sx sy : F) (p : F × F) : F × F := (sx * p.1, sy * p.2)

/-- Rotation about `centre` by the angle with cosine `c` and sine `s`. -/
def rotatePt (centre : F × F) (c s : F) (p : F × F) : F × F :=
  (centre.1 + (c * (p.1 - centre.1) - s * (p.2 - centre.2)),
   centre.2 + (s * (p.1 - centre.1) + c * (p.2 - centre.2)))

/-- Translation. -/
def translatePt (tx ty : F) (p : F × F) : F × F := (p.1 + tx, p.2 + ty)

/-- A point of the image plane as the vector the code multiplies with. -/
def planePt (p : F × F) : Fin 4 → F := vec p.1 p.2 0 1

/-- Cosine of an angle in degrees, as the code computes it. -/
def cosDeg (d : F) : F := FloatOps.cos (d * FloatConst.pi / 180)
/-- Sine of an angle in degrees, as the code computes it. -/
def sinDeg (d : F) : F := FloatOps.sin (d * FloatConst.pi / 180)

omit [IsStrictOrderedRing F] in
theorem cos_deg (d : F) : FloatLike.cos (d * FloatConst.pi / FloatLike.ofInt 180) = cosDeg d := by
  unfold cosDeg; rw [ofInt_eq]; norm_num; rfl
omit [IsStrictOrderedRing F] in
theorem sin_deg (d : F) : FloatLike.sin (d * FloatConst.pi / FloatLike.ofInt 180) = sinDeg d := by
  unfold sinDeg; rw [ofInt_eq]; norm_num; rfl

/-! ### C60 -/

omit [IsStrictOrderedRing F] in
/-- C60, both orders, what the code does for every parameter and point: SRT scales, rotates
about the ORIGIN and translates; TRS translates, rotates about the origin and scales; the
rotation centre has no influence.  Missing: rotation about the given centre. -/
theorem C60_order_partial (tx ty cx cy degree sx sy : F) (p : F × F) :
    (∃ m, transform2d .srt tx ty cx cy degree sx sy = .ok m ∧
      mulVec m (planePt p) = planePt (translatePt tx ty
        (rotatePt (0, 0) (cosDeg degree) (sinDeg degree) (scalePt sx sy p)))) ∧
    (∃ m, transform2d .trs tx ty cx cy degree sx sy = .ok m ∧
      mulVec m (planePt p) = planePt (scalePt sx sy
        (rotatePt (0, 0) (cosDeg degree) (sinDeg degree) (translatePt tx ty p)))) := by
  constructor
  · refine ⟨_, rfl, ?_⟩
    funext i
    match i with
    | 0 | 1 | 2 | 3 =>
      simp only [mulVec, mul, translate2d, rotate2d, scale2d, mk, planePt, vec, cos_deg, sin_deg,
        translatePt, rotatePt, scalePt]
      ring
  · refine ⟨_, rfl, ?_⟩
    funext i
    match i with
    | 0 | 1 | 2 | 3 =>
      simp only [mulVec, mul, translate2d, rotate2d, scale2d, mk, planePt, vec, cos_deg, sin_deg,
        translatePt, rotatePt, scalePt]
      ring

omit [IsStrictOrderedRing F] in
/-- C60: the documented SRT transform (rotation about the centre) is obtained for a point
exactly when the rotation fixes the origin, for instance when the centre is the origin. -/
theorem C60_centre_iff (tx ty cx cy degree sx sy : F) (p : F × F) (m : Mat4 F)
    (hm : transform2d .srt tx ty cx cy degree sx sy = .ok m) :
    mulVec m (planePt p) = planePt (translatePt tx ty
      (rotatePt (cx, cy) (cosDeg degree) (sinDeg degree) (scalePt sx sy p))) ↔
    rotatePt (cx, cy) (cosDeg degree) (sinDeg degree) (0, 0) = (0, 0) := by
  obtain ⟨⟨m', h', e'⟩, _⟩ := C60_order_partial tx ty cx cy degree sx sy p
  rw [h'] at hm
  cases hm
  rw [e']
  constructor
  · intro h
    have h0 := congrFun h 0
    have h1 := congrFun h 1
    simp only [planePt, vec, translatePt, rotatePt] at h0 h1 ⊢
    refine Prod.ext ?_ ?_
    · simp only; linear_combination -h0
    · simp only; linear_combination -h1
  · intro h
    have h0 := congrArg Prod.fst h
    have h1 := congrArg Prod.snd h
    simp only [rotatePt] at h0 h1
    have : translatePt tx ty (rotatePt (0, 0) (cosDeg degree) (sinDeg degree) (scalePt sx sy p)) =
        translatePt tx ty (rotatePt (cx, cy) (cosDeg degree) (sinDeg degree) (scalePt sx sy p)) := by
      unfold translatePt rotatePt
      refine Prod.ext ?_ ?_
      · simp only; linear_combination -h0
      · simp only; linear_combination -h1
    rw [this]

/-- An inverse function that is right: it inverts every matrix with non-zero determinant.
(nalgebra's `try_inverse` in exact arithmetic.) -/
def GoodInverse (tryInverse : Mat4 F → Option (Mat4 F)) : Prop :=
  ∀ m : Mat4 F, Matrix.det (Matrix.of m) ≠ 0 →
    ∃ n, tryInverse m = some n ∧ Matrix.of n * Matrix.of m = 1 ∧ Matrix.of m * Matrix.of n = 1

omit [IsStrictOrderedRing F] [FloatOps F] [FloatConst F] in
theorem mulVec_eq [FloatOps F] (m : Mat4 F) (v : Fin 4 → F) :
    mulVec m v = Matrix.mulVec (Matrix.of m) v := by
  funext i
  simp only [mulVec, Matrix.mulVec, dotProduct, Fin.sum_univ_four, Matrix.of_apply]

/-- The matrix the transform deformer uses. -/
def srtMatrix (tx ty cx cy degree sx sy : F) : Mat4 F :=
  mul (mul (translate2d tx ty) (rotate2d cx cy degree)) (scale2d sx sy)

omit [IsStrictOrderedRing F] in
/-- The determinant of an SRT transform. -/
theorem srt_det (tx ty cx cy degree sx sy : F) :
    Matrix.det (Matrix.of (srtMatrix tx ty cx cy degree sx sy)) =
      sx * sy * (cosDeg degree ^ 2 + sinDeg degree ^ 2) := by
  have e : Matrix.of (srtMatrix tx ty cx cy degree sx sy) =
      !![cosDeg degree * sx, -sinDeg degree * sy,
          cx * (1 - cosDeg degree) + cy * sinDeg degree, tx;
        sinDeg degree * sx, cosDeg degree * sy,
          cy * (1 - cosDeg degree) - cx * sinDeg degree, ty;
        0, 0, 1, 0; 0, 0, 0, 1] := by
    ext i j
    fin_cases i <;> fin_cases j <;>
      simp [srtMatrix, mul, translate2d, rotate2d, scale2d, mk, cos_deg, sin_deg]
  rw [e, Matrix.det_succ_row_zero]
  simp [Fin.sum_univ_succ, Matrix.det_fin_three, Matrix.submatrix, Fin.succAbove]
  ring

omit [IsStrictOrderedRing F] in
/-- C60, inverse: for a transform whose scales are not zero (and sine and cosine not both
zero), applying the deformer and then its inverse gives the point back, and the other way
round, whichever of the two directions the `invert` switch (0 or positive) selects. -/
theorem C60_inverse (tryInverse : Mat4 F → Option (Mat4 F)) (hi : GoodInverse tryInverse)
    (d : TransformDeformer F) (hinv : 0 ≤ d.invert) (hsx : d.scaleX ≠ 0) (hsy : d.scaleY ≠ 0)
    (hcs : cosDeg d.rotate ^ 2 + sinDeg d.rotate ^ 2 ≠ 0) (w : BBoxF F) (x y : F) (dir : Bool) :
    ∃ x' y', d.apply tryInverse x y w dir = .ok (x', y') ∧
      d.apply tryInverse x' y' w (!dir) = .ok (x, y) := by
  -- the shape of a run
  have run : ∀ (x y : F) (dir : Bool) (m : Mat4 F),
      m = (if (if dir = false then decide (d.invert > 0) else decide (d.invert = 0)) = true
        then (match tryInverse (srtMatrix (Interp.inverseLerp w.minX w.maxX d.translateX)
            (Interp.inverseLerp w.minX w.maxX d.translateY) d.rotateCenterX d.rotateCenterY
            d.rotate d.scaleX d.scaleY) with
          | some v => v
          | none => srtMatrix (Interp.inverseLerp w.minX w.maxX d.translateX)
            (Interp.inverseLerp w.minX w.maxX d.translateY) d.rotateCenterX d.rotateCenterY
            d.rotate d.scaleX d.scaleY)
        else srtMatrix (Interp.inverseLerp w.minX w.maxX d.translateX)
            (Interp.inverseLerp w.minX w.maxX d.translateY) d.rotateCenterX d.rotateCenterY
            d.rotate d.scaleX d.scaleY) →
      d.apply tryInverse x y w dir =
        .ok (mulVec m (vec (x - d.pivotX) (y - d.pivotY) 0 1) 0 + d.pivotX,
          mulVec m (vec (x - d.pivotX) (y - d.pivotY) 0 1) 1 + d.pivotY) := by
    intro x y dir m hm
    rw [hm]; rfl
  set M := srtMatrix (Interp.inverseLerp w.minX w.maxX d.translateX)
    (Interp.inverseLerp w.minX w.maxX d.translateY) d.rotateCenterX d.rotateCenterY
    d.rotate d.scaleX d.scaleY with hM
  have hdet : Matrix.det (Matrix.of M) ≠ 0 := by
    rw [hM, srt_det]
    exact mul_ne_zero (mul_ne_zero hsx hsy) hcs
  obtain ⟨N, hN, hNM, hMN⟩ := hi M hdet
  -- the last two rows of `M` and of its inverse
  have M2 : M 2 = ![0, 0, 1, 0] := by
    funext j
    fin_cases j <;> simp [hM, srtMatrix, mul, translate2d, rotate2d, scale2d, mk]
  have M3 : M 3 = ![0, 0, 0, 1] := by
    funext j
    fin_cases j <;> simp [hM, srtMatrix, mul, translate2d, rotate2d, scale2d, mk]
  have N2 : N 2 = ![0, 0, 1, 0] := by
    have h2 : ∀ j, (Matrix.of M * Matrix.of N) 2 j = (1 : Matrix (Fin 4) (Fin 4) F) 2 j := by
      intro j; rw [hMN]
    have h3 : ∀ j, N 2 j = (1 : Matrix (Fin 4) (Fin 4) F) 2 j := by
      intro j
      rw [← h2 j]
      simp [Matrix.mul_apply, Fin.sum_univ_four, M2]
    funext j
    rw [h3 j]
    fin_cases j <;> rfl
  have N3 : N 3 = ![0, 0, 0, 1] := by
    have h2 : ∀ j, (Matrix.of M * Matrix.of N) 3 j = (1 : Matrix (Fin 4) (Fin 4) F) 3 j := by
      intro j; rw [hMN]
    have h3 : ∀ j, N 3 j = (1 : Matrix (Fin 4) (Fin 4) F) 3 j := by
      intro j
      rw [← h2 j]
      simp [Matrix.mul_apply, Fin.sum_univ_four, M3]
    funext j
    rw [h3 j]
    fin_cases j <;> rfl
  -- applying one matrix and then the other
  have back : ∀ A B : Mat4 F, A 2 = ![0, 0, 1, 0] → A 3 = ![0, 0, 0, 1] →
      Matrix.of B * Matrix.of A = 1 → ∀ x y : F,
      mulVec B (vec (mulVec A (vec x y 0 1) 0) (mulVec A (vec x y 0 1) 1) 0 1) 0 = x ∧
      mulVec B (vec (mulVec A (vec x y 0 1) 0) (mulVec A (vec x y 0 1) 1) 0 1) 1 = y := by
    intro A B hA2 hA3 hBA x y
    have e : vec (mulVec A (vec x y 0 1) 0) (mulVec A (vec x y 0 1) 1) 0 1 =
        mulVec A (vec x y 0 1) := by
      funext i
      match i with
      | 0 => rfl
      | 1 => rfl
      | 2 => simp [mulVec, vec, hA2]
      | 3 => simp [mulVec, vec, hA3]
    have c : mulVec B (mulVec A (vec x y 0 1)) = vec x y 0 1 := by
      rw [mulVec_eq, mulVec_eq, Matrix.mulVec_mulVec, hBA, Matrix.one_mulVec]
    rw [e, c]
    exact ⟨rfl, rfl⟩
  have two : ∀ (A B : Mat4 F), A 2 = ![0, 0, 1, 0] → A 3 = ![0, 0, 0, 1] →
      Matrix.of B * Matrix.of A = 1 →
      (∀ x y, d.apply tryInverse x y w dir =
        .ok (mulVec A (vec (x - d.pivotX) (y - d.pivotY) 0 1) 0 + d.pivotX,
          mulVec A (vec (x - d.pivotX) (y - d.pivotY) 0 1) 1 + d.pivotY)) →
      (∀ x y, d.apply tryInverse x y w (!dir) =
        .ok (mulVec B (vec (x - d.pivotX) (y - d.pivotY) 0 1) 0 + d.pivotX,
          mulVec B (vec (x - d.pivotX) (y - d.pivotY) 0 1) 1 + d.pivotY)) →
      ∃ x' y', d.apply tryInverse x y w dir = .ok (x', y') ∧
        d.apply tryInverse x' y' w (!dir) = .ok (x, y) := by
    intro A B hA2 hA3 hBA rA rB
    refine ⟨_, _, rA x y, ?_⟩
    rw [rB]
    obtain ⟨b0, b1⟩ := back A B hA2 hA3 hBA (x - d.pivotX) (y - d.pivotY)
    rw [add_sub_cancel_right, add_sub_cancel_right, b0, b1, sub_add_cancel, sub_add_cancel]
  cases dir
  · by_cases hp : d.invert > 0
    · refine two N M N2 N3 hMN (fun x y => run x y false N ?_) (fun x y => run x y true M ?_)
      · simp [hp, hN]
      · have : ¬ d.invert = 0 := by omega
        simp [this]
    · refine two M N M2 M3 hNM (fun x y => run x y false M ?_) (fun x y => run x y true N ?_)
      · simp [hp]
      · have : d.invert = 0 := by omega
        simp [this, hN]
  · by_cases hp : d.invert > 0
    · refine two M N M2 M3 hNM (fun x y => run x y true M ?_) (fun x y => run x y false N ?_)
      · have : ¬ d.invert = 0 := by omega
        simp [this]
      · simp [hp, hN]
    · refine two N M N2 N3 hMN (fun x y => run x y true N ?_) (fun x y => run x y false M ?_)
      · have : d.invert = 0 := by omega
        simp [this, hN]
      · simp [hp]

end

/-- Rationals where the angle of 180 degrees has cosine -1 and sine 0, and every other angle
is treated as 0 degrees. -/
@[instance_reducible] def ratTurn : FloatOps Rat where
  toI32 _ := 0
  toU8 _ := 0
  toU16 _ := 0
  powf x _ := x
  round x := x
  floor x := x
  ceil x := x
  sin _ := 0
  cos x := if x = 3 then -1 else 1

/-- Three for pi, to stay in the rationals. -/
@[instance_reducible] def ratPi : FloatConst Rat := ⟨3⟩

attribute [local instance] ratTurn ratPi

theorem cos180 : cosDeg (180 : Rat) = -1 := by
  show (if (180 * 3 / 180 : Rat) = 3 then (-1 : Rat) else 1) = -1
  norm_num

theorem cos0 : cosDeg (0 : Rat) = 1 := by
  show (if (0 * 3 / 180 : Rat) = 3 then (-1 : Rat) else 1) = 1
  norm_num

theorem sin_any (x : Rat) : sinDeg x = 0 := rfl

open Classical in
/-- Mathlib's matrix inverse as an inverse function. -/
noncomputable def matInverse (m : Mat4 Rat) : Option (Mat4 Rat) :=
  if Matrix.det (Matrix.of m) = 0 then none else some (Matrix.of.symm ((Matrix.of m)⁻¹ : Matrix (Fin 4) (Fin 4) Rat))

theorem matInverse_good : GoodInverse matInverse := by
  intro m h
  refine ⟨_, by unfold matInverse; rw [if_neg h], ?_, ?_⟩
  · rw [Equiv.apply_symm_apply]; exact Matrix.nonsing_inv_mul _ (isUnit_iff_ne_zero.mpr h)
  · rw [Equiv.apply_symm_apply]; exact Matrix.mul_nonsing_inv _ (isUnit_iff_ne_zero.mpr h)

/-- The hypotheses of `C60_inverse` are met by a half turn with scale and translation. -/
example :
    ∃ x' y', TransformDeformer.apply matInverse
        ⟨1, 0, 20, 30, 180, 0, 0, 2, 3, 1 / 2, 1 / 2⟩ 7 8 ⟨0, 0, 100, 50⟩ false = .ok (x', y') ∧
      TransformDeformer.apply matInverse
        ⟨1, 0, 20, 30, 180, 0, 0, 2, 3, 1 / 2, 1 / 2⟩ x' y' ⟨0, 0, 100, 50⟩ true = .ok (7, 8) := by
  exact C60_inverse matInverse matInverse_good ⟨1, 0, 20, 30, 180, 0, 0, 2, 3, 1 / 2, 1 / 2⟩
    (by norm_num) (by norm_num) (by norm_num)
    (by show cosDeg (180 : Rat) ^ 2 + sinDeg (180 : Rat) ^ 2 ≠ 0; rw [cos180, sin_any]; norm_num) _ 7 8 false

/-- C60 counterexample: a half turn about the centre (5, 0) leaves the centre where it is; the
matrix moves it to (-5, 0). -/
theorem C60_centre_counterexample :
    ∃ m, transform2d (F := Rat) .srt 0 0 5 0 180 1 1 = .ok m ∧
      mulVec m (planePt (5, 0)) = planePt (-5, 0) ∧
      rotatePt (5, 0) (cosDeg 180) (sinDeg 180) (5, 0) = ((5, 0) : Rat × Rat) := by
  have hc := cos180
  have hs := sin_any 180
  obtain ⟨⟨m, h, e⟩, _⟩ := C60_order_partial (F := Rat) 0 0 5 0 180 1 1 (5, 0)
  refine ⟨m, h, ?_, ?_⟩
  · rw [e, hc, hs]
    simp [translatePt, rotatePt, scalePt]
  · rw [hc, hs]
    simp [rotatePt]

/-- The transform without rotation and scale, run forwards. -/
theorem apply_shift (inv : Int) (tx ty x y : Rat) (w : BBoxF Rat) (dir : Bool)
    (hd : (if dir = false then decide (inv > 0) else decide (inv = 0)) = false) :
    TransformDeformer.apply (F := Rat) matInverse ⟨1, inv, tx, ty, 0, 0, 0, 1, 1, 0, 0⟩ x y w dir =
      .ok (x + (tx - w.minX) / (w.maxX - w.minX), y + (ty - w.minX) / (w.maxX - w.minX)) := by
  obtain ⟨⟨m, h, e⟩, _⟩ := C60_order_partial (F := Rat) ((tx - w.minX) / (w.maxX - w.minX))
    ((ty - w.minX) / (w.maxX - w.minX)) 0 0 0 1 1 (x - 0, y - 0)
  unfold TransformDeformer.apply
  refine Res.bind_ok.mpr ⟨m, h, ?_⟩
  have e' : mulVec m (vec (x - 0) (y - 0) 0 1) = _ := e
  simp only [hd, Bool.false_eq_true, if_false]
  rw [e', cos0, sin_any]
  simp only [planePt, vec, translatePt, rotatePt, scalePt]
  refine congrArg Except.ok (Prod.ext ?_ ?_)
  · simp only; ring
  · simp only; ring

/-- C60 counterexample: with a negative `invert` switch both directions apply the same forward
transform, so the inverse direction does not undo it: a point is moved on by another
translation. -/
theorem C60_negative_invert_counterexample :
    TransformDeformer.apply (F := Rat) matInverse
        ⟨1, -1, 20, 0, 0, 0, 0, 1, 1, 0, 0⟩ 0 0 ⟨0, 0, 10, 10⟩ false = .ok (2, 0) ∧
      TransformDeformer.apply (F := Rat) matInverse
        ⟨1, -1, 20, 0, 0, 0, 0, 1, 1, 0, 0⟩ 2 0 ⟨0, 0, 10, 10⟩ true = .ok (4, 0) := by
  constructor
  · rw [apply_shift _ _ _ _ _ _ _ (by decide)]; norm_num
  · rw [apply_shift _ _ _ _ _ _ _ (by decide)]; norm_num

/-! ### C72 -/

section
variable {F : Type} [Field F] [LinearOrder F] [IsStrictOrderedRing F] [FloatOps F]
  [FloatConst F]

/-- C72, the part that holds: without rotation and scale, and for a square window that starts
at zero, a translation moves every point by the fraction of the window size it stands for.
Missing: windows that do not start at zero or are not square (counterexamples). -/
theorem C72_translate_partial (tryInverse : Mat4 F → Option (Mat4 F)) (d : TransformDeformer F)
    (hi : d.invert = 0) (hc : cosDeg d.rotate = 1) (hs : sinDeg d.rotate = 0)
    (hx : d.scaleX = 1) (hy : d.scaleY = 1) (w : BBoxF F) (h0 : w.minX = 0) (h1 : w.minY = 0)
    (hsq : w.maxX = w.maxY) (x y : F) :
    d.apply tryInverse x y w false =
      .ok (x + d.translateX / (w.maxX - w.minX), y + d.translateY / (w.maxY - w.minY)) := by
  obtain ⟨⟨m, h, e⟩, _⟩ := C60_order_partial (Interp.inverseLerp w.minX w.maxX d.translateX)
    (Interp.inverseLerp w.minX w.maxX d.translateY) d.rotateCenterX d.rotateCenterY d.rotate
    d.scaleX d.scaleY (x - d.pivotX, y - d.pivotY)
  unfold TransformDeformer.apply
  refine Res.bind_ok.mpr ⟨m, h, ?_⟩
  have e' : mulVec m (vec (x - d.pivotX) (y - d.pivotY) 0 1) = _ := e
  simp only [hi, if_true, gt_iff_lt, lt_irrefl, decide_false, Bool.false_eq_true, if_false]
  rw [e', hc, hs, hx, hy]
  simp only [planePt, vec, translatePt, rotatePt, scalePt, Interp.inverseLerp, h0, h1, hsq]
  refine congrArg Except.ok (Prod.ext ?_ ?_)
  · simp only; ring
  · simp only; ring

end

example :
    TransformDeformer.apply (F := Rat) matInverse
      ⟨1, 0, 25, 50, 0, 0, 0, 1, 1, 1 / 2, 1 / 2⟩ 3 4 ⟨0, 0, 100, 100⟩ false =
      .ok (3 + 25 / 100, 4 + 50 / 100) := by
  have := C72_translate_partial (F := Rat) matInverse
    ⟨1, 0, 25, 50, 0, 0, 0, 1, 1, 1 / 2, 1 / 2⟩ rfl
    cos0 (sin_any 0) rfl rfl ⟨0, 0, 100, 100⟩
    rfl rfl rfl 3 4
  simpa using this

/-- C72 counterexamples: a vertical translation is divided by the window's WIDTH (a shift by
the full height 50 of a 100x50 window moves by one half instead of one); and a window that
starts at 10 moves points although the translation is zero. -/
theorem C72_counterexample :
    TransformDeformer.apply (F := Rat) matInverse
        ⟨1, 0, 0, 50, 0, 0, 0, 1, 1, 0, 0⟩ 0 0 ⟨0, 0, 100, 50⟩ false = .ok (0, 1 / 2) ∧
      TransformDeformer.apply (F := Rat) matInverse
        ⟨1, 0, 0, 0, 0, 0, 0, 1, 1, 0, 0⟩ 0 0 ⟨10, 0, 20, 10⟩ false = .ok (-1, -1) := by
  constructor
  · rw [apply_shift _ _ _ _ _ _ _ (by decide)]; norm_num
  · rw [apply_shift _ _ _ _ _ _ _ (by decide)]; norm_num

end OCG.Props
