import Verif.Props.IeeeWindow
import Verif.Props.BakeDeform
import Verif.Props.DeformPixels
/-
C103: a transform with default settings changes nothing.
-/

namespace OCG.Props

open IeeeSpec PixelSpec BlockSpec RemapSpec DeformSpec
open Ieee hiding floor ceil round

/-! ### Exact values -/

/-- `x` is finite and stands for `v`. -/
def Stands (x : F32) (v : ℚ) : Prop := IsFinite x ∧ val x = v

theorem stands_ofInt {n : Int} (h : n.natAbs ≤ 2 ^ 24) : Stands (ofInt n) n := int_single h

/-- Whole numbers up to 2^24 are added exactly. -/
theorem Stands.add {x y : F32} {m n : Int} (hx : Stands x m) (hy : Stands y n)
    (h : (m + n).natAbs ≤ 2 ^ 24) : Stands (Ieee.add x y) (m + n : Int) := by
  obtain ⟨a, b⟩ := int_single h
  have := (rounds_add hx.1 hy.1).exact a (by rw [hx.2, hy.2, b]; push_cast; ring)
  exact ⟨this.1, by rw [this.2.2, b]⟩

theorem Stands.sub {x y : F32} {m n : Int} (hx : Stands x m) (hy : Stands y n)
    (h : (m - n).natAbs ≤ 2 ^ 24) : Stands (Ieee.sub x y) (m - n : Int) := by
  obtain ⟨a, b⟩ := int_single h
  have := (rounds_sub hx.1 hy.1).exact a (by rw [hx.2, hy.2, b]; push_cast; ring)
  exact ⟨this.1, by rw [this.2.2, b]⟩

theorem Stands.mul {x y : F32} {m n : Int} (hx : Stands x m) (hy : Stands y n)
    (h : (m * n).natAbs ≤ 2 ^ 24) : Stands (Ieee.mul x y) (m * n : Int) := by
  obtain ⟨a, b⟩ := int_single h
  have := (rounds_mul hx.1 hy.1).exact a (by rw [hx.2, hy.2, b]; push_cast; ring)
  exact ⟨this.1, by rw [this.2.2, b]⟩

theorem Stands.opp {x : F32} {m : Int} (hx : Stands x m) : Stands (Ieee.opp x) (-m : Int) :=
  ⟨finite_opp hx.1, by rw [val_opp, hx.2]; push_cast; rfl⟩

/-- Zero divided by something else. -/
theorem Stands.zero_div {x y : F32} {n : ℚ} (hx : Stands x (0 : Int)) (hy : Stands y n) (hn : n ≠ 0) :
    Stands (Ieee.div x y) (0 : Int) := by
  obtain ⟨a, b⟩ := int_single (n := 0) (by decide)
  have := (rounds_div hx.1 hy.1 (by rw [hy.2]; exact hn)).exact a (by
    rw [hx.2, b]; push_cast; rw [_root_.zero_div])
  exact ⟨this.1, by rw [this.2.2, b]⟩

theorem Stands.zero_mul {x y : F32} (hx : Stands x (0 : Int)) (hy : IsFinite y) :
    Stands (Ieee.mul x y) (0 : Int) := by
  obtain ⟨a, b⟩ := int_single (n := 0) (by decide)
  have := (rounds_mul hx.1 hy).exact a (by
    rw [hx.2, b]; push_cast; rw [MulZeroClass.zero_mul])
  exact ⟨this.1, by rw [this.2.2, b]⟩

theorem Stands.code {x : F32} (hx : Stands x (0 : Int)) : x.code = 0 :=
  val_zero_iff.mp (by rw [hx.2]; norm_num)

theorem Stands.of_code {x : F32} (hx : x.code = 0) : Stands x (0 : Int) :=
  ⟨finite_of_code_zero ok_single hx, by rw [val_zero_iff.mpr hx]; norm_num⟩

/-- The entries stand for whole numbers. -/
def StandsMat (m : Mat4 F32) (a : Fin 4 → Fin 4 → Int) : Prop := ∀ i j, Stands (m i j) (a i j)

/-- The unit matrix. -/
def unitMat : Fin 4 → Fin 4 → Int := fun i j => if i = j then 1 else 0

theorem op_cos {f : Format} [Libm f] (a : Ieee f) : FloatLike.cos a = Libm.cos a := rfl
theorem op_sin {f : Format} [Libm f] (a : Ieee f) : FloatLike.sin a = Libm.sin a := rfl

theorem inverseLerp_eq {F : Type} [FloatLike F] (a b v : F) :
    Interp.inverseLerp a b v = (v - a) / (b - a) := rfl

/-- What a transform with default settings computes. -/
theorem default_point {F : Type} [FloatLike F] [FloatConst F] (lib : DeformLib F)
    (x0 y0 x1 y1 : Int) (inverse : Bool) (x y : F) {m : Mat4 F}
    (e : Xform.transform2d .srt
      (Interp.inverseLerp (FloatLike.ofInt x0) (FloatLike.ofInt x1) 0)
      (Interp.inverseLerp (FloatLike.ofInt x0) (FloatLike.ofInt x1) 0) 0 0 0 1 1 = .ok m) :
    Deformer.point lib (BBoxF.ofBBox ⟨x0, y0, x1, y1⟩) inverse (.transform .default) x y =
      .ok (Xform.mulVec (if inverse = false then m else (lib.tryInverse m).getD m)
          (Xform.vec (x - 1 / FloatLike.ofInt 2) (y - 1 / FloatLike.ofInt 2) 0 1) 0 +
            1 / FloatLike.ofInt 2,
        Xform.mulVec (if inverse = false then m else (lib.tryInverse m).getD m)
          (Xform.vec (x - 1 / FloatLike.ofInt 2) (y - 1 / FloatLike.ofInt 2) 0 1) 1 +
            1 / FloatLike.ofInt 2) := by
  unfold Deformer.point TransformDeformer.apply TransformDeformer.default
  refine Res.bind_ok.mpr ⟨m, e, congrArg Except.ok ?_⟩
  dsimp only
  cases inverse with
  | false => simp
  | true => cases h : lib.tryInverse m <;> simp

section
variable [Libm single32]

theorem mul_unit {m n : Mat4 F32} (hm : StandsMat m unitMat) (hn : StandsMat n unitMat) :
    StandsMat (Xform.mul m n) unitMat := by
  intro i j
  unfold Xform.mul
  rw [op_add, op_add, op_add, op_mul, op_mul, op_mul, op_mul]
  have h := fun k => (hm i k).mul (hn k j) (by
    fin_cases i <;> fin_cases j <;> fin_cases k <;> decide)
  have := (((h 0).add (h 1) (by fin_cases i <;> fin_cases j <;> decide)).add (h 2)
    (by fin_cases i <;> fin_cases j <;> decide)).add (h 3) (by
      fin_cases i <;> fin_cases j <;> decide)
  have e : unitMat i 0 * unitMat 0 j + unitMat i 1 * unitMat 1 j + unitMat i 2 * unitMat 2 j +
      unitMat i 3 * unitMat 3 j = unitMat i j := by
    fin_cases i <;> fin_cases j <;> decide
  rwa [e] at this

/-- The matrix of a transform that does nothing is the unit matrix, up to the sign of zeros. -/
theorem transform_unit (hcos : ∀ x : F32, x.code = 0 → Libm.cos x = ofInt 1)
    (hsin : ∀ x : F32, x.code = 0 → (Libm.sin x).code = 0) {tx ty : F32}
    (htx : Stands tx (0 : Int)) (hty : Stands ty (0 : Int)) :
    ∃ m, Xform.transform2d .srt tx ty 0 0 0 1 1 = .ok m ∧ StandsMat m unitMat := by
  have z : Stands (0 : F32) (0 : Int) := by rw [op_zero]; exact Stands.of_code (zero_code _)
  have o : Stands (1 : F32) (1 : Int) := by rw [op_one]; exact stands_ofInt (by decide)
  refine ⟨_, rfl, ?_⟩
  refine mul_unit (mul_unit ?_ ?_) ?_
  · intro i j
    unfold Xform.translate2d Xform.mk
    fin_cases i <;> fin_cases j <;> first | exact o | exact z | exact htx | exact hty
  · have hpi : IsFinite (FloatConst.pi : F32) := by rw [finite_iff]; decide +kernel
    have hr : ((0 : F32) * FloatConst.pi / FloatLike.ofInt 180).code = 0 := by
      rw [op_div, op_mul, op_ofInt]
      exact ((z.zero_mul hpi).zero_div (stands_ofInt (n := 180) (by decide)) (by norm_num)).code
    have hc : Stands (FloatLike.cos ((0 : F32) * FloatConst.pi / FloatLike.ofInt 180)) (1 : Int) := by
      rw [op_cos, hcos _ hr]; exact stands_ofInt (by decide)
    have hs : Stands (FloatLike.sin ((0 : F32) * FloatConst.pi / FloatLike.ofInt 180)) (0 : Int) := by
      rw [op_sin]; exact Stands.of_code (hsin _ hr)
    intro i j
    unfold Xform.rotate2d Xform.mk
    generalize FloatLike.cos ((0 : F32) * FloatConst.pi / FloatLike.ofInt 180) = c at *
    generalize FloatLike.sin ((0 : F32) * FloatConst.pi / FloatLike.ofInt 180) = s at *
    have h1 : Stands ((0 : F32) * (1 - c) + 0 * s) (0 : Int) := by
      rw [op_add, op_mul, op_mul, op_sub]
      exact (z.mul (o.sub hc (by decide)) (by decide)).add (z.mul hs (by decide)) (by decide)
    have h2 : Stands ((0 : F32) * (1 - c) - 0 * s) (0 : Int) := by
      rw [op_sub, op_mul, op_mul, op_sub]
      exact (z.mul (o.sub hc (by decide)) (by decide)).sub (z.mul hs (by decide)) (by decide)
    have h3 : Stands (-s) (0 : Int) := by rw [op_neg]; exact hs.opp
    fin_cases i <;> fin_cases j <;>
      first | exact o | exact z | exact hc | exact hs | exact h3 | exact h1 | exact h2
  · intro i j
    unfold Xform.scale2d Xform.mk
    fin_cases i <;> fin_cases j <;> first | exact o | exact z

/-- The unit matrix keeps whole coordinates. -/
theorem mulVec_unit {m : Mat4 F32} (hm : StandsMat m unitMat) {x y : F32} {i j : Int}
    (hx : Stands x i) (hy : Stands y j) (hi : i.natAbs ≤ 2 ^ 24) (hj : j.natAbs ≤ 2 ^ 24) :
    Stands (Xform.mulVec m (Xform.vec x y 0 1) 0) i ∧
      Stands (Xform.mulVec m (Xform.vec x y 0 1) 1) j := by
  have z : Stands (0 : F32) (0 : Int) := by rw [op_zero]; exact Stands.of_code (zero_code _)
  have o : Stands (1 : F32) (1 : Int) := by rw [op_one]; exact stands_ofInt (by decide)
  unfold Xform.mulVec Xform.vec
  rw [op_add, op_add, op_add, op_mul, op_mul, op_mul, op_mul]
  rw [op_add, op_add, op_add, op_mul, op_mul, op_mul, op_mul]
  constructor
  · have := ((((hm 0 0).mul hx (by rw [show unitMat 0 0 = 1 from rfl]; omega)).add
      ((hm 0 1).mul hy (by rw [show unitMat 0 1 = 0 from rfl]; omega)) (by
        rw [show unitMat 0 0 = 1 from rfl, show unitMat 0 1 = 0 from rfl]; omega)).add
      ((hm 0 2).mul z (by decide)) (by
        rw [show unitMat 0 0 = 1 from rfl, show unitMat 0 1 = 0 from rfl]; omega)).add
      ((hm 0 3).mul o (by decide)) (by
        rw [show unitMat 0 0 = 1 from rfl, show unitMat 0 1 = 0 from rfl,
          show unitMat 0 3 = 0 from rfl]; omega)
    rwa [show unitMat 0 0 * i + unitMat 0 1 * j + unitMat 0 2 * 0 + unitMat 0 3 * 1 = i by
      rw [show unitMat 0 0 = 1 from rfl, show unitMat 0 1 = 0 from rfl,
          show unitMat 0 3 = 0 from rfl]; omega] at this
  · have := ((((hm 1 0).mul hx (by rw [show unitMat 1 0 = 0 from rfl]; omega)).add
      ((hm 1 1).mul hy (by rw [show unitMat 1 1 = 1 from rfl]; omega)) (by
        rw [show unitMat 1 0 = 0 from rfl, show unitMat 1 1 = 1 from rfl]; omega)).add
      ((hm 1 2).mul z (by decide)) (by
        rw [show unitMat 1 0 = 0 from rfl, show unitMat 1 1 = 1 from rfl]; omega)).add
      ((hm 1 3).mul o (by decide)) (by
        rw [show unitMat 1 0 = 0 from rfl, show unitMat 1 1 = 1 from rfl,
          show unitMat 1 3 = 0 from rfl]; omega)
    rwa [show unitMat 1 0 * i + unitMat 1 1 * j + unitMat 1 2 * 0 + unitMat 1 3 * 1 = j by
      rw [show unitMat 1 0 = 0 from rfl, show unitMat 1 1 = 1 from rfl,
          show unitMat 1 3 = 0 from rfl]; omega] at this

/-- Moving the centre of a pixel to its corner and back. -/
theorem corner_single {k : Int} (h0 : 0 ≤ k) (h1 : k < 2 ^ 22) :
    Stands (Ieee.sub (Ieee.add (ofInt k) (div (ofInt 1) (ofInt 2))) (div (ofInt 1) (ofInt 2))) k := by
  obtain ⟨a1, a2⟩ := int_single (n := k) (by omega)
  obtain ⟨c1, c2⟩ := centre_single h0 h1
  have := (rounds_sub c1 half_single.1).exact a1 (by rw [c2, half_single.2, a2]; ring)
  exact ⟨this.1, by rw [this.2.2, a2]⟩

theorem back_single {x : F32} {k : Int} (h0 : 0 ≤ k) (h1 : k < 2 ^ 22) (hx : Stands x k) :
    Ieee.add x (div (ofInt 1) (ofInt 2)) = Ieee.add (ofInt k) (div (ofInt 1) (ofInt 2)) := by
  obtain ⟨c1, c2⟩ := centre_single h0 h1
  have hk : (0 : ℚ) ≤ k := by exact_mod_cast h0
  refine same_eq ((rounds_add hx.1 half_single.1).exact c1 ?_) (by rw [c2]; positivity)
  rw [hx.2, half_single.2, c2]

/-- Sine and cosine of zero, as every mathematical library gives them. -/
structure TrigAtZero : Prop where
  cos : ∀ x : F32, x.code = 0 → Libm.cos x = ofInt 1
  sin : ∀ x : F32, x.code = 0 → (Libm.sin x).code = 0

/-- The inverse of a unit matrix is a unit matrix, up to the sign of zeros. -/
def InvertsUnit (lib : DeformLib F32) : Prop :=
  ∀ m v, StandsMat m unitMat → lib.tryInverse m = some v → StandsMat v unitMat

theorem default_offset {width : Int} (hw0 : 0 < width) (hw : width ≤ 2 ^ 22) :
    Stands (Interp.inverseLerp (FloatLike.ofInt 0) (FloatLike.ofInt width) 0 : F32) (0 : Int) := by
  rw [inverseLerp_eq, op_div, op_sub, op_sub, op_ofInt, op_ofInt, op_zero]
  have z : Stands (zero false : F32) (0 : Int) := Stands.of_code (zero_code _)
  have z' : Stands (ofInt 0 : F32) (0 : Int) := stands_ofInt (by decide)
  have w := stands_ofInt (n := width) (by omega)
  generalize (zero false : F32) = a at *
  generalize (ofInt 0 : F32) = b at *
  generalize (ofInt width : F32) = c at *
  have n := z.sub z' (by decide)
  have d := w.sub z' (by omega)
  rw [sub_self] at n
  rw [sub_zero] at d
  exact n.zero_div d (by exact_mod_cast hw0.ne')

theorem default_fin {i j : Int} (hi0 : 0 ≤ i) (hi : i < 2 ^ 22) (hj0 : 0 ≤ j) (hj : j < 2 ^ 22)
    {m' : Mat4 F32} (hm' : StandsMat m' unitMat) {h ci cj : F32} (eh : h = 1 / FloatLike.ofInt 2)
    (ei : ci = FloatLike.ofInt i + 1 / FloatLike.ofInt 2)
    (ej : cj = FloatLike.ofInt j + 1 / FloatLike.ofInt 2) :
    (Xform.mulVec m' (Xform.vec (ci - h) (cj - h) 0 1) 0 + h,
      Xform.mulVec m' (Xform.vec (ci - h) (cj - h) 0 1) 1 + h) = (ci, cj) := by
  rw [centre_ieee] at ei ej
  rw [op_div, op_one, op_ofInt] at eh
  have ai : Stands (ci - h) i := by rw [op_sub, ei, eh]; exact corner_single hi0 hi
  have aj : Stands (cj - h) j := by rw [op_sub, ej, eh]; exact corner_single hj0 hj
  obtain ⟨r0, r1⟩ := mulVec_unit hm' ai aj (by omega) (by omega)
  rw [op_add, op_add]
  generalize ci - h = x at *
  generalize cj - h = y at *
  rw [ei, ej, eh, back_single hi0 hi r0, back_single hj0 hj r1]

/-- A transform with default settings keeps the centres of pixels, bit by bit. -/
theorem default_centre (htrig : TrigAtZero) (lib : DeformLib F32) (hinv : InvertsUnit lib)
    {width : Int} (hw0 : 0 < width) (hw : width ≤ 2 ^ 22) (y0 y1 : Int) (inverse : Bool) {i j : Int}
    (hi0 : 0 ≤ i) (hi : i < 2 ^ 22) (hj0 : 0 ≤ j) (hj : j < 2 ^ 22) :
    Deformer.point lib (BBoxF.ofBBox ⟨0, y0, width, y1⟩) inverse (.transform .default)
        (FloatLike.ofInt i + 1 / FloatLike.ofInt 2) (FloatLike.ofInt j + 1 / FloatLike.ofInt 2) =
      .ok ((FloatLike.ofInt i + 1 / FloatLike.ofInt 2, FloatLike.ofInt j + 1 / FloatLike.ofInt 2) :
        F32 × F32) := by
  have htx := default_offset hw0 hw
  obtain ⟨m, e, hm⟩ := transform_unit htrig.cos htrig.sin htx htx
  rw [default_point lib 0 y0 width y1 inverse _ _ e]
  refine congrArg Except.ok (default_fin hi0 hi hj0 hj ?_ rfl rfl rfl)
  cases inverse with
  | false => exact hm
  | true =>
    cases h : lib.tryInverse m with
    | none => rw [if_neg (by simp)]; exact hm
    | some v => rw [if_neg (by simp)]; exact hinv m v hm h

/-- C103 in single floats: a transform with default settings leaves every pixel of a picture where
it is.  The display window and the data
window are those of a picture with its corner at the origin and at most 2^22 pixels in each
direction; the cosine and the sine of zero are one and zero, and the inverse of the unit matrix is
the unit matrix. -/
theorem C103_pixels_single {H : Type} [HalfLike F32 H] (p : Profile) (htrig : TrigAtZero)
    (lib : DeformLib F32) (hinv : InvertsUnit lib) (ss : BlockSize) (sd : List F32)
    (dst : PixelBlock F32 H) (hs : ValidSize ss) (hw : ss.width ≤ 2 ^ 22) (hh : ss.height ≤ 2 ^ 22)
    (hsl : (sd.length : Int) = elements ss) (hc : ss.numChannels = 3 ∨ ss.numChannels = 4) :
    ∃ out : List F32,
      applyDeformersToPixels p lib [.transform .default] ⟨0, 0, ss.width, ss.height⟩
        (floatImage ss sd) ⟨0, 0, ss.width, ss.height⟩ dst =
          .ok (floatImage ss out, ⟨0, 0, ss.width, ss.height⟩) ∧
      ∀ x y, InBlock ss x y → CopiesPixel ss out ss sd x y x y := by
  obtain ⟨p1, p2, -, -⟩ := id hs
  have hwin := outer_single ⟨0, 0, ss.width, ss.height⟩ (by dsimp only; decide) (by dsimp only; decide)
    (by dsimp only; omega) (by dsimp only; omega)
  have hsz : (⟨ss.width - 0, ss.height - 0, ss.numChannels⟩ : BlockSize) = ss := by
    rw [sub_zero, sub_zero]
  have key := deform_pixels (H := H) p lib [.transform .default]
    (by intro d hd _; rw [List.mem_singleton] at hd; subst hd; trivial)
    ⟨_, List.mem_singleton_self _, rfl⟩ ⟨0, 0, ss.width, ss.height⟩ ⟨0, 0, ss.width, ss.height⟩ ss sd
    dst hs hsl hc (by unfold InI32; dsimp only; omega) (by unfold InI32; dsimp only; omega)
    (BBoxF.ofBBox ⟨0, 0, ss.width, ss.height⟩) rfl (by rw [hwin]; dsimp only; rw [hsz]; exact hs)
  rw [hwin] at key
  dsimp only at key
  rw [hsz] at key
  obtain ⟨out, e, -, h⟩ := key
  refine ⟨out, e, fun x y hxy => ?_⟩
  obtain ⟨q, hq, hcp⟩ := h x y hxy
  obtain ⟨x0, x1, y0, y1⟩ := id hxy
  rw [zero_add, zero_add] at hq
  have eq : q = (FloatLike.ofInt x + 1 / FloatLike.ofInt 2, FloatLike.ofInt y + 1 / FloatLike.ofInt 2) := by
    cases hq with
    | off h _ => exact absurd rfl h
    | on _ h1 h2 =>
      rw [default_centre htrig lib hinv (by omega) hw _ _ true x0 (by omega) y0 (by omega)] at h1
      cases h2
      exact (Except.ok.inj h1).symm
  rw [eq, centre_pick hw x0 x1, centre_pick hh y0 y1] at hcp
  exact hcp

/-- C103 in single floats, for baking: a transform with default settings that waits in the stream
changes nothing; the result is the graded image.  (Linear floats; other colour spaces and types only
add the conversions before and after.) -/
theorem C103_bake_single {H : Type} [HalfLike F32 H] (p : Profile) (htrig : TrigAtZero)
    (lib : BakeLib F32) (hinv : InvertsUnit lib.deform) (b : Baked F32 H) (px mid v : List F32)
    (ss : BlockSize) (hb : b.block = floatImage ss px)
    (hwin : b.dataWindow = ⟨0, 0, ss.width, ss.height⟩)
    (hm : applyColorMatrix px ss.numChannels b.stream.colorMatrix = .ok mid)
    (hg : ColorSpec.Carried ss.numChannels b.stream.colorOps mid v)
    (hd : b.stream.deformers = [.transform .default])
    (hs : ValidSize ss) (hw : ss.width ≤ 2 ^ 22) (hh : ss.height ≤ 2 ^ 22)
    (hvl : (v.length : Int) = elements ss) (hc : ss.numChannels = 3 ∨ ss.numChannels = 4) :
    ∃ out : List F32,
      bake p lib .all ⟨0, 0, ss.width, ss.height⟩ b colorSpaceLinear colorSpaceLinear (.known .f32) =
        .ok ⟨floatImage ss out, ⟨0, 0, ss.width, ss.height⟩,
          { b.spec with colorSpace := colorSpaceLinear },
          { b.stream with colorMatrix := Mat4.identity, colorOps := [], deformers := [] }⟩ ∧
      ∀ x y, InBlock ss x y → CopiesPixel ss out ss v x y x y := by
  obtain ⟨out, e, h⟩ := C103_pixels_single (H := H) p htrig lib.deform hinv ss v (floatImage ss v) hs
    hw hh hvl hc
  refine ⟨out, ?_, h⟩
  unfold bake
  dsimp only [bakeType]
  rw [hb, hwin]
  refine Res.bind_ok.mpr ⟨_, bakeColorspace_same _ _ _ _ _, ?_⟩
  refine Res.bind_ok.mpr ⟨(floatImage ss v, _), Res.bind_ok.mpr ⟨_,
    (bakeColorgrade_iff ss px _ _ (by omega) _).mpr ⟨mid, v, hm, hg, rfl⟩, rfl⟩, ?_⟩
  dsimp only
  rw [hd]
  refine Res.bind_ok.mpr ⟨_, e, ?_⟩
  refine Res.bind_ok.mpr ⟨_, bakeColorspace_same _ _ _ _ _, ?_⟩
  exact Res.bind_ok.mpr ⟨_, C18_convert_same (floatImage (H := H) ss out), rfl⟩

end

section
variable {F : Type} [Field F] [LinearOrder F] [IsStrictOrderedRing F] [FloatOps F] [FloatConst F]

/-- The point is kept, in exact arithmetic. -/
theorem default_exact (lib : DeformLib F) (hc : cosDeg (0 : F) = 1) (hs : sinDeg (0 : F) = 0)
    (w : BBoxF F) (h0 : w.minX = 0) (x y : F) :
    Deformer.point lib w false (.transform .default) x y = .ok (x, y) := by
  obtain ⟨⟨m, h, e⟩, _⟩ := C60_order_partial (Interp.inverseLerp w.minX w.maxX 0)
    (Interp.inverseLerp w.minX w.maxX 0) (0 : F) 0 0 1 1
    (x - 1 / FloatLike.ofInt 2, y - 1 / FloatLike.ofInt 2)
  unfold Deformer.point TransformDeformer.apply TransformDeformer.default
  refine Res.bind_ok.mpr ⟨m, h, ?_⟩
  have e' : Xform.mulVec m (Xform.vec (x - 1 / FloatLike.ofInt 2) (y - 1 / FloatLike.ofInt 2) 0 1) =
    _ := e
  simp only [if_true, gt_iff_lt, lt_irrefl, decide_false, Bool.false_eq_true, if_false]
  rw [e', hc, hs]
  simp only [planePt, Xform.vec, translatePt, rotatePt, scalePt, Interp.inverseLerp, h0]
  refine congrArg Except.ok (Prod.ext ?_ ?_)
  · simp only; ring
  · simp only; ring

/-- C103 in exact arithmetic: a transform with default settings leaves the vertices of a mesh where
they are, if the data window starts at x = 0. -/
theorem C103_positions_partial (lib : DeformLib F) (hc : cosDeg (0 : F) = 1)
    (hs : sinDeg (0 : F) = 0) (w : BBoxF F) (h0 : w.minX = 0) (buf : List F) :
    applyDeformersToPositions lib [.transform .default] w buf = .ok buf := by
  obtain ⟨out, e, m⟩ := C49_positions lib [.transform .default] w
    (by intro d hd _; rw [List.mem_singleton] at hd; subst hd; trivial) buf
  rw [e]
  refine congrArg Except.ok (List.ext_getElem? fun k => ?_)
  by_cases hk : k % 3 ≠ 0 ∧ k % 3 ≠ 1 ∨ buf.length / 3 * 3 ≤ k
  · exact m.others k hk
  have gi : ∀ (l : List F) k, k < l.length → ∃ v, l[k]? = some v := fun l k hk =>
    ⟨l[k], List.getElem?_eq_getElem hk⟩
  have hi : k / 3 < buf.length / 3 := by omega
  obtain ⟨x, hx⟩ := gi buf (k / 3 * 3) (by omega)
  obtain ⟨y, hy⟩ := gi buf (k / 3 * 3 + 1) (by omega)
  obtain ⟨x1, hx1⟩ := gi out (k / 3 * 3) (by rw [m.length]; omega)
  obtain ⟨y1, hy1⟩ := gi out (k / 3 * 3 + 1) (by rw [m.length]; omega)
  have c := m.points _ hi x y x1 y1 hx hy hx1 hy1
  have eq : (x1, y1) = (x, y) := by
    cases c with
    | off h _ => exact absurd rfl h
    | on _ h1 h2 =>
      rw [default_exact lib hc hs w h0] at h1
      cases h2
      exact (Except.ok.inj h1).symm
  injection eq with ex ey
  rcases (by omega : k = k / 3 * 3 ∨ k = k / 3 * 3 + 1) with h | h
  · rw [h, hx, hx1, ex]
  · rw [h, hy, hy1, ey]

end

section Examples

/-- A mathematics library that is right at zero. -/
@[instance_reducible] def zeroLibm : Libm single32 := ⟨fun x _ => x, fun _ => zero false, fun _ => ofInt 1⟩

attribute [local instance] zeroLibm

/-- A library that inverts unit matrices. -/
def unitLib : DeformLib F32 :=
  ⟨fun m => some m, ⟨fun _ x y => (x, y), fun _ x y => (x, y), fun _ b => b, fun _ b => b⟩⟩

theorem zero_trig : TrigAtZero := ⟨fun _ _ => rfl, fun _ _ => rfl⟩

theorem unitLib_inverts : InvertsUnit unitLib := by
  intro m v hm h
  cases h
  exact hm

/-- The hypotheses of `C103_pixels_single` are met by a picture of three by two pixels. -/
example {H : Type} [HalfLike F32 H] (p : Profile) (px : List F32) (h : px.length = 18)
    (dst : PixelBlock F32 H) :
    ∃ out, applyDeformersToPixels p unitLib [.transform .default] ⟨0, 0, 3, 2⟩
        (floatImage ⟨3, 2, 3⟩ px) ⟨0, 0, 3, 2⟩ dst = .ok (floatImage ⟨3, 2, 3⟩ out, ⟨0, 0, 3, 2⟩) ∧
      CopiesPixel ⟨3, 2, 3⟩ out ⟨3, 2, 3⟩ px 2 1 2 1 := by
  obtain ⟨out, e, hp⟩ := C103_pixels_single p zero_trig unitLib unitLib_inverts ⟨3, 2, 3⟩ px dst
    (by unfold ValidSize; decide) (by decide) (by decide) (by rw [h]; rfl) (.inl rfl)
  exact ⟨out, e, hp 2 1 ⟨by decide, by decide, by decide, by decide⟩⟩

/-- The hypotheses of `C103_bake_single` are met by a stream with a waiting transform. -/
example {H : Type} [HalfLike F32 H] (p : Profile) (color : ColorLib F32) :
    ∃ (out : List F32) (stream : Stream F32 H), stream.deformers = [] ∧
      bake p ⟨color, unitLib⟩ .all ⟨0, 0, 8, 1⟩
        ⟨floatImage ⟨8, 1, 3⟩ (List.replicate 24 (ofInt 1)), ⟨0, 0, 8, 1⟩, .new,
          { (Stream.new : Stream F32 H) with deformers := [.transform .default] }⟩
        colorSpaceLinear colorSpaceLinear (.known .f32) =
          .ok ⟨floatImage ⟨8, 1, 3⟩ out, ⟨0, 0, 8, 1⟩, .new, stream⟩ := by
  have hv : ValidSize ⟨8, 1, 3⟩ := by unfold ValidSize; decide
  obtain ⟨mid, h1, h2⟩ := C57_per_pixel (Mat4.identity : Mat4 F32) (n := 3) (.inr (.inl rfl))
    (List.replicate 24 (ofInt 1))
  obtain ⟨out, e, -⟩ := C103_bake_single (H := H) p zero_trig ⟨color, unitLib⟩ unitLib_inverts
    ⟨floatImage ⟨8, 1, 3⟩ (List.replicate 24 (ofInt 1)), ⟨0, 0, 8, 1⟩, .new,
      { (Stream.new : Stream F32 H) with deformers := [.transform .default] }⟩ _ mid mid
    ⟨8, 1, 3⟩ rfl rfl h1 (.nil _) rfl hv (by decide) (by decide)
    (by rw [h2.length, List.length_replicate]; decide) (.inl rfl)
  exact ⟨out, _, rfl, e⟩

/-- C103 is false in IEEE arithmetic for meshes: the vertices are moved by one half and back, which
loses small coordinates.  Here 2^-26 becomes zero. -/
theorem C103_counterexample_single :
    applyDeformersToPositions unitLib [.transform .default] (BBoxF.ofBBox ⟨0, 0, 1, 1⟩)
        ([div (ofInt 1) (ofInt (2 ^ 26)), ofInt 0, ofInt 0] : List F32) =
      .ok [ofInt 0, ofInt 0, ofInt 0] ∧
    (div (ofInt 1) (ofInt (2 ^ 26)) : F32) ≠ ofInt 0 := by
  decide +kernel

end Examples

section ExactExamples
attribute [local instance] ratTurn ratPi

/-- The hypotheses of `C103_positions_partial` are met by a window of 8 by 4 pixels. -/
example : applyDeformersToPositions matLib [.transform .default] ⟨0, 0, 8, 4⟩ [1, 2, 3, 4, 5, 6, 7] =
    .ok ([1, 2, 3, 4, 5, 6, 7] : List Rat) :=
  C103_positions_partial matLib cos0 (sin_any 0) ⟨0, 0, 8, 4⟩ rfl _

/-- C103 is false for windows that do not start at x = 0: with a data window from 10 to 20, a
transform with default settings moves the vertices by one unit. -/
theorem C103_counterexample_window :
    applyDeformersToPositions ⟨fun m => some m, ⟨fun _ x y => (x, y), fun _ x y => (x, y), fun _ b => b,
        fun _ b => b⟩⟩ [.transform .default] ⟨10, 0, 20, 10⟩ ([0, 0, 0] : List Rat) =
      .ok [-1, -1, 0] := by
  decide +kernel

end ExactExamples

end OCG.Props
