import Verif.Spec.Turn
import Verif.Props.Shift
/-
C151: mirroring a picture, and turning it by half a turn, is exact.
-/

namespace OCG.Props

open IeeeSpec PixelSpec BlockSpec RemapSpec DeformSpec PictureSpec TurnSpec BBoxSpec ImageSpecs
open ShiftSpec (closest)
open Ieee hiding floor ceil round

/-! ### The matrix -/

/-- What a transform that mirrors and translates computes, looking back. -/
theorem turn_point {F : Type} [FloatLike F] [FloatConst F] (lib : DeformLib F)
    (x0 y0 x1 y1 : Int) (invert : Int) (tx ty sx sy x y : F) {m : Mat4 F}
    (e : Xform.transform2d .srt
      (Interp.inverseLerp (FloatLike.ofInt x0) (FloatLike.ofInt x1) tx)
      (Interp.inverseLerp (FloatLike.ofInt x0) (FloatLike.ofInt x1) ty) 0 0 0 sx sy = .ok m) :
    Deformer.point lib (BBoxF.ofBBox ⟨x0, y0, x1, y1⟩) true (.transform
        { TransformDeformer.default with
          invert := invert, translateX := tx, translateY := ty, scaleX := sx, scaleY := sy }) x y =
      .ok (Xform.mulVec (if invert = 0 then (lib.tryInverse m).getD m else m)
          (Xform.vec (x - 1 / FloatLike.ofInt 2) (y - 1 / FloatLike.ofInt 2) 0 1) 0 +
            1 / FloatLike.ofInt 2,
        Xform.mulVec (if invert = 0 then (lib.tryInverse m).getD m else m)
          (Xform.vec (x - 1 / FloatLike.ofInt 2) (y - 1 / FloatLike.ofInt 2) 0 1) 1 +
            1 / FloatLike.ofInt 2) := by
  unfold Deformer.point TransformDeformer.apply TransformDeformer.default
  refine Res.bind_ok.mpr ⟨m, e, congrArg Except.ok ?_⟩
  dsimp only
  by_cases h0 : invert = 0
  · cases h : lib.tryInverse m <;> simp [h0]
  · simp [h0]

section
variable [Libm single32]

theorem mul_turn {m n : Mat4 F32} {a k b l : Int} (ha : a = 1 ∨ a = -1) (hb : b = 1 ∨ b = -1)
    (hk : k.natAbs ≤ 2 ^ 22) (hl : l.natAbs ≤ 2 ^ 22) (hm : StandsMat m (ShiftSpec.shiftMat k l))
    (hn : StandsMat n (turnMat a 0 b 0)) : StandsMat (Xform.mul m n) (turnMat a k b l) := by
  intro i j
  unfold Xform.mul
  rw [op_add, op_add, op_add, op_mul, op_mul, op_mul, op_mul]
  have h := fun k' => (hm i k').mul (hn k' j) (by
    rcases ha with rfl | rfl <;> rcases hb with rfl | rfl <;>
      fin_cases i <;> fin_cases j <;> fin_cases k' <;>
      simp [ShiftSpec.shiftMat, turnMat] <;> omega)
  have h0 := h 0
  have h1 := h 1
  have h2 := h 2
  have h3 := h 3
  clear h
  have := ((h0.add h1 (by
      rcases ha with rfl | rfl <;> rcases hb with rfl | rfl <;>
        fin_cases i <;> fin_cases j <;> simp [ShiftSpec.shiftMat, turnMat])).add h2 (by
      rcases ha with rfl | rfl <;> rcases hb with rfl | rfl <;>
        fin_cases i <;> fin_cases j <;> simp [ShiftSpec.shiftMat, turnMat])).add h3 (by
      rcases ha with rfl | rfl <;> rcases hb with rfl | rfl <;>
        fin_cases i <;> fin_cases j <;> simp [ShiftSpec.shiftMat, turnMat] <;> omega)
  have e : ShiftSpec.shiftMat k l i 0 * turnMat a 0 b 0 0 j + ShiftSpec.shiftMat k l i 1 * turnMat a 0 b 0 1 j +
      ShiftSpec.shiftMat k l i 2 * turnMat a 0 b 0 2 j +
      ShiftSpec.shiftMat k l i 3 * turnMat a 0 b 0 3 j = turnMat a k b l i j := by
    fin_cases i <;> fin_cases j <;> simp [ShiftSpec.shiftMat, turnMat]
  rwa [e] at this

/-- The matrix of a transform that mirrors and translates. -/
theorem transform_turn (ht : TrigAtZero) {tx ty sx sy : F32} {a k b l : Int} (ha : a = 1 ∨ a = -1)
    (hb : b = 1 ∨ b = -1) (htx : Stands tx k) (hty : Stands ty l) (hsx : Stands sx a)
    (hsy : Stands sy b) (hk : k.natAbs ≤ 2 ^ 22) (hl : l.natAbs ≤ 2 ^ 22) :
    ∃ m, Xform.transform2d .srt tx ty 0 0 0 sx sy = .ok m ∧ IsTurn m a k b l := by
  have z : Stands (0 : F32) (0 : Int) := by rw [op_zero]; exact Stands.of_code (zero_code _)
  have o : Stands (1 : F32) (1 : Int) := by rw [op_one]; exact stands_ofInt (by decide)
  refine ⟨_, rfl, ?_⟩
  refine mul_turn ha hb hk hl (mul_unit_right (a := ShiftSpec.shiftMat k l) ?_
    (shiftMat_bound hk hl) ?_) ?_
  · intro i j
    unfold Xform.translate2d Xform.mk
    fin_cases i <;> fin_cases j <;> first | exact o | exact z | exact htx | exact hty
  · have hpi : IsFinite (FloatConst.pi : F32) := by rw [finite_iff]; decide +kernel
    have hr : ((0 : F32) * FloatConst.pi / FloatLike.ofInt 180).code = 0 := by
      rw [op_div, op_mul, op_ofInt]
      exact ((z.zero_mul hpi).zero_div (stands_ofInt (n := 180) (by decide)) (by norm_num)).code
    have hc : Stands (FloatLike.cos ((0 : F32) * FloatConst.pi / FloatLike.ofInt 180)) (1 : Int) := by
      rw [op_cos, ht.cos _ hr]; exact stands_ofInt (by decide)
    have hs : Stands (FloatLike.sin ((0 : F32) * FloatConst.pi / FloatLike.ofInt 180)) (0 : Int) := by
      rw [op_sin]; exact Stands.of_code (ht.sin _ hr)
    intro i j
    unfold Xform.rotate2d Xform.mk
    generalize FloatLike.cos ((0 : F32) * FloatConst.pi / FloatLike.ofInt 180) = c at *
    generalize FloatLike.sin ((0 : F32) * FloatConst.pi / FloatLike.ofInt 180) = s at *
    have h1 : Stands ((0 : F32) * (1 - c) + 0 * s) (0 : Int) := by
      rw [op_add, op_mul, op_mul, op_sub]
      exact (z.mul (o.sub hc (by decide)) (by decide)).add (z.mul hs (by decide)) (by decide)
    have h2 : Stands ((0 : F32) * (1 - c) - 0 * s) (0 : Int) := by
      rw [op_sub, op_mul, op_mul, op_sub]
      exact (z.mul (o.sub hc (by decide)) (by decide)).sub (z.mul hs (by decide)) (by decide)
    have h3 : Stands (-s) (0 : Int) := by rw [op_neg]; exact hs.opp
    fin_cases i <;> fin_cases j <;>
      first | exact o | exact z | exact hc | exact hs | exact h3 | exact h1 | exact h2
  · intro i j
    unfold Xform.scale2d Xform.mk
    fin_cases i <;> fin_cases j <;> first | exact o | exact z | exact hsx | exact hsy

/-- The matrix mirrors and moves whole coordinates. -/
theorem mulVec_turn {m : Mat4 F32} {a k b l : Int} (ha : a = 1 ∨ a = -1) (hb : b = 1 ∨ b = -1)
    (hm : IsTurn m a k b l) (hk : k.natAbs ≤ 2 ^ 22)
    (hl : l.natAbs ≤ 2 ^ 22) {x y : F32} {i j : Int} (hx : Stands x i) (hy : Stands y j)
    (hi : i.natAbs ≤ 2 ^ 22) (hj : j.natAbs ≤ 2 ^ 22) :
    Stands (Xform.mulVec m (Xform.vec x y 0 1) 0) (a * i + k : Int) ∧
      Stands (Xform.mulVec m (Xform.vec x y 0 1) 1) (b * j + l : Int) := by
  have z : Stands (0 : F32) (0 : Int) := by rw [op_zero]; exact Stands.of_code (zero_code _)
  have o : Stands (1 : F32) (1 : Int) := by rw [op_one]; exact stands_ofInt (by decide)
  have h : ∀ i j, Stands (m i j) (turnMat a k b l i j : Int) := hm
  have e00 : Stands (m 0 0) (a : Int) := h 0 0
  have e01 : Stands (m 0 1) (0 : Int) := h 0 1
  have e02 : Stands (m 0 2) (0 : Int) := h 0 2
  have e03 : Stands (m 0 3) (k : Int) := h 0 3
  have e10 : Stands (m 1 0) (0 : Int) := h 1 0
  have e11 : Stands (m 1 1) (b : Int) := h 1 1
  have e12 : Stands (m 1 2) (0 : Int) := h 1 2
  have e13 : Stands (m 1 3) (l : Int) := h 1 3
  clear h hm
  unfold Xform.mulVec Xform.vec
  rw [op_add, op_add, op_add, op_mul, op_mul, op_mul, op_mul]
  rw [op_add, op_add, op_add, op_mul, op_mul, op_mul, op_mul]
  constructor
  · rcases ha with rfl | rfl
    · have := (((e00.mul hx (by omega)).add (e01.mul hy (by omega)) (by omega)).add
        (e02.mul z (by omega)) (by omega)).add (e03.mul o (by omega)) (by omega)
      rwa [show 1 * i + 0 * j + 0 * 0 + k * 1 = 1 * i + k by ring] at this
    · have := (((e00.mul hx (by omega)).add (e01.mul hy (by omega)) (by omega)).add
        (e02.mul z (by omega)) (by omega)).add (e03.mul o (by omega)) (by omega)
      rwa [show -1 * i + 0 * j + 0 * 0 + k * 1 = -1 * i + k by ring] at this
  · rcases hb with rfl | rfl
    · have := (((e10.mul hx (by omega)).add (e11.mul hy (by omega)) (by omega)).add
        (e12.mul z (by omega)) (by omega)).add (e13.mul o (by omega)) (by omega)
      rwa [show 0 * i + 1 * j + 0 * 0 + l * 1 = 1 * j + l by ring] at this
    · have := (((e10.mul hx (by omega)).add (e11.mul hy (by omega)) (by omega)).add
        (e12.mul z (by omega)) (by omega)).add (e13.mul o (by omega)) (by omega)
      rwa [show 0 * i + -1 * j + 0 * 0 + l * 1 = -1 * j + l by ring] at this

/-- Where a transform that mirrors and translates by whole pixels takes the centre of a pixel, looking
back. -/
theorem turn_back (ht : TrigAtZero) {lib : DeformLib F32} (hinv : InvertsTurns lib) {w : Int}
    (hw0 : 0 < w) (hw : w ≤ 2 ^ 22) (y0 y1 : Int) {d : Deformer F32} {s : Turn}
    (hd : TurnsBy w d s) (hk : s.moveX.natAbs ≤ 2 ^ 22) (hl : s.moveY.natAbs ≤ 2 ^ 22)
    {x y : F32} {i j : Int}
    (hx : Stands x ((i : ℚ) + 1 / 2)) (hy : Stands y ((j : ℚ) + 1 / 2))
    (hi : i.natAbs < 2 ^ 22) (hj : j.natAbs < 2 ^ 22)
    (hi' : (backX s i).natAbs < 2 ^ 22) (hj' : (backY s j).natAbs < 2 ^ 22) :
    ∃ q : F32 × F32, d.point lib (BBoxF.ofBBox ⟨0, y0, w, y1⟩) true x y = .ok q ∧
      Stands q.1 ((backX s i : ℚ) + 1 / 2) ∧ Stands q.2 ((backY s j : ℚ) + 1 / 2) := by
  obtain ⟨t, rfl, fx, vx, fy, vy, sx, ux, sy, uy⟩ := hd.shape
  obtain ⟨pa, pb⟩ := hd.proper
  obtain ⟨a, k, b, l⟩ := s
  unfold backX at *
  unfold backY at *
  dsimp only at *
  have nk : (-a * k).natAbs = k.natAbs := by rcases pa with rfl | rfl <;> omega
  have nl : (-b * l).natAbs = l.natAbs := by rcases pb with rfl | rfl <;> omega
  have htx := shift_offset (k := if t.invert = 0 then k else -a * k) hw0 hw (by split <;> omega)
    ⟨fx, vx⟩
  have hty := shift_offset (k := if t.invert = 0 then l else -b * l) hw0 hw (by split <;> omega)
    ⟨fy, vy⟩
  obtain ⟨m, e, hm⟩ := transform_turn ht pa pb htx hty ⟨sx, ux⟩ ⟨sy, uy⟩ (by split <;> omega)
    (by split <;> omega)
  obtain ⟨v, ev, hv⟩ : ∃ v : Mat4 F32, (if t.invert = 0 then (lib.tryInverse m).getD m
      else m) = v ∧ IsTurn v a (-a * k) b (-b * l) := by
    by_cases h0 : t.invert = 0
    · rw [if_pos h0, if_pos h0] at hm
      obtain ⟨v, e, hv⟩ := hinv m a k b l pa pb hk hl hm
      exact ⟨v, by rw [if_pos h0, e]; rfl, hv⟩
    · rw [if_neg h0, if_neg h0] at hm
      exact ⟨m, if_neg h0, hm⟩
  obtain ⟨half1, half2⟩ := half_single
  have corner : ∀ {x : F32} {i : Int}, Stands x ((i : ℚ) + 1 / 2) → i.natAbs < 2 ^ 22 →
      Stands (x - 1 / FloatLike.ofInt 2) i := by
    intro x i hx hi
    rw [op_sub, op_div, op_one, op_ofInt]
    obtain ⟨a1, a2⟩ := int_single (n := i) (by omega)
    have := (rounds_sub hx.1 half1).exact a1 (by rw [hx.2, half2, a2]; ring)
    exact ⟨this.1, by rw [this.2.2, a2]⟩
  have back : ∀ {x : F32} {i : Int}, Stands x i → i.natAbs < 2 ^ 22 →
      Stands (x + 1 / FloatLike.ofInt 2) ((i : ℚ) + 1 / 2) := by
    intro x i hx hi
    rw [op_add, op_div, op_one, op_ofInt]
    obtain ⟨y, y1, y2⟩ := centre_signed hi
    have := (rounds_add hx.1 half1).exact y1 (by rw [hx.2, half2, y2])
    exact ⟨this.1, by rw [this.2.2, y2]⟩
  obtain ⟨r0, r1⟩ := mulVec_turn pa pb hv (by omega) (by omega) (corner hx hi) (corner hy hj) (by omega)
    (by omega)
  rw [show a * i + -a * k = a * (i - k) by ring] at r0
  rw [show b * j + -b * l = b * (j - l) by ring] at r1
  refine ⟨(Xform.mulVec v (Xform.vec (x - 1 / FloatLike.ofInt 2) (y - 1 / FloatLike.ofInt 2) 0 1) 0 +
      1 / FloatLike.ofInt 2,
    Xform.mulVec v (Xform.vec (x - 1 / FloatLike.ofInt 2) (y - 1 / FloatLike.ofInt 2) 0 1) 1 +
      1 / FloatLike.ofInt 2), ?_, back r0 hi', back r1 hj'⟩
  rw [turn_point lib 0 y0 w y1 t.invert _ _ _ _ x y e, ev]

/-! ### Several -/

omit [Libm single32] in
theorem far_nonneg (s : List Turn) : 0 ≤ farX s ∧ 0 ≤ farY s := by
  unfold farX farY
  induction s with
  | nil => simp
  | cons a s ih =>
    simp only [List.map_cons, List.sum_cons]
    exact ⟨add_nonneg (abs_nonneg _) ih.1, add_nonneg (abs_nonneg _) ih.2⟩

/-- Where such transforms, one after another, take the centre of a pixel, looking back. -/
theorem turns_back (ht : TrigAtZero) {lib : DeformLib F32} (hinv : InvertsTurns lib) {w : Int}
    (hw0 : 0 < w) (hw : w ≤ 2 ^ 22) (y0 y1 : Int) {ds : List (Deformer F32)} {s : List Turn}
    (hd : List.Forall₂ (TurnsBy w) ds s) :
    ∀ {x y : F32} {i j : Int}, Stands x ((i : ℚ) + 1 / 2) → Stands y ((j : ℚ) + 1 / 2) →
      i.natAbs + farX s < 2 ^ 22 → j.natAbs + farY s < 2 ^ 22 →
      ∃ q : F32 × F32, Carried lib (BBoxF.ofBBox ⟨0, y0, w, y1⟩) true ds (x, y) q ∧
        Stands q.1 ((sourceX s i : ℚ) + 1 / 2) ∧ Stands q.2 ((sourceY s j : ℚ) + 1 / 2) ∧
        (sourceX s i).natAbs < 2 ^ 22 ∧ (sourceY s j).natAbs < 2 ^ 22 := by
  induction hd with
  | nil =>
    intro x y i j hx hy hi hj
    have e : farX [] = 0 := rfl
    have e' : farY [] = 0 := rfl
    rw [e] at hi
    rw [e'] at hj
    exact ⟨(x, y), .nil, hx, hy, by unfold sourceX; omega, by unfold sourceY; omega⟩
  | @cons d a ds s h _ ih =>
    intro x y i j hx hy hi hj
    have e : farX (a :: s) = |a.moveX| + farX s := by simp [farX]
    have e' : farY (a :: s) = |a.moveY| + farY s := by simp [farY]
    obtain ⟨n1, n2⟩ := far_nonneg s
    rw [e, Int.abs_eq_natAbs] at hi
    rw [e', Int.abs_eq_natAbs] at hj
    have b1 : (backX a i).natAbs ≤ i.natAbs + a.moveX.natAbs := by
      unfold backX
      rcases h.proper.1 with e | e <;> rw [e] <;> omega
    have b2 : (backY a j).natAbs ≤ j.natAbs + a.moveY.natAbs := by
      unfold backY
      rcases h.proper.2 with e | e <;> rw [e] <;> omega
    obtain ⟨q, hq, q1, q2⟩ := turn_back ht hinv hw0 hw y0 y1 h (by omega) (by omega) hx hy (by omega)
      (by omega) (by omega) (by omega)
    obtain ⟨r, hr, r1, r2, c1, c2⟩ := ih q1 q2 (by omega) (by omega)
    have on : d.enable = 1 := by
      obtain ⟨t, rfl, -⟩ := h.shape
      rfl
    exact ⟨r, .on on hq hr, r1, r2, c1, c2⟩

/-! ### The picture -/

theorem boxed_turns {lib : DeformLib F32} {window b : BBoxF F32} {w : Int} {ds : List (Deformer F32)}
    {s : List Turn} (h : List.Forall₂ (TurnsBy w) ds s) :
    Boxed lib window ds b b ∧ ∀ c, Boxed lib window ds b c → c = b := by
  induction h with
  | nil =>
    refine ⟨.nil, fun c hc => ?_⟩
    cases hc
    rfl
  | cons h _ ih =>
    obtain ⟨t, rfl, -⟩ := h.shape
    refine ⟨.on rfl rfl ih.1, fun c hc => ?_⟩
    cases hc with
    | off h0 _ => exact absurd rfl h0
    | on _ e h' =>
      cases e
      exact ih.2 _ h'

theorem turns_positive {w h : Int} {ds : List (Deformer F32)} {s : List Turn}
    {P : Picture F32} (k : FitsTurns w h ds s P) : 0 < w ∧ 0 < h ∧ w ≤ 2 ^ 22 ∧ h ≤ 2 ^ 22 := by
  obtain ⟨a, b⟩ := far_nonneg s
  have := k.farX
  have := k.farY
  obtain ⟨c, d, -⟩ := k.size
  rw [k.data] at c d
  have c : 0 < w - 0 := c
  have d : 0 < h - 0 := d
  exact ⟨by omega, by omega, by omega, by omega⟩

theorem seen_turns (ht : TrigAtZero) {lib : DeformLib F32} (hinv : InvertsTurns lib) {w h : Int}
    {ds : List (Deformer F32)} {s : List Turn} {P : Picture F32} (k : FitsTurns w h ds s P)
    {x y : Int} (hxy : Has P.data x y) :
    ∃ q : F32 × F32, Carried lib (BBoxF.ofBBox P.display) true ds
        (FloatLike.ofInt x + 1 / FloatLike.ofInt 2, FloatLike.ofInt y + 1 / FloatLike.ofInt 2) q ∧
      P.data.minX + PictureSpec.seen (P.data.maxX - P.data.minX) P.display.minX P.display.maxX P.data.minX
        P.data.maxX q.1 = closest w (sourceX s x) ∧
      P.data.minY + PictureSpec.seen (P.data.maxY - P.data.minY) P.display.minY P.display.maxY P.data.minY
        P.data.maxY q.2 = closest h (sourceY s y) := by
  obtain ⟨w0, h0, w1, h1⟩ := turns_positive k
  have e1 := k.data
  have e2 := k.display
  have e3 := k.farX
  have e4 := k.farY
  rw [e1] at hxy ⊢
  rw [e2]
  obtain ⟨a, b, c, d⟩ := hxy
  dsimp only at a b c d ⊢
  simp only [sub_zero, zero_add]
  obtain ⟨n1, n2⟩ := far_nonneg s
  obtain ⟨q, hq, q1, q2, b1, b2⟩ := turns_back ht hinv w0 w1 0 h k.turns
    (centre_stands (k := x) (by omega) (by omega)) (centre_stands (k := y) (by omega) (by omega))
    (by omega) (by omega)
  exact ⟨q, hq, pick_nearest_shift w0 w1 q1 b1, pick_nearest_shift h0 h1 q2 b2⟩

/-- C151: transforms that mirror and translate by whole pixels and wait behind a picture rearrange its
pixels exactly; pixels at the border are repeated where nothing is seen. -/
theorem C151_turned (ht : TrigAtZero) {lib : DeformLib F32} (hinv : InvertsTurns lib) {w h : Int}
    {ds : List (Deformer F32)} {s : List Turn} {P : Picture F32} (k : FitsTurns w h ds s P) :
    CarriedOut lib ds P (turned w h s P) := by
  obtain ⟨w0, h0, w1, h1⟩ := turns_positive k
  have ar := around_single w0 h0 w1 h1
  refine ⟨rfl, rfl, rfl, fun hoff => ⟨rfl, fun x y hxy => ?_⟩, fun _ => ⟨k.channels, ?_, ?_, ?_, k.size,
    ⟨_, (boxed_turns k.turns).1, ?_⟩, fun x y hxy => ?_⟩⟩
  · have e : ds = [] ∧ s = [] := by
      obtain ⟨-, -, -, -, m, -, -⟩ := k
      cases m with
      | nil => exact ⟨rfl, rfl⟩
      | cons h _ =>
        obtain ⟨t, rfl, -⟩ := h.shape
        exact absurd rfl (hoff _ (List.mem_cons_self ..))
    obtain ⟨rfl, rfl⟩ := e
    show P.at_ (closest w x) (closest h y) = P.at_ x y
    rw [k.data] at hxy
    obtain ⟨a, b, c, d⟩ := hxy
    dsimp only at a b c d
    rw [closest_same (by omega) (by omega), closest_same (by omega) (by omega)]
  · intro d hd _
    have : ∀ {ds : List (Deformer F32)} {s}, List.Forall₂ (TurnsBy w) ds s → ∀ d ∈ ds, Usable d := by
      intro ds s m
      induction m with
      | nil => intro d hd; cases hd
      | cons h _ ih =>
        intro d hd
        rcases List.mem_cons.mp hd with rfl | hd
        · obtain ⟨t, rfl, -⟩ := h.shape
          trivial
        · exact ih d hd
    exact this k.turns d hd
  · rw [k.data]; unfold InI32; dsimp only; omega
  · rw [k.data]; unfold InI32; dsimp only; omega
  · show P.data = _
    rw [k.data, ar]
  · obtain ⟨q, hq, e1, e2⟩ := seen_turns ht hinv k (x := x) (y := y) hxy
    refine ⟨q, hq, ?_⟩
    rw [e1, e2]
    rfl

/-- C151: there is no other picture. -/
theorem C151_only (ht : TrigAtZero) {lib : DeformLib F32} (hinv : InvertsTurns lib) {w h : Int}
    {ds : List (Deformer F32)} {s : List Turn} {P R : Picture F32} (k : FitsTurns w h ds s P)
    (hR : CarriedOut lib ds P R) :
    R.data = P.data ∧ R.display = P.display ∧ R.channels = P.channels ∧ R.space = P.space ∧
      ∀ x y, Has P.data x y →
        R.at_ x y = P.at_ (closest w (sourceX s x)) (closest h (sourceY s y)) := by
  obtain ⟨w0, h0, w1, h1⟩ := turns_positive k
  have ar := around_single w0 h0 w1 h1
  by_cases hon : ∃ d ∈ ds, d.enable = 1
  · obtain ⟨-, -, -, -, -, ⟨box, hb, hd⟩, hp⟩ := hR.moved hon
    rw [(boxed_turns k.turns).2 _ hb, k.data, ar, ← k.data] at hd
    refine ⟨hd, hR.display, hR.channels, hR.space, fun x y hxy => ?_⟩
    obtain ⟨q, hq, e⟩ := hp x y (by rw [hd]; exact hxy)
    obtain ⟨q', hq', e1, e2⟩ := seen_turns ht hinv k hxy
    obtain rfl := Carried.unique hq hq'
    rw [e, e1, e2]
  · have hoff : ∀ d ∈ ds, d.enable ≠ 1 := fun d hd h => hon ⟨d, hd, h⟩
    obtain ⟨hd, hp⟩ := hR.still hoff
    refine ⟨hd, hR.display, hR.channels, hR.space, fun x y hxy => ?_⟩
    rw [hp x y hxy]
    exact (((C151_turned ht hinv k).still hoff).2 x y hxy).symm

/-- C151: one transform with a scale of -1 and a translation by one pixel less than the width (and the
same for the height) mirrors the picture: the first column becomes the last, and none is lost. -/
theorem C151_mirror (ht : TrigAtZero) {lib : DeformLib F32} (hinv : InvertsTurns lib) {w h : Int}
    {d : Deformer F32} {s : Turn} {P R : Picture F32} (k : FitsTurns w h [d] [s] P)
    (hsx : s.signX = 1 ∧ s.moveX = 0 ∨ s.signX = -1 ∧ s.moveX = w - 1)
    (hsy : s.signY = 1 ∧ s.moveY = 0 ∨ s.signY = -1 ∧ s.moveY = h - 1)
    (hR : CarriedOut lib [d] P R) {x y : Int} (hxy : Has P.data x y) :
    R.at_ x y = P.at_ (if s.signX = 1 then x else w - 1 - x) (if s.signY = 1 then y else h - 1 - y) := by
  obtain ⟨-, -, -, -, e⟩ := C151_only ht hinv k hR
  rw [e x y hxy]
  rw [k.data] at hxy
  obtain ⟨a, b, c, d⟩ := hxy
  dsimp only at a b c d
  have e1 : closest w (sourceX [s] x) = if s.signX = 1 then x else w - 1 - x := by
    show closest w (s.signX * (x - s.moveX)) = _
    rcases hsx with ⟨e, f⟩ | ⟨e, f⟩ <;> rw [e, f]
    · rw [if_pos rfl, closest_same (by omega) (by omega)]; omega
    · rw [if_neg (by decide), closest_same (by omega) (by omega)]; omega
  have e2 : closest h (sourceY [s] y) = if s.signY = 1 then y else h - 1 - y := by
    show closest h (s.signY * (y - s.moveY)) = _
    rcases hsy with ⟨e, f⟩ | ⟨e, f⟩ <;> rw [e, f]
    · rw [if_pos rfl, closest_same (by omega) (by omega)]; omega
    · rw [if_neg (by decide), closest_same (by omega) (by omega)]; omega
  rw [e1, e2]

/-- C151: mirroring twice gives the original, wherever the mirror stands. -/
theorem C151_twice (ht : TrigAtZero) {lib : DeformLib F32} (hinv : InvertsTurns lib) {w h : Int}
    {d d' : Deformer F32} {s : Turn} {P R : Picture F32} (k : FitsTurns w h [d, d'] [s, s] P)
    (hsx : s.signX = -1 ∨ s.moveX = 0) (hsy : s.signY = -1 ∨ s.moveY = 0)
    (hR : CarriedOut lib [d, d'] P R) :
    R.data = P.data ∧ ∀ x y, Has P.data x y → R.at_ x y = P.at_ x y := by
  obtain ⟨e0, -, -, -, e⟩ := C151_only ht hinv k hR
  refine ⟨e0, fun x y hxy => ?_⟩
  rw [e x y hxy]
  have hp : s.IsProper := by
    obtain ⟨-, -, -, -, m, -, -⟩ := k
    cases m with
    | cons h _ => exact h.proper
  rw [k.data] at hxy
  obtain ⟨a, b, c, d⟩ := hxy
  dsimp only at a b c d
  have e1 : sourceX [s, s] x = x := by
    show s.signX * (s.signX * (x - s.moveX) - s.moveX) = x
    rcases hp.1 with e | e
    · rcases hsx with f | f
      · rw [e] at f; cases f
      · rw [e, f]; ring
    · rw [e]; ring
  have e2 : sourceY [s, s] y = y := by
    show s.signY * (s.signY * (y - s.moveY) - s.moveY) = y
    rcases hp.2 with e | e
    · rcases hsy with f | f
      · rw [e] at f; cases f
      · rw [e, f]; ring
    · rw [e]; ring
  rw [e1, e2, closest_same (by omega) (by omega), closest_same (by omega) (by omega)]

end

/-! ### Examples -/

attribute [local instance] zeroLibm

/-- A library that inverts mirrors and moves. -/
def turnLib : DeformLib F32 :=
  ⟨fun m => some fun i j => if i ≠ j ∧ j = 3 then
    (if (m i i).neg then m i j else Ieee.opp (m i j)) else m i j, unitLib.lens⟩

theorem neg_of_sign {x : F32} {a : Int} (h : Stands x a) (ha : a = 1 ∨ a = -1) :
    x.neg = decide (a = -1) := by
  obtain ⟨o1, o2⟩ := int_single (n := 1) (by decide)
  rcases ha with rfl | rfl
  · rw [same_eq (x := x) (y := ofInt 1) ⟨h.1, o1, by rw [h.2, o2]⟩ (by rw [o2]; norm_num)]
    rfl
  · rw [same_eq (x := x) (y := opp (ofInt 1)) ⟨h.1, finite_opp o1, by
      rw [h.2, val_opp, o2]; norm_num⟩ (by rw [val_opp, o2]; norm_num)]
    rfl

theorem turnLib_inverts : InvertsTurns turnLib := by
  intro m a k b l ha hb _ _ hm
  refine ⟨_, rfl, fun i j => ?_⟩
  have h : ∀ i j, Stands (m i j) (turnMat a k b l i j : Int) := hm
  show Stands (if i ≠ j ∧ j = 3 then (if (m i i).neg then m i j else Ieee.opp (m i j)) else m i j)
    (turnMat a (-a * k) b (-b * l) i j : Int)
  have n0 : (m 0 0).neg = decide (a = -1) := neg_of_sign (h 0 0) ha
  have n1 : (m 1 1).neg = decide (b = -1) := neg_of_sign (h 1 1) hb
  have n2 : (m 2 2).neg = false := neg_of_sign (h 2 2) (.inl rfl)
  have e03 : Stands (m 0 3) (k : Int) := h 0 3
  have e13 : Stands (m 1 3) (l : Int) := h 1 3
  have e23 : Stands (m 2 3) (0 : Int) := h 2 3
  by_cases hij : i ≠ j ∧ j = 3
  · rw [if_pos hij]
    obtain ⟨hij, rfl⟩ := hij
    fin_cases i
    · show Stands (if (m 0 0).neg then m 0 3 else Ieee.opp (m 0 3)) (-a * k : Int)
      rw [n0]
      rcases ha with rfl | rfl
      · have := e03.opp
        rw [if_neg (by decide), show -1 * k = -k by ring]; exact this
      · rw [if_pos (by decide), show -(-1) * k = k by ring]; exact e03
    · show Stands (if (m 1 1).neg then m 1 3 else Ieee.opp (m 1 3)) (-b * l : Int)
      rw [n1]
      rcases hb with rfl | rfl
      · have := e13.opp
        rw [if_neg (by decide), show -1 * l = -l by ring]; exact this
      · rw [if_pos (by decide), show -(-1) * l = l by ring]; exact e13
    · show Stands (if (m 2 2).neg then m 2 3 else Ieee.opp (m 2 3)) (0 : Int)
      rw [n2]
      exact e23.opp
    · exact absurd rfl hij
  · rw [if_neg hij]
    have := h i j
    revert this
    generalize m i j = z
    fin_cases i <;> fin_cases j <;> simp_all [turnMat]

/-- A transform that mirrors a picture of 3 by 2 pixels. -/
def flop : Deformer F32 :=
  .transform { TransformDeformer.default with
    invert := 0, translateX := ofInt 6, translateY := ofInt 0, scaleX := ofInt (-1), scaleY := ofInt 1 }

/-- A transform that turns it by half a turn. -/
def halfTurn : Deformer F32 :=
  .transform { TransformDeformer.default with
    invert := 0, translateX := ofInt 6, translateY := ofInt 3, scaleX := ofInt (-1),
    scaleY := ofInt (-1) }

theorem flop_turns : TurnsBy 3 flop ⟨-1, 2, 1, 0⟩ := by
  obtain ⟨a1, a2⟩ := int_single (n := 6) (by decide)
  obtain ⟨z1, z2⟩ := int_single (n := 0) (by decide)
  obtain ⟨n1, n2⟩ := int_single (n := -1) (by decide)
  obtain ⟨o1, o2⟩ := int_single (n := 1) (by decide)
  exact ⟨⟨.inr rfl, .inl rfl⟩, ⟨1, 0, ofInt 6, ofInt 0, 0, 0, 0, ofInt (-1), ofInt 1, 0, 0⟩, rfl,
    a1, a2, z1, z2, n1, n2, o1, o2⟩

theorem halfTurn_turns : TurnsBy 3 halfTurn ⟨-1, 2, -1, 1⟩ := by
  obtain ⟨a1, a2⟩ := int_single (n := 6) (by decide)
  obtain ⟨z1, z2⟩ := int_single (n := 3) (by decide)
  obtain ⟨n1, n2⟩ := int_single (n := -1) (by decide)
  exact ⟨⟨.inr rfl, .inr rfl⟩, ⟨1, 0, ofInt 6, ofInt 3, 0, 0, 0, ofInt (-1), ofInt (-1), 0, 0⟩, rfl,
    a1, a2, z1, z2, n1, n2, n1, n2⟩

theorem flop_fits (at_ : Int → Int → List F32) :
    FitsTurns 3 2 [flop] [⟨-1, 2, 1, 0⟩] (numbered at_) :=
  ⟨rfl, rfl, .inr rfl, (show ValidSize ⟨3, 2, 4⟩ by unfold ValidSize; decide), .cons flop_turns .nil,
    by decide, by decide⟩

/-- The first column becomes the last. -/
example (at_ : Int → Int → List F32) : ∃ R, CarriedOut turnLib [flop] (numbered at_) R ∧
    R.at_ 0 1 = at_ 2 1 ∧ R.at_ 2 0 = at_ 0 0 := by
  have hR := C151_turned zero_trig turnLib_inverts (flop_fits at_)
  refine ⟨_, hR, ?_, ?_⟩
  · exact C151_mirror zero_trig turnLib_inverts (flop_fits at_) (.inr ⟨rfl, rfl⟩) (.inl ⟨rfl, rfl⟩) hR
      (x := 0) (y := 1) (by unfold Has numbered; dsimp only; decide)
  · exact C151_mirror zero_trig turnLib_inverts (flop_fits at_) (.inr ⟨rfl, rfl⟩) (.inl ⟨rfl, rfl⟩) hR
      (x := 2) (y := 0) (by unfold Has numbered; dsimp only; decide)

/-- Two half turns. -/
example (at_ : Int → Int → List F32) : ∃ R, CarriedOut turnLib [halfTurn, halfTurn] (numbered at_) R ∧
    R.at_ 2 1 = at_ 2 1 := by
  have k : FitsTurns 3 2 [halfTurn, halfTurn] [⟨-1, 2, -1, 1⟩, ⟨-1, 2, -1, 1⟩] (numbered at_) :=
    ⟨rfl, rfl, .inr rfl, (show ValidSize ⟨3, 2, 4⟩ by unfold ValidSize; decide),
      .cons halfTurn_turns (.cons halfTurn_turns .nil), by decide, by decide⟩
  have hR := C151_turned zero_trig turnLib_inverts k
  exact ⟨_, hR, (C151_twice zero_trig turnLib_inverts k (.inl rfl) (.inl rfl) hR).2 2 1
    (by unfold Has numbered; dsimp only; decide)⟩

/-- A mirror and a half turn: the rows change places. -/
example (at_ : Int → Int → List F32) (R : Picture F32)
    (hR : CarriedOut turnLib [flop, halfTurn] (numbered at_) R) : R.at_ 2 1 = at_ 2 0 := by
  have k : FitsTurns 3 2 [flop, halfTurn] [⟨-1, 2, 1, 0⟩, ⟨-1, 2, -1, 1⟩] (numbered at_) :=
    ⟨rfl, rfl, .inr rfl, (show ValidSize ⟨3, 2, 4⟩ by unfold ValidSize; decide),
      .cons flop_turns (.cons halfTurn_turns .nil), by decide, by decide⟩
  exact (C151_only zero_trig turnLib_inverts k hR).2.2.2.2 2 1
    (by unfold Has numbered; dsimp only; decide)

end OCG.Props
