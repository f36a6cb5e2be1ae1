import Verif.Spec.TurnMesh
import Verif.Props.ShiftMesh
import Verif.Props.Turn
/-
C154: meshes are mirrored with the picture.
-/

namespace OCG.Props

open IeeeSpec PixelSpec BlockSpec RemapSpec DeformSpec PictureSpec TurnSpec BBoxSpec ImageSpecs
open ShiftSpec (closest OnGrid Upright)
open Ieee hiding floor ceil round

theorem sign_stands {x : F32} {X : ℚ} {a : Int} (ha : a = 1 ∨ a = -1) (hx : Stands x X) :
    ∃ z : F32, Stands z (a * X) := by
  rcases ha with rfl | rfl
  · exact ⟨x, hx.1, by rw [hx.2]; simp⟩
  · exact ⟨opp x, finite_opp hx.1, by rw [val_opp, hx.2]; simp⟩

/-- A row of a matrix that mirrors and moves points. -/
theorem turn_row_first {e0 e1 e2 e3 x y z o : F32} {a : Int} {k X Y : ℚ} (ha : a = 1 ∨ a = -1)
    (h0 : Stands e0 (a : ℚ)) (h1 : Stands e1 0) (h2 : Stands e2 0) (h3 : Stands e3 k)
    (hx : Stands x X) (hy : Stands y Y) (hz : Stands z 0) (ho : Stands o 1)
    (hr : ∃ r : F32, Stands r (a * X + k)) :
    Stands (add (add (add (mul e0 x) (mul e1 y)) (mul e2 z)) (mul e3 o)) (a * X + k) := by
  have hs := sign_stands ha hx
  have a : Stands (mul e0 x) (a * X) :=
    rounds_stands (by have := rounds_mul h0.1 hx.1; rwa [h0.2, hx.2] at this) hs
  have b : Stands (mul e1 y) 0 :=
    rounds_stands (by have := rounds_mul h1.1 hy.1; rwa [h1.2, MulZeroClass.zero_mul] at this) ⟨z, hz⟩
  have c : Stands (mul e2 z) 0 :=
    rounds_stands (by have := rounds_mul h2.1 hz.1; rwa [h2.2, MulZeroClass.zero_mul] at this) ⟨z, hz⟩
  have d : Stands (mul e3 o) k :=
    rounds_stands (by have := rounds_mul h3.1 ho.1; rwa [ho.2, mul_one, h3.2] at this) ⟨e3, h3⟩
  have ab := rounds_stands (by have := rounds_add a.1 b.1; rwa [a.2, b.2, add_zero] at this) hs
  have abc := rounds_stands (by have := rounds_add ab.1 c.1; rwa [ab.2, c.2, add_zero] at this) hs
  exact rounds_stands (by have := rounds_add abc.1 d.1; rwa [abc.2, d.2] at this) hr

theorem turn_row_second {e0 e1 e2 e3 x y z o : F32} {b : Int} {k X Y : ℚ} (hb : b = 1 ∨ b = -1)
    (h0 : Stands e0 0) (h1 : Stands e1 (b : ℚ)) (h2 : Stands e2 0) (h3 : Stands e3 k)
    (hx : Stands x X) (hy : Stands y Y) (hz : Stands z 0) (ho : Stands o 1)
    (hr : ∃ r : F32, Stands r (b * Y + k)) :
    Stands (add (add (add (mul e0 x) (mul e1 y)) (mul e2 z)) (mul e3 o)) (b * Y + k) := by
  have hs := sign_stands hb hy
  have a : Stands (mul e0 x) 0 :=
    rounds_stands (by have := rounds_mul h0.1 hx.1; rwa [h0.2, MulZeroClass.zero_mul] at this) ⟨z, hz⟩
  have b : Stands (mul e1 y) (b * Y) :=
    rounds_stands (by have := rounds_mul h1.1 hy.1; rwa [h1.2, hy.2] at this) hs
  have c : Stands (mul e2 z) 0 :=
    rounds_stands (by have := rounds_mul h2.1 hz.1; rwa [h2.2, MulZeroClass.zero_mul] at this) ⟨z, hz⟩
  have d : Stands (mul e3 o) k :=
    rounds_stands (by have := rounds_mul h3.1 ho.1; rwa [ho.2, mul_one, h3.2] at this) ⟨e3, h3⟩
  have ab := rounds_stands (by have := rounds_add a.1 b.1; rwa [a.2, b.2, zero_add] at this) hs
  have abc := rounds_stands (by have := rounds_add ab.1 c.1; rwa [ab.2, c.2, add_zero] at this) hs
  exact rounds_stands (by have := rounds_add abc.1 d.1; rwa [abc.2, d.2] at this) hr

/-- What a transform that mirrors and translates computes, looking forward. -/
theorem turn_forward {F : Type} [FloatLike F] [FloatConst F] (lib : DeformLib F)
    (x0 y0 x1 y1 : Int) (invert : Int) (tx ty sx sy x y : F) {m : Mat4 F}
    (e : Xform.transform2d .srt
      (Interp.inverseLerp (FloatLike.ofInt x0) (FloatLike.ofInt x1) tx)
      (Interp.inverseLerp (FloatLike.ofInt x0) (FloatLike.ofInt x1) ty) 0 0 0 sx sy = .ok m) :
    Deformer.point lib (BBoxF.ofBBox ⟨x0, y0, x1, y1⟩) false (.transform
        { TransformDeformer.default with
          invert := invert, translateX := tx, translateY := ty, scaleX := sx, scaleY := sy }) x y =
      .ok (Xform.mulVec (if 0 < invert then (lib.tryInverse m).getD m else m)
          (Xform.vec (x - 1 / FloatLike.ofInt 2) (y - 1 / FloatLike.ofInt 2) 0 1) 0 +
            1 / FloatLike.ofInt 2,
        Xform.mulVec (if 0 < invert then (lib.tryInverse m).getD m else m)
          (Xform.vec (x - 1 / FloatLike.ofInt 2) (y - 1 / FloatLike.ofInt 2) 0 1) 1 +
            1 / FloatLike.ofInt 2) := by
  unfold Deformer.point TransformDeformer.apply TransformDeformer.default
  refine Res.bind_ok.mpr ⟨m, e, congrArg Except.ok ?_⟩
  dsimp only
  by_cases h0 : 0 < invert
  · cases h : lib.tryInverse m <;> simp [h0]
  · simp [h0]

theorem ahead_bound {s k : Int} {m : Nat} {a : Int} (hs : s = 1 ∨ s = -1) (hm : 1 ≤ m) :
    |s * (a - 2 ^ (m - 1)) + k * 2 ^ m| + 2 ^ (m - 1) ≤ |a| + (|k| + 1) * 2 ^ m ∧
      |ahead s k m a| ≤ |a| + (|k| + 1) * 2 ^ m ∧ |a - 2 ^ (m - 1)| ≤ |a| + (|k| + 1) * 2 ^ m := by
  obtain ⟨n, rfl⟩ : ∃ n, m = n + 1 := ⟨m - 1, by omega⟩
  unfold ahead
  rw [Nat.add_sub_cancel]
  have hN : (0 : Int) < 2 ^ n := by positivity
  have e1 : |k * 2 ^ (n + 1)| = |k| * (2 * 2 ^ n) := by
    rw [abs_mul, abs_of_pos (by positivity : (0 : Int) < 2 ^ (n + 1))]
    ring
  have h0 : 0 ≤ |k| * (2 * 2 ^ n) := by positivity
  have e2 : |(2 : Int) ^ n| = 2 ^ n := abs_of_pos hN
  have e3 : (|k| + 1) * 2 ^ (n + 1) = |k| * (2 * 2 ^ n) + 2 * 2 ^ n := by ring
  have f0 : |s * (a - 2 ^ n)| = |a - 2 ^ n| := by
    rw [abs_mul]
    rcases hs with rfl | rfl <;> simp
  have f1 := abs_sub a (2 ^ n)
  have f2 := abs_add_le (s * (a - 2 ^ n)) (k * 2 ^ (n + 1))
  have f3 := abs_add_le (s * (a - 2 ^ n) + k * 2 ^ (n + 1)) (2 ^ n)
  rw [e1, f0] at f2
  rw [e2] at f1 f3
  rw [e3]
  refine ⟨?_, ?_, ?_⟩ <;> linarith

section
variable [Libm single32]

/-- Where a transform that mirrors and translates by whole pixels takes a point. -/
theorem turn_ahead (ht : TrigAtZero) {lib : DeformLib F32} (hinv : InvertsTurns lib) {w : Int}
    (hw0 : 0 < w) (hw : w ≤ 2 ^ 22) (y0 y1 : Int) {d : Deformer F32} {s : Turn}
    (hd : TurnsBy w d s) (hup : Upright d) (hk : s.moveX.natAbs ≤ 2 ^ 22)
    (hl : s.moveY.natAbs ≤ 2 ^ 22)
    {x y : F32} {m : Nat} {a b : Int} (hm1 : 1 ≤ m) (hm : m ≤ 149) (hx : OnGrid m x a)
    (hy : OnGrid m y b) (ha : |a| + (|s.moveX| + 1) * 2 ^ m ≤ 2 ^ 24)
    (hb : |b| + (|s.moveY| + 1) * 2 ^ m ≤ 2 ^ 24) :
    ∃ q : F32 × F32, d.point lib (BBoxF.ofBBox ⟨0, y0, w, y1⟩) false x y = .ok q ∧
      OnGrid m q.1 (ahead s.signX s.moveX m a) ∧ OnGrid m q.2 (ahead s.signY s.moveY m b) := by
  obtain ⟨t, rfl, fx, vx, fy, vy, sx, ux, sy, uy⟩ := hd.shape
  obtain ⟨pa, pb⟩ := hd.proper
  obtain ⟨σ, k, τ, l⟩ := s
  have hup : 0 ≤ t.invert := hup
  dsimp only at *
  have nk : (-σ * k).natAbs = k.natAbs := by rcases pa with rfl | rfl <;> omega
  have nl : (-τ * l).natAbs = l.natAbs := by rcases pb with rfl | rfl <;> omega
  have htx := shift_offset (k := if t.invert = 0 then k else -σ * k) hw0 hw (by split <;> omega)
    ⟨fx, vx⟩
  have hty := shift_offset (k := if t.invert = 0 then l else -τ * l) hw0 hw (by split <;> omega)
    ⟨fy, vy⟩
  obtain ⟨M, e, hM⟩ := transform_turn ht pa pb htx hty ⟨sx, ux⟩ ⟨sy, uy⟩ (by split <;> omega)
    (by split <;> omega)
  obtain ⟨v, ev, hv⟩ : ∃ v : Mat4 F32, (if 0 < t.invert then (lib.tryInverse M).getD M
      else M) = v ∧ IsTurn v σ k τ l := by
    by_cases h0 : t.invert = 0
    · rw [if_pos h0, if_pos h0] at hM
      exact ⟨M, if_neg (by omega), hM⟩
    · rw [if_neg h0, if_neg h0] at hM
      obtain ⟨v, e, hv⟩ := hinv M σ (-σ * k) τ (-τ * l) pa pb (by omega) (by omega) hM
      rw [show -σ * (-σ * k) = k by rcases pa with rfl | rfl <;> ring,
        show -τ * (-τ * l) = l by rcases pb with rfl | rfl <;> ring] at hv
      exact ⟨v, by rw [if_pos (by omega), e]; rfl, hv⟩
  obtain ⟨half1, half2⟩ := half_single
  obtain ⟨a1, a3, a0⟩ := ahead_bound (k := k) (a := a) pa hm1
  obtain ⟨b1, b3, b0⟩ := ahead_bound (k := l) (a := b) pb hm1
  obtain ⟨n, rfl⟩ : ∃ n, m = n + 1 := ⟨m - 1, by omega⟩
  unfold ahead at *
  rw [Nat.add_sub_cancel] at *
  have hN : (1 : Int) ≤ 2 ^ n := one_le_pow₀ (by decide)
  have hNq : (0 : ℚ) < 2 ^ n := by positivity
  -- everything that comes up is on the grid
  have rep : ∀ c : Int, |c| ≤ 2 ^ 24 → ∃ z : F32, Stands z ((c : ℚ) / 2 ^ (n + 1)) := by
    intro c hc
    rw [Int.abs_eq_natAbs] at hc
    exact dyadic_signed (by exact_mod_cast hc) hm
  have corner : ∀ {x : F32} {a : Int}, OnGrid (n + 1) x a → |a - 2 ^ n| ≤ 2 ^ 24 →
      Stands (x - 1 / FloatLike.ofInt 2) (((a - 2 ^ n : Int) : ℚ) / 2 ^ (n + 1)) := by
    intro x a hx ha
    rw [op_sub, op_div, op_one, op_ofInt]
    refine rounds_stands ?_ (rep _ ha)
    have := rounds_sub hx.1 half1
    rw [hx.2, half2] at this
    rw [show ((a - 2 ^ n : Int) : ℚ) / 2 ^ (n + 1) = (a : ℚ) / 2 ^ (n + 1) - 1 / 2 by
      push_cast; rw [pow_succ]; field_simp]
    exact this
  have back : ∀ {r : F32} {c a : Int}, Stands r ((c : ℚ) / 2 ^ (n + 1)) → c + 2 ^ n = a →
      |a| ≤ 2 ^ 24 → OnGrid (n + 1) (r + 1 / FloatLike.ofInt 2) a := by
    intro r c a hr e ha
    rw [op_add, op_div, op_one, op_ofInt]
    refine rounds_stands ?_ (rep _ ha)
    have := rounds_add hr.1 half1
    rw [hr.2, half2] at this
    rw [← e, show ((c + 2 ^ n : Int) : ℚ) / 2 ^ (n + 1) = (c : ℚ) / 2 ^ (n + 1) + 1 / 2 by
      push_cast; rw [pow_succ]; field_simp]
    exact this
  have cx := corner hx (by linarith)
  have cy := corner hy (by linarith)
  have z : Stands (0 : F32) 0 := by
    have : Stands (0 : F32) (0 : Int) := by rw [op_zero]; exact Stands.of_code (zero_code _)
    exact_mod_cast this
  have o : Stands (1 : F32) 1 := by
    have : Stands (1 : F32) (1 : Int) := by rw [op_one]; exact stands_ofInt (by decide)
    exact_mod_cast this
  have h : ∀ i j, Stands (v i j) (turnMat σ k τ l i j : Int) := hv
  have c0 : ((0 : Int) : ℚ) = 0 := Int.cast_zero
  have e00 : Stands (v 0 0) σ := h 0 0
  have e01 : Stands (v 0 1) 0 := by rw [← c0]; exact h 0 1
  have e02 : Stands (v 0 2) 0 := by rw [← c0]; exact h 0 2
  have e03 : Stands (v 0 3) k := h 0 3
  have e10 : Stands (v 1 0) 0 := by rw [← c0]; exact h 1 0
  have e11 : Stands (v 1 1) τ := h 1 1
  have e12 : Stands (v 1 2) 0 := by rw [← c0]; exact h 1 2
  have e13 : Stands (v 1 3) l := h 1 3
  have sum : ∀ (s c k : Int), ((s : ℚ) * ((c : ℚ) / 2 ^ (n + 1)) + k) =
      ((s * c + k * 2 ^ (n + 1) : Int) : ℚ) / 2 ^ (n + 1) := by
    intro s c k
    push_cast
    field_simp
  have r0 : Stands (Xform.mulVec v (Xform.vec (x - 1 / FloatLike.ofInt 2) (y - 1 / FloatLike.ofInt 2)
      0 1) 0) (((σ * (a - 2 ^ n) + k * 2 ^ (n + 1) : Int) : ℚ) / 2 ^ (n + 1)) := by
    unfold Xform.mulVec Xform.vec
    rw [op_add, op_add, op_add, op_mul, op_mul, op_mul, op_mul, ← sum]
    exact turn_row_first pa e00 e01 e02 e03 cx cy z o (by rw [sum]; exact rep _ (by linarith))
  have r1 : Stands (Xform.mulVec v (Xform.vec (x - 1 / FloatLike.ofInt 2) (y - 1 / FloatLike.ofInt 2)
      0 1) 1) (((τ * (b - 2 ^ n) + l * 2 ^ (n + 1) : Int) : ℚ) / 2 ^ (n + 1)) := by
    unfold Xform.mulVec Xform.vec
    rw [op_add, op_add, op_add, op_mul, op_mul, op_mul, op_mul, ← sum]
    exact turn_row_second pb e10 e11 e12 e13 cx cy z o (by rw [sum]; exact rep _ (by linarith))
  refine ⟨(Xform.mulVec v (Xform.vec (x - 1 / FloatLike.ofInt 2) (y - 1 / FloatLike.ofInt 2) 0 1) 0 +
      1 / FloatLike.ofInt 2,
    Xform.mulVec v (Xform.vec (x - 1 / FloatLike.ofInt 2) (y - 1 / FloatLike.ofInt 2) 0 1) 1 +
      1 / FloatLike.ofInt 2), ?_, back r0 rfl (by linarith), back r1 rfl (by linarith)⟩
  rw [turn_forward lib 0 y0 w y1 t.invert _ _ _ _ x y e, ev]

omit [Libm single32] in
theorem room_nonneg (s : List Turn) : 0 ≤ roomX s ∧ 0 ≤ roomY s := by
  unfold roomX roomY
  induction s with
  | nil => simp
  | cons a s ih =>
    simp only [List.map_cons, List.sum_cons]
    have := abs_nonneg a.moveX
    have := abs_nonneg a.moveY
    constructor <;> linarith [ih.1, ih.2]

/-- Where such transforms, one after another, take a point. -/
theorem turns_ahead (ht : TrigAtZero) {lib : DeformLib F32} (hinv : InvertsTurns lib) {w : Int}
    (hw0 : 0 < w) (hw : w ≤ 2 ^ 22) (y0 y1 : Int) {m : Nat} (hm1 : 1 ≤ m) (hm : m ≤ 149)
    {ds : List (Deformer F32)} {s : List Turn} (hd : List.Forall₂ (TurnsBy w) ds s)
    (hup : ∀ d ∈ ds, Upright d) :
    ∀ {x y : F32} {a b : Int} {r : F32 × F32}, OnGrid m x a → OnGrid m y b →
      |a| + roomX s * 2 ^ m ≤ 2 ^ 24 → |b| + roomY s * 2 ^ m ≤ 2 ^ 24 →
      roomX s ≤ 2 ^ 22 → roomY s ≤ 2 ^ 22 →
      Carried lib (BBoxF.ofBBox ⟨0, y0, w, y1⟩) false ds (x, y) r →
        OnGrid m r.1 (placeX m s a) ∧ OnGrid m r.2 (placeY m s b) := by
  induction hd with
  | nil =>
    intro x y a b r hx hy _ _ _ _ h
    cases h
    exact ⟨hx, hy⟩
  | @cons d k ds s h _ ih =>
    intro x y a b r hx hy ha hb wx wy hc
    have e : roomX (k :: s) = |k.moveX| + 1 + roomX s := by simp [roomX]
    have e' : roomY (k :: s) = |k.moveY| + 1 + roomY s := by simp [roomY]
    obtain ⟨n1, n2⟩ := room_nonneg s
    have p : (0 : Int) < 2 ^ m := by positivity
    have q1 := mul_nonneg n1 p.le
    have q2 := mul_nonneg n2 p.le
    rw [e] at ha wx
    rw [e'] at hb wy
    obtain ⟨q, hq, g1, g2⟩ := turn_ahead ht hinv hw0 hw y0 y1 h (hup d (List.mem_cons_self ..))
      (by rw [Int.abs_eq_natAbs] at wx; omega) (by rw [Int.abs_eq_natAbs] at wy; omega) hm1 hm hx hy
      (by linarith) (by linarith)
    have on : d.enable = 1 := by
      obtain ⟨t, rfl, -⟩ := h.shape
      rfl
    obtain ⟨-, t1, -⟩ := ahead_bound (k := k.moveX) (a := a) h.proper.1 hm1
    obtain ⟨-, t2, -⟩ := ahead_bound (k := k.moveY) (a := b) h.proper.2 hm1
    have a0 := abs_nonneg k.moveX
    have b0 := abs_nonneg k.moveY
    cases hc with
    | off h0 _ => exact absurd on h0
    | on _ ec h' =>
      obtain rfl := Except.ok.inj (hq.symm.trans ec)
      exact ih (fun d hd => hup d (List.mem_cons_of_mem _ hd)) g1 g2 (by linarith) (by linarith)
        (by linarith) (by linarith) h'

/-- C154: transforms that mirror and translate by whole pixels and wait in a stream, applied to the
vertices of a mesh, take every vertex on a grid of halves (or finer) exactly where they should, one
after another; the third coordinate stays. -/
theorem C154_vertices {H : Type} (ht : TrigAtZero) {lib : DeformLib F32} (hinv : InvertsTurns lib)
    (st : Stream F32 H) {w y0 y1 : Int} (hwin : st.dataWindow = ⟨0, y0, w, y1⟩) (hw0 : 0 < w)
    (hw : w ≤ 2 ^ 22) {s : List Turn} (hd : List.Forall₂ (TurnsBy w) st.deformers s)
    (hup : ∀ d ∈ st.deformers, Upright d) (wx : roomX s ≤ 2 ^ 22) (wy : roomY s ≤ 2 ^ 22)
    (buf : List F32) :
    ∃ out, st.applyDeformers lib buf (BBoxF.ofBBox st.dataWindow) = .ok out ∧
      Moved 3 (fun q r => ∀ m a b, 1 ≤ m → m ≤ 149 → |a| + roomX s * 2 ^ m ≤ 2 ^ 24 →
        |b| + roomY s * 2 ^ m ≤ 2 ^ 24 → OnGrid m q.1 a → OnGrid m q.2 b →
        OnGrid m r.1 (placeX m s a) ∧ OnGrid m r.2 (placeY m s b)) buf out := by
  have hu : ∀ {ds : List (Deformer F32)} {s}, List.Forall₂ (TurnsBy w) ds s → ∀ d ∈ ds, Usable d := by
    intro ds s m
    induction m with
    | nil => intro d hd; cases hd
    | cons h _ ih =>
      intro d hd
      rcases List.mem_cons.mp hd with rfl | hd
      · obtain ⟨t, rfl, -⟩ := h.shape
        trivial
      · exact ih d hd
  obtain ⟨out, e, mv⟩ := C49_positions lib st.deformers (BBoxF.ofBBox st.dataWindow)
    (fun d hd' _ => hu hd d hd') buf
  refine ⟨out, e, mv.length, ?_, mv.others⟩
  intro i hi x y x' y' h1 h2 h3 h4 m a b hm1 hm ha hb hx hy
  have c := mv.points i hi x y x' y' h1 h2 h3 h4
  rw [hwin] at c
  exact turns_ahead ht hinv hw0 hw y0 y1 hm1 hm hd hup hx hy ha hb wx wy c

end

/-! ### Pixels and vertices -/

/-- The centre of a column goes to the centre of a column. -/
theorem place_centre (s : List Turn) : ∀ i, placeX 1 s (2 * i + 1) = 2 * columnOf s i + 1 ∧
    placeY 1 s (2 * i + 1) = 2 * rowOf s i + 1 := by
  induction s with
  | nil => intro i; exact ⟨rfl, rfl⟩
  | cons t s ih =>
    intro i
    unfold placeX placeY columnOf rowOf
    rw [← (ih _).1, ← (ih _).2]
    unfold ahead
    constructor <;> congr 1 <;> simp <;> ring

theorem columnOf_ahead {t : Turn} : ∀ {s : List Turn}, (∀ u ∈ s, Independent t u) → ∀ i,
    columnOf s (t.signX * i + t.moveX) = t.signX * columnOf s i + t.moveX ∧
    rowOf s (t.signY * i + t.moveY) = t.signY * rowOf s i + t.moveY
  | [], _, _ => ⟨rfl, rfl⟩
  | u :: s, h, i => by
    unfold columnOf rowOf
    obtain ⟨h1, h2⟩ := h u List.mem_cons_self
    have ih := columnOf_ahead (t := t) (s := s) (fun v hv => h v (List.mem_cons_of_mem _ hv))
    rw [← (ih _).1, ← (ih _).2]
    constructor
    · congr 1
      linear_combination -h1
    · congr 1
      linear_combination -h2

/-- If the order does not matter, going back undoes going ahead. -/
theorem source_columnOf : ∀ {s : List Turn}, (∀ t ∈ s, t.IsProper) → s.Pairwise Independent → ∀ i,
    sourceX s (columnOf s i) = i ∧ sourceY s (rowOf s i) = i
  | [], _, _, _ => ⟨rfl, rfl⟩
  | t :: s, hp, hc, i => by
    obtain ⟨h1, h2⟩ := List.pairwise_cons.mp hc
    unfold columnOf rowOf sourceX sourceY backX backY
    rw [(columnOf_ahead h1 i).1, (columnOf_ahead h1 i).2]
    obtain ⟨pa, pb⟩ := hp t List.mem_cons_self
    have ih := source_columnOf (fun u hu => hp u (List.mem_cons_of_mem _ hu)) h2 i
    constructor
    · rw [show t.signX * (t.signX * columnOf s i + t.moveX - t.moveX) = columnOf s i by
        rcases pa with e | e <;> rw [e] <;> ring]
      exact ih.1
    · rw [show t.signY * (t.signY * rowOf s i + t.moveY - t.moveY) = rowOf s i by
        rcases pb with e | e <;> rw [e] <;> ring]
      exact ih.2

section
variable [Libm single32]

theorem turns_proper {w : Int} {ds : List (Deformer F32)} {s : List Turn}
    (h : List.Forall₂ (TurnsBy w) ds s) : ∀ t ∈ s, t.IsProper := by
  induction h with
  | nil => intro t ht; cases ht
  | cons h _ ih =>
    intro t ht
    rcases List.mem_cons.mp ht with rfl | ht
    · exact h.proper
    · exact ih t ht

/-- C154: a vertex at the centre of a pixel goes to the centre of a pixel that, if it is in the
window, shows what the vertex marked.

Only for transforms whose order does not matter, such as a single one: the picture goes through
several of them in the wrong order (`C154_counterexample_order`). -/
theorem C154_marks_partial {H : Type} (ht : TrigAtZero) {lib : DeformLib F32}
    (hinv : InvertsTurns lib) (st : Stream F32 H) {w h : Int} {s : List Turn} {P R : Picture F32}
    (k : FitsTurns w h st.deformers s P) (hwin : st.dataWindow = P.data)
    (hup : ∀ d ∈ st.deformers, Upright d) (hc : s.Pairwise Independent)
    (wx : w + roomX s ≤ 2 ^ 22) (wy : h + roomY s ≤ 2 ^ 22)
    (hR : CarriedOut lib st.deformers P R) (buf : List F32) :
    ∃ out, st.applyDeformers lib buf (BBoxF.ofBBox st.dataWindow) = .ok out ∧
      Moved 3 (fun q r => ∀ x y, Has P.data x y →
        OnGrid 1 q.1 (2 * x + 1) → OnGrid 1 q.2 (2 * y + 1) →
        ∃ x' y', OnGrid 1 r.1 (2 * x' + 1) ∧ OnGrid 1 r.2 (2 * y' + 1) ∧
          (Has R.data x' y' → R.at_ x' y' = P.at_ x y)) buf out := by
  obtain ⟨w0, h0, -, -⟩ := turns_positive k
  obtain ⟨out, e, mv⟩ := C154_vertices ht hinv st (hwin.trans k.data) w0
    (by have := (room_nonneg s).1; omega) k.turns hup (by omega) (by omega) buf
  refine ⟨out, e, mv.length, ?_, mv.others⟩
  intro i hi q1 q2 r1 r2 e1 e2 e3 e4 x y hxy g1 g2
  obtain ⟨p1, p2, p3, p4⟩ : Has ⟨0, 0, w, h⟩ x y := by rw [← k.data]; exact hxy
  dsimp only at p1 p2 p3 p4
  have key := mv.points i hi q1 q2 r1 r2 e1 e2 e3 e4 1 (2 * x + 1) (2 * y + 1) (by decide) (by decide)
    (by rw [abs_of_nonneg (by omega)]; omega) (by rw [abs_of_nonneg (by omega)]; omega) g1 g2
  rw [(place_centre s x).1, (place_centre s y).2] at key
  refine ⟨_, _, key.1, key.2, fun hin => ?_⟩
  obtain ⟨a1, -, -, -, a5⟩ := C151_only ht hinv k hR
  rw [a1] at hin
  rw [a5 _ _ hin]
  obtain ⟨b1, b2⟩ := source_columnOf (turns_proper k.turns) hc x
  obtain ⟨c1, c2⟩ := source_columnOf (turns_proper k.turns) hc y
  rw [b1, c2, closest_same p1 p2, closest_same p3 p4]

end

/-! ### Examples -/

attribute [local instance] zeroLibm

/-- A mesh of one point, the centre of the pixel (0, 0). -/
def cornerPoint : List F32 :=
  [FloatLike.ofInt 0 + 1 / FloatLike.ofInt 2, FloatLike.ofInt 0 + 1 / FloatLike.ofInt 2, 1]

theorem centre_zero : OnGrid 1 (FloatLike.ofInt 0 + 1 / FloatLike.ofInt 2 : F32) 1 := by
  have c := centre_stands (k := 0) (by decide) (by decide)
  exact ⟨c.1, by rw [c.2]; norm_num⟩

/-- A mirror and a half turn: the order does not matter. -/
theorem turnTwice_fits (at_ : Int → Int → List F32) :
    FitsTurns 3 2 [flop, halfTurn] [⟨-1, 2, 1, 0⟩, ⟨-1, 2, -1, 1⟩] (numbered at_) :=
  ⟨rfl, rfl, .inr rfl, (show ValidSize ⟨3, 2, 4⟩ by unfold ValidSize; decide),
    .cons flop_turns (.cons halfTurn_turns .nil), by decide, by decide⟩

theorem turnTwice_independent :
    [(⟨-1, 2, 1, 0⟩ : Turn), ⟨-1, 2, -1, 1⟩].Pairwise Independent := by
  refine .cons (fun u hu => ?_) (.cons (fun u hu => by cases hu) .nil)
  obtain rfl := List.mem_singleton.mp hu
  exact ⟨rfl, rfl⟩

/-- The point is taken to the other row. -/
example {H : Type} (st : Stream F32 H) (hw : st.dataWindow = ⟨0, 0, 3, 2⟩)
    (hd : st.deformers = [flop, halfTurn]) :
    ∃ out x y z, st.applyDeformers turnLib cornerPoint (BBoxF.ofBBox st.dataWindow) = .ok out ∧
      out = [x, y, z] ∧ OnGrid 1 x 1 ∧ OnGrid 1 y 3 ∧ z = 1 := by
  obtain ⟨out, e, mv⟩ := C154_vertices zero_trig turnLib_inverts st hw (by decide) (by decide)
    (s := [⟨-1, 2, 1, 0⟩, ⟨-1, 2, -1, 1⟩]) (by
      rw [hd]
      exact .cons flop_turns (.cons halfTurn_turns .nil))
    (by rw [hd]; intro d h; fin_cases h <;> exact le_refl 0) (by decide) (by decide) cornerPoint
  have hl := mv.length
  match out, hl with
  | [x, y, z], _ =>
    obtain ⟨g1, g2⟩ := mv.points 0 (by simp [cornerPoint]) _ _ x y rfl rfl rfl rfl 1 1 1 (by decide)
      (by decide) (by decide) (by decide) centre_zero centre_zero
    have := mv.others 2 (.inl (by decide))
    exact ⟨_, x, y, z, e, rfl, g1, g2, Option.some.inj this⟩

/-- There it marks the same pixel. -/
example {H : Type} (st : Stream F32 H) (hw : st.dataWindow = ⟨0, 0, 3, 2⟩)
    (hd : st.deformers = [flop, halfTurn]) (at_ : Int → Int → List F32) (R : Picture F32)
    (hR : CarriedOut turnLib st.deformers (numbered at_) R) :
    ∃ out, st.applyDeformers turnLib cornerPoint (BBoxF.ofBBox st.dataWindow) = .ok out ∧
      ∀ x y, out[0]? = some x → out[1]? = some y →
        ∃ i j, OnGrid 1 x (2 * i + 1) ∧ OnGrid 1 y (2 * j + 1) ∧
          (Has R.data i j → R.at_ i j = at_ 0 0) := by
  obtain ⟨out, e, mv⟩ := C154_marks_partial zero_trig turnLib_inverts st (P := numbered at_)
    (by rw [hd]; exact turnTwice_fits at_) hw
    (by rw [hd]; intro d h; fin_cases h <;> exact le_refl 0) turnTwice_independent (by decide)
    (by decide) hR cornerPoint
  refine ⟨out, e, fun x y hx hy => ?_⟩
  exact mv.points 0 (by simp [cornerPoint]) _ _ x y rfl rfl hx hy 0 0
    (by unfold Has numbered; dsimp only; decide) centre_zero centre_zero

/-- A transform that moves a picture of 3 by 2 pixels one pixel to the right. -/
def stepRight : Deformer F32 :=
  .transform { TransformDeformer.default with
    invert := 0, translateX := ofInt 3, translateY := ofInt 0, scaleX := ofInt 1, scaleY := ofInt 1 }

theorem step_turns : TurnsBy 3 stepRight ⟨1, 1, 1, 0⟩ := by
  obtain ⟨a1, a2⟩ := int_single (n := 3) (by decide)
  obtain ⟨z1, z2⟩ := int_single (n := 0) (by decide)
  obtain ⟨o1, o2⟩ := int_single (n := 1) (by decide)
  exact ⟨⟨.inl rfl, .inl rfl⟩, ⟨1, 0, ofInt 3, ofInt 0, 0, 0, 0, ofInt 1, ofInt 1, 0, 0⟩, rfl,
    a1, a2, z1, z2, o1, o2, o1, o2⟩

/-- C154 fails where the order matters: moving one pixel to the right and then mirroring takes a
point on the pixel (0, 0) to the pixel (1, 0), but there the picture shows what was at (2, 0). -/
theorem C154_counterexample_order {H : Type} (st : Stream F32 H)
    (hw : st.dataWindow = ⟨0, 0, 3, 2⟩) (hd : st.deformers = [stepRight, flop])
    (at_ : Int → Int → List F32) :
    (∃ R, CarriedOut turnLib st.deformers (numbered at_) R ∧ R.data = ⟨0, 0, 3, 2⟩ ∧
      R.at_ 1 0 = at_ 2 0) ∧
    ∃ out x y z, st.applyDeformers turnLib cornerPoint (BBoxF.ofBBox st.dataWindow) = .ok out ∧
      out = [x, y, z] ∧ OnGrid 1 x 3 ∧ OnGrid 1 y 1 := by
  constructor
  · rw [hd]
    exact ⟨_, C151_turned zero_trig turnLib_inverts (w := 3) (h := 2)
      (s := [⟨1, 1, 1, 0⟩, ⟨-1, 2, 1, 0⟩]) ⟨rfl, rfl, .inr rfl,
        (show ValidSize ⟨3, 2, 4⟩ by unfold ValidSize; decide),
        .cons step_turns (.cons flop_turns .nil), by decide, by decide⟩, rfl, rfl⟩
  · obtain ⟨out, e, mv⟩ := C154_vertices zero_trig turnLib_inverts st hw (by decide) (by decide)
      (s := [⟨1, 1, 1, 0⟩, ⟨-1, 2, 1, 0⟩]) (by
        rw [hd]
        exact .cons step_turns (.cons flop_turns .nil))
      (by rw [hd]; intro d h; fin_cases h <;> exact le_refl 0) (by decide) (by decide) cornerPoint
    have hl := mv.length
    match out, hl with
    | [x, y, z], _ =>
      obtain ⟨g1, g2⟩ := mv.points 0 (by simp [cornerPoint]) _ _ x y rfl rfl rfl rfl 1 1 1 (by decide)
        (by decide) (by decide) (by decide) centre_zero centre_zero
      exact ⟨_, x, y, z, e, rfl, g1, g2⟩

/-- Such a stream. -/
example : ∃ st : Stream F32 F16, st.dataWindow = ⟨0, 0, 3, 2⟩ ∧ st.deformers = [stepRight, flop] :=
  ⟨{ Stream.new with dataWindow := ⟨0, 0, 3, 2⟩, deformers := [stepRight, flop] }, rfl, rfl⟩

end OCG.Props
