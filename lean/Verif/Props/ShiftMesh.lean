import Verif.Model.StreamApply
import Verif.Props.Shift
/-
C150: meshes move with the picture.
-/

namespace OCG.Props

open IeeeSpec PixelSpec BlockSpec RemapSpec DeformSpec PictureSpec ShiftSpec BBoxSpec ImageSpecs
open Ieee hiding floor ceil round

theorem dyadic_signed {a : Int} {m : Nat} (h : a.natAbs ≤ 2 ^ 24) (hm : m ≤ 149) :
    ∃ y : F32, OnGrid m y a := by
  obtain ⟨y, h1, h2⟩ := exists_dyadic (n := a.natAbs) (j := m) h hm
  rcases Int.natAbs_eq a with e | e
  · refine ⟨y, h1, ?_⟩
    rw [h2]
    have : ((a.natAbs : ℕ) : ℚ) = (a : ℚ) := by
      rw [← Int.cast_natCast]
      exact congrArg _ e.symm
    rw [this]
  · refine ⟨opp y, finite_opp h1, ?_⟩
    rw [val_opp, h2]
    have : ((a.natAbs : ℕ) : ℚ) = -(a : ℚ) := by
      rw [← Int.cast_natCast, ← Int.cast_neg]
      exact congrArg _ (by omega)
    rw [this]
    ring

theorem rounds_stands {q : ℚ} {x : F32} (r : Rounds q x) (h : ∃ y : F32, Stands y q) : Stands x q := by
  obtain ⟨y, h1, h2⟩ := h
  have := r.exact h1 h2.symm
  exact ⟨this.1, this.2.2.trans h2⟩

/-- A row of a matrix that moves points. -/
theorem row_first {e0 e1 e2 e3 x y z o : F32} {k X Y : ℚ} (h0 : Stands e0 1) (h1 : Stands e1 0)
    (h2 : Stands e2 0) (h3 : Stands e3 k) (hx : Stands x X) (hy : Stands y Y) (hz : Stands z 0)
    (ho : Stands o 1) (hr : ∃ r : F32, Stands r (X + k)) :
    Stands (add (add (add (mul e0 x) (mul e1 y)) (mul e2 z)) (mul e3 o)) (X + k) := by
  have a : Stands (mul e0 x) X :=
    rounds_stands (by have := rounds_mul h0.1 hx.1; rwa [h0.2, hx.2, one_mul] at this) ⟨x, hx⟩
  have b : Stands (mul e1 y) 0 :=
    rounds_stands (by have := rounds_mul h1.1 hy.1; rwa [h1.2, MulZeroClass.zero_mul] at this) ⟨z, hz⟩
  have c : Stands (mul e2 z) 0 :=
    rounds_stands (by have := rounds_mul h2.1 hz.1; rwa [h2.2, MulZeroClass.zero_mul] at this) ⟨z, hz⟩
  have d : Stands (mul e3 o) k :=
    rounds_stands (by have := rounds_mul h3.1 ho.1; rwa [ho.2, mul_one, h3.2] at this) ⟨e3, h3⟩
  have ab : Stands (add (mul e0 x) (mul e1 y)) X :=
    rounds_stands (by have := rounds_add a.1 b.1; rwa [a.2, b.2, add_zero] at this) ⟨x, hx⟩
  have abc : Stands (add (add (mul e0 x) (mul e1 y)) (mul e2 z)) X :=
    rounds_stands (by have := rounds_add ab.1 c.1; rwa [ab.2, c.2, add_zero] at this) ⟨x, hx⟩
  exact rounds_stands (by have := rounds_add abc.1 d.1; rwa [abc.2, d.2] at this) hr

theorem row_second {e0 e1 e2 e3 x y z o : F32} {k X Y : ℚ} (h0 : Stands e0 0) (h1 : Stands e1 1)
    (h2 : Stands e2 0) (h3 : Stands e3 k) (hx : Stands x X) (hy : Stands y Y) (hz : Stands z 0)
    (ho : Stands o 1) (hr : ∃ r : F32, Stands r (Y + k)) :
    Stands (add (add (add (mul e0 x) (mul e1 y)) (mul e2 z)) (mul e3 o)) (Y + k) := by
  have a : Stands (mul e0 x) 0 :=
    rounds_stands (by have := rounds_mul h0.1 hx.1; rwa [h0.2, MulZeroClass.zero_mul] at this) ⟨z, hz⟩
  have b : Stands (mul e1 y) Y :=
    rounds_stands (by have := rounds_mul h1.1 hy.1; rwa [h1.2, hy.2, one_mul] at this) ⟨y, hy⟩
  have c : Stands (mul e2 z) 0 :=
    rounds_stands (by have := rounds_mul h2.1 hz.1; rwa [h2.2, MulZeroClass.zero_mul] at this) ⟨z, hz⟩
  have d : Stands (mul e3 o) k :=
    rounds_stands (by have := rounds_mul h3.1 ho.1; rwa [ho.2, mul_one, h3.2] at this) ⟨e3, h3⟩
  have ab : Stands (add (mul e0 x) (mul e1 y)) Y :=
    rounds_stands (by have := rounds_add a.1 b.1; rwa [a.2, b.2, zero_add] at this) ⟨y, hy⟩
  have abc : Stands (add (add (mul e0 x) (mul e1 y)) (mul e2 z)) Y :=
    rounds_stands (by have := rounds_add ab.1 c.1; rwa [ab.2, c.2, add_zero] at this) ⟨y, hy⟩
  exact rounds_stands (by have := rounds_add abc.1 d.1; rwa [abc.2, d.2] at this) hr

/-- What a transform that only translates computes, looking forward. -/
theorem translate_forward {F : Type} [FloatLike F] [FloatConst F] (lib : DeformLib F)
    (x0 y0 x1 y1 : Int) (invert : Int) (tx ty x y : F) {m : Mat4 F}
    (e : Xform.transform2d .srt
      (Interp.inverseLerp (FloatLike.ofInt x0) (FloatLike.ofInt x1) tx)
      (Interp.inverseLerp (FloatLike.ofInt x0) (FloatLike.ofInt x1) ty) 0 0 0 1 1 = .ok m) :
    Deformer.point lib (BBoxF.ofBBox ⟨x0, y0, x1, y1⟩) false (.transform
        { TransformDeformer.default with invert := invert, translateX := tx, translateY := ty }) x y =
      .ok (Xform.mulVec (if 0 < invert then (lib.tryInverse m).getD m else m)
          (Xform.vec (x - 1 / FloatLike.ofInt 2) (y - 1 / FloatLike.ofInt 2) 0 1) 0 +
            1 / FloatLike.ofInt 2,
        Xform.mulVec (if 0 < invert then (lib.tryInverse m).getD m else m)
          (Xform.vec (x - 1 / FloatLike.ofInt 2) (y - 1 / FloatLike.ofInt 2) 0 1) 1 +
            1 / FloatLike.ofInt 2) := by
  unfold Deformer.point TransformDeformer.apply TransformDeformer.default
  refine Res.bind_ok.mpr ⟨m, e, congrArg Except.ok ?_⟩
  dsimp only
  by_cases h0 : 0 < invert
  · cases h : lib.tryInverse m <;> simp [h0]
  · simp [h0]

section
variable [Libm single32]

/-- Where a translation by whole pixels takes a point. -/
theorem forward_point (ht : TrigAtZero) {lib : DeformLib F32} (hinv : InvertsShifts lib) {w : Int}
    (hw0 : 0 < w) (hw : w ≤ 2 ^ 22) (y0 y1 : Int) {d : Deformer F32} {s : Int × Int}
    (hd : ShiftsBy w d s) (hup : Upright d) (hk : s.1.natAbs ≤ 2 ^ 22) (hl : s.2.natAbs ≤ 2 ^ 22)
    {x y : F32} {m : Nat} {a b : Int} (hm1 : 1 ≤ m) (hm : m ≤ 149) (hx : OnGrid m x a)
    (hy : OnGrid m y b) (ha : |a| + (|s.1| + 1) * 2 ^ m ≤ 2 ^ 24)
    (hb : |b| + (|s.2| + 1) * 2 ^ m ≤ 2 ^ 24) :
    ∃ q : F32 × F32, d.point lib (BBoxF.ofBBox ⟨0, y0, w, y1⟩) false x y = .ok q ∧
      OnGrid m q.1 (a + s.1 * 2 ^ m) ∧ OnGrid m q.2 (b + s.2 * 2 ^ m) := by
  obtain ⟨t, rfl, fx, vx, fy, vy⟩ := hd.shape
  obtain ⟨k, l⟩ := s
  have hup : 0 ≤ t.invert := hup
  dsimp only at *
  have htx := shift_offset (k := if t.invert = 0 then k else -k) hw0 hw (by split <;> omega) ⟨fx, vx⟩
  have hty := shift_offset (k := if t.invert = 0 then l else -l) hw0 hw (by split <;> omega) ⟨fy, vy⟩
  obtain ⟨M, e, hM⟩ := transform_shift ht htx hty (by split <;> omega) (by split <;> omega)
  obtain ⟨v, ev, hv⟩ : ∃ v : Mat4 F32, (if 0 < t.invert then (lib.tryInverse M).getD M
      else M) = v ∧ IsShift v k l := by
    by_cases h0 : t.invert = 0
    · rw [if_pos h0, if_pos h0] at hM
      exact ⟨M, if_neg (by omega), hM⟩
    · rw [if_neg h0, if_neg h0] at hM
      obtain ⟨v, e, hv⟩ := hinv M (-k) (-l) (by omega) (by omega) hM
      rw [neg_neg, neg_neg] at hv
      exact ⟨v, by rw [if_pos (by omega), e]; rfl, hv⟩
  obtain ⟨half1, half2⟩ := half_single
  obtain ⟨n, rfl⟩ : ∃ n, m = n + 1 := ⟨m - 1, by omega⟩
  have hN : (1 : Int) ≤ 2 ^ n := one_le_pow₀ (by decide)
  have hN2 : (2 : Int) ^ (n + 1) = 2 * 2 ^ n := by ring
  have hNq : (0 : ℚ) < 2 ^ n := by positivity
  -- everything that comes up is on the grid
  have rep : ∀ c : Int, |c| ≤ 2 ^ 24 → ∃ z : F32, Stands z ((c : ℚ) / 2 ^ (n + 1)) := by
    intro c hc
    rw [Int.abs_eq_natAbs] at hc
    exact dyadic_signed (by exact_mod_cast hc) hm
  have tri : ∀ {a k : Int}, |a| + (|k| + 1) * 2 ^ (n + 1) ≤ 2 ^ 24 →
      |a - 2 ^ n| ≤ 2 ^ 24 ∧ |a - 2 ^ n + k * 2 ^ (n + 1)| ≤ 2 ^ 24 ∧ |a + k * 2 ^ (n + 1)| ≤ 2 ^ 24 := by
    intro a k h
    have e1 : |k * 2 ^ (n + 1)| = |k| * 2 ^ (n + 1) := by
      rw [abs_mul, abs_of_pos (by positivity : (0 : Int) < 2 ^ (n + 1))]
    have h0 : 0 ≤ |k| * 2 ^ (n + 1) := by positivity
    have e2 : |(2 : Int) ^ n| = 2 ^ n := abs_of_pos (by positivity)
    have e3 : (|k| + 1) * 2 ^ (n + 1) = |k| * 2 ^ (n + 1) + 2 * 2 ^ n := by rw [add_mul, one_mul, hN2]
    rw [e3] at h
    have f1 := abs_sub a (2 ^ n)
    have f2 := abs_add_le (a - 2 ^ n) (k * 2 ^ (n + 1))
    have f3 := abs_add_le a (k * 2 ^ (n + 1))
    rw [e1] at f2 f3
    rw [e2] at f1
    refine ⟨?_, ?_, ?_⟩ <;> linarith
  have corner : ∀ {x : F32} {a : Int}, OnGrid (n + 1) x a → |a - 2 ^ n| ≤ 2 ^ 24 →
      Stands (x - 1 / FloatLike.ofInt 2) (((a - 2 ^ n : Int) : ℚ) / 2 ^ (n + 1)) := by
    intro x a hx ha
    rw [op_sub, op_div, op_one, op_ofInt]
    refine rounds_stands ?_ (rep _ ha)
    have := rounds_sub hx.1 half1
    rw [hx.2, half2] at this
    rw [show ((a - 2 ^ n : Int) : ℚ) / 2 ^ (n + 1) = (a : ℚ) / 2 ^ (n + 1) - 1 / 2 by
      push_cast; rw [pow_succ]; field_simp]
    exact this
  have back : ∀ {r : F32} {c a : Int}, Stands r ((c : ℚ) / 2 ^ (n + 1)) → c + 2 ^ n = a →
      |a| ≤ 2 ^ 24 → OnGrid (n + 1) (r + 1 / FloatLike.ofInt 2) a := by
    intro r c a hr e ha
    rw [op_add, op_div, op_one, op_ofInt]
    refine rounds_stands ?_ (rep _ ha)
    have := rounds_add hr.1 half1
    rw [hr.2, half2] at this
    rw [← e, show ((c + 2 ^ n : Int) : ℚ) / 2 ^ (n + 1) = (c : ℚ) / 2 ^ (n + 1) + 1 / 2 by
      push_cast; rw [pow_succ]; field_simp]
    exact this
  obtain ⟨a1, a2, a3⟩ := tri ha
  obtain ⟨b1, b2, b3⟩ := tri hb
  have cx := corner hx a1
  have cy := corner hy b1
  have z : Stands (0 : F32) 0 := by
    have : Stands (0 : F32) (0 : Int) := by rw [op_zero]; exact Stands.of_code (zero_code _)
    exact_mod_cast this
  have o : Stands (1 : F32) 1 := by
    have : Stands (1 : F32) (1 : Int) := by rw [op_one]; exact stands_ofInt (by decide)
    exact_mod_cast this
  have h : ∀ i j, Stands (v i j) (shiftMat k l i j : Int) := hv
  have c0 : ((0 : Int) : ℚ) = 0 := Int.cast_zero
  have c1 : ((1 : Int) : ℚ) = 1 := Int.cast_one
  have e00 : Stands (v 0 0) 1 := by rw [← c1]; exact h 0 0
  have e01 : Stands (v 0 1) 0 := by rw [← c0]; exact h 0 1
  have e02 : Stands (v 0 2) 0 := by rw [← c0]; exact h 0 2
  have e03 : Stands (v 0 3) k := h 0 3
  have e10 : Stands (v 1 0) 0 := by rw [← c0]; exact h 1 0
  have e11 : Stands (v 1 1) 1 := by rw [← c1]; exact h 1 1
  have e12 : Stands (v 1 2) 0 := by rw [← c0]; exact h 1 2
  have e13 : Stands (v 1 3) l := h 1 3
  have sum : ∀ (c k : Int), ((c : ℚ) / 2 ^ (n + 1) + k) = ((c + k * 2 ^ (n + 1) : Int) : ℚ) / 2 ^ (n + 1) := by
    intro c k
    push_cast
    field_simp
  have r0 : Stands (Xform.mulVec v (Xform.vec (x - 1 / FloatLike.ofInt 2) (y - 1 / FloatLike.ofInt 2)
      0 1) 0) (((a - 2 ^ n + k * 2 ^ (n + 1) : Int) : ℚ) / 2 ^ (n + 1)) := by
    unfold Xform.mulVec Xform.vec
    rw [op_add, op_add, op_add, op_mul, op_mul, op_mul, op_mul, ← sum]
    exact row_first e00 e01 e02 e03 cx cy z o (by rw [sum]; exact rep _ a2)
  have r1 : Stands (Xform.mulVec v (Xform.vec (x - 1 / FloatLike.ofInt 2) (y - 1 / FloatLike.ofInt 2)
      0 1) 1) (((b - 2 ^ n + l * 2 ^ (n + 1) : Int) : ℚ) / 2 ^ (n + 1)) := by
    unfold Xform.mulVec Xform.vec
    rw [op_add, op_add, op_add, op_mul, op_mul, op_mul, op_mul, ← sum]
    exact row_second e10 e11 e12 e13 cx cy z o (by rw [sum]; exact rep _ b2)
  refine ⟨(Xform.mulVec v (Xform.vec (x - 1 / FloatLike.ofInt 2) (y - 1 / FloatLike.ofInt 2) 0 1) 0 +
      1 / FloatLike.ofInt 2,
    Xform.mulVec v (Xform.vec (x - 1 / FloatLike.ofInt 2) (y - 1 / FloatLike.ofInt 2) 0 1) 1 +
      1 / FloatLike.ofInt 2), ?_, back r0 (by ring) a3, back r1 (by ring) b3⟩
  rw [translate_forward lib 0 y0 w y1 t.invert _ _ x y e, ev]

/-- Where translations by whole pixels, one after another, take a point. -/
theorem forward_points (ht : TrigAtZero) {lib : DeformLib F32} (hinv : InvertsShifts lib) {w : Int}
    (hw0 : 0 < w) (hw : w ≤ 2 ^ 22) (y0 y1 : Int) {m : Nat} (hm1 : 1 ≤ m) (hm : m ≤ 149)
    {ds : List (Deformer F32)} {s : List (Int × Int)} (hd : List.Forall₂ (ShiftsBy w) ds s)
    (hup : ∀ d ∈ ds, Upright d) :
    ∀ {x y : F32} {a b : Int} {r : F32 × F32}, OnGrid m x a → OnGrid m y b →
      |a| + (wayX s + 1) * 2 ^ m ≤ 2 ^ 24 → |b| + (wayY s + 1) * 2 ^ m ≤ 2 ^ 24 →
      wayX s ≤ 2 ^ 22 → wayY s ≤ 2 ^ 22 →
      Carried lib (BBoxF.ofBBox ⟨0, y0, w, y1⟩) false ds (x, y) r →
        OnGrid m r.1 (a + totalX s * 2 ^ m) ∧ OnGrid m r.2 (b + totalY s * 2 ^ m) := by
  induction hd with
  | nil =>
    intro x y a b r hx hy _ _ _ _ h
    have f : totalX [] = 0 := rfl
    have f' : totalY [] = 0 := rfl
    rw [f, f', MulZeroClass.zero_mul, add_zero, add_zero]
    cases h
    exact ⟨hx, hy⟩
  | @cons d k ds s h _ ih =>
    intro x y a b r hx hy ha hb wx wy hc
    have e : wayX (k :: s) = |k.1| + wayX s := by simp [wayX]
    have e' : wayY (k :: s) = |k.2| + wayY s := by simp [wayY]
    have f : totalX (k :: s) = k.1 + totalX s := by simp [totalX]
    have f' : totalY (k :: s) = k.2 + totalY s := by simp [totalY]
    obtain ⟨n1, n2⟩ := way_nonneg s
    have p : (0 : Int) < 2 ^ m := by positivity
    have q1 := mul_nonneg n1 p.le
    have q2 := mul_nonneg n2 p.le
    rw [e] at ha wx
    rw [e'] at hb wy
    have a0 := abs_nonneg k.1
    have b0 := abs_nonneg k.2
    obtain ⟨q, hq, g1, g2⟩ := forward_point ht hinv hw0 hw y0 y1 h (hup d (List.mem_cons_self ..))
      (by rw [Int.abs_eq_natAbs] at wx; omega) (by rw [Int.abs_eq_natAbs] at wy; omega) hm1 hm hx hy
      (by linarith) (by linarith)
    have on : d.enable = 1 := by
      obtain ⟨t, rfl, -⟩ := h.shape
      rfl
    have t1 := abs_add_le a (k.1 * 2 ^ m)
    have t2 := abs_add_le b (k.2 * 2 ^ m)
    rw [abs_mul, abs_of_pos p] at t1 t2
    cases hc with
    | off h0 _ => exact absurd on h0
    | on _ ec h' =>
      obtain rfl := Except.ok.inj (hq.symm.trans ec)
      have := ih (fun d hd => hup d (List.mem_cons_of_mem _ hd)) g1 g2 (by linarith) (by linarith)
        (by linarith) (by linarith) h'
      rw [f, f', show a + (k.1 + totalX s) * 2 ^ m = a + k.1 * 2 ^ m + totalX s * 2 ^ m by ring,
        show b + (k.2 + totalY s) * 2 ^ m = b + k.2 * 2 ^ m + totalY s * 2 ^ m by ring]
      exact this

/-- C150: the translations that wait in a stream, applied to the vertices of a mesh, move every vertex
on a grid of halves (or finer) exactly by their sum; the third coordinate stays. -/
theorem C150_vertices {H : Type} (ht : TrigAtZero) {lib : DeformLib F32} (hinv : InvertsShifts lib)
    (st : Stream F32 H) {w y0 y1 : Int} (hwin : st.dataWindow = ⟨0, y0, w, y1⟩) (hw0 : 0 < w)
    (hw : w ≤ 2 ^ 22) {s : List (Int × Int)} (hd : List.Forall₂ (ShiftsBy w) st.deformers s)
    (hup : ∀ d ∈ st.deformers, Upright d) (wx : wayX s ≤ 2 ^ 22) (wy : wayY s ≤ 2 ^ 22)
    (buf : List F32) :
    ∃ out, st.applyDeformers lib buf (BBoxF.ofBBox st.dataWindow) = .ok out ∧
      Moved 3 (fun q r => ∀ m a b, 1 ≤ m → m ≤ 149 → |a| + (wayX s + 1) * 2 ^ m ≤ 2 ^ 24 →
        |b| + (wayY s + 1) * 2 ^ m ≤ 2 ^ 24 → OnGrid m q.1 a → OnGrid m q.2 b →
        OnGrid m r.1 (a + totalX s * 2 ^ m) ∧ OnGrid m r.2 (b + totalY s * 2 ^ m)) buf out := by
  have hu : ∀ {ds : List (Deformer F32)} {s}, List.Forall₂ (ShiftsBy w) ds s → ∀ d ∈ ds, Usable d := by
    intro ds s m
    induction m with
    | nil => intro d hd; cases hd
    | cons h _ ih =>
      intro d hd
      rcases List.mem_cons.mp hd with rfl | hd
      · obtain ⟨t, rfl, -⟩ := h.shape
        trivial
      · exact ih d hd
  obtain ⟨out, e, mv⟩ := C49_positions lib st.deformers (BBoxF.ofBBox st.dataWindow)
    (fun d hd' _ => hu hd d hd') buf
  refine ⟨out, e, mv.length, ?_, mv.others⟩
  intro i hi x y x' y' h1 h2 h3 h4 m a b hm1 hm ha hb hx hy
  have c := mv.points i hi x y x' y' h1 h2 h3 h4
  rw [hwin] at c
  exact forward_points ht hinv hw0 hw y0 y1 hm1 hm hd hup hx hy ha hb wx wy c

/-- C150: what a vertex marks in the picture it still marks after both have been moved, unless it has
left the window: the pixel that is as far away shows what was there. -/
theorem C150_pixels (ht : TrigAtZero) {lib : DeformLib F32} (hinv : InvertsShifts lib) {w h : Int}
    {ds : List (Deformer F32)} {s : List (Int × Int)} {P R : Picture F32} (k : FitsMoves w h ds s P)
    (hR : CarriedOut lib ds P R) {x y : Int} (hxy : Has P.data x y)
    (hxy' : Has R.data (x + totalX s) (y + totalY s)) :
    R.at_ (x + totalX s) (y + totalY s) = P.at_ x y := by
  obtain ⟨a1, -, -, -, a5⟩ := C149_only ht hinv k hR
  rw [a1] at hxy'
  rw [a5 _ _ hxy', add_sub_cancel_right, add_sub_cancel_right]
  rw [k.data] at hxy
  obtain ⟨a, b, c, d⟩ := hxy
  dsimp only at a b c d
  rw [closest_same (by omega) (by omega), closest_same (by omega) (by omega)]

/-- C150 needs transforms that are not turned around by a negative number: those move the mesh to the
one side and the picture to the other. -/
theorem C150_counterexample_negative (ht : TrigAtZero) {lib : DeformLib F32}
    (hinv : InvertsShifts lib) (P : Picture F32) (hP : P.data = ⟨0, 0, 3, 2⟩)
    (hD : P.display = ⟨0, 0, 3, 2⟩) (hc : P.channels = 4) :
    ∃ d : Deformer F32, d.enable = 1 ∧
      (∃ R, CarriedOut lib [d] P R ∧ R.at_ 1 0 = P.at_ 0 0) ∧
      ∃ q : F32 × F32, d.point lib (BBoxF.ofBBox P.data) false
        (FloatLike.ofInt 1 + 1 / FloatLike.ofInt 2) (FloatLike.ofInt 0 + 1 / FloatLike.ofInt 2) = .ok q ∧
        OnGrid 1 q.1 1 ∧ OnGrid 1 q.2 1 := by
  obtain ⟨a, b⟩ := int_single (n := -3) (by decide)
  obtain ⟨z1, z2⟩ := int_single (n := 0) (by decide)
  have hs : ShiftsBy 3 (.transform { TransformDeformer.default with
      invert := -1, translateX := ofInt (-3), translateY := ofInt 0 }) (1, 0) :=
    ⟨⟨⟨1, -1, ofInt (-3), ofInt 0, 0, 0, 0, 1, 1, 0, 0⟩, rfl, a, b, z1, z2⟩⟩
  refine ⟨_, rfl, ⟨_, C149_moved ht hinv (w := 3) (h := 2) (s := [(1, 0)]) ⟨hP, hD, .inr hc,
    by rw [hP, hc]; exact (show ValidSize ⟨3, 2, 4⟩ by unfold ValidSize; decide), .cons hs .nil,
    by decide, by decide⟩, rfl⟩, ?_⟩
  have hs' : ShiftsBy 3 (.transform { TransformDeformer.default with
      invert := 0, translateX := ofInt (-3), translateY := ofInt 0 }) (-1, 0) :=
    ⟨⟨⟨1, 0, ofInt (-3), ofInt 0, 0, 0, 0, 1, 1, 0, 0⟩, rfl, a, b, z1, z2⟩⟩
  have c1 := centre_stands (k := 1) (by decide) (by decide)
  have c0 := centre_stands (k := 0) (by decide) (by decide)
  obtain ⟨q, e, q1, q2⟩ := forward_point ht hinv (by decide) (by decide) 0 2 hs' (le_refl 0) (by decide)
    (by decide) (m := 1) (a := 3) (b := 1) (by decide) (by decide)
    ⟨c1.1, by rw [c1.2]; norm_num⟩ ⟨c0.1, by rw [c0.2]; norm_num⟩ (by decide) (by decide)
  refine ⟨q, ?_, q1, q2⟩
  rw [hP, ← e]
  obtain ⟨m, em, -⟩ := transform_shift ht (shift_offset (w := 3) (k := -1) (by decide) (by decide)
    (by decide) ⟨a, b.trans (by norm_num)⟩) (shift_offset (w := 3) (k := 0) (by decide) (by decide) (by decide) ⟨z1, z2.trans (by norm_num)⟩)
    (by decide) (by decide)
  rw [translate_forward lib 0 0 3 2 (-1) _ _ _ _ em, translate_forward lib 0 0 3 2 0 _ _ _ _ em]
  rfl

end

/-! ### Examples -/

attribute [local instance] zeroLibm

/-- A mesh of one point, the centre of a pixel, moved by (1, 1). -/
example {H : Type} (st : Stream F32 H) (hw : st.dataWindow = ⟨0, 0, 3, 2⟩)
    (hd : st.deformers = [moveBy 2 1, moveBy (-1) 0]) :
    ∃ out x y z, st.applyDeformers shiftLib
        [FloatLike.ofInt 1 + 1 / FloatLike.ofInt 2, FloatLike.ofInt 0 + 1 / FloatLike.ofInt 2, 1]
        (BBoxF.ofBBox st.dataWindow) = .ok out ∧ out = [x, y, z] ∧
      OnGrid 1 x 5 ∧ OnGrid 1 y 3 ∧ z = 1 := by
  obtain ⟨out, e, mv⟩ := C150_vertices zero_trig shiftLib_inverts st hw (by decide) (by decide)
    (s := [(2, 1), (-1, 0)]) (by
      rw [hd]
      exact .cons (moveBy_shifts (by decide) (by decide))
        (.cons (moveBy_shifts (by decide) (by decide)) .nil))
    (by rw [hd]; intro d h; fin_cases h <;> exact le_refl 0) (by decide) (by decide)
    [FloatLike.ofInt 1 + 1 / FloatLike.ofInt 2, FloatLike.ofInt 0 + 1 / FloatLike.ofInt 2, 1]
  have hl := mv.length
  match out, hl with
  | [x, y, z], _ =>
    have c1 := centre_stands (k := 1) (by decide) (by decide)
    have c0 := centre_stands (k := 0) (by decide) (by decide)
    obtain ⟨g1, g2⟩ := mv.points 0 (by simp) _ _ x y rfl rfl rfl rfl 1 3 1 (by decide) (by decide)
      (by decide) (by decide) ⟨c1.1, by rw [c1.2]; norm_num⟩ ⟨c0.1, by rw [c0.2]; norm_num⟩
    have := mv.others 2 (.inl (by decide))
    exact ⟨_, x, y, z, e, rfl, g1, g2, Option.some.inj this⟩

/-- The pixel below the point. -/
example (at_ : Int → Int → List F32) (R : Picture F32)
    (hR : CarriedOut shiftLib [moveBy 2 1, moveBy (-1) 0] (numbered at_) R) :
    R.at_ 2 1 = at_ 1 0 := by
  obtain ⟨a, -⟩ := C149_only zero_trig shiftLib_inverts (numbered_fits at_) hR
  exact C150_pixels zero_trig shiftLib_inverts (numbered_fits at_) hR (x := 1) (y := 0)
    (by unfold Has numbered; dsimp only; decide)
    (by rw [a]; unfold Has numbered; dsimp only; decide)

end OCG.Props
