import Verif.Model.Brownian
import Verif.Spec.Brownian
import Verif.Props.Lens
import Verif.Props.DeformHash
import Verif.Props.Deform
/-
Property C97: the Brownian deformer.
-/

namespace OCG.Props

open BrownianSpec LensSpec

section
variable {F : Type} [Field F] [LinearOrder F] [IsStrictOrderedRing F] [FloatOps F]

/-- C97: what the deformer computes: the radius is measured in pixels, not in the window, and the
fourth power is doubled.  Exact arithmetic. -/
theorem C97_actual (sqrt : F → F) (hs : IsSqrt sqrt) (d : BrownianDeformer F) (w : BBoxF F)
    (q : F × F) (inverse : Bool) :
    d.apply sqrt q.1 q.2 w inverse =
      let rr := (q.1 - d.xc) ^ 2 + (q.2 - d.yc) ^ 2
      let k := (if inverse = false then 1 else -1) * (d.k1 * rr + 2 * d.k2 * rr ^ 2)
      let p := relative w q
      absolute w (p.1 + (p.1 - d.xc) * k, p.2 + (p.2 - d.yc) * k) := by
  have h0 : 0 ≤ (q.1 - d.xc) * (q.1 - d.xc) + (q.2 - d.yc) * (q.2 - d.yc) :=
    add_nonneg (mul_self_nonneg _) (mul_self_nonneg _)
  have h := hs _ h0
  generalize hr : sqrt ((q.1 - d.xc) * (q.1 - d.xc) + (q.2 - d.yc) * (q.2 - d.yc)) = r at h
  have h2 : (q.1 - d.xc) ^ 2 + (q.2 - d.yc) ^ 2 = r * r := by rw [h]; ring
  unfold BrownianDeformer.apply
  simp only [remap_into, remap_out, ofInt_eq, hr, h2, relative, absolute]
  cases inverse <;>
    simp only [if_true, if_false, reduceCtorEq, Prod.mk.injEq, Int.cast_ofNat] <;>
    exact ⟨by ring, by ring⟩

/-- C97: without distortion the deformer moves nothing, in either direction.  Exact arithmetic. -/
theorem C97_neutral (sqrt : F → F) (hs : IsSqrt sqrt) (d : BrownianDeformer F) (h1 : d.k1 = 0)
    (h2 : d.k2 = 0) (w : BBoxF F) (hx : w.minX ≠ w.maxX) (hy : w.minY ≠ w.maxY) (q : F × F)
    (inverse : Bool) : d.apply sqrt q.1 q.2 w inverse = q := by
  rw [C97_actual sqrt hs]
  simp only [h1, h2, zero_mul, mul_zero, add_zero]
  exact (relative_absolute hx hy q).2

/-- C97 (partial): in a window from 0 to 1 the deformer follows the documented formula for all
points exactly when the coefficient of degree four is zero.  What is missing: that coefficient and
other windows, for which it is false.  Exact arithmetic. -/
theorem C97_documented_partial (sqrt : F → F) (hs : IsSqrt sqrt) (d : BrownianDeformer F) :
    (∀ q : F × F, d.apply sqrt q.1 q.2 ⟨0, 0, 1, 1⟩ false = undistorted d.xc d.yc d.k1 d.k2 q) ↔
      d.k2 = 0 := by
  constructor
  · intro h
    have h := h (d.xc + 1, d.yc)
    rw [C97_actual sqrt hs] at h
    simp only [relative, absolute, undistorted, Prod.mk.injEq] at h
    have h := h.1
    simp only [if_true, sub_self, sub_zero, div_one, add_sub_cancel_left, zero_add, mul_one,
      one_pow, one_mul, ne_eq, OfNat.ofNat_ne_zero, not_false_eq_true, zero_pow, add_zero] at h
    linarith
  · intro h q
    rw [C97_actual sqrt hs]
    simp only [relative, absolute, undistorted, h]
    simp

end

section
variable {F : Type} [FloatLike F]

/-- C97: Brownian deformers that feed the same bytes to the hasher are equal or both switched off. -/
theorem C97_hash [FloatBits F] (a b : BrownianDeformer F) (ha : InI32 a.enable)
    (hb : InI32 b.enable) (h : hashBytes a.hashItems = hashBytes b.hashItems) :
    a = b ∨ (a.enable = 0 ∧ b.enable = 0) := by
  simp only [BrownianDeformer.hashItems] at h
  by_cases h1 : a.enable = 0 <;> by_cases h2 : b.enable = 0
  · exact .inr ⟨h1, h2⟩
  all_goals
    simp only [h1, h2, if_true, if_false, hashBytes_append, hashBytes_cons, hashBytes_nil,
      List.append_assoc, List.nil_append, List.cons_append] at h
  · rw [bytes_i32 (by decide) hb] at h
    exact absurd h.1.symm h2
  · rw [bytes_i32 ha (by decide)] at h
    exact absurd h.1 h1
  · left
    rw [bytes_i32 ha hb] at h
    simp only [bytes_f32, last_f32] at h
    obtain ⟨a1, a2, a3, a4, a5⟩ := a
    obtain ⟨b1, b2, b3, b4, b5⟩ := b
    simp only at h
    obtain ⟨rfl, rfl, rfl, rfl, rfl⟩ := h
    rfl

/-- C97: a setting is read back as it was set, and the other settings keep their values. -/
theorem C97_settings (d : BrownianDeformer F) (name other : String) (v : F)
    (hn : name ∈ ["xc", "yc", "k1", "k2"]) :
    (d.setF32 name v).getF32 name = v ∧
    (other ≠ name → (d.setF32 name v).getF32 other = d.getF32 other) ∧
    (d.setF32 name v).enable = d.enable := by
  simp only [List.mem_cons, List.not_mem_nil, or_false] at hn
  rcases hn with rfl | rfl | rfl | rfl <;> refine ⟨rfl, fun h => ?_, rfl⟩ <;>
    (unfold BrownianDeformer.getF32; split <;> first | rfl | (exact absurd rfl h))

end

section
open DeformSpec PixelSpec
variable {F : Type} [FloatLike F]

theorem brownian_step (sqrt : F → F) (w : BBoxF F) (inv : Bool) (d : BrownianDeformer F) {n : Nat}
    (hn : 2 ≤ n) (i : Nat) (buf : List F) (h : i < buf.length / n) :
    d.sliceStep sqrt w inv n i buf =
      .ok (putPixel n buf i (moveXY (fun x y => d.apply sqrt x y w inv) (pixel n buf i))) := by
  have hl := pixel_length h
  obtain ⟨x, y, rest, hp⟩ : ∃ x y rest, pixel n buf i = x :: y :: rest := by
    match hq : pixel n buf i, hl with
    | [], hl => simp at hl; omega
    | [_], hl => simp at hl; omega
    | x :: y :: rest, _ => exact ⟨x, y, rest, rfl⟩
  have hin : i * n ≤ buf.length :=
    Nat.le_trans (Nat.mul_le_mul_right n h.le) (Nat.div_mul_le_self _ _)
  have hA : i * n = (buf.take (i * n)).length := by
    rw [List.length_take]; omega
  unfold BrownianDeformer.sliceStep putPixel
  rw [hp]
  have hs := split_pixel n buf i
  rw [hp] at hs
  generalize buf.take (i * n) = A at *
  generalize buf.drop ((i + 1) * n) = B at *
  rw [hs]
  simp only [List.cons_append, moveXY, Nat.add_zero]
  have s1 : ∀ x y : F, A ++ x :: y :: (rest ++ B) = (A ++ [x]) ++ y :: (rest ++ B) := by simp
  rw [getAt_mid A _ x _ hA, s1, getAt_mid (A ++ [x]) _ y _ (by simp [hA]), ← s1]
  dsimp only [bind, Except.bind]
  rw [setAt_mid A _ x _ _ hA]
  dsimp only
  rw [s1, setAt_mid (A ++ [_]) _ y _ _ (by simp [hA]), ← s1]

/-- C97: applied to a buffer of points with `n` components each, the deformer moves the first two
components of every complete point and keeps everything else. -/
theorem C97_slice (sqrt : F → F) (w : BBoxF F) (inv : Bool) (d : BrownianDeformer F) {n : Nat}
    (hn : 2 ≤ n) (buf : List F) :
    ∃ out, d.applySlice sqrt buf w inv n = .ok out ∧
      DeformSpec.Moved n (fun q r => r = d.apply sqrt q.1 q.2 w inv) buf out := by
  obtain ⟨out, e, hm⟩ := loop_mapped n (by omega) (moveXY fun x y => d.apply sqrt x y w inv)
    (fun v hv => by rw [moveXY_length, hv]) _ (brownian_step sqrt w inv d hn) buf
  refine ⟨out, ?_, moved_of_mapped hn (f := fun x y => d.apply sqrt x y w inv) (fun _ _ => rfl) hm⟩
  unfold BrownianDeformer.applySlice
  rw [if_neg (by omega)]
  exact e

end

section
attribute [local instance] ratRound

/-- A number whose square root is needed below. -/
def smallRoot (s : Rat) : Rat := if s = 1 then 1 else if s = 4 then 2 else 0

/-- A deformer with a single coefficient. -/
def brownian (k1 k2 : Rat) : BrownianDeformer Rat := ⟨1, 0, 0, k1, k2⟩

/-- Two points with three components, of which only the first two are moved. -/
example : (brownian 1 0).applySlice smallRoot [1, 0, 7, 0, 2, 8] ⟨0, 0, 1, 1⟩ false 3 =
    .ok [2, 0, 7, 0, 10, 8] := by
  decide +kernel

/-- C97 counterexample: the backward direction does not undo the forward direction: the point (1, 0)
goes to (2, 0) and from there to (-6, 0). -/
theorem C97_counterexample_undo :
    (brownian 1 0).apply smallRoot 1 0 ⟨0, 0, 1, 1⟩ false = (2, 0) ∧
    (brownian 1 0).apply smallRoot 2 0 ⟨0, 0, 1, 1⟩ true = (-6, 0) := by
  decide +kernel

/-- C97 counterexample: in a window of two pixels the middle of the right edge moves by four
widths of the window instead of one, since the radius is measured in pixels. -/
theorem C97_counterexample_window :
    (brownian 1 0).apply smallRoot 2 0 ⟨0, 0, 2, 2⟩ false =
      absolute ⟨0, 0, 2, 2⟩ (1 + 4, 0) ∧
    relative ⟨0, 0, 2, 2⟩ ((2 : Rat), 0) = (1, 0) ∧
    undistorted 0 0 1 0 ((1 : Rat), 0) = (1 + 1, 0) := by
  decide +kernel

/-- C97 counterexample: the coefficient of degree four counts twice. -/
theorem C97_counterexample_degree :
    (brownian 0 1).apply smallRoot 1 0 ⟨0, 0, 1, 1⟩ false = (3, 0) ∧
    undistorted 0 0 0 1 ((1 : Rat), 0) = (2, 0) := by
  decide +kernel

end

section

/-- Real numbers have square roots, so the hypothesis of the theorems can be met. -/
example : IsSqrt Real.sqrt := fun _ h => Real.mul_self_sqrt h

attribute [local instance] realFloat

/-- The deformer of the theorems with a coefficient of degree two only. -/
example : (⟨1, 0, 0, 1, 0⟩ : BrownianDeformer ℝ).apply Real.sqrt 1 0 ⟨0, 0, 1, 1⟩ false = (2, 0) := by
  have := (C97_documented_partial Real.sqrt (fun _ h => Real.mul_self_sqrt h)
    (⟨1, 0, 0, 1, 0⟩ : BrownianDeformer ℝ)).mpr rfl (1, 0)
  rw [this]
  simp only [undistorted]
  norm_num

example : (BrownianDeformer.new : BrownianDeformer ℝ).apply Real.sqrt 3 4 ⟨0, 0, 8, 8⟩ true = (3, 4) :=
  C97_neutral Real.sqrt (fun _ h => Real.mul_self_sqrt h) _ rfl rfl _ (by norm_num) (by norm_num)
    (3, 4) true

end
end OCG.Props
