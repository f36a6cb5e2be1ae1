import Verif.Props.Plane
import Verif.Props.IeeeLut
import Verif.Props.IeeeColor
import Verif.Props.Premultiplied
/-
C25 in IEEE arithmetic: the vertices and texture coordinates of the plane with rounding.
-/

namespace OCG.Props

open Plane PlaneSpec LutSpec IeeeSpec
open Ieee hiding floor ceil round

section
variable [Libm single32]

/-- The coordinates of the plane are the entries of an axis. -/
theorem plane_axis {n k : Nat} (h2 : 2 ≤ n) (hn : n ≤ 2 ^ 24) :
    (FloatLike.ofInt k * (1 / FloatLike.ofInt (n - 1 : Nat)) : F32) = axisValue F32 n k := by
  have e : (ofInt ((n - 1 : Nat) : Int) : F32) = sub (ofInt n) (ofInt 1) := by
    obtain ⟨a1, a2⟩ := size_minus_one hn (by omega)
    obtain ⟨b1, b2⟩ := small_val (k := ((n - 1 : Nat) : Int)) (by omega)
    have hc : ((n - 1 : Nat) : ℚ) = (n : ℚ) - 1 := by
      rw [Nat.cast_sub (by omega)]; norm_num
    have h2' : (2 : ℚ) ≤ n := by exact_mod_cast h2
    refine same_eq ⟨b1, a1, ?_⟩ ?_
    · rw [b2, a2, ← hc]; norm_cast
    · rw [a2]; linarith
  rw [axis_eq, op_mul, op_div, op_one, op_ofInt, op_ofInt, e]

omit [Libm single32] in
theorem step_bounds {n k : Nat} (h2 : 2 ≤ n) (hk : k < n) :
    0 ≤ (step n k : ℚ) ∧ (step n k : ℚ) ≤ 1 := by
  have h2' : (1 : ℚ) ≤ (n : ℚ) - 1 := by
    have : (2 : ℚ) ≤ n := by exact_mod_cast h2
    linarith
  have hk' : (k : ℚ) ≤ (n : ℚ) - 1 := by
    have : (k : ℚ) + 1 ≤ n := by exact_mod_cast hk
    linarith
  unfold step
  constructor
  · positivity
  · rw [div_le_one (by linarith)]; exact hk'

theorem axis_near {n k : Nat} (h2 : 2 ≤ n) (hn : n ≤ 2 ^ 24) (hk : k < n) :
    |val (axisValue F32 n k) - step n k| ≤ 1 / 2 ^ 22 := by
  refine (C58_single_axis h2 hn hk).near.trans ?_
  exact div_le_div_of_nonneg_right (step_bounds h2 hk).2 (by positivity)

theorem axis_first {n : Nat} (h2 : 2 ≤ n) (hn : n ≤ 2 ^ 24) : val (axisValue F32 n 0) = 0 := by
  have h := (C58_single_axis (k := 0) h2 hn (by omega)).near
  have : (step n 0 : ℚ) = 0 := by unfold step; simp
  rw [this, zero_div, sub_zero] at h
  exact abs_eq_zero.mp (le_antisymm h (abs_nonneg _))

/-- The second texture coordinate: the first one upside down. -/
theorem flip_spec {t : F32} (ht : IsFinite t) (h0 : 0 ≤ val t) (h1 : val t ≤ 1) :
    IsFinite (1 + t * (-1)) ∧ 0 ≤ val (1 + t * (-1)) ∧ val (1 + t * (-1)) ≤ 1 ∧
      |val (1 + t * (-1)) - (1 - val t)| ≤ 1 / 2 ^ 25 ∧
      (val t = 0 → val (1 + t * (-1)) = 1) := by
  rw [op_add, op_mul, op_neg, op_one]
  have hm := rounds_mul ht (finite_opp one_finite)
  obtain ⟨m1, -, m2⟩ := hm.exact (finite_opp ht) (by rw [val_opp, val_opp, one_val]; ring)
  have hr := rounds_add one_finite m1
  rw [m2, val_opp, one_val] at hr
  have hq : (0 : ℚ) ≤ 1 + -val t := by linarith
  have hf := finite_of_le_two hr hq (by linarith)
  refine ⟨hf, nonneg_of_rounds hr hf hq, le_one_of_rounds hr hf (by linarith), ?_, ?_⟩
  · have := rounds_unit hr hf hq (by linarith)
    rwa [← sub_eq_add_neg] at this
  · intro hz
    rw [hz] at hr
    have := (hr.exact one_finite (by rw [one_val]; norm_num)).2.2
    rw [this, one_val]

/-- C25 in IEEE arithmetic: the texture coordinates are those of the grid up to 2^-21, they stay in
the unit square, and the first row and column are exact. -/
theorem C25_single_uvs (p : Profile) (g : Plane F32) (h : Fits g) (hx : 2 ≤ g.divisionsX)
    (hy : 2 ≤ g.divisionsY) (hx' : g.divisionsX ≤ 2 ^ 24) (hy' : g.divisionsY ≤ 2 ^ 24)
    (buf : List F32) (hs : g.sizeUvs p = .ok buf.length) :
    ∃ out, g.fillUvs p buf = .ok out ∧ out.length = buf.length ∧
      ∀ row col, row < g.divisionsY → col < g.divisionsX → ∃ u v,
        out[(row * g.divisionsX + col) * 2]? = some u ∧
        out[(row * g.divisionsX + col) * 2 + 1]? = some v ∧
        (IsFinite u ∧ 0 ≤ val u ∧ val u ≤ 1 ∧
          |val u - (col : ℚ) / ((g.divisionsX : ℚ) - 1)| ≤ 1 / 2 ^ 22 ∧ (col = 0 → val u = 0)) ∧
        (IsFinite v ∧ 0 ≤ val v ∧ val v ≤ 1 ∧
          |val v - (1 - (row : ℚ) / ((g.divisionsY : ℚ) - 1))| ≤ 1 / 2 ^ 21 ∧
          (row = 0 → val v = 1)) := by
  rw [(sizes_eq p g h).2.2.1, ← length_uvsOf] at hs
  have hl := Except.ok.inj hs
  refine ⟨uvsOf g, ?_, hl, ?_⟩
  · rw [fillUvs_eq p g h buf (by omega), hl, List.drop_length, List.append_nil]
  intro row col hr hc
  have key := fun j => grid_get g.divisionsX g.divisionsY 2
    (fun row col => [(FloatLike.ofInt col * (1 / FloatLike.ofInt (g.divisionsX - 1 : Nat)) : F32),
     1 + (FloatLike.ofInt row * (1 / FloatLike.ofInt (g.divisionsY - 1 : Nat)) * (-1))])
    (fun _ _ => rfl) row col j hr hc
  obtain ⟨u1, u2, u3, u4⟩ := C58_single_axis (k := col) hx hx' hc
  obtain ⟨t1, t2, t3, t4⟩ := C58_single_axis (k := row) hy hy' hr
  obtain ⟨v1, v2, v3, v4, v5⟩ := flip_spec t1 t3 t4
  refine ⟨axisValue F32 g.divisionsX col, 1 + axisValue F32 g.divisionsY row * (-1), ?_, ?_,
    ⟨u1, u3, u4, axis_near hx hx' hc, ?_⟩, v1, v2, v3, ?_, ?_⟩
  · rw [← plane_axis hx hx']; exact key 0 (by omega)
  · rw [← plane_axis hy hy']; exact key 1 (by omega)
  · rintro rfl; exact axis_first hx hx'
  · have a := axis_near hy hy' hr
    have e : step g.divisionsY row = (row : ℚ) / ((g.divisionsY : ℚ) - 1) := rfl
    rw [e] at a
    rw [abs_le] at *
    norm_num at *
    constructor <;> linarith [a.1, a.2, v4.1, v4.2]
  · rintro rfl
    exact v5 (axis_first hy hy')

/-- C25 in IEEE arithmetic: no two columns, and no two rows, get the same texture coordinate as
long as there are not more than 2^20 of them. -/
theorem C25_single_apart (p : Profile) (g : Plane F32) (h : Fits g) (hx : 2 ≤ g.divisionsX)
    (hy : 2 ≤ g.divisionsY) (hx' : g.divisionsX ≤ 2 ^ 20) (hy' : g.divisionsY ≤ 2 ^ 20)
    (buf out : List F32) (hs : g.sizeUvs p = .ok buf.length) (ho : g.fillUvs p buf = .ok out)
    {row row' col col' : Nat} (hr : row < g.divisionsY) (hr' : row' < g.divisionsY)
    (hc : col < g.divisionsX) (hc' : col' < g.divisionsX) :
    ∃ u v u' v', out[(row * g.divisionsX + col) * 2]? = some u ∧
      out[(row * g.divisionsX + col) * 2 + 1]? = some v ∧
      out[(row' * g.divisionsX + col') * 2]? = some u' ∧
      out[(row' * g.divisionsX + col') * 2 + 1]? = some v' ∧
      (col < col' → val u < val u') ∧ (row < row' → val v' < val v) := by
  have e20 : (2 : Nat) ^ 20 ≤ 2 ^ 24 := by decide
  rw [(sizes_eq p g h).2.2.1, ← length_uvsOf] at hs
  have hl := Except.ok.inj hs
  rw [fillUvs_eq p g h buf (by omega), hl, List.drop_length, List.append_nil] at ho
  rw [← Except.ok.inj ho]
  have key := fun row col j hr hc => grid_get g.divisionsX g.divisionsY 2
    (fun row col => [(FloatLike.ofInt col * (1 / FloatLike.ofInt (g.divisionsX - 1 : Nat)) : F32),
     1 + (FloatLike.ofInt row * (1 / FloatLike.ofInt (g.divisionsY - 1 : Nat)) * (-1))])
    (fun _ _ => rfl) row col j hr hc
  refine ⟨axisValue F32 g.divisionsX col, 1 + axisValue F32 g.divisionsY row * (-1),
    axisValue F32 g.divisionsX col', 1 + axisValue F32 g.divisionsY row' * (-1), ?_, ?_, ?_, ?_,
    fun hlt => C58_single_increasing hx hx' hlt hc', fun hlt => ?_⟩
  · rw [← plane_axis hx (by omega)]; exact key row col 0 hr hc (by omega)
  · rw [← plane_axis hy (by omega)]; exact key row col 1 hr hc (by omega)
  · rw [← plane_axis hx (by omega)]; exact key row' col' 0 hr' hc' (by omega)
  · rw [← plane_axis hy (by omega)]; exact key row' col' 1 hr' hc' (by omega)
  · obtain ⟨s1, s2, s3, s4⟩ := C58_single_axis (k := row) hy (by omega) hr
    obtain ⟨t1, t2, t3, t4⟩ := C58_single_axis (k := row') hy (by omega) hr'
    have a := axis_near hy (by omega) hr
    have b := axis_near hy (by omega) hr'
    obtain ⟨-, -, -, v4, -⟩ := flip_spec s1 s3 s4
    obtain ⟨-, -, -, w4, -⟩ := flip_spec t1 t3 t4
    have gap : (step g.divisionsY row : ℚ) + 1 / 2 ^ 20 ≤ step g.divisionsY row' := by
      have hn : (1 : ℚ) ≤ (g.divisionsY : ℚ) - 1 := by
        have : (2 : ℚ) ≤ g.divisionsY := by exact_mod_cast hy
        linarith
      have hn' : (g.divisionsY : ℚ) - 1 ≤ 2 ^ 20 := by
        have : (g.divisionsY : ℚ) ≤ 2 ^ 20 := by exact_mod_cast hy'
        linarith
      have hk : (row : ℚ) + 1 ≤ row' := by exact_mod_cast hlt
      unfold step
      have : (1 : ℚ) / 2 ^ 20 ≤ 1 / ((g.divisionsY : ℚ) - 1) :=
        one_div_le_one_div_of_le (by linarith) hn'
      have e : (row : ℚ) / ((g.divisionsY : ℚ) - 1) + 1 / ((g.divisionsY : ℚ) - 1) ≤
          (row' : ℚ) / ((g.divisionsY : ℚ) - 1) := by
        rw [← add_div]
        exact div_le_div_of_nonneg_right hk (by linarith)
      linarith
    rw [abs_le] at *
    norm_num at *
    linarith [a.1, a.2, b.1, b.2, v4.1, v4.2, w4.1, w4.2]

/-- One coordinate of a vertex. -/
theorem vertex_error {size center : F32} (hs : IsFinite size) (hc : IsFinite center) {M : ℚ}
    (hM : M ≤ 2 ^ 120) (sM : |val size| ≤ M) (cM : |val center| ≤ M) {n k : Nat} (h2 : 2 ≤ n)
    (hn : n ≤ 2 ^ 24) (hk : k < n) :
    IsFinite (Interp.lerp (-(size / FloatLike.ofInt 2)) (size / FloatLike.ofInt 2)
        (axisValue F32 n k) - center) ∧
      |val (Interp.lerp (-(size / FloatLike.ofInt 2)) (size / FloatLike.ofInt 2)
        (axisValue F32 n k) - center) -
        (-val size / 2 - val center + val size * step n k)| ≤ M / 2 ^ 19 + 1 / 2 ^ 146 := by
  have hM0 : 0 ≤ M := (abs_nonneg _).trans sM
  obtain ⟨t1, -, t3, t4⟩ := C58_single_axis (k := k) h2 hn hk
  have te := axis_near h2 hn hk
  generalize axisValue F32 n k = t at *
  obtain ⟨q0, q1⟩ := step_bounds h2 hk
  generalize (step n k : ℚ) = q at *
  rw [op_sub, op_neg, op_div, op_ofInt]
  have hr := rounds_div hs two_finite (by rw [two_val]; norm_num)
  rw [two_val] at hr
  have hsize : |val size / 2| ≤ M / 2 := by
    rw [abs_div, abs_of_pos (by norm_num : (0 : ℚ) < 2)]
    exact div_le_div_of_nonneg_right sM (by norm_num)
  obtain ⟨hf, hb⟩ := hr.finite hs (by
    rw [abs_div, abs_of_pos (by norm_num : (0 : ℚ) < 2)]
    linarith [abs_nonneg (val size)])
  have he := single_error hr hf hsize
  generalize div size (ofInt 2) = w at *
  have wM : |val w| ≤ M := hb.trans sM
  obtain ⟨lf, le⟩ := C61_single_error_partial (finite_opp hf) hf t1 t3 t4
    (hM.trans (by norm_num)) (M := M) (by rw [val_opp, abs_neg]; exact wM) wM
  rw [val_opp] at le
  generalize Interp.lerp (opp w) w t = l at *
  have ht : |(val t - q) * val w| ≤ M / 2 ^ 22 := by
    rw [abs_mul]
    calc |val t - q| * |val w| ≤ 1 / 2 ^ 22 * M :=
          mul_le_mul te wM (abs_nonneg _) (by positivity)
      _ = M / 2 ^ 22 := by ring
  have hq : |(2 * q - 1) * (val w - val size / 2)| ≤ M / 2 / 2 ^ 24 + 1 / 2 ^ 150 := by
    rw [abs_mul]
    have : |2 * q - 1| ≤ 1 := by rw [abs_le]; constructor <;> linarith
    exact (mul_le_of_le_one_left (abs_nonneg _) this).trans he
  have lM : |val l| ≤ 2 * M + 1 / 2 ^ 148 := by
    have a : |(1 - val t) * -val w + val t * val w| ≤ M := by
      have : (1 - val t) * -val w + val t * val w = (2 * val t - 1) * val w := by ring
      rw [this, abs_mul]
      have : |2 * val t - 1| ≤ 1 := by rw [abs_le]; constructor <;> linarith
      exact (mul_le_of_le_one_left (abs_nonneg _) this).trans wM
    have b := abs_add_le (val l - ((1 - val t) * -val w + val t * val w))
      ((1 - val t) * -val w + val t * val w)
    rw [sub_add_cancel] at b
    have : M / 2 ^ 21 ≤ M := div_le_self hM0 (by norm_num)
    linarith
  have dM : |val l - val center| ≤ 3 * M + 1 / 2 ^ 148 := by
    have := abs_sub (val l) (val center)
    linarith
  have rd := rounds_sub lf hc
  have big : IsFinite (⟨false, 0x7f000000, by decide⟩ : F32) := by rw [finite_iff]; decide +kernel
  have bigv : val (⟨false, 0x7f000000, by decide⟩ : F32) = 2 * 2 ^ 126 := by unfold val; norm_num
  obtain ⟨df, -⟩ := rd.finite big (by
    rw [bigv, abs_of_pos (by positivity : (0 : ℚ) < 2 * 2 ^ 126)]
    refine dM.trans ?_
    have : (1 : ℚ) / 2 ^ 148 ≤ 1 := by norm_num
    have : (3 : ℚ) * 2 ^ 120 + 1 ≤ 2 * 2 ^ 126 := by norm_num
    linarith)
  have de := single_error rd df dM
  refine ⟨df, ?_⟩
  generalize sub l center = d at *
  have e1 : M / 2 ^ 19 = 32 * (M / 2 ^ 24) := by ring
  have e2 : M / 2 ^ 21 = 8 * (M / 2 ^ 24) := by ring
  have e3 : M / 2 ^ 22 = 4 * (M / 2 ^ 24) := by ring
  have e4 : M / 2 / 2 ^ 24 = (M / 2 ^ 24) / 2 := by ring
  have e5 : (3 * M + 1 / 2 ^ 148) / 2 ^ 24 = 3 * (M / 2 ^ 24) + 1 / 2 ^ 148 / 2 ^ 24 := by ring
  have e6 : (1 : ℚ) / 2 ^ 148 / 2 ^ 24 ≤ 1 / 2 ^ 150 := by norm_num
  have e7 : (1 : ℚ) / 2 ^ 146 = 16 * (1 / 2 ^ 150) := by norm_num
  have e8 : (1 : ℚ) / 2 ^ 148 = 4 * (1 / 2 ^ 150) := by norm_num
  have e9 : (0 : ℚ) < 1 / 2 ^ 150 := by positivity
  have e10 : 0 ≤ M / 2 ^ 24 := by positivity
  rw [e5] at de
  rw [e1, e7]
  rw [e2] at le
  rw [e3] at ht
  rw [e4] at hq
  generalize (1 : ℚ) / 2 ^ 148 / 2 ^ 24 = z at *
  rw [e8] at le
  generalize M / 2 ^ 24 = m at *
  generalize (1 : ℚ) / 2 ^ 150 = e at *
  have split : val d - (-val size / 2 - val center + val size * q) =
      (val d - (val l - val center)) + (val l - ((1 - val t) * -val w + val t * val w)) +
        2 * ((val t - q) * val w) + (2 * q - 1) * (val w - val size / 2) := by ring
  rw [split]
  rw [abs_le] at *
  constructor <;> linarith [de.1, de.2, le.1, le.2, ht.1, ht.2, hq.1, hq.2]

/-- C25 in IEEE arithmetic: the vertices are those of the grid up to a rounding error of at most
M / 2^19, where M bounds the sizes and the centre. -/
theorem C25_single_positions (p : Profile) (g : Plane F32) (h : Fits g) (hx : 2 ≤ g.divisionsX)
    (hy : 2 ≤ g.divisionsY) (hx' : g.divisionsX ≤ 2 ^ 24) (hy' : g.divisionsY ≤ 2 ^ 24)
    (hf : IsFinite g.sizeX ∧ IsFinite g.sizeY ∧ IsFinite g.centerX ∧ IsFinite g.centerY) {M : ℚ}
    (hM : M ≤ 2 ^ 120) (hb : |val g.sizeX| ≤ M ∧ |val g.sizeY| ≤ M ∧ |val g.centerX| ≤ M ∧
      |val g.centerY| ≤ M) (buf : List F32) (hs : g.sizePositions p = .ok buf.length) :
    ∃ out, g.fillPositions p buf = .ok out ∧ out.length = buf.length ∧
      ∀ row col, row < g.divisionsY → col < g.divisionsX → ∃ x y z,
        out[(row * g.divisionsX + col) * 3]? = some x ∧
        out[(row * g.divisionsX + col) * 3 + 1]? = some y ∧
        out[(row * g.divisionsX + col) * 3 + 2]? = some z ∧
        (IsFinite x ∧ IsFinite y ∧ IsFinite z) ∧
        |val x - (-val g.sizeX / 2 - val g.centerX +
          val g.sizeX * ((col : ℚ) / ((g.divisionsX : ℚ) - 1)))| ≤ M / 2 ^ 19 + 1 / 2 ^ 146 ∧
        |val y - (-val g.sizeY / 2 - val g.centerY +
          val g.sizeY * ((row : ℚ) / ((g.divisionsY : ℚ) - 1)))| ≤ M / 2 ^ 19 + 1 / 2 ^ 146 ∧
        val z = 0 := by
  rw [(sizes_eq p g h).2.1, ← length_positionsOf] at hs
  have hl := Except.ok.inj hs
  refine ⟨positionsOf g, ?_, hl, ?_⟩
  · rw [fillPositions_eq p g h buf (by omega), hl, List.drop_length, List.append_nil]
  intro row col hr hc
  have key := fun j => grid_get g.divisionsX g.divisionsY 3
    (fun row col =>
      [(Interp.lerp (-(g.sizeX / FloatLike.ofInt 2)) (g.sizeX / FloatLike.ofInt 2)
        (FloatLike.ofInt col * (1 / FloatLike.ofInt (g.divisionsX - 1 : Nat))) - g.centerX : F32),
     Interp.lerp (-(g.sizeY / FloatLike.ofInt 2)) (g.sizeY / FloatLike.ofInt 2)
        (FloatLike.ofInt row * (1 / FloatLike.ofInt (g.divisionsY - 1 : Nat))) - g.centerY, 0])
    (fun _ _ => rfl) row col j hr hc
  obtain ⟨x1, x2⟩ := vertex_error hf.1 hf.2.2.1 hM hb.1 hb.2.2.1 hx hx' hc
  obtain ⟨y1, y2⟩ := vertex_error hf.2.1 hf.2.2.2 hM hb.2.1 hb.2.2.2 hy hy' hr
  refine ⟨_, _, zero false, ?_, ?_, ?_, ⟨x1, y1, finite_zero ok_single _⟩, x2, y2, zero_val _⟩
  · rw [← plane_axis hx hx']; exact key 0 (by omega)
  · rw [← plane_axis hy hy']; exact key 1 (by omega)
  · exact key 2 (by omega)

end

/-! ### Examples -/

attribute [local instance] exactPowf

/-- A square of size 2 around the origin with three by three vertices. -/
def squarePlane : Plane F32 := ⟨zero false, zero false, ofInt 2, ofInt 2, 3, 3⟩

theorem squarePlane_fits : Fits squarePlane := by unfold Fits; decide

example : ∃ out, squarePlane.fillUvs .debug (List.replicate 18 (zero false)) = .ok out ∧
    ∃ u, out[(2 * 3 + 1) * 2]? = some u ∧ |val u - 1 / 2| ≤ 1 / 2 ^ 22 := by
  obtain ⟨out, e, -, h⟩ := C25_single_uvs .debug squarePlane squarePlane_fits (by decide) (by decide)
    (by decide) (by decide) (List.replicate 18 (zero false)) (by decide)
  obtain ⟨u, v, h1, -, ⟨-, -, -, h2, -⟩, -⟩ := h 2 1 (by decide) (by decide)
  refine ⟨out, e, u, h1, ?_⟩
  have e : ((1 : Nat) : ℚ) / ((squarePlane.divisionsX : ℚ) - 1) = 1 / 2 := by
    show ((1 : Nat) : ℚ) / (((3 : Nat) : ℚ) - 1) = 1 / 2
    norm_num
  rwa [e] at h2

example : ∃ out, squarePlane.fillUvs .debug (List.replicate 18 (zero false)) = .ok out ∧
    ∃ u u' : F32, out[(0 * 3 + 1) * 2]? = some u ∧ out[(0 * 3 + 2) * 2]? = some u' ∧
      val u < val u' := by
  obtain ⟨out, e, -, -⟩ := C25_single_uvs .debug squarePlane squarePlane_fits (by decide) (by decide)
    (by decide) (by decide) (List.replicate 18 (zero false)) (by decide)
  obtain ⟨u, v, u', v', h1, -, h2, -, h3, -⟩ := C25_single_apart .debug squarePlane squarePlane_fits
    (by decide) (by decide) (by decide) (by decide) (List.replicate 18 (zero false)) out (by decide) e
    (row := 0) (row' := 0) (col := 1) (col' := 2) (by decide) (by decide) (by decide) (by decide)
  exact ⟨out, e, u, u', h1, h2, h3 (by decide)⟩

example : ∃ out, squarePlane.fillPositions .debug (List.replicate 27 (zero false)) = .ok out ∧
    ∃ x : F32, out[(0 * 3 + 0) * 3]? = some x ∧ |val x - (-1)| ≤ 2 / 2 ^ 19 + 1 / 2 ^ 146 := by
  have z : |val (zero false : F32)| ≤ 2 := by rw [zero_val, abs_zero]; norm_num
  have t : |val (ofInt 2 : F32)| ≤ 2 := by rw [two_val]; norm_num
  obtain ⟨out, e, -, h⟩ := C25_single_positions .debug squarePlane squarePlane_fits (by decide)
    (by decide) (by decide) (by decide) ⟨two_finite, two_finite, finite_zero ok_single _,
      finite_zero ok_single _⟩ (M := 2) (by norm_num) ⟨t, t, z, z⟩ (List.replicate 27 (zero false))
    (by decide)
  obtain ⟨x, y, z, h1, -, -, -, h2, -⟩ := h 0 0 (by decide) (by decide)
  refine ⟨out, e, x, h1, ?_⟩
  have e : (-val squarePlane.sizeX / 2 - val squarePlane.centerX +
          val squarePlane.sizeX * (((0 : Nat) : ℚ) / ((squarePlane.divisionsX : ℚ) - 1))) = -1 := by
    show (-val (ofInt 2 : F32) / 2 - val (zero false : F32) + val (ofInt 2 : F32) * _) = -1
    rw [two_val, zero_val]
    norm_num
  rwa [e] at h2

/-- A plane with 42 columns. -/
def widePlane : Plane F32 := ⟨zero false, zero false, ofInt 2, ofInt 2, 42, 2⟩

/-- C25 is false in IEEE arithmetic for the last column: with 42 columns its texture coordinate is
not 1. -/
theorem C25_counterexample_last : ∃ out : List F32, widePlane.fillUvs .debug
      (List.replicate 168 (zero false)) = .ok out ∧
    out[(0 * 42 + 41) * 2]? = some ⟨false, 0x3f7fffff, by decide⟩ := by
  have hl : (uvsOf widePlane).length = 168 := length_uvsOf widePlane
  have hf : Fits widePlane := by unfold Fits; decide
  refine ⟨_, fillUvs_eq .debug widePlane hf _ (by rw [hl, List.length_replicate]), ?_⟩
  rw [List.getElem?_append_left (by rw [hl]; decide)]
  decide +kernel

end OCG.Props
