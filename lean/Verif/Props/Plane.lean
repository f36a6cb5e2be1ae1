import Verif.Proofs.Plane
import Verif.Spec.Plane
import Verif.Spec.Field
import Mathlib.Tactic.FieldSimp
import Mathlib.Tactic.Linarith
/-
Properties C22 to C25: the geometry plane.
-/

namespace OCG.Props

open Plane PlaneSpec

variable {F : Type}

theorem sizes_eq (p : Profile) (g : Plane F) (h : Fits g) :
    g.countVertex p = .ok (g.divisionsX * g.divisionsY) ∧
    g.sizePositions p = .ok (g.divisionsX * g.divisionsY * 3) ∧
    g.sizeUvs p = .ok (g.divisionsX * g.divisionsY * 2) ∧
    g.sizeTris p = .ok (trisOf g).length ∧
    g.sizeWire p = .ok (wireOf g).length := by
  obtain ⟨hx, hy, hxy⟩ := h.le
  have hc : g.countVertex p = .ok (g.divisionsX * g.divisionsY) := by
    unfold countVertex; rw [← Int.natCast_mul]; exact u32_nat hxy
  have hle : (g.divisionsX - 1) * (g.divisionsY - 1) ≤ g.divisionsX * g.divisionsY :=
    Nat.mul_le_mul (by omega) (by omega)
  have hm : u32 p (((g.divisionsX - 1 : Nat) : Int) * ((g.divisionsY - 1 : Nat) : Int))
      = .ok ((g.divisionsX - 1) * (g.divisionsY - 1)) := by
    rw [← Int.natCast_mul]; exact u32_nat (by omega)
  have ux := u32_dec p _ h.1 hx
  have uy := u32_dec p _ h.2.1 hy
  refine ⟨hc, Res.bind_ok.mpr ⟨_, hc, rfl⟩, Res.bind_ok.mpr ⟨_, hc, rfl⟩, ?_, ?_⟩
  · refine Res.bind_ok.mpr ⟨_, ux, Res.bind_ok.mpr ⟨_, uy, Res.bind_ok.mpr ⟨_, hm, ?_⟩⟩⟩
    rw [length_trisOf]; exact congrArg Except.ok (by ring)
  · refine Res.bind_ok.mpr ⟨_, ux, Res.bind_ok.mpr ⟨_, uy, Res.bind_ok.mpr ⟨_, hm, ?_⟩⟩⟩
    rw [length_wireOf]; exact congrArg Except.ok (by ring)

theorem sizeBorder_eq (p : Profile) (g : Plane F) (h : Fits g)
    (hb : 2 * (g.divisionsX - 1) + 2 * (g.divisionsY - 1) < 4294967296) :
    g.sizeBorder p = .ok (borderOf g).length := by
  obtain ⟨hx, hy, hxy⟩ := h.le
  have ux := u32_dec p _ h.1 hx
  have uy := u32_dec p _ h.2.1 hy
  have a : u32 p (((g.divisionsX - 1 : Nat) : Int) * 2) = .ok ((g.divisionsX - 1) * 2) := by
    have : ((g.divisionsX - 1 : Nat) : Int) * 2 = (((g.divisionsX - 1) * 2 : Nat) : Int) := by
      push_cast; rfl
    rw [this]; exact u32_nat (by omega)
  have b : u32 p (((g.divisionsY - 1 : Nat) : Int) * 2) = .ok ((g.divisionsY - 1) * 2) := by
    have : ((g.divisionsY - 1 : Nat) : Int) * 2 = (((g.divisionsY - 1) * 2 : Nat) : Int) := by
      push_cast; rfl
    rw [this]; exact u32_nat (by omega)
  have c : u32 p ((((g.divisionsX - 1) * 2 : Nat) : Int) + (((g.divisionsY - 1) * 2 : Nat) : Int))
      = .ok ((g.divisionsX - 1) * 2 + (g.divisionsY - 1) * 2) := by
    rw [← Int.natCast_add]; exact u32_nat (by omega)
  refine Res.bind_ok.mpr ⟨_, ux, Res.bind_ok.mpr ⟨_, a, Res.bind_ok.mpr ⟨_, uy,
    Res.bind_ok.mpr ⟨_, b, Res.bind_ok.mpr ⟨_, c, ?_⟩⟩⟩⟩⟩
  rw [length_borderOf]; exact congrArg Except.ok (by ring)

/-! ### C22 -/

/-- C22: every triangle index refers to an existing vertex. -/
theorem C22_tris_in_range (p : Profile) (g : Plane F) (h : Fits g) (buf out : List Nat)
    (hs : g.sizeTris p = .ok buf.length) (ho : g.fillTris p buf = .ok out) (v : Nat)
    (hv : v ∈ out) : ∃ n, g.countVertex p = .ok n ∧ v < n := by
  refine ⟨_, (sizes_eq p g h).1, ?_⟩
  rw [(sizes_eq p g h).2.2.2.1] at hs
  have hl := Except.ok.inj hs
  rw [fillTris_eq p g h buf (by omega), hl, List.drop_length, List.append_nil] at ho
  rw [← Except.ok.inj ho] at hv
  obtain ⟨r, hr, hv⟩ := (mem_flatMap_range _ _ _).mp hv
  obtain ⟨c, hc, hv⟩ := (mem_flatMap_range _ _ _).mp hv
  simp only [List.mem_cons, List.not_mem_nil, or_false] at hv
  have b1 := (vtx_bound h (r := r) (c := c) (by omega) (by omega)).1
  have b2 := (vtx_bound h (r := r + 1) (c := c) (by omega) (by omega)).1
  have b3 := (vtx_bound h (r := r) (c := c + 1) (by omega) (by omega)).1
  have b4 := (vtx_bound h (r := r + 1) (c := c + 1) (by omega) (by omega)).1
  rcases hv with rfl | rfl | rfl | rfl | rfl | rfl <;> assumption

/-- C22: every wire line index refers to an existing vertex. -/
theorem C22_wire_in_range (p : Profile) (g : Plane F) (h : Fits g) (buf out : List Nat)
    (hs : g.sizeWire p = .ok buf.length) (ho : g.fillWire p buf = .ok out) (v : Nat)
    (hv : v ∈ out) : ∃ n, g.countVertex p = .ok n ∧ v < n := by
  refine ⟨_, (sizes_eq p g h).1, ?_⟩
  rw [(sizes_eq p g h).2.2.2.2] at hs
  have hl := Except.ok.inj hs
  rw [fillWire_eq p g h buf (by omega), hl, List.drop_length, List.append_nil] at ho
  rw [← Except.ok.inj ho] at hv
  obtain ⟨r, hr, hv⟩ := (mem_flatMap_range _ _ _).mp hv
  obtain ⟨c, hc, hv⟩ := (mem_flatMap_range _ _ _).mp hv
  simp only [List.mem_cons, List.not_mem_nil, or_false] at hv
  have b1 := (vtx_bound h (r := r) (c := c) (by omega) (by omega)).1
  have b2 := (vtx_bound h (r := r + 1) (c := c) (by omega) (by omega)).1
  have b3 := (vtx_bound h (r := r) (c := c + 1) (by omega) (by omega)).1
  have b4 := (vtx_bound h (r := r + 1) (c := c + 1) (by omega) (by omega)).1
  rcases hv with rfl | rfl | rfl | rfl | rfl | rfl | rfl | rfl <;> assumption

/-- C22: every border line index refers to an existing vertex. -/
theorem C22_border_in_range (p : Profile) (g : Plane F) (h : Fits g)
    (hd : 2 * (g.divisionsX - 1) + 2 * (g.divisionsY - 1) < 4294967296) (buf out : List Nat)
    (hs : g.sizeBorder p = .ok buf.length) (ho : g.fillBorder p buf = .ok out) (v : Nat)
    (hv : v ∈ out) : ∃ n, g.countVertex p = .ok n ∧ v < n := by
  refine ⟨_, (sizes_eq p g h).1, ?_⟩
  rw [sizeBorder_eq p g h hd] at hs
  have hl := Except.ok.inj hs
  rw [fillBorder_eq p g h buf (by omega), hl, List.drop_length, List.append_nil] at ho
  rw [← Except.ok.inj ho] at hv
  have h1 := h.1
  have h2 := h.2.1
  have key : ∀ r c, r < g.divisionsY → c < g.divisionsX →
      vtx g r c < g.divisionsX * g.divisionsY := fun r c a b => (vtx_bound h a b).1
  unfold borderOf at hv
  simp only [List.mem_append, mem_flatMap_range, List.mem_cons, List.not_mem_nil, or_false] at hv
  rcases hv with ((⟨r, hr, rfl | rfl⟩ | ⟨r, hr, rfl | rfl⟩) | ⟨r, hr, rfl | rfl⟩) |
    ⟨r, hr, rfl | rfl⟩ <;> apply key <;> omega

/-- A 3x2 plane used in the examples. -/
def examplePlane : Plane Unit := ⟨(), (), (), (), 3, 2⟩

example : Fits examplePlane ∧ examplePlane.sizeTris .debug = .ok 12 ∧
    examplePlane.fillTris .debug (List.replicate 12 99) =
      .ok [0, 3, 4, 0, 4, 1, 1, 4, 5, 1, 5, 2] := by
  refine ⟨⟨by decide, by decide, by decide⟩, by decide, by decide⟩

/-! ### C23 -/

/-- C23, triangles: a buffer of the advertised size is completely overwritten (the result
does not depend on what was in it) and nothing outside it is written (no panic). -/
theorem C23_tris_exact (p : Profile) (g : Plane F) (h : Fits g) :
    ∃ n out, g.sizeTris p = .ok n ∧ out.length = n ∧
      ∀ buf, buf.length = n → g.fillTris p buf = .ok out := by
  refine ⟨_, trisOf g, (sizes_eq p g h).2.2.2.1, rfl, ?_⟩
  intro buf hb
  rw [fillTris_eq p g h buf (by omega), ← hb, List.drop_length, List.append_nil]

/-- C23, wire lines. -/
theorem C23_wire_exact (p : Profile) (g : Plane F) (h : Fits g) :
    ∃ n out, g.sizeWire p = .ok n ∧ out.length = n ∧
      ∀ buf, buf.length = n → g.fillWire p buf = .ok out := by
  refine ⟨_, wireOf g, (sizes_eq p g h).2.2.2.2, rfl, ?_⟩
  intro buf hb
  rw [fillWire_eq p g h buf (by omega), ← hb, List.drop_length, List.append_nil]

/-- C23, border lines. -/
theorem C23_border_exact (p : Profile) (g : Plane F) (h : Fits g)
    (hd : 2 * (g.divisionsX - 1) + 2 * (g.divisionsY - 1) < 4294967296) :
    ∃ n out, g.sizeBorder p = .ok n ∧ out.length = n ∧
      ∀ buf, buf.length = n → g.fillBorder p buf = .ok out := by
  refine ⟨_, borderOf g, sizeBorder_eq p g h hd, rfl, ?_⟩
  intro buf hb
  rw [fillBorder_eq p g h buf (by omega), ← hb, List.drop_length, List.append_nil]

section
variable [FloatLike F]

/-- Everything `fill_buffer_vertex_positions` writes. -/
def positionsOf (g : Plane F) : List F :=
  (List.range g.divisionsY).flatMap fun (row : Nat) => (List.range g.divisionsX).flatMap fun (col : Nat) =>
    [Interp.lerp (-(g.sizeX / FloatLike.ofInt 2)) (g.sizeX / FloatLike.ofInt 2)
        (FloatLike.ofInt col * (1 / FloatLike.ofInt (g.divisionsX - 1 : Nat))) - g.centerX,
     Interp.lerp (-(g.sizeY / FloatLike.ofInt 2)) (g.sizeY / FloatLike.ofInt 2)
        (FloatLike.ofInt row * (1 / FloatLike.ofInt (g.divisionsY - 1 : Nat))) - g.centerY, 0]

/-- Everything `fill_buffer_vertex_uvs` writes. -/
def uvsOf (g : Plane F) : List F :=
  (List.range g.divisionsY).flatMap fun (row : Nat) => (List.range g.divisionsX).flatMap fun (col : Nat) =>
    [FloatLike.ofInt col * (1 / FloatLike.ofInt (g.divisionsX - 1 : Nat)),
     1 + (FloatLike.ofInt row * (1 / FloatLike.ofInt (g.divisionsY - 1 : Nat)) * (-1))]

theorem length_positionsOf (g : Plane F) :
    (positionsOf g).length = g.divisionsX * g.divisionsY * 3 := by
  unfold positionsOf
  rw [length_flatMap_const _ (g.divisionsX * 3) _
    (fun _ _ => length_flatMap_const _ 3 _ (fun _ _ => rfl))]
  ring

theorem length_uvsOf (g : Plane F) :
    (uvsOf g).length = g.divisionsX * g.divisionsY * 2 := by
  unfold uvsOf
  rw [length_flatMap_const _ (g.divisionsX * 2) _
    (fun _ _ => length_flatMap_const _ 2 _ (fun _ _ => rfl))]
  ring

theorem fillPositions_eq (p : Profile) (g : Plane F) (h : Fits g) (buf : List F)
    (hb : (positionsOf g).length ≤ buf.length) :
    g.fillPositions p buf = .ok (positionsOf g ++ buf.drop (positionsOf g).length) := by
  obtain ⟨hx, hy, -⟩ := h.le
  unfold positionsOf at hb ⊢
  unfold fillPositions
  refine Res.bind_ok.mpr ⟨_, u32_dec p _ h.1 hx, Res.bind_ok.mpr ⟨_, u32_dec p _ h.2.1 hy, ?_⟩⟩
  refine loop_fill buf _ _ _ hb ?_
  intro i L st hi hL hlen
  refine loop_wrote buf _ _ _ L st hL hlen ?_
  intro j L st hj hL hlen
  obtain ⟨b, e, hw⟩ := body_wrote buf L _ st hL hlen 3 rfl
  exact ⟨_, Res.bind_ok.mpr ⟨b, e, rfl⟩, hw⟩

theorem fillUvs_eq (p : Profile) (g : Plane F) (h : Fits g) (buf : List F)
    (hb : (uvsOf g).length ≤ buf.length) :
    g.fillUvs p buf = .ok (uvsOf g ++ buf.drop (uvsOf g).length) := by
  obtain ⟨hx, hy, -⟩ := h.le
  unfold uvsOf at hb ⊢
  unfold fillUvs
  refine Res.bind_ok.mpr ⟨_, u32_dec p _ h.1 hx, Res.bind_ok.mpr ⟨_, u32_dec p _ h.2.1 hy, ?_⟩⟩
  refine loop_fill buf _ _ _ hb ?_
  intro i L st hi hL hlen
  refine loop_wrote buf _ _ _ L st hL hlen ?_
  intro j L st hj hL hlen
  obtain ⟨b, e, hw⟩ := body_wrote buf L _ st hL hlen 2 rfl
  exact ⟨_, Res.bind_ok.mpr ⟨b, e, rfl⟩, hw⟩

/-- C23, vertex positions. -/
theorem C23_positions_exact (p : Profile) (g : Plane F) (h : Fits g) :
    ∃ n out, g.sizePositions p = .ok n ∧ out.length = n ∧
      ∀ buf, buf.length = n → g.fillPositions p buf = .ok out := by
  refine ⟨_, positionsOf g, (sizes_eq p g h).2.1, length_positionsOf g, ?_⟩
  intro buf hb
  rw [← length_positionsOf] at hb
  rw [fillPositions_eq p g h buf (by omega), ← hb, List.drop_length, List.append_nil]

/-- C23, vertex UVs. -/
theorem C23_uvs_exact (p : Profile) (g : Plane F) (h : Fits g) :
    ∃ n out, g.sizeUvs p = .ok n ∧ out.length = n ∧
      ∀ buf, buf.length = n → g.fillUvs p buf = .ok out := by
  refine ⟨_, uvsOf g, (sizes_eq p g h).2.2.1, length_uvsOf g, ?_⟩
  intro buf hb
  rw [← length_uvsOf] at hb
  rw [fillUvs_eq p g h buf (by omega), ← hb, List.drop_length, List.append_nil]

end

example : Fits examplePlane ∧
    2 * (examplePlane.divisionsX - 1) + 2 * (examplePlane.divisionsY - 1) < 4294967296 ∧
    examplePlane.sizeBorder .debug = .ok 12 ∧
    examplePlane.fillBorder .debug (List.replicate 12 99) =
      .ok [0, 3, 2, 5, 3, 4, 4, 5, 0, 1, 1, 2] := by
  refine ⟨⟨by decide, by decide, by decide⟩, by decide, by decide, by decide⟩

/-! ### C24 -/

theorem rowOf_vtx (g : Plane F) {r c : Nat} (hc : c < g.divisionsX) :
    rowOf g.divisionsX (vtx g r c) = r ∧ colOf g.divisionsX (vtx g r c) = c := by
  unfold rowOf colOf vtx
  constructor
  · rw [Nat.add_comm, Nat.add_mul_div_right _ _ (by omega), Nat.div_eq_of_lt hc, Nat.zero_add]
  · rw [Nat.add_comm, Nat.add_mul_mod_self_right, Nat.mod_eq_of_lt hc]

theorem trisOf_get (g : Plane F) (r c j : Nat) (hr : r < g.divisionsY - 1)
    (hc : c < g.divisionsX - 1) (hj : j < 6) :
    (trisOf g)[(r * (g.divisionsX - 1) + c) * 6 + j]? =
      [vtx g r c, vtx g (r + 1) c, vtx g (r + 1) (c + 1),
       vtx g r c, vtx g (r + 1) (c + 1), vtx g r (c + 1)][j]? := by
  unfold trisOf
  have e : (r * (g.divisionsX - 1) + c) * 6 + j
      = r * ((g.divisionsX - 1) * 6) + (c * 6 + j) := by ring
  have hlt : c * 6 + j < (g.divisionsX - 1) * 6 := by omega
  rw [e, getElem?_flatMap_const _ ((g.divisionsX - 1) * 6) _ r (c * 6 + j)
    (fun _ _ => length_flatMap_const _ _ _ (fun _ _ => rfl)) hr hlt,
    getElem?_flatMap_const _ 6 _ c j (fun _ _ => rfl) hc hj]

/-- C24: the triangles tile the grid.  With `k` the number of a cell (row by row), the
triangles `2k` and `2k+1` are the only ones whose corners all lie in that cell; they share the
diagonal from the cell's first to its opposite corner; every triangle has the same
orientation and half the area of a cell, and every triangle belongs to some cell. -/
theorem C24_triangles_tile (p : Profile) (g : Plane F) (h : Fits g) (buf out : List Nat)
    (hs : g.sizeTris p = .ok buf.length) (ho : g.fillTris p buf = .ok out) :
    (∀ r c, r + 1 < g.divisionsY → c + 1 < g.divisionsX →
      let k := r * (g.divisionsX - 1) + c
      (∃ tl bl br tr, Tri out (2 * k) tl bl br ∧ Tri out (2 * k + 1) tl br tr ∧
        rowOf g.divisionsX tl = r ∧ colOf g.divisionsX tl = c ∧
        rowOf g.divisionsX br = r + 1 ∧ colOf g.divisionsX br = c + 1) ∧
      (∀ t x y z, Tri out t x y z → Corner g.divisionsX r c x → Corner g.divisionsX r c y →
        Corner g.divisionsX r c z → t = 2 * k ∨ t = 2 * k + 1)) ∧
    (∀ t x y z, Tri out t x y z → area2 g.divisionsX x y z = -1 ∧
      ∃ r c, r + 1 < g.divisionsY ∧ c + 1 < g.divisionsX ∧
        Corner g.divisionsX r c x ∧ Corner g.divisionsX r c y ∧ Corner g.divisionsX r c z) := by
  rw [(sizes_eq p g h).2.2.2.1] at hs
  have hl := Except.ok.inj hs
  rw [fillTris_eq p g h buf (by omega), hl, List.drop_length, List.append_nil] at ho
  have ho := Except.ok.inj ho
  subst ho
  -- the shape of every triangle
  have shape : ∀ t x y z, Tri (trisOf g) t x y z → ∃ r c, r + 1 < g.divisionsY ∧
      c + 1 < g.divisionsX ∧
      ((t = 2 * (r * (g.divisionsX - 1) + c) ∧ x = vtx g r c ∧ y = vtx g (r + 1) c ∧
          z = vtx g (r + 1) (c + 1)) ∨
       (t = 2 * (r * (g.divisionsX - 1) + c) + 1 ∧ x = vtx g r c ∧
          y = vtx g (r + 1) (c + 1) ∧ z = vtx g r (c + 1))) := by
    intro t x y z ht
    obtain ⟨t1, t2, t3⟩ := ht
    have hlt : 3 * t < (trisOf g).length := by
      by_contra hc
      rw [List.getElem?_eq_none (by omega)] at t1
      simp at t1
    rw [length_trisOf] at hlt
    have hx : 0 < g.divisionsX - 1 := by
      rcases Nat.eq_zero_or_pos (g.divisionsX - 1) with h0 | h0
      · rw [h0] at hlt; simp at hlt
      · exact h0
    have hk : t / 2 < (g.divisionsY - 1) * (g.divisionsX - 1) := by
      have : (g.divisionsY - 1) * ((g.divisionsX - 1) * 6)
          = 6 * ((g.divisionsY - 1) * (g.divisionsX - 1)) := by ring
      omega
    have hr : t / 2 / (g.divisionsX - 1) < g.divisionsY - 1 :=
      Nat.div_lt_of_lt_mul (by rw [Nat.mul_comm]; exact hk)
    have hcc : t / 2 % (g.divisionsX - 1) < g.divisionsX - 1 := Nat.mod_lt _ hx
    have hdm : t / 2 / (g.divisionsX - 1) * (g.divisionsX - 1) + t / 2 % (g.divisionsX - 1)
        = t / 2 := Nat.div_add_mod' _ _
    refine ⟨t / 2 / (g.divisionsX - 1), t / 2 % (g.divisionsX - 1), Nat.add_lt_of_lt_sub hr,
      Nat.add_lt_of_lt_sub hcc, ?_⟩
    have key := fun j => trisOf_get g _ _ j hr hcc
    rw [hdm] at key
    rcases Nat.mod_two_eq_zero_or_one t with hm | hm
    · left
      have e0 : 3 * t = t / 2 * 6 + 0 := by omega
      have e1 : 3 * t + 1 = t / 2 * 6 + 1 := by omega
      have e2 : 3 * t + 2 = t / 2 * 6 + 2 := by omega
      rw [e0, key 0 (by omega)] at t1
      rw [e1, key 1 (by omega)] at t2
      rw [e2, key 2 (by omega)] at t3
      refine ⟨by rw [hdm]; omega, (Option.some.inj t1).symm, (Option.some.inj t2).symm,
        (Option.some.inj t3).symm⟩
    · right
      have e0 : 3 * t = t / 2 * 6 + 3 := by omega
      have e1 : 3 * t + 1 = t / 2 * 6 + 4 := by omega
      have e2 : 3 * t + 2 = t / 2 * 6 + 5 := by omega
      rw [e0, key 3 (by omega)] at t1
      rw [e1, key 4 (by omega)] at t2
      rw [e2, key 5 (by omega)] at t3
      refine ⟨by rw [hdm]; omega, (Option.some.inj t1).symm, (Option.some.inj t2).symm,
        (Option.some.inj t3).symm⟩
  constructor
  · intro r c hr hc k
    refine ⟨⟨vtx g r c, vtx g (r + 1) c, vtx g (r + 1) (c + 1), vtx g r (c + 1), ?_, ?_,
      (rowOf_vtx g (by omega)).1, (rowOf_vtx g (by omega)).2, (rowOf_vtx g (by omega)).1,
      (rowOf_vtx g (by omega)).2⟩, ?_⟩
    · have key := fun j => trisOf_get g r c j (by omega) (by omega)
      refine ⟨?_, ?_, ?_⟩
      · have := key 0 (by omega)
        rwa [show (r * (g.divisionsX - 1) + c) * 6 + 0 = 3 * (2 * k) by omega] at this
      · have := key 1 (by omega)
        rwa [show (r * (g.divisionsX - 1) + c) * 6 + 1 = 3 * (2 * k) + 1 by omega] at this
      · have := key 2 (by omega)
        rwa [show (r * (g.divisionsX - 1) + c) * 6 + 2 = 3 * (2 * k) + 2 by omega] at this
    · have key := fun j => trisOf_get g r c j (by omega) (by omega)
      refine ⟨?_, ?_, ?_⟩
      · have := key 3 (by omega)
        rwa [show (r * (g.divisionsX - 1) + c) * 6 + 3 = 3 * (2 * k + 1) by omega] at this
      · have := key 4 (by omega)
        rwa [show (r * (g.divisionsX - 1) + c) * 6 + 4 = 3 * (2 * k + 1) + 1 by omega] at this
      · have := key 5 (by omega)
        rwa [show (r * (g.divisionsX - 1) + c) * 6 + 5 = 3 * (2 * k + 1) + 2 by omega] at this
    · intro t x y z ht hx hy hz
      obtain ⟨r', c', hr', hc', hcase⟩ := shape t x y z ht
      obtain ⟨a1, a2⟩ := rowOf_vtx g (r := r') (c := c') (by omega)
      obtain ⟨a3, a4⟩ := rowOf_vtx g (r := r' + 1) (c := c') (by omega)
      obtain ⟨a5, a6⟩ := rowOf_vtx g (r := r' + 1) (c := c' + 1) (by omega)
      obtain ⟨a7, a8⟩ := rowOf_vtx g (r := r') (c := c' + 1) (by omega)
      unfold Corner at hx hy hz
      have hrc : r' = r ∧ c' = c := by
        rcases hcase with ⟨-, rfl, rfl, rfl⟩ | ⟨-, rfl, rfl, rfl⟩
        · rw [a1, a2] at hx; rw [a5, a6] at hz; omega
        · rw [a1, a2] at hx; rw [a5, a6] at hy; omega
      obtain ⟨rfl, rfl⟩ := hrc
      rcases hcase with ⟨e, -⟩ | ⟨e, -⟩
      · exact Or.inl e
      · exact Or.inr e
  · intro t x y z ht
    obtain ⟨r', c', hr', hc', hcase⟩ := shape t x y z ht
    obtain ⟨a1, a2⟩ := rowOf_vtx g (r := r') (c := c') (by omega)
    obtain ⟨a3, a4⟩ := rowOf_vtx g (r := r' + 1) (c := c') (by omega)
    obtain ⟨a5, a6⟩ := rowOf_vtx g (r := r' + 1) (c := c' + 1) (by omega)
    obtain ⟨a7, a8⟩ := rowOf_vtx g (r := r') (c := c' + 1) (by omega)
    rcases hcase with ⟨-, rfl, rfl, rfl⟩ | ⟨-, rfl, rfl, rfl⟩
    · refine ⟨?_, r', c', hr', hc', ?_⟩
      · unfold area2
        rw [a1, a2, a3, a4, a5, a6]; push_cast; ring
      · unfold Corner
        rw [a1, a2, a3, a4, a5, a6]; omega
    · refine ⟨?_, r', c', hr', hc', ?_⟩
      · unfold area2
        rw [a1, a2, a5, a6, a7, a8]; push_cast; ring
      · unfold Corner
        rw [a1, a2, a5, a6, a7, a8]; omega

example : Fits examplePlane ∧ examplePlane.sizeTris .debug = .ok (List.replicate 12 99).length ∧
    Tri [0, 3, 4, 0, 4, 1, 1, 4, 5, 1, 5, 2] 2 1 4 5 := by
  refine ⟨⟨by decide, by decide, by decide⟩, by decide, by decide, by decide, by decide⟩

/-! ### C25 (exact arithmetic) -/

theorem grid_get {α : Type} (dx dy k : Nat) (v : Nat → Nat → List α)
    (hv : ∀ r c, (v r c).length = k) (r c j : Nat) (hr : r < dy) (hc : c < dx) (hj : j < k) :
    ((List.range dy).flatMap fun r => (List.range dx).flatMap fun c => v r c)[
      (r * dx + c) * k + j]? = (v r c)[j]? := by
  have e : (r * dx + c) * k + j = r * (dx * k) + (c * k + j) := by ring
  have hlt : c * k + j < dx * k := by
    have : (c + 1) * k ≤ dx * k := Nat.mul_le_mul_right k hc
    have e2 : (c + 1) * k = c * k + k := by ring
    omega
  rw [e, getElem?_flatMap_const _ (dx * k) _ r (c * k + j)
    (fun _ _ => length_flatMap_const _ _ _ (fun _ _ => hv _ _)) hr hlt,
    getElem?_flatMap_const _ k _ c j (fun _ _ => hv _ _) hc hj]

section
variable [Field F] [LinearOrder F] [IsStrictOrderedRing F] [FloatOps F]

/-- C25: the UV of vertex (row, col) is (col/(dx-1), 1-row/(dy-1)). -/
theorem C25_uvs (p : Profile) (g : Plane F) (h : Fits g) (hx : 2 ≤ g.divisionsX)
    (hy : 2 ≤ g.divisionsY) (buf out : List F) (hs : g.sizeUvs p = .ok buf.length)
    (ho : g.fillUvs p buf = .ok out) (row col : Nat) (hr : row < g.divisionsY)
    (hc : col < g.divisionsX) :
    out[(row * g.divisionsX + col) * 2]? = some ((col : F) / ((g.divisionsX : F) - 1)) ∧
    out[(row * g.divisionsX + col) * 2 + 1]? = some (1 - (row : F) / ((g.divisionsY : F) - 1)) := by
  rw [(sizes_eq p g h).2.2.1, ← length_uvsOf] at hs
  have hl := Except.ok.inj hs
  rw [fillUvs_eq p g h buf (by omega), hl, List.drop_length, List.append_nil] at ho
  rw [← Except.ok.inj ho]
  have key := fun j => grid_get g.divisionsX g.divisionsY 2
    (fun row col => [(FloatLike.ofInt col * (1 / FloatLike.ofInt (g.divisionsX - 1 : Nat)) : F),
     1 + (FloatLike.ofInt row * (1 / FloatLike.ofInt (g.divisionsY - 1 : Nat)) * (-1))])
    (fun _ _ => rfl) row col j hr hc
  have cx : (((g.divisionsX - 1 : Nat) : Int) : F) = (g.divisionsX : F) - 1 := by
    push_cast [Nat.cast_sub (show 1 ≤ g.divisionsX by omega)]; ring
  have cy : (((g.divisionsY - 1 : Nat) : Int) : F) = (g.divisionsY : F) - 1 := by
    push_cast [Nat.cast_sub (show 1 ≤ g.divisionsY by omega)]; ring
  constructor
  · refine (key 0 (by omega)).trans ?_
    simp only [List.getElem?_cons_zero, ofInt_eq, cx, Int.cast_natCast]
    rw [mul_one_div]
  · refine (key 1 (by omega)).trans ?_
    simp only [List.getElem?_cons_succ, List.getElem?_cons_zero, ofInt_eq, cy, Int.cast_natCast]
    congr 1
    ring

/-- C25: the position of vertex (row, col) lies at the fraction col/(dx-1) between the left
and right edge and row/(dy-1) between the first and last row, in the plane z = 0. -/
theorem C25_positions (p : Profile) (g : Plane F) (h : Fits g) (hx : 2 ≤ g.divisionsX)
    (hy : 2 ≤ g.divisionsY) (buf out : List F) (hs : g.sizePositions p = .ok buf.length)
    (ho : g.fillPositions p buf = .ok out) (row col : Nat) (hr : row < g.divisionsY)
    (hc : col < g.divisionsX) :
    let left := - g.sizeX / 2 - g.centerX
    let right := g.sizeX / 2 - g.centerX
    let first := - g.sizeY / 2 - g.centerY
    let last := g.sizeY / 2 - g.centerY
    out[(row * g.divisionsX + col) * 3]? =
      some (left + (right - left) * ((col : F) / ((g.divisionsX : F) - 1))) ∧
    out[(row * g.divisionsX + col) * 3 + 1]? =
      some (first + (last - first) * ((row : F) / ((g.divisionsY : F) - 1))) ∧
    out[(row * g.divisionsX + col) * 3 + 2]? = some 0 := by
  intro left right first last
  rw [(sizes_eq p g h).2.1, ← length_positionsOf] at hs
  have hl := Except.ok.inj hs
  rw [fillPositions_eq p g h buf (by omega), hl, List.drop_length, List.append_nil] at ho
  rw [← Except.ok.inj ho]
  have key := fun j => grid_get g.divisionsX g.divisionsY 3
    (fun row col =>
      [(Interp.lerp (-(g.sizeX / FloatLike.ofInt 2)) (g.sizeX / FloatLike.ofInt 2)
        (FloatLike.ofInt col * (1 / FloatLike.ofInt (g.divisionsX - 1 : Nat))) - g.centerX : F),
     Interp.lerp (-(g.sizeY / FloatLike.ofInt 2)) (g.sizeY / FloatLike.ofInt 2)
        (FloatLike.ofInt row * (1 / FloatLike.ofInt (g.divisionsY - 1 : Nat))) - g.centerY, 0])
    (fun _ _ => rfl) row col j hr hc
  have cx : (((g.divisionsX - 1 : Nat) : Int) : F) = (g.divisionsX : F) - 1 := by
    push_cast [Nat.cast_sub (show 1 ≤ g.divisionsX by omega)]; ring
  have cy : (((g.divisionsY - 1 : Nat) : Int) : F) = (g.divisionsY : F) - 1 := by
    push_cast [Nat.cast_sub (show 1 ≤ g.divisionsY by omega)]; ring
  refine ⟨?_, ?_, ?_⟩
  · refine (key 0 (by omega)).trans ?_
    simp only [List.getElem?_cons_zero, ofInt_eq, cx, Int.cast_natCast, Interp.lerp]
    congr 1
    push_cast
    ring
  · refine (key 1 (by omega)).trans ?_
    simp only [List.getElem?_cons_succ, List.getElem?_cons_zero, ofInt_eq, cy, Int.cast_natCast,
      Interp.lerp]
    congr 1
    push_cast
    ring
  · exact (key 2 (by omega)).trans rfl

example : let g : Plane F := ⟨0, 0, 4, 4, 3, 2⟩
    Fits g ∧ 2 ≤ g.divisionsX ∧ 2 ≤ g.divisionsY ∧ g.sizeUvs .debug = .ok 12 := by
  have h : Fits (⟨0, 0, 4, 4, 3, 2⟩ : Plane F) := by
    refine ⟨?_, ?_, ?_⟩ <;> norm_num
  exact ⟨h, by norm_num, by norm_num, (sizes_eq .debug _ h).2.2.1⟩

/-! ### C69 (exact arithmetic) -/

/-- C69 (planes centred at the origin): the middle between opposite corners of the vertex grid
is the configured centre.  Missing: every other centre, see `C69_counterexample`. -/
theorem C69_center_partial (p : Profile) (g : Plane F) (h : Fits g) (hx : 2 ≤ g.divisionsX)
    (hy : 2 ≤ g.divisionsY) (h0 : g.centerX = 0 ∧ g.centerY = 0) (buf out : List F)
    (hs : g.sizePositions p = .ok buf.length) (ho : g.fillPositions p buf = .ok out) :
    ∃ x0 y0 x1 y1, out[0]? = some x0 ∧ out[1]? = some y0 ∧
      out[((g.divisionsY - 1) * g.divisionsX + (g.divisionsX - 1)) * 3]? = some x1 ∧
      out[((g.divisionsY - 1) * g.divisionsX + (g.divisionsX - 1)) * 3 + 1]? = some y1 ∧
      (x0 + x1) / 2 = g.centerX ∧ (y0 + y1) / 2 = g.centerY := by
  have a := C25_positions p g h hx hy buf out hs ho 0 0 (by omega) (by omega)
  have b := C25_positions p g h hx hy buf out hs ho (g.divisionsY - 1) (g.divisionsX - 1)
    (by omega) (by omega)
  have cx : ((g.divisionsX - 1 : Nat) : F) = (g.divisionsX : F) - 1 := by
    push_cast [Nat.cast_sub (show 1 ≤ g.divisionsX by omega)]; ring
  have cy : ((g.divisionsY - 1 : Nat) : F) = (g.divisionsY : F) - 1 := by
    push_cast [Nat.cast_sub (show 1 ≤ g.divisionsY by omega)]; ring
  have nx : (g.divisionsX : F) - 1 ≠ 0 := by
    rw [← cx]; exact_mod_cast (by omega : g.divisionsX - 1 ≠ 0)
  have ny : (g.divisionsY : F) - 1 ≠ 0 := by
    rw [← cy]; exact_mod_cast (by omega : g.divisionsY - 1 ≠ 0)
  simp only [Nat.zero_mul, Nat.zero_add, Nat.cast_zero, zero_div, mul_zero, add_zero] at a
  refine ⟨_, _, _, _, a.1, a.2.1, b.1, b.2.1, ?_, ?_⟩
  · rw [cx, div_self nx, h0.1]; ring
  · rw [cy, div_self ny, h0.2]; ring

/-- C69 is false for every other centre: the vertices are centred at minus the configured
centre. -/
theorem C69_counterexample (p : Profile) (g : Plane F) (h : Fits g) (hx : 2 ≤ g.divisionsX)
    (hy : 2 ≤ g.divisionsY) (buf out : List F)
    (hs : g.sizePositions p = .ok buf.length) (ho : g.fillPositions p buf = .ok out) :
    ∃ x0 y0 x1 y1, out[0]? = some x0 ∧ out[1]? = some y0 ∧
      out[((g.divisionsY - 1) * g.divisionsX + (g.divisionsX - 1)) * 3]? = some x1 ∧
      out[((g.divisionsY - 1) * g.divisionsX + (g.divisionsX - 1)) * 3 + 1]? = some y1 ∧
      (x0 + x1) / 2 = - g.centerX ∧ (y0 + y1) / 2 = - g.centerY := by
  have a := C25_positions p g h hx hy buf out hs ho 0 0 (by omega) (by omega)
  have b := C25_positions p g h hx hy buf out hs ho (g.divisionsY - 1) (g.divisionsX - 1)
    (by omega) (by omega)
  have cx : ((g.divisionsX - 1 : Nat) : F) = (g.divisionsX : F) - 1 := by
    push_cast [Nat.cast_sub (show 1 ≤ g.divisionsX by omega)]; ring
  have cy : ((g.divisionsY - 1 : Nat) : F) = (g.divisionsY : F) - 1 := by
    push_cast [Nat.cast_sub (show 1 ≤ g.divisionsY by omega)]; ring
  have nx : (g.divisionsX : F) - 1 ≠ 0 := by
    rw [← cx]; exact_mod_cast (by omega : g.divisionsX - 1 ≠ 0)
  have ny : (g.divisionsY : F) - 1 ≠ 0 := by
    rw [← cy]; exact_mod_cast (by omega : g.divisionsY - 1 ≠ 0)
  simp only [Nat.zero_mul, Nat.zero_add, Nat.cast_zero, zero_div, mul_zero, add_zero] at a
  refine ⟨_, _, _, _, a.1, a.2.1, b.1, b.2.1, ?_, ?_⟩
  · rw [cx, div_self nx]; ring
  · rw [cy, div_self ny]; ring

end

end OCG.Props
