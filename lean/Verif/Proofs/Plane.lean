import Verif.Proofs.Writer
/-
Closed forms of the buffers written by the plane.
-/

namespace OCG.Plane

variable {F : Type}

/-- Number of the vertex in row `r`, column `c`. -/
def vtx (g : Plane F) (r c : Nat) : Nat := r * g.divisionsX + c

theorem getIndexes_eq (p : Profile) (g : Plane F) (r c : Nat)
    (h : (r + 1) * g.divisionsX + c + 1 < 4294967296) :
    g.getIndexes p r c
      = .ok (vtx g r c, vtx g (r + 1) c, vtx g r (c + 1), vtx g (r + 1) (c + 1)) := by
  have e : (r + 1) * g.divisionsX = r * g.divisionsX + g.divisionsX := by ring
  rw [e] at h
  have e1 : u32 p ((r : Int) * g.divisionsX) = .ok (r * g.divisionsX) := by
    rw [← Int.natCast_mul]; exact u32_nat (by omega)
  have e2 : u32 p (((r * g.divisionsX : Nat) : Int) + c) = .ok (r * g.divisionsX + c) := by
    rw [← Int.natCast_add]; exact u32_nat (by omega)
  have e3 : u32 p (((r * g.divisionsX + c : Nat) : Int) + g.divisionsX)
      = .ok (r * g.divisionsX + c + g.divisionsX) := by
    rw [← Int.natCast_add]; exact u32_nat (by omega)
  have e4 : u32 p (((r * g.divisionsX + c : Nat) : Int) + 1) = .ok (r * g.divisionsX + c + 1) := by
    rw [← Int.natCast_succ]; exact u32_nat (by omega)
  have e5 : u32 p (((r * g.divisionsX + c + g.divisionsX : Nat) : Int) + 1)
      = .ok (r * g.divisionsX + c + g.divisionsX + 1) := by
    rw [← Int.natCast_succ]; exact u32_nat (by omega)
  unfold getIndexes
  rw [e1]
  refine Res.bind_ok.mpr ⟨_, rfl, Res.bind_ok.mpr ⟨_, e2, Res.bind_ok.mpr ⟨_, e3,
    Res.bind_ok.mpr ⟨_, e4, Res.bind_ok.mpr ⟨_, e5, ?_⟩⟩⟩⟩⟩
  have v1 : vtx g r c = r * g.divisionsX + c := rfl
  have v2 : vtx g (r + 1) c = r * g.divisionsX + c + g.divisionsX := by unfold vtx; rw [e]; omega
  have v3 : vtx g r (c + 1) = r * g.divisionsX + c + 1 := rfl
  have v4 : vtx g (r + 1) (c + 1) = r * g.divisionsX + c + g.divisionsX + 1 := by
    unfold vtx; rw [e]; omega
  rw [v1, v2, v3, v4]

/-- Everything `fill_buffer_index_tris` writes. -/
def trisOf (g : Plane F) : List Nat :=
  (List.range (g.divisionsY - 1)).flatMap fun r =>
    (List.range (g.divisionsX - 1)).flatMap fun c =>
      [vtx g r c, vtx g (r + 1) c, vtx g (r + 1) (c + 1),
       vtx g r c, vtx g (r + 1) (c + 1), vtx g r (c + 1)]

/-- Everything `fill_buffer_index_wire_lines` writes. -/
def wireOf (g : Plane F) : List Nat :=
  (List.range (g.divisionsY - 1)).flatMap fun r =>
    (List.range (g.divisionsX - 1)).flatMap fun c =>
      [vtx g r c, vtx g (r + 1) c, vtx g (r + 1) c, vtx g (r + 1) (c + 1),
       vtx g (r + 1) (c + 1), vtx g r (c + 1), vtx g r (c + 1), vtx g r c]

/-- Everything `fill_buffer_index_border_lines` writes. -/
def borderOf (g : Plane F) : List Nat :=
  (List.range (g.divisionsY - 1)).flatMap (fun r => [vtx g r 0, vtx g (r + 1) 0]) ++
  (List.range (g.divisionsY - 1)).flatMap (fun r =>
    [vtx g r (g.divisionsX - 1), vtx g (r + 1) (g.divisionsX - 1)]) ++
  (List.range (g.divisionsX - 1)).flatMap (fun c =>
    [vtx g (g.divisionsY - 1) c, vtx g (g.divisionsY - 1) (c + 1)]) ++
  (List.range (g.divisionsX - 1)).flatMap (fun c => [vtx g 0 c, vtx g 0 (c + 1)])

theorem length_trisOf (g : Plane F) :
    (trisOf g).length = (g.divisionsY - 1) * ((g.divisionsX - 1) * 6) :=
  length_flatMap_const _ _ _ (fun _ _ => length_flatMap_const _ _ _ (fun _ _ => rfl))

theorem length_wireOf (g : Plane F) :
    (wireOf g).length = (g.divisionsY - 1) * ((g.divisionsX - 1) * 8) :=
  length_flatMap_const _ _ _ (fun _ _ => length_flatMap_const _ _ _ (fun _ _ => rfl))

theorem length_borderOf (g : Plane F) :
    (borderOf g).length = 4 * (g.divisionsY - 1) + 4 * (g.divisionsX - 1) := by
  unfold borderOf
  simp only [List.length_append]
  rw [length_flatMap_const _ 2 _ (fun _ _ => rfl), length_flatMap_const _ 2 _ (fun _ _ => rfl),
    length_flatMap_const _ 2 _ (fun _ _ => rfl), length_flatMap_const _ 2 _ (fun _ _ => rfl)]
  ring

/-- The grid fits the index type. -/
def Fits (g : Plane F) : Prop :=
  0 < g.divisionsX ∧ 0 < g.divisionsY ∧ g.divisionsX * (g.divisionsY + 1) < 4294967296

theorem Fits.le {g : Plane F} (h : Fits g) :
    g.divisionsX < 4294967296 ∧ g.divisionsY < 4294967296 ∧
      g.divisionsX * g.divisionsY < 4294967296 := by
  obtain ⟨h1, h2, h3⟩ := h
  have a : g.divisionsX * 1 ≤ g.divisionsX * (g.divisionsY + 1) := Nat.mul_le_mul_left _ (by omega)
  have b : 1 * (g.divisionsY + 1) ≤ g.divisionsX * (g.divisionsY + 1) :=
    Nat.mul_le_mul_right _ (by omega)
  have c : g.divisionsX * g.divisionsY ≤ g.divisionsX * (g.divisionsY + 1) :=
    Nat.mul_le_mul_left _ (by omega)
  omega

theorem u32_dec (p : Profile) (n : Nat) (h0 : 0 < n) (h : n < 4294967296) :
    u32 p ((n : Int) - 1) = .ok (n - 1) := by
  rw [u32_of (by omega) (by omega)]
  congr 1
  omega

theorem vtx_bound {g : Plane F} (h : Fits g) {r c : Nat} (hr : r < g.divisionsY)
    (hc : c < g.divisionsX) :
    vtx g r c < g.divisionsX * g.divisionsY ∧
      (r + 1) * g.divisionsX + c + 1 < 4294967296 := by
  obtain ⟨h1, h2, h3⟩ := h
  have a : (r + 1) * g.divisionsX ≤ g.divisionsY * g.divisionsX := Nat.mul_le_mul_right _ hr
  have b : (r + 1) * g.divisionsX = r * g.divisionsX + g.divisionsX := by ring
  have c1 : g.divisionsY * g.divisionsX = g.divisionsX * g.divisionsY := by ring
  have d : g.divisionsX * (g.divisionsY + 1) = g.divisionsX * g.divisionsY + g.divisionsX := by ring
  unfold vtx
  omega

theorem fillTris_eq (p : Profile) (g : Plane F) (h : Fits g) (buf : List Nat)
    (hb : (trisOf g).length ≤ buf.length) :
    g.fillTris p buf = .ok (trisOf g ++ buf.drop (trisOf g).length) := by
  obtain ⟨hx, hy, -⟩ := h.le
  unfold fillTris
  refine Res.bind_ok.mpr ⟨_, u32_dec p _ h.2.1 hy, ?_⟩
  refine loop_fill buf _ _ _ hb ?_
  intro i L st hi hL hlen
  rw [u32_dec p _ h.1 hx]
  refine loop_wrote buf _ _ _ L st hL hlen ?_
  intro j L st hj hL hlen
  rw [getIndexes_eq p g i j (vtx_bound h (by omega) (by omega)).2]
  obtain ⟨b, e, hw⟩ := body_wrote buf L _ st hL hlen 6 rfl
  exact ⟨_, Res.bind_ok.mpr ⟨_, rfl, Res.bind_ok.mpr ⟨b, e, rfl⟩⟩, hw⟩

theorem fillWire_eq (p : Profile) (g : Plane F) (h : Fits g) (buf : List Nat)
    (hb : (wireOf g).length ≤ buf.length) :
    g.fillWire p buf = .ok (wireOf g ++ buf.drop (wireOf g).length) := by
  obtain ⟨hx, hy, -⟩ := h.le
  unfold fillWire
  refine Res.bind_ok.mpr ⟨_, u32_dec p _ h.2.1 hy, ?_⟩
  refine loop_fill buf _ _ _ hb ?_
  intro i L st hi hL hlen
  rw [u32_dec p _ h.1 hx]
  refine loop_wrote buf _ _ _ L st hL hlen ?_
  intro j L st hj hL hlen
  rw [getIndexes_eq p g i j (vtx_bound h (by omega) (by omega)).2]
  obtain ⟨b, e, hw⟩ := body_wrote buf L _ st hL hlen 8 rfl
  exact ⟨_, Res.bind_ok.mpr ⟨_, rfl, Res.bind_ok.mpr ⟨b, e, rfl⟩⟩, hw⟩

theorem fillBorder_eq (p : Profile) (g : Plane F) (h : Fits g) (buf : List Nat)
    (hb : (borderOf g).length ≤ buf.length) :
    g.fillBorder p buf = .ok (borderOf g ++ buf.drop (borderOf g).length) := by
  obtain ⟨hx, hy, -⟩ := h.le
  obtain ⟨h1, h2, h3⟩ := id h
  unfold borderOf at hb
  simp only [List.length_append] at hb
  obtain ⟨s1, e1, w1⟩ := loop_wrote buf (fun r => [vtx g r 0, vtx g (r + 1) 0])
    (fun row (st : List Nat × Nat) => do
      let (tl, bl, _, _) ← g.getIndexes p row 0
      let b ← writeAll st.1 st.2 [tl, bl]
      .ok (b, st.2 + 2))
    (g.divisionsY - 1) [] (buf, 0) (Wrote.start buf) (by rw [List.length_nil]; omega)
    (by
      intro j L st hj hL hlen
      rw [getIndexes_eq p g _ _ (vtx_bound h (by omega) (by omega)).2]
      obtain ⟨b, e, hw⟩ := body_wrote buf L _ st hL hlen 2 rfl
      exact ⟨_, Res.bind_ok.mpr ⟨_, rfl, Res.bind_ok.mpr ⟨b, e, rfl⟩⟩, hw⟩)
  obtain ⟨s2, e2, w2⟩ := loop_wrote buf 
    (fun r => [vtx g r (g.divisionsX - 1), vtx g (r + 1) (g.divisionsX - 1)])
    (fun row (st : List Nat × Nat) => do
      let (tl, bl, _, _) ← g.getIndexes p row (g.divisionsX - 1)
      let b ← writeAll st.1 st.2 [tl, bl]
      .ok (b, st.2 + 2))
    (g.divisionsY - 1) _ s1 w1
    (by rw [List.length_append, List.length_nil]; omega)
    (by
      intro j L st hj hL hlen
      rw [getIndexes_eq p g _ _ (vtx_bound h (by omega) (by omega)).2]
      obtain ⟨b, e, hw⟩ := body_wrote buf L _ st hL hlen 2 rfl
      exact ⟨_, Res.bind_ok.mpr ⟨_, rfl, Res.bind_ok.mpr ⟨b, e, rfl⟩⟩, hw⟩)
  obtain ⟨s3, e3, w3⟩ := loop_wrote buf 
    (fun c => [vtx g (g.divisionsY - 1) c, vtx g (g.divisionsY - 1) (c + 1)])
    (fun col (st : List Nat × Nat) => do
      let (tl, _, tr, _) ← g.getIndexes p (g.divisionsY - 1) col
      let b ← writeAll st.1 st.2 [tl, tr]
      .ok (b, st.2 + 2))
    (g.divisionsX - 1) _ s2 w2
    (by rw [List.length_append, List.length_append, List.length_nil]; omega)
    (by
      intro j L st hj hL hlen
      rw [getIndexes_eq p g _ _ (vtx_bound h (by omega) (by omega)).2]
      obtain ⟨b, e, hw⟩ := body_wrote buf L _ st hL hlen 2 rfl
      exact ⟨_, Res.bind_ok.mpr ⟨_, rfl, Res.bind_ok.mpr ⟨b, e, rfl⟩⟩, hw⟩)
  obtain ⟨s4, e4, w4⟩ := loop_wrote buf (fun c => [vtx g 0 c, vtx g 0 (c + 1)])
    (fun col (st : List Nat × Nat) => do
      let (tl, _, tr, _) ← g.getIndexes p 0 col
      let b ← writeAll st.1 st.2 [tl, tr]
      .ok (b, st.2 + 2))
    (g.divisionsX - 1) _ s3 w3
    (by rw [List.length_append, List.length_append, List.length_append, List.length_nil]; omega)
    (by
      intro j L st hj hL hlen
      rw [getIndexes_eq p g _ _ (vtx_bound h (by omega) (by omega)).2]
      obtain ⟨b, e, hw⟩ := body_wrote buf L _ st hL hlen 2 rfl
      exact ⟨_, Res.bind_ok.mpr ⟨_, rfl, Res.bind_ok.mpr ⟨b, e, rfl⟩⟩, hw⟩)
  have w := w4.2
  simp only [List.nil_append] at w
  have hw : s4.1 = borderOf g ++ buf.drop (borderOf g).length := w
  rw [← hw]
  unfold fillBorder
  have ux := u32_dec p _ h1 hx
  have uy := u32_dec p _ h2 hy
  exact Res.bind_ok.mpr ⟨_, uy, Res.bind_ok.mpr ⟨_, e1, Res.bind_ok.mpr ⟨_, ux,
    Res.bind_ok.mpr ⟨_, uy, Res.bind_ok.mpr ⟨_, e2, Res.bind_ok.mpr ⟨_, uy,
    Res.bind_ok.mpr ⟨_, ux, Res.bind_ok.mpr ⟨_, e3, Res.bind_ok.mpr ⟨_, ux,
    Res.bind_ok.mpr ⟨_, e4, rfl⟩⟩⟩⟩⟩⟩⟩⟩⟩⟩

end OCG.Plane
