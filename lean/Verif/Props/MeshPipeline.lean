import Verif.Props.Plane
import Verif.Props.Mesh
import Verif.Props.DeformPixels
import Verif.Model.StreamApply
/-
C115: a plane that is filled, moved by the deformers of a stream and exported.
-/

namespace OCG.Props
open Mesh ObjSpec PlaneSpec DeformSpec Plane

/-- A list of `n` triples. -/
theorem chop3 {α : Type} : ∀ (n : Nat) (l : List α), l.length = n * 3 →
    ∃ V : List (α × α × α), V.length = n ∧ l = V.flatMap (fun t => [t.1, t.2.1, t.2.2]) ∧
      ∀ (i : Nat) x y z, l[i * 3]? = some x → l[i * 3 + 1]? = some y → l[i * 3 + 2]? = some z →
        V[i]? = some (x, y, z)
  | 0, l, h => by
    have : l = [] := List.length_eq_zero_iff.mp (by omega)
    subst this
    exact ⟨[], rfl, rfl, by intro i x y z hx; simp at hx⟩
  | n + 1, a :: b :: c :: l, h => by
    obtain ⟨V, hl, hV, hg⟩ := chop3 n l (by simp only [List.length_cons] at h; omega)
    refine ⟨(a, b, c) :: V, by simp [hl], by simp [← hV], ?_⟩
    intro i x y z hx hy hz
    cases i with
    | zero => simp_all
    | succ i =>
      rw [show (i + 1) * 3 = i * 3 + 1 + 1 + 1 by ring] at hx hy hz
      rw [show i * 3 + 1 + 1 + 1 + 1 = (i * 3 + 1) + 1 + 1 + 1 by ring] at hy
      rw [show i * 3 + 1 + 1 + 1 + 2 = (i * 3 + 2) + 1 + 1 + 1 by ring] at hz
      simp only [List.getElem?_cons_succ] at hx hy hz ⊢
      exact hg i x y z hx hy hz
  | n + 1, [], h => by simp at h
  | n + 1, [_], h => by simp at h; omega
  | n + 1, [_, _], h => by simp at h; omega

/-- A list of `n` pairs. -/
theorem chop2 {α : Type} : ∀ (n : Nat) (l : List α), l.length = n * 2 →
    ∃ V : List (α × α), V.length = n ∧ l = V.flatMap (fun t => [t.1, t.2]) ∧
      ∀ (i : Nat) x y, l[i * 2]? = some x → l[i * 2 + 1]? = some y → V[i]? = some (x, y)
  | 0, l, h => by
    have : l = [] := List.length_eq_zero_iff.mp (by omega)
    subst this
    exact ⟨[], rfl, rfl, by intro i x y hx; simp at hx⟩
  | n + 1, a :: b :: l, h => by
    obtain ⟨V, hl, hV, hg⟩ := chop2 n l (by simp only [List.length_cons] at h; omega)
    refine ⟨(a, b) :: V, by simp [hl], by simp [← hV], ?_⟩
    intro i x y hx hy
    cases i with
    | zero => simp_all
    | succ i =>
      rw [show (i + 1) * 2 = i * 2 + 1 + 1 by ring] at hx hy
      rw [show i * 2 + 1 + 1 + 1 = (i * 2 + 1) + 1 + 1 by ring] at hy
      simp only [List.getElem?_cons_succ] at hx hy ⊢
      exact hg i x y hx hy
  | n + 1, [], h => by simp at h
  | n + 1, [_], h => by simp at h; omega

/-- Every vertex number of the triangles is a vertex of the grid. -/
theorem trisOf_lt {F : Type} (g : Plane F) (h : Fits g) :
    ∀ v ∈ trisOf g, v < 4294967295 := by
  intro v hv
  unfold trisOf at hv
  rw [List.mem_flatMap] at hv
  obtain ⟨r, hr, hv⟩ := hv
  rw [List.mem_flatMap] at hv
  obtain ⟨c, hc, hv⟩ := hv
  rw [List.mem_range] at hr hc
  have h3 := h.2.2
  have key : ∀ r' c', r' < g.divisionsY → c' < g.divisionsX → vtx g r' c' < 4294967295 := by
    intro r' c' hr' hc'
    unfold vtx
    have : (r' + 1) * g.divisionsX ≤ g.divisionsY * g.divisionsX := Nat.mul_le_mul_right _ hr'
    have e1 : (r' + 1) * g.divisionsX = r' * g.divisionsX + g.divisionsX := by ring
    have e2 : g.divisionsX * (g.divisionsY + 1) = g.divisionsY * g.divisionsX + g.divisionsX := by
      ring
    omega
  simp only [List.mem_cons, List.not_mem_nil, or_false] at hv
  rcases hv with rfl | rfl | rfl | rfl | rfl | rfl <;> exact key _ _ (by omega) (by omega)

section
variable {F H : Type} [Field F] [LinearOrder F] [IsStrictOrderedRing F] [FloatOps F] [FloatConst F]

/-- C115: take any plane with at least two vertices along each side whose vertices can be counted
in 32 bits, and any stream whose enabled lens deformers have a known direction.  Filling buffers
of the advertised sizes, moving the positions by the stream and exporting never panics, whatever
the buffers held before.  A reader of the exported text finds one vertex and one texture
coordinate for every grid point.  The vertex is the grid point carried through the enabled
deformers in the order of the stream, with height zero; the texture coordinate is the one of the
undeformed grid point.  There are two faces for every cell, and they name the four corners of the
cell in the order of the plane, with the same number for the position and the texture
coordinate. -/
theorem C115_deformed_plane (p : Profile) (g : Plane F) (h : Fits g) (hx : 2 ≤ g.divisionsX)
    (hy : 2 ≤ g.divisionsY) (s : Stream F H) (lib : DeformLib F) (w : BBoxF F)
    (hd : ∀ d ∈ s.deformers, d.enable = 1 → Usable d)
    (fmt : F → Bytes) (hf : ∀ x, 10 ∉ fmt x ∧ 32 ∉ fmt x)
    (bufP bufU : List F) (bufT : List Nat)
    (hP : g.sizePositions p = .ok bufP.length) (hU : g.sizeUvs p = .ok bufU.length)
    (hT : g.sizeTris p = .ok bufT.length) :
    ∃ pos pos' uv tri text, g.fillPositions p bufP = .ok pos ∧
      s.applyDeformers lib pos w = .ok pos' ∧ g.fillUvs p bufU = .ok uv ∧
      g.fillTris p bufT = .ok tri ∧ exportMesh p fmt pos' uv tri = .ok text ∧
      (vertices text).length = g.divisionsY * g.divisionsX ∧
      (uvs text).length = g.divisionsY * g.divisionsX ∧
      (faces text).length = (g.divisionsY - 1) * (g.divisionsX - 1) * 2 ∧
      (∀ row col, row < g.divisionsY → col < g.divisionsX →
        (∃ q, Carried lib w false s.deformers
            (-(g.sizeX / 2) - g.centerX + g.sizeX * ((col : F) / ((g.divisionsX : F) - 1)),
             -(g.sizeY / 2) - g.centerY + g.sizeY * ((row : F) / ((g.divisionsY : F) - 1))) q ∧
          (vertices text)[row * g.divisionsX + col]? = some [fmt q.1, fmt q.2, fmt 0]) ∧
        (uvs text)[row * g.divisionsX + col]? =
          some [fmt ((col : F) / ((g.divisionsX : F) - 1)),
            fmt (1 - (row : F) / ((g.divisionsY : F) - 1))]) ∧
      ∃ name : Nat → Nat → Bytes,
        (∀ row col, IsDecimal (name row col) (row * g.divisionsX + col + 1)) ∧
        ∀ r c, r + 1 < g.divisionsY → c + 1 < g.divisionsX →
          (faces text)[(r * (g.divisionsX - 1) + c) * 2]? =
            some [[name r c, name r c], [name (r + 1) c, name (r + 1) c],
              [name (r + 1) (c + 1), name (r + 1) (c + 1)]] ∧
          (faces text)[(r * (g.divisionsX - 1) + c) * 2 + 1]? =
            some [[name r c, name r c], [name (r + 1) (c + 1), name (r + 1) (c + 1)],
              [name r (c + 1), name r (c + 1)]] := by
  -- the buffers
  have lP : bufP.length = g.divisionsX * g.divisionsY * 3 := by
    rw [(sizes_eq p g h).2.1] at hP; exact (Except.ok.inj hP).symm
  have lU : bufU.length = g.divisionsX * g.divisionsY * 2 := by
    rw [(sizes_eq p g h).2.2.1] at hU; exact (Except.ok.inj hU).symm
  have lT : bufT.length = (trisOf g).length := by
    rw [(sizes_eq p g h).2.2.2.1] at hT; exact (Except.ok.inj hT).symm
  have eP : g.fillPositions p bufP = .ok (positionsOf g) := by
    rw [fillPositions_eq p g h bufP (by rw [length_positionsOf]; omega), length_positionsOf, ← lP,
      List.drop_length, List.append_nil]
  have eU : g.fillUvs p bufU = .ok (uvsOf g) := by
    rw [fillUvs_eq p g h bufU (by rw [length_uvsOf]; omega), length_uvsOf, ← lU,
      List.drop_length, List.append_nil]
  have eT : g.fillTris p bufT = .ok (trisOf g) := by
    rw [fillTris_eq p g h bufT (by omega), ← lT, List.drop_length, List.append_nil]
  obtain ⟨pos', eD, m⟩ := C49_positions lib s.deformers w hd (positionsOf g)
  have l' := m.length
  rw [length_positionsOf] at l'
  obtain ⟨V, nV, hV, gV⟩ := chop3 (g.divisionsX * g.divisionsY) pos' l'
  obtain ⟨U, nU, hU', gU⟩ := chop2 (g.divisionsX * g.divisionsY) (uvsOf g) (length_uvsOf g)
  obtain ⟨T, nT, hT', gT⟩ := chop3 ((g.divisionsY - 1) * (g.divisionsX - 1) * 2) (trisOf g)
    (by rw [length_trisOf]; ring)
  have hr : ∀ t ∈ T, t.1 < 4294967295 ∧ t.2.1 < 4294967295 ∧ t.2.2 < 4294967295 := by
    intro t ht
    have a := trisOf_lt g h
    rw [hT'] at a
    exact ⟨a _ (List.mem_flatMap.mpr ⟨t, ht, by simp⟩), a _ (List.mem_flatMap.mpr ⟨t, ht, by simp⟩),
      a _ (List.mem_flatMap.mpr ⟨t, ht, by simp⟩)⟩
  obtain ⟨text, et, tv, tu, num, hn, tf⟩ := C26_mesh_partial p fmt hf V [] U [] T []
    (by simp) (by simp) (by simp) hr
  simp only [List.append_nil, ← hV, ← hU', ← hT'] at et
  refine ⟨_, _, _, _, text, eP, eD, eU, eT, et, by rw [tv, List.length_map, nV, Nat.mul_comm],
    by rw [tu, List.length_map, nU, Nat.mul_comm], by rw [tf, List.length_map, nT], ?_,
    fun row col => num (row * g.divisionsX + col + 1), fun row col => hn _, ?_⟩
  · intro row col hrow hcol
    have hi : row * g.divisionsX + col < g.divisionsX * g.divisionsY := by
      have a : (row + 1) * g.divisionsX ≤ g.divisionsY * g.divisionsX :=
        Nat.mul_le_mul_right _ hrow
      rw [Nat.add_mul, Nat.one_mul] at a
      rw [Nat.mul_comm g.divisionsX]
      omega
    have cp := C25_positions p g h hx hy bufP _ hP eP row col hrow hcol
    have cu := C25_uvs p g h hx hy bufU _ hU eU row col hrow hcol
    dsimp only at cp
    refine ⟨?_, ?_⟩
    · have g' : ∀ k, k < 3 → ∃ v, pos'[(row * g.divisionsX + col) * 3 + k]? = some v := by
        intro k hk
        exact ⟨_, List.getElem?_eq_getElem (by omega)⟩
      obtain ⟨x, ex⟩ := g' 0 (by omega)
      obtain ⟨y, ey⟩ := g' 1 (by omega)
      rw [Nat.add_zero] at ex
      have ez : pos'[(row * g.divisionsX + col) * 3 + 2]? = some 0 := by
        rw [m.others _ (.inl (by omega))]; exact cp.2.2
      refine ⟨(x, y), ?_, ?_⟩
      · have := m.points (row * g.divisionsX + col) (by rw [length_positionsOf]; omega) _ _ x y
          cp.1 cp.2.1 ex ey
        convert this using 3 <;> ring
      · rw [tv, List.getElem?_map, gV _ x y 0 ex ey ez]
        rfl
    · rw [tu, List.getElem?_map, gU _ _ _ cu.1 cu.2]
      rfl
  · intro r c hr' hc'
    have k := fun j hj => trisOf_get g r c j (by omega) (by omega) hj
    constructor
    · have e : (r * (g.divisionsX - 1) + c) * 2 * 3 = (r * (g.divisionsX - 1) + c) * 6 := by ring
      rw [tf, List.getElem?_map, gT _ (vtx g r c) (vtx g (r + 1) c) (vtx g (r + 1) (c + 1))
        (by rw [e]; exact k 0 (by omega)) (by rw [e]; exact k 1 (by omega))
        (by rw [e]; exact k 2 (by omega))]
      simp only [Option.map_some, vtx]
    · have e : ((r * (g.divisionsX - 1) + c) * 2 + 1) * 3 = (r * (g.divisionsX - 1) + c) * 6 + 3 := by
        ring
      rw [tf, List.getElem?_map, gT _ (vtx g r c) (vtx g (r + 1) (c + 1)) (vtx g r (c + 1))
        (by rw [e]; exact k 3 (by omega)) (by rw [e]; exact k 4 (by omega))
        (by rw [e]; exact k 5 (by omega))]
      simp only [Option.map_some, vtx]

end

section
attribute [local instance] ratRound ratPi

/-- `C115_deformed_plane` for the unit plane of 3 by 2 vertices and a stream with two transforms;
fractions are printed as "numerator,denominator". -/
example {H : Type} (p : Profile) : ∃ pos pos' uv tri text,
    (⟨0, 0, 1, 1, 3, 2⟩ : Plane Rat).fillPositions p (List.replicate 18 7) = .ok pos ∧
    ({ (Stream.new : Stream Rat H) with deformers := [doubleX, shiftX] }).applyDeformers matLib pos
      ⟨0, 0, 8, 1⟩ = .ok pos' ∧
    (⟨0, 0, 1, 1, 3, 2⟩ : Plane Rat).fillUvs p (List.replicate 12 7) = .ok uv ∧
    (⟨0, 0, 1, 1, 3, 2⟩ : Plane Rat).fillTris p (List.replicate 12 7) = .ok tri ∧
    exportMesh p (fun q : Rat => Path.decimal q.num.toNat ++ [44] ++ Path.decimal q.den) pos' uv tri
      = .ok text ∧
    (vertices text).length = 6 ∧ (uvs text).length = 6 ∧ (faces text).length = 4 := by
  have h : Fits (⟨0, 0, 1, 1, 3, 2⟩ : Plane Rat) :=
    ⟨show 0 < 3 by decide, show 0 < 2 by decide, show 3 * (2 + 1) < 4294967296 by decide⟩
  obtain ⟨a, b, c, d, e, h1, h2, h3, h4, h5, h6, h7, h8, -⟩ := C115_deformed_plane (H := H) p
    ⟨0, 0, 1, 1, 3, 2⟩ h (by decide) (by decide)
    { (Stream.new : Stream Rat H) with deformers := [doubleX, shiftX] } matLib ⟨0, 0, 8, 1⟩
    (by intro d hd _; simp at hd; rcases hd with rfl | rfl <;> trivial)
    (fun q : Rat => Path.decimal q.num.toNat ++ [44] ++ Path.decimal q.den)
    (by
      intro q
      simp only [List.mem_append, not_or]
      exact ⟨⟨⟨digits_not _ 10 (by omega), by decide⟩, digits_not _ 10 (by omega)⟩,
        ⟨⟨digits_not _ 32 (by omega), by decide⟩, digits_not _ 32 (by omega)⟩⟩)
    (List.replicate 18 7) (List.replicate 12 7) (List.replicate 12 7)
    (sizes_eq p _ h).2.1 (sizes_eq p _ h).2.2.1 (sizes_eq p _ h).2.2.2.1
  exact ⟨a, b, c, d, e, h1, h2, h3, h4, h5, h6, h7, h8⟩

end
end OCG.Props
