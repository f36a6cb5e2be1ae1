import Verif.Model.Lut
import Verif.Spec.Lut
import Verif.Spec.Block
import Verif.Proofs.Grid
import Verif.Proofs.Block
import Verif.Proofs.Pixels
import Verif.Props.ColorOps
import Verif.Props.Remap
import Verif.Proofs.NodeHash
import Verif.Proofs.CacheGood
import Verif.Proofs.FinFloat
import Mathlib.Logic.Equiv.List
/-
C58, C59, C74, C75: lookup tables.
-/

namespace OCG.Props

open OCG.LutSpec OCG.BlockSpec OCG.PixelSpec

section
variable {F : Type} [FloatLike F]

/-- The entry of an axis as the code computes it. -/
def axisValue (F : Type) [FloatLike F] (n k : Nat) : F :=
  FloatLike.ofInt k * (1 / (FloatLike.ofInt n - 1))

/-- Three writes of one pixel. -/
theorem write3 (buf : List F) (i : Nat) (a b c : F) :
    (do
      let img ← setAt buf (3 * i + 0) a
      let img ← setAt img (3 * i + 1) b
      setAt img (3 * i + 2) c) = writeFrom buf (i * 3) [a, b, c] := by
  simp only [writeFrom, Nat.mul_comm 3 i, Nat.add_zero, Nat.add_assoc]
  cases setAt buf (i * 3) a with
  | error e => rfl
  | ok b1 =>
    simp only [bind, Except.bind]
    cases setAt b1 (i * 3 + 1) b with
    | error e => rfl
    | ok b2 =>
      simp only
      cases setAt b2 (i * 3 + 2) c <;> rfl

/-- The identity table as the code computes it. -/
theorem identityLut_eq (p : Profile) (n : Nat) (hn : n * n * n * 3 ≤ 2147483647) (buf : List F)
    (hb : buf.length = n * n * n * 3) :
    identityLut p buf n 3 = .ok ((List.range (n * n * n)).flatMap fun i =>
      [axisValue F n (i % n), axisValue F n (i / n % n), axisValue F n (i / n / n % n)]) := by
  have h3 : asUsize 3 = 3 := asUsize_of_nonneg (by decide)
  have hnn : asUsize (n : Int) = n := by rw [asUsize_of_nonneg (by omega)]; omega
  have hsq : n * n ≤ n * n * n := by
    rcases Nat.eq_zero_or_pos n with rfl | h
    · simp
    · exact Nat.le_mul_of_pos_right _ h
  have hlt : ∀ m, m ≤ n * n * n → m < usizeMod := by
    intro m hm
    rw [usizeMod_eq]
    omega
  unfold identityLut
  refine Res.bind_ok.mpr ⟨(), ensure_ok (.inr rfl), ?_⟩
  rw [h3, hnn]
  dsimp only
  rw [if_neg (by decide)]
  refine Res.bind_ok.mpr ⟨_, umul_small (hlt _ hsq), ?_⟩
  refine Res.bind_ok.mpr ⟨_, umul_small (hlt _ (Nat.le_refl _)), ?_⟩
  obtain ⟨out, e, h⟩ := forRange_inv (fun i img => do
      let img ← setAt img (3 * i + 0) (FloatLike.ofInt (i % n : Nat) * (1 / (FloatLike.ofInt n - 1) : F))
      let img ← setAt img (3 * i + 1) (FloatLike.ofInt (i / n % n : Nat) * (1 / (FloatLike.ofInt n - 1) : F))
      setAt img (3 * i + 2) (FloatLike.ofInt (i / n / n % n : Nat) * (1 / (FloatLike.ofInt n - 1) : F)))
    (fun k b => Painted 3 (fun i => [axisValue F n (i % n), axisValue F n (i / n % n),
      axisValue F n (i / n / n % n)]) buf k b) (n * n * n) buf (Painted.start _ _ _) (by
    intro k s hk hs
    rw [write3]
    exact Painted.step (n := 3) (N := n * n * n) (buf0 := buf) (fun i _ => rfl) hk (by omega) hs rfl)
  rw [e, Painted.done hb h]

/-- C58: entry number `(b * n + g) * n + r` of the table is the computed step for `r`, `g` and
`b`, for every float semantics. -/
theorem C58_entries (p : Profile) (n : Nat) (hn : n * n * n * 3 ≤ 2147483647) (buf : List F)
    (hb : buf.length = n * n * n * 3) :
    ∃ out, identityLut p buf n 3 = .ok out ∧ out.length = n * n * n * 3 ∧
      ∀ r g b, r < n → g < n → b < n → pixel 3 out ((b * n + g) * n + r) =
        [axisValue F n r, axisValue F n g, axisValue F n b] := by
  refine ⟨_, identityLut_eq p n hn buf hb, ?_, ?_⟩
  · rw [length_flatMap_const _ 3 _ (fun _ _ => rfl)]
  · intro r g b hr hg hb'
    have hlt : (b * n + g) * n + r < n * n * n := by
      have h1 : b * n + g + 1 ≤ n * n := by
        have := Nat.mul_le_mul_right n (show b + 1 ≤ n from hb')
        rw [Nat.add_mul, Nat.one_mul] at this
        omega
      have := Nat.mul_le_mul_right n h1
      rw [Nat.add_mul, Nat.one_mul] at this
      omega
    have hn0 : 0 < n := by omega
    have e1 : ((b * n + g) * n + r) % n = r := by
      rw [Nat.mul_comm, Nat.mul_add_mod, Nat.mod_eq_of_lt hr]
    have e2 : ((b * n + g) * n + r) / n = b * n + g := by
      rw [Nat.mul_comm, Nat.mul_add_div hn0, Nat.div_eq_of_lt hr, Nat.add_zero]
    have e3 : (b * n + g) % n = g := by
      rw [Nat.mul_comm, Nat.mul_add_mod, Nat.mod_eq_of_lt hg]
    have e4 : (b * n + g) / n = b := by
      rw [Nat.mul_comm, Nat.mul_add_div hn0, Nat.div_eq_of_lt hg, Nat.add_zero]
    have key : ∀ c, c < 3 → ((List.range (n * n * n)).flatMap fun i =>
        [axisValue F n (i % n), axisValue F n (i / n % n), axisValue F n (i / n / n % n)])[
          ((b * n + g) * n + r) * 3 + c]? =
        [axisValue F n r, axisValue F n g, axisValue F n b][c]? := by
      intro c hc
      rw [getElem?_flatMap_const _ 3 _ _ _ (fun _ _ => rfl) hlt hc]
      simp only [e1, e2, e3, e4, Nat.mod_eq_of_lt hb']
    apply List.ext_getElem?
    intro c
    unfold pixel
    by_cases hc : c < 3
    · rw [List.getElem?_take_of_lt hc, List.getElem?_drop, key c hc]
    · rw [List.getElem?_eq_none (by rw [List.length_take]; omega),
        List.getElem?_eq_none (by simp only [List.length_cons, List.length_nil]; omega)]

/-- C58: a table with one channel is one axis. -/
theorem C58_one_channel (p : Profile) (n : Nat) (buf : List F) (hb : buf.length = n) :
    identityLut p buf n 1 = .ok ((List.range n).map (axisValue F n)) := by
  have h1 : asUsize 1 = 1 := asUsize_of_nonneg (by decide)
  have hnn : asUsize (n : Int) = n := by rw [asUsize_of_nonneg (by omega)]; omega
  unfold identityLut
  refine Res.bind_ok.mpr ⟨(), ensure_ok (.inl rfl), ?_⟩
  rw [h1, hnn]
  dsimp only
  rw [if_pos rfl]
  obtain ⟨out, e, h⟩ := forRange_inv
    (fun i img => setAt img i (FloatLike.ofInt (i % n : Nat) * (1 / (FloatLike.ofInt n - 1) : F)))
    (fun k b => Painted 1 (fun i => [axisValue F n (i % n)]) buf k b) n buf (Painted.start _ _ _) (by
    intro k s hk hs
    have e : setAt s k (FloatLike.ofInt (k % n : Nat) * (1 / (FloatLike.ofInt n - 1) : F)) =
        writeFrom s k [axisValue F n (k % n)] := by
      simp only [writeFrom]
      unfold axisValue
      cases setAt s k (FloatLike.ofInt (k % n : Nat) * (1 / (FloatLike.ofInt n - 1) : F)) <;> rfl
    rw [e]
    exact Painted.step (n := 1) (g := fun i => [axisValue F n (i % n)]) (N := n) (buf0 := buf)
      (fun i _ => rfl) hk (by omega) hs (by omega))
  rw [e, Painted.done (by omega) h]
  congr 1
  rw [List.flatMap_def]
  have : (List.range n).map (fun i => [axisValue F n (i % n)]) =
      (List.range n).map (fun i => [axisValue F n i]) := by
    apply List.map_congr_left
    intro i hi
    rw [Nat.mod_eq_of_lt (List.mem_range.mp hi)]
  rw [this, ← List.flatMap_def]
  exact List.map_eq_flatMap.symm

end

section
variable {F : Type} [Field F] [LinearOrder F] [IsStrictOrderedRing F] [FloatOps F]

omit [IsStrictOrderedRing F] in
theorem axisValue_eq (n k : Nat) : axisValue F n k = step n k := by
  unfold axisValue step
  rw [ofInt_eq, ofInt_eq]
  push_cast
  ring

omit [FloatOps F] in
theorem step_inj {n j k : Nat} (hn : 2 ≤ n) (h : (step n j : F) = step n k) : j = k := by
  unfold step at h
  have h1 : (n : F) - 1 ≠ 0 := by
    have : (1 : F) < n := by exact_mod_cast hn
    exact (sub_pos.mpr this).ne'
  rw [div_left_inj' h1] at h
  exact_mod_cast h

/-- C58: the table has the advertised size: an image of `n * n` by `n` pixels. -/
theorem C58_size [CeilLaws F] (p : Profile) (n : Nat) (h2 : 2 ≤ n) (hn : n * n * n ≤ 2147483647) :
    lutImageSize F p n 3 = .ok ((n * n : Nat), (n : Int)) := by
  have hsq : n * n ≤ n * n * n := Nat.le_mul_of_pos_right _ (by omega)
  have hle : n ≤ n * n := Nat.le_mul_of_pos_right _ (by omega)
  have e1 : ((n : Int) * n) = ((n * n : Nat) : Int) := by push_cast; rfl
  have e2 : (((n * n : Nat) : Int) * n) = ((n * n * n : Nat) : Int) := by push_cast; rfl
  unfold lutImageSize
  rw [if_neg (by decide), if_neg (by decide), if_pos rfl, e1]
  have hi : InI32 ((n * n : Nat) : Int) := by unfold InI32; omega
  refine Res.bind_ok.mpr ⟨_, i32_of hi, Res.bind_ok.mpr ⟨_, i32_of hi, ?_⟩⟩
  rw [e2]
  refine Res.bind_ok.mpr ⟨_, i32_of (by unfold InI32; omega), ?_⟩
  dsimp only
  have hq : (FloatLike.ofInt (F := F) ((n * n * n : Nat) : Int) / FloatLike.ofInt ((n * n : Nat) : Int))
      = ((n : Int) : F) := by
    rw [ofInt_eq, ofInt_eq]
    push_cast
    have : (n : F) ≠ 0 := by
      have : (0 : F) < n := by exact_mod_cast (by omega : 0 < n)
      exact this.ne'
    field_simp
  rw [hq]
  show Except.ok (_, FloatOps.toI32 (FloatOps.ceil ((n : Int) : F))) = _
  rw [CeilLaws.exact _ (by unfold InI32; omega)]

omit [IsStrictOrderedRing F] in
/-- C58: the table is the regular lattice. -/
theorem C58_lattice (p : Profile) (n : Nat) (hn : n * n * n * 3 ≤ 2147483647) (buf : List F)
    (hb : buf.length = n * n * n * 3) :
    ∃ out, identityLut p buf n 3 = .ok out ∧ IsLattice n out := by
  obtain ⟨out, e, hl, h⟩ := C58_entries p n hn buf hb
  refine ⟨out, e, hl, fun r g b hr hg hb' => ?_⟩
  rw [h r g b hr hg hb']
  simp only [axisValue_eq]

/-- C58: every colour of the lattice is in the table exactly once, and nothing else is. -/
theorem C58_exactly_once {n : Nat} (h2 : 2 ≤ n) {values : List F} (h : IsLattice n values) :
    (∀ r g b, r < n → g < n → b < n →
      ∃! i, i < values.length / 3 ∧ pixel 3 values i = [step n r, step n g, step n b]) ∧
    ∀ i, i < values.length / 3 →
      ∃ r g b, r < n ∧ g < n ∧ b < n ∧ pixel 3 values i = [step n r, step n g, step n b] := by
  obtain ⟨hl, h⟩ := h
  have hlen : values.length / 3 = n * n * n := by omega
  have hn0 : 0 < n := by omega
  have split : ∀ i, i < n * n * n → i % n < n ∧ i / n % n < n ∧ i / n / n < n ∧
      (i / n / n * n + i / n % n) * n + i % n = i := by
    intro i hi
    refine ⟨Nat.mod_lt _ hn0, Nat.mod_lt _ hn0, ?_, ?_⟩
    · rw [Nat.div_lt_iff_lt_mul hn0, Nat.div_lt_iff_lt_mul hn0]
      exact hi
    · rw [Nat.div_add_mod', Nat.div_add_mod']
  rw [hlen]
  have back : ∀ i, i < n * n * n → pixel 3 values i =
      [step n (i % n), step n (i / n % n), step n (i / n / n)] := by
    intro i hi
    obtain ⟨a1, a2, a3, a4⟩ := split i hi
    have := h _ _ _ a1 a2 a3
    rw [a4] at this
    exact this
  refine ⟨fun r g b hr hg hb => ?_, fun i hi => ?_⟩
  · refine ⟨(b * n + g) * n + r, ⟨?_, h r g b hr hg hb⟩, ?_⟩
    · have h1 : b * n + g + 1 ≤ n * n := by
        have := Nat.mul_le_mul_right n (show b + 1 ≤ n from hb)
        rw [Nat.add_mul, Nat.one_mul] at this
        omega
      have := Nat.mul_le_mul_right n h1
      rw [Nat.add_mul, Nat.one_mul] at this
      omega
    · rintro i ⟨hi, he⟩
      obtain ⟨a1, a2, a3, a4⟩ := split i hi
      rw [back i hi] at he
      simp only [List.cons.injEq, and_true] at he
      obtain ⟨e1, e2, e3⟩ := he
      rw [← a4, step_inj h2 e1, step_inj h2 e2, step_inj h2 e3]
  · obtain ⟨a1, a2, a3, a4⟩ := split i hi
    exact ⟨_, _, _, a1, a2, a3, back i hi⟩

section
variable {H : Type} [HalfLike F H]

omit [IsStrictOrderedRing F] in
theorem new_float (p : Profile) (size : BlockSize) (hv : ValidSize size) :
    PixelBlock.new (F := F) (H := H) p size (.known .f32) =
      .ok (floatImage size (List.replicate (elements size).toNat 0)) := by
  unfold PixelBlock.new
  exact Res.bind_ok.mpr ⟨_, size_eq p size hv, rfl⟩

/-- The size of the table image can be stored. -/
theorem lut_valid {n : Nat} (h2 : 2 ≤ n) (hn : n * n * n * 3 ≤ 2147483647) :
    ValidSize ⟨(n * n : Nat), (n : Int), 3⟩ := by
  have : 0 < n * n := Nat.mul_pos (by omega) (by omega)
  refine ⟨by dsimp only; omega, by dsimp only; omega, by dsimp only; omega, ?_⟩
  dsimp only
  have e : (((n * n : Nat) : Int) * (n : Int)) * 3 = ((n * n * n * 3 : Nat) : Int) := by
    push_cast; rfl
  rw [e]
  omega

/-- The part common to both tables: the identity table as an image. -/
theorem identity_block [CeilLaws F] (p : Profile) (n : Nat) (h2 : 2 ≤ n)
    (hn : n * n * n * 3 ≤ 2147483647) :
    ∃ values : List F, IsLattice n values ∧
      lutImageSize F p n 3 = .ok ((n * n : Nat), (n : Int)) ∧
      ∃ b : PixelBlock F H,
        PixelBlock.new (F := F) (H := H) p ⟨(n * n : Nat), (n : Int), 3⟩ (.known .f32) = .ok b ∧
        b.updateF32 (fun px => identityLut p px n 3) =
          .ok (floatImage ⟨(n * n : Nat), (n : Int), 3⟩ values) := by
  have hv := lut_valid h2 hn
  have el : (elements ⟨(n * n : Nat), (n : Int), 3⟩).toNat = n * n * n * 3 := by
    unfold elements
    dsimp only
    have e : (((n * n : Nat) : Int) * (n : Int)) * 3 = ((n * n * n * 3 : Nat) : Int) := by
      push_cast; rfl
    rw [e]
    omega
  obtain ⟨values, e, h⟩ := C58_lattice (F := F) p n hn (List.replicate (n * n * n * 3) 0) (by simp)
  refine ⟨values, h, C58_size p n h2 (by omega), _, new_float p _ hv, ?_⟩
  rw [el]
  unfold PixelBlock.updateF32
  exact Res.bind_ok.mpr ⟨_, rfl, Res.bind_ok.mpr ⟨_, e, rfl⟩⟩

/-- C58: the table for a transform from a space to itself is the lattice image, with windows of
the advertised size. -/
theorem C58_image [CeilLaws F] (p : Profile) (lib : ColorLib F) (n : Nat) (h2 : 2 ≤ n)
    (hn : n * n * n * 3 ≤ 2147483647) (space : Bytes) :
    ∃ values : List F, IsLattice n values ∧
      generateTransformLut (H := H) p lib n 3 space space = .ok
        { pixelBlock := floatImage ⟨(n * n : Nat), (n : Int), 3⟩ values
          spec := { ImageSpec.new with colorSpace := space }
          displayWindow := ⟨0, 0, (n * n : Nat), (n : Int)⟩
          dataWindow := ⟨0, 0, (n * n : Nat), (n : Int)⟩ } := by
  obtain ⟨values, h, e1, b, e2, e3⟩ := identity_block (F := F) (H := H) p n h2 hn
  refine ⟨values, h, ?_⟩
  unfold generateTransformLut
  refine Res.bind_ok.mpr ⟨_, e1, Res.bind_ok.mpr ⟨_, e2, Res.bind_ok.mpr ⟨_, e3, ?_⟩⟩⟩
  refine Res.bind_ok.mpr ⟨(floatImage ⟨(n * n : Nat), (n : Int), 3⟩ values, _), ?_, rfl⟩
  unfold bakeColorspace
  exact Res.bind_ok.mpr ⟨_, rfl, if_pos rfl⟩

/-- C58: the table for a transform between different spaces is the lattice image handed once to
the colour library. -/
theorem C58_transform [CeilLaws F] (p : Profile) (lib : ColorLib F) (n : Nat) (h2 : 2 ≤ n)
    (hn : n * n * n * 3 ≤ 2147483647) (src dst : Bytes) (hne : src ≠ dst) :
    ∃ values : List F, IsLattice n values ∧
      generateTransformLut (H := H) p lib n 3 src dst = .ok
        { pixelBlock := floatImage ⟨(n * n : Nat), (n : Int), 3⟩
            (lib.convert values (n * n : Nat) n 3 (-1) false src dst).2
          spec := { ImageSpec.new with
            colorSpace := if (lib.convert values (n * n : Nat) n 3 (-1) false src dst).1 then dst
              else src }
          displayWindow := ⟨0, 0, (n * n : Nat), (n : Int)⟩
          dataWindow := ⟨0, 0, (n * n : Nat), (n : Int)⟩ } := by
  obtain ⟨values, h, e1, b, e2, e3⟩ := identity_block (F := F) (H := H) p n h2 hn
  refine ⟨values, h, ?_⟩
  unfold generateTransformLut
  refine Res.bind_ok.mpr ⟨_, e1, Res.bind_ok.mpr ⟨_, e2, Res.bind_ok.mpr ⟨_, e3, ?_⟩⟩⟩
  refine Res.bind_ok.mpr ⟨(floatImage ⟨(n * n : Nat), (n : Int), 3⟩
    (lib.convert values (n * n : Nat) n 3 (-1) false src dst).2, _), ?_, rfl⟩
  unfold bakeColorspace
  refine Res.bind_ok.mpr ⟨_, rfl, (if_neg hne).trans (Res.bind_ok.mpr ⟨values, rfl, ?_⟩)⟩
  refine congrArg Except.ok (Prod.ext rfl ?_)
  show (if (lib.convert values (n * n : Nat) n 3 (-1) false src dst).1 = true then _ else _) = _
  split <;> rfl

omit [IsStrictOrderedRing F] in
theorem identity_matrix : (Mat4.identity : Mat4 F) = fun i j => if i = j then 1 else 0 := by
  funext i j
  have hi : i = 0 ∨ i = 1 ∨ i = 2 ∨ i = 3 := by omega
  have hj : j = 0 ∨ j = 1 ∨ j = 2 ∨ j = 3 := by omega
  rcases hi with rfl | rfl | rfl | rfl <;> rcases hj with rfl | rfl | rfl | rfl <;> rfl

/-- C75: every entry of the table for a list of colour operations is the result of the operations
on that colour of the lattice. -/
theorem C75_ops_lut [CeilLaws F] (p : Profile) (n : Nat) (h2 : 2 ≤ n)
    (hn : n * n * n * 3 ≤ 2147483647) (ops : List (GradeOp F)) :
    ∃ values : List F,
      generateOpsLut (H := H) p n 3 ops = .ok
        { pixelBlock := floatImage ⟨(n * n : Nat), (n : Int), 3⟩ values
          spec := ImageSpec.new
          displayWindow := ⟨0, 0, (n * n : Nat), (n : Int)⟩
          dataWindow := ⟨0, 0, (n * n : Nat), (n : Int)⟩ } ∧
      values.length = n * n * n * 3 ∧
      ∀ r g b, r < n → g < n → b < n →
        applyColorOps ops [step n r, step n g, step n b] 3 =
          .ok (pixel 3 values ((b * n + g) * n + r)) := by
  obtain ⟨lat, ⟨hl, h⟩, e1, b, e2, e3⟩ := identity_block (F := F) (H := H) p n h2 hn
  have hch : Channels 3 := .inr (.inl rfl)
  obtain ⟨values, o1, o2, o3⟩ := C47_every_pixel ops lat hch
  refine ⟨values, ?_, by rw [o2, hl], ?_⟩
  · unfold generateOpsLut
    refine Res.bind_ok.mpr ⟨_, e1, Res.bind_ok.mpr ⟨_, e2, Res.bind_ok.mpr ⟨_, e3, ?_⟩⟩⟩
    refine Res.bind_ok.mpr ⟨floatImage ⟨(n * n : Nat), (n : Int), 3⟩ values, ?_, rfl⟩
    unfold bakeColorgrade PixelBlock.updateF32
    refine Res.bind_ok.mpr ⟨lat, rfl, Res.bind_ok.mpr ⟨values, ?_, rfl⟩⟩
    refine Res.bind_ok.mpr ⟨lat, ?_, o1⟩
    rw [identity_matrix]
    exact C57_identity hch lat
  · intro r g b' hr hg hb
    have hlt : (b' * n + g) * n + r < n * n * n := by
      have h1 : b' * n + g + 1 ≤ n * n := by
        have := Nat.mul_le_mul_right n (show b' + 1 ≤ n from hb)
        rw [Nat.add_mul, Nat.one_mul] at this
        omega
      have := Nat.mul_le_mul_right n h1
      rw [Nat.add_mul, Nat.one_mul] at this
      omega
    obtain ⟨q, q1, q2⟩ := o3 ((b' * n + g) * n + r) (by rw [hl]; omega)
    rw [h r g b' hr hg hb] at q1
    rw [q2]
    exact q1

end

end


/-! ### C59 -/

/-- The bytes `To:` between the two names. -/
def toMark : Bytes := [84, 111, 58]

/-- Two texts split at `To:` in the same place if the first parts do not contain it. -/
theorem split_at_mark : ∀ {s s' d d' : Bytes}, ¬ toMark <:+: s → ¬ toMark <:+: s' →
    s ++ toMark ++ d = s' ++ toMark ++ d' → s = s' ∧ d = d' := by
  have nil_case : ∀ {s' d d' : Bytes}, ¬ toMark <:+: s' →
      toMark ++ d = s' ++ toMark ++ d' → s' = [] ∧ d = d' := by
    intro s' d d' hn h
    match s', hn, h with
    | [], _, h => exact ⟨rfl, by simpa [toMark] using h⟩
    | [a], _, h => simp [toMark] at h
    | [a, b], _, h => simp [toMark] at h
    | a :: b :: c :: r, hn, h =>
      simp only [toMark, List.cons_append, List.nil_append, List.cons.injEq] at h
      obtain ⟨rfl, rfl, rfl, -⟩ := h
      exact absurd ⟨[], r, rfl⟩ hn
  intro s
  induction s with
  | nil =>
    intro s' d d' _ hn h
    obtain ⟨h1, h2⟩ := nil_case hn h
    exact ⟨h1.symm, h2⟩
  | cons x s ih =>
    intro s' d d' hs hs' h
    cases s' with
    | nil =>
      obtain ⟨h1, -⟩ := nil_case hs h.symm
      cases h1
    | cons y s' =>
      simp only [List.cons_append, List.cons.injEq] at h
      obtain ⟨rfl, h⟩ := h
      obtain ⟨h1, h2⟩ := ih (fun ⟨a, b, e⟩ => hs ⟨x :: a, b, by simp [← e]⟩)
        (fun ⟨a, b, e⟩ => hs' ⟨x :: a, b, by simp [← e]⟩) h
      exact ⟨by rw [h1], h2⟩

theorem transformLut_bytes {src dst src' dst' : Bytes} {n n' : Int} (hn : InI32 n) (hn' : InI32 n') :
    hashBytes (transformLutItems src dst n) = hashBytes (transformLutItems src' dst' n') ↔
      n = n' ∧ src ++ toMark ++ dst = src' ++ toMark ++ dst' := by
  simp only [transformLutItems, hashBytes_cons, hashBytes_nil, List.append_nil]
  constructor
  · intro h
    simp only [HashItem.toBytes.eq_8] at h
    have h := List.append_cancel_left h
    rw [bytes_i32 hn hn'] at h
    refine ⟨h.1, ?_⟩
    have h := List.append_cancel_left h.2
    rw [List.append_assoc, List.append_assoc]
    exact h
  · rintro ⟨rfl, h⟩
    rw [List.append_assoc, List.append_assoc] at h
    simp only [HashItem.toBytes.eq_8]
    unfold toMark at h
    rw [h]

/-- C59 (partial): requests for a colour transform table share a key only if cube size, source
and destination space agree, unless the hash function collides on the two byte streams, and
provided that the source spaces do not contain `To:`.  (Without the proviso: see
`C59_counterexample`; the cube size and the joined names always agree, `C59_size`.) -/
theorem C59_key_partial (hf : ByteHash) (src dst src' dst' : Bytes) (n n' : Int) (hn : InI32 n)
    (hn' : InI32 n') (hs : ¬ toMark <:+: src) (hs' : ¬ toMark <:+: src')
    (hcol : hf (hashBytes (transformLutItems src dst n)) =
        hf (hashBytes (transformLutItems src' dst' n')) →
      hashBytes (transformLutItems src dst n) = hashBytes (transformLutItems src' dst' n'))
    (h : hf (hashBytes (transformLutItems src dst n)) =
      hf (hashBytes (transformLutItems src' dst' n'))) :
    src = src' ∧ dst = dst' ∧ n = n' := by
  obtain ⟨h1, h2⟩ := (transformLut_bytes hn hn').mp (hcol h)
  obtain ⟨h3, h4⟩ := split_at_mark hs hs' h2
  exact ⟨h3, h4, h1⟩

/-- C59: whatever the names, the cube sizes of requests that share a key agree. -/
theorem C59_size (hf : ByteHash) (src dst src' dst' : Bytes) (n n' : Int) (hn : InI32 n)
    (hn' : InI32 n')
    (hcol : hf (hashBytes (transformLutItems src dst n)) =
        hf (hashBytes (transformLutItems src' dst' n')) →
      hashBytes (transformLutItems src dst n) = hashBytes (transformLutItems src' dst' n'))
    (h : hf (hashBytes (transformLutItems src dst n)) =
      hf (hashBytes (transformLutItems src' dst' n'))) : n = n' :=
  ((transformLut_bytes hn hn').mp (hcol h)).1

/-- C59 counterexample: the names are joined without separator, so for all texts `a`, `b`, `c` a
transform from `aTo:b` to `c` and one from `a` to `bTo:c` share a key: whichever table is in the
cache answers both requests. -/
theorem C59_counterexample {F H : Type} [FloatLike F] [HalfLike F H] (p : Profile) (hf : ByteHash)
    (lib : ColorLib F) (a b c : Bytes) (n : Int) (cache cache' : Cache (Image F H))
    (image : Image F H)
    (h : cache.get (hf (hashBytes (transformLutItems (a ++ toMark ++ b) c n))) =
      (cache', some image)) :
    getTransformLut p hf lib (a ++ toMark ++ b) c n cache = .ok (cache', image) ∧
    getTransformLut p hf lib a (b ++ toMark ++ c) n cache = .ok (cache', image) := by
  have e : hashBytes (transformLutItems a (b ++ toMark ++ c) n) =
      hashBytes (transformLutItems (a ++ toMark ++ b) c n) := by
    simp only [transformLutItems, hashBytes_cons, hashBytes_nil, List.append_nil,
      HashItem.toBytes.eq_8]
    unfold toMark
    simp only [List.append_assoc]
  unfold getTransformLut cached
  rw [e, h]
  exact ⟨rfl, rfl⟩

/-- C59: a table for a colour transform never shares a key with one for colour operations. -/
theorem C59_kinds (hf : ByteHash) (src dst : Bytes) (n m k : Int) (opsHash : Nat)
    (hcol : hf (hashBytes (transformLutItems src dst n)) =
        hf (hashBytes (opsLutItems opsHash m k)) →
      hashBytes (transformLutItems src dst n) = hashBytes (opsLutItems opsHash m k)) :
    hf (hashBytes (transformLutItems src dst n)) ≠ hf (hashBytes (opsLutItems opsHash m k)) := by
  intro h
  have := hcol h
  simp [transformLutItems, opsLutItems, hashBytes_cons, HashItem.toBytes.eq_8] at this


/-! ### C74 -/

theorem opsLut_bytes {a b : Nat} {n n' m m' : Int} (ha : a < 2 ^ 64) (hb : b < 2 ^ 64)
    (hn : InI32 n) (hn' : InI32 n') (hm : InI32 m) (hm' : InI32 m')
    (h : hashBytes (opsLutItems a n m) = hashBytes (opsLutItems b n' m')) :
    a = b ∧ n = n' ∧ m = m' := by
  simp only [opsLutItems, hashBytes_cons, hashBytes_nil, HashItem.toBytes.eq_8,
    List.append_nil] at h
  have h := List.append_cancel_left (List.append_cancel_left h)
  rw [bytes_i32 hn hn'] at h
  obtain ⟨h1, h⟩ := h
  have h := List.append_cancel_left h
  rw [bytes_i32 hm hm'] at h
  obtain ⟨h2, h⟩ := h
  have h := List.append_cancel_left h
  exact ⟨leBytes_inj 8 (by norm_num at ha ⊢; exact ha) (by norm_num at hb ⊢; exact hb) h, h1, h2⟩

section
variable {F : Type} [FloatLike F]

/-- In channels that neither grade processes, both give the same.  This always holds in exact
arithmetic (`quiet_exact`), and with IEEE numbers as long as the unused formula does not give an
infinity or a NaN (compare `C55_counterexample_nan`). -/
def Quiet (a b : GradeOp F) : Prop :=
  ∀ c, c < 4 → ColorSpec.processes a c = 0 → ColorSpec.processes b c = 0 → ∀ p,
    gradeValue (ColorSpec.values a c) (decide (a.reverse ≠ 0)) (FloatLike.ofInt 0 * a.mix) p =
    gradeValue (ColorSpec.values b c) (decide (b.reverse ≠ 0)) (FloatLike.ofInt 0 * b.mix) p

theorem quiet_exact {F : Type} [Field F] [LinearOrder F] [IsStrictOrderedRing F] [FloatOps F]
    (a b : GradeOp F) : Quiet a b := by
  intro c _ _ _ p
  rw [ofInt_eq, Int.cast_zero, zero_mul, zero_mul, gradeValue_mask_zero, gradeValue_mask_zero]

variable [FloatBits F]

/-- The integers of a grade fit `i32`. -/
def GradeTyped (d : GradeOp F) : Prop := ∀ name, InI32 (d.getI32 name)

omit [FloatLike F] [FloatBits F] in
theorem vec_congr {a b c d a' b' c' d' : F} (h1 : a = a') (h2 : b = b') (h3 : c = c')
    (h4 : d = d') : Xform.vec a b c d = Xform.vec a' b' c' d' := by rw [h1, h2, h3, h4]

/-- Grades that are hashed alike do the same to every buffer, with any number of channels. -/
theorem grade_same {a b : GradeOp F} (ha : GradeTyped a) (hb : GradeTyped b) (hq : Quiet a b)
    (h : hashBytes a.hashItems = hashBytes b.hashItems) :
    a.enable = b.enable ∧ ∀ buf n, a.applySlice buf n = b.applySlice buf n := by
  simp only [GradeOp.hashItems, hashBytes_cons] at h
  rw [bytes_i32 (a := a.enable) (b := b.enable) (ha "enable") (hb "enable")] at h
  obtain ⟨h0, h⟩ := h
  refine ⟨h0, fun buf n => ?_⟩
  by_cases he : b.enable = 0
  · have wa : ¬ HasWork a := fun w => by have := ((hasWork_iff a).mp w).1; omega
    have wb : ¬ HasWork b := fun w => by have := ((hasWork_iff b).mp w).1; omega
    rw [applySlice_idle wa, applySlice_idle wb]
  rw [h0] at h
  simp only [he, if_false, hashBytes_append, hashBytes_cons, List.append_assoc,
    List.nil_append, List.cons_append] at h
  rw [bytes_i32 (a := a.processR) (b := b.processR) (ha "process_r") (hb "process_r"),
    bytes_i32 (a := a.processG) (b := b.processG) (ha "process_g") (hb "process_g"),
    bytes_i32 (a := a.processB) (b := b.processB) (ha "process_b") (hb "process_b"),
    bytes_i32 (a := a.processA) (b := b.processA) (ha "process_a") (hb "process_a")] at h
  obtain ⟨hr, hg, hb', ha', h⟩ := h
  by_cases w : HasWork b
  swap
  · have wa : ¬ HasWork a := by
      rw [hasWork_iff] at w ⊢
      rw [h0, hr, hg, hb', ha']
      exact w
    rw [applySlice_idle wa, applySlice_idle w]
  have wa : HasWork a := by
    rw [hasWork_iff] at w ⊢
    rw [h0, hr, hg, hb', ha']
    exact w
  rw [applySlice_work wa, applySlice_work w]
  refine congrArg (fun g => pixelLoop g n buf) ?_
  have hw := ((hasWork_iff b).mp w).2
  rw [hr, hg, hb', ha'] at h
  simp only [hw, if_true] at h
  have last : ∀ x y : F, hashBytes (hashFloat x) = hashBytes (hashFloat y) ↔ x = y := by
    intro x y
    rw [← List.append_nil (hashBytes (hashFloat x)), ← List.append_nil (hashBytes (hashFloat y)),
      bytes_f32]
    simp
  have vals : ∀ (d : GradeOp F), ColorSpec.values d 0 = (d.blackPointR, d.whitePointR, d.liftR, d.gainR,
        d.multiplyR, d.offsetR, d.gammaR) ∧
      ColorSpec.values d 1 = (d.blackPointG, d.whitePointG, d.liftG, d.gainG, d.multiplyG, d.offsetG, d.gammaG) ∧
      ColorSpec.values d 2 = (d.blackPointB, d.whitePointB, d.liftB, d.gainB, d.multiplyB, d.offsetB, d.gammaB) ∧
      ColorSpec.values d 3 = (d.blackPointA, d.whitePointA, d.liftA, d.gainA, d.multiplyA, d.offsetA, d.gammaA) :=
    fun d => ⟨rfl, rfl, rfl, rfl⟩
  obtain ⟨va0, va1, va2, va3⟩ := vals a
  obtain ⟨vb0, vb1, vb2, vb3⟩ := vals b
  have q0 : b.processR = 0 → ∀ p, gradeValue (ColorSpec.values a 0) (decide (a.reverse ≠ 0))
      (FloatLike.ofInt b.processR * a.mix) p = gradeValue (ColorSpec.values b 0)
      (decide (b.reverse ≠ 0)) (FloatLike.ofInt b.processR * b.mix) p :=
    fun h => by rw [h]; exact hq 0 (by decide) (hr.trans h) h
  have q1 : b.processG = 0 → ∀ p, gradeValue (ColorSpec.values a 1) (decide (a.reverse ≠ 0))
      (FloatLike.ofInt b.processG * a.mix) p = gradeValue (ColorSpec.values b 1)
      (decide (b.reverse ≠ 0)) (FloatLike.ofInt b.processG * b.mix) p :=
    fun h => by rw [h]; exact hq 1 (by decide) (hg.trans h) h
  have q2 : b.processB = 0 → ∀ p, gradeValue (ColorSpec.values a 2) (decide (a.reverse ≠ 0))
      (FloatLike.ofInt b.processB * a.mix) p = gradeValue (ColorSpec.values b 2)
      (decide (b.reverse ≠ 0)) (FloatLike.ofInt b.processB * b.mix) p :=
    fun h => by rw [h]; exact hq 2 (by decide) (hb'.trans h) h
  have q3 : b.processA = 0 → ∀ p, gradeValue (ColorSpec.values a 3) (decide (a.reverse ≠ 0))
      (FloatLike.ofInt b.processA * a.mix) p = gradeValue (ColorSpec.values b 3)
      (decide (b.reverse ≠ 0)) (FloatLike.ofInt b.processA * b.mix) p :=
    fun h => by rw [h]; exact hq 3 (by decide) (ha'.trans h) h
  rw [va0, vb0] at q0
  rw [va1, vb1] at q1
  rw [va2, vb2] at q2
  rw [va3, vb3] at q3
  unfold gradeFn
  funext p
  rw [va0, va1, va2, va3, vb0, vb1, vb2, vb3, hr, hg, hb', ha']
  clear va0 va1 va2 va3 vb0 vb1 vb2 vb3 vals
  by_cases pr : b.processR = 0 <;> by_cases pg : b.processG = 0 <;>
    by_cases pb : b.processB = 0 <;> by_cases pa : b.processA = 0
  all_goals
    simp only [pr, pg, pb, pa, ne_eq, not_true_eq_false, not_false_eq_true, if_true, if_false,
      hashBytes_append, hashBytes_cons, hashBytes_nil, List.append_assoc, List.nil_append,
      List.cons_append, bytes_f32, last,
      bytes_i32 (a := a.reverse) (b := b.reverse) (ha "reverse") (hb "reverse"),
      bytes_i32 (a := a.clampBlack) (b := b.clampBlack) (ha "clamp_black") (hb "clamp_black"),
      bytes_i32 (a := a.clampWhite) (b := b.clampWhite) (ha "clamp_white") (hb "clamp_white"),
      bytes_i32 (a := a.premult) (b := b.premult) (ha "premult") (hb "premult")] at h
    refine vec_congr ?_ ?_ ?_ ?_ <;>
      first
      | exact q0 pr _ | exact q1 pg _ | exact q2 pb _ | exact q3 pa _ | simp only [h]

/-- Lists of grades that are hashed alike do the same to every buffer. -/
theorem ops_same {hf : ByteHash} (hbound : ∀ x, hf x < 2 ^ 64) {ops ops' : List (GradeOp F)}
    (ht : ∀ op ∈ ops, GradeTyped op) (ht' : ∀ op ∈ ops', GradeTyped op)
    (hcol : ∀ op ∈ ops, ∀ op' ∈ ops', hf (hashBytes op.hashItems) = hf (hashBytes op'.hashItems) →
      hashBytes op.hashItems = hashBytes op'.hashItems)
    (hq : ∀ op ∈ ops, ∀ op' ∈ ops', Quiet op op')
    (h : hashBytes (ops.map fun op => HashItem.u64 (hf (hashBytes op.hashItems))) =
      hashBytes (ops'.map fun op => HashItem.u64 (hf (hashBytes op.hashItems)))) (buf : List F)
    (n : Int) : applyColorOps ops buf n = applyColorOps ops' buf n := by
  by_cases hn : 0 < n
  swap
  · unfold applyColorOps
    rw [if_pos hn, if_pos hn]
  rw [applyColorOps_eq _ _ hn, applyColorOps_eq _ _ hn]
  have hl : ops.map (fun op => hf (hashBytes op.hashItems)) =
      ops'.map (fun op => hf (hashBytes op.hashItems)) := by
    refine bytes_inputs ?_ ?_ ?_
    · intro x hx
      obtain ⟨op, -, rfl⟩ := List.mem_map.mp hx
      exact hbound _
    · intro x hx
      obtain ⟨op, -, rfl⟩ := List.mem_map.mp hx
      exact hbound _
    · rw [List.map_map, List.map_map]
      exact h
  clear h
  induction ops generalizing ops' buf with
  | nil =>
    cases ops' with
    | nil => rfl
    | cons op' ops' => simp at hl
  | cons op ops ih =>
    cases ops' with
    | nil => simp at hl
    | cons op' ops' =>
      simp only [List.map_cons, List.cons.injEq] at hl
      obtain ⟨he, hs⟩ := grade_same (ht op (by simp)) (ht' op' (by simp))
        (hq op (by simp) op' (by simp)) (hcol op (by simp) op' (by simp) hl.1)
      have ih' := fun buf => ih (ops' := ops') (fun o ho => ht o (by simp [ho]))
        (fun o ho => ht' o (by simp [ho]))
        (fun o ho o' ho' => hcol o (by simp [ho]) o' (by simp [ho']))
        (fun o ho o' ho' => hq o (by simp [ho]) o' (by simp [ho'])) buf hl.2
      have he' : op.getI32 "enable" = op'.getI32 "enable" := he
      by_cases e1 : op'.getI32 "enable" = 1
      · rw [List.filter_cons_of_pos (by simpa using he'.trans e1),
          List.filter_cons_of_pos (by simpa using e1)]
        unfold forEach
        rw [hs]
        cases op'.applySlice buf n with
        | error e => rfl
        | ok b => exact ih' b
      · rw [List.filter_cons_of_neg (by simpa using he'.trans_ne e1),
          List.filter_cons_of_neg (by simpa using e1)]
        exact ih' buf

/-- The values of a call are of the types of the code and no source space contains `To:`. -/
def Plain : Call F → Prop
  | .transform src _ n => InI32 n ∧ ¬ toMark <:+: src
  | .operations ops n m => InI32 n ∧ InI32 m ∧ ∀ op ∈ ops, GradeTyped op
  | .setCapacity _ => True

/-- The grades of a call. -/
def callOps : Call F → List (GradeOp F)
  | .operations ops _ _ => ops
  | _ => []

/-- The cache key of a call. -/
def callKey (hf : ByteHash) : Call F → Option Nat
  | .transform src dst n => some (hf (hashBytes (transformLutItems src dst n)))
  | .operations ops n m => some (hf (hashBytes (opsLutItems (colorOpsHash hf ops) n m)))
  | .setCapacity _ => none

variable {H : Type} [HalfLike F H]

/-- Calls with the same key have the same answer. -/
theorem same_key {p : Profile} {hf : ByteHash} (hbound : ∀ x, hf x < 2 ^ 64) {lib : ColorLib F}
    {a b : Call F} (ha : Plain a) (hb : Plain b)
    (hcol : ∀ x ∈ a.streams hf, ∀ y ∈ b.streams hf, hf x = hf y → x = y)
    (hq : ∀ op ∈ callOps a, ∀ op' ∈ callOps b, Quiet op op') {k : Nat}
    (ka : callKey hf a = some k) (kb : callKey hf b = some k) :
    a.fresh (H := H) p lib = b.fresh p lib := by
  have hk : callKey hf a = callKey hf b := ka.trans kb.symm
  cases a with
  | setCapacity n => cases ka
  | transform src dst n =>
    cases b with
    | setCapacity n => cases kb
    | operations ops n' m =>
      have := hcol _ (by simp [Call.streams]) (hashBytes (opsLutItems (colorOpsHash hf ops) n' m))
        (by simp [Call.streams]) (Option.some.inj hk)
      exact absurd (Option.some.inj hk) (C59_kinds hf src dst n n' m _ fun _ => this)
    | transform src' dst' n' =>
      obtain ⟨rfl, rfl, rfl⟩ := C59_key_partial hf src dst src' dst' n n' ha.1 hb.1 ha.2 hb.2
        (hcol _ (by simp [Call.streams]) _ (by simp [Call.streams])) (Option.some.inj hk)
      rfl
  | operations ops n m =>
    cases b with
    | setCapacity n => cases kb
    | transform src dst n' =>
      have := hcol (hashBytes (opsLutItems (colorOpsHash hf ops) n m)) (by simp [Call.streams])
        (hashBytes (transformLutItems src dst n')) (by simp [Call.streams]) (Option.some.inj hk)
      exact absurd (Option.some.inj hk).symm (C59_kinds hf src dst n' n m _ fun _ => this.symm)
    | operations ops' n' m' =>
      have := hcol (hashBytes (opsLutItems (colorOpsHash hf ops) n m)) (by simp [Call.streams])
        (hashBytes (opsLutItems (colorOpsHash hf ops') n' m')) (by simp [Call.streams])
        (Option.some.inj hk)
      obtain ⟨h1, rfl, rfl⟩ := opsLut_bytes (hbound _) (hbound _) ha.1 hb.1 ha.2.1 hb.2.1 this
      have hs := hcol (hashBytes (ops.map fun op => .u64 (hf (hashBytes op.hashItems))))
        (by simp [Call.streams])
        (hashBytes (ops'.map fun op => .u64 (hf (hashBytes op.hashItems))))
        (by simp [Call.streams]) (by
          simpa only [colorOpsHash, hashBytes, List.flatMap_map] using h1)
      have act := ops_same hbound ha.2.2 hb.2.2 (fun op ho op' ho' =>
        hcol _ (by simp only [Call.streams, List.mem_cons, List.mem_map]; exact .inr (.inr ⟨op, ho, rfl⟩))
          _ (by simp only [Call.streams, List.mem_cons, List.mem_map]; exact .inr (.inr ⟨op', ho', rfl⟩))) hq hs
      show (generateOpsLut p n m ops).map some = (generateOpsLut p n m ops').map some
      unfold generateOpsLut bakeColorgrade
      simp only [act]

/-- C74: in every sequence of calls on one cache (initially empty, of any capacity, resized at
will) each table is the one that would be computed afresh, unless the hash function collides on
the byte streams involved; for source spaces without `To:` and grades that leave unprocessed
channels alike. -/
theorem C74_cached_is_fresh_partial (p : Profile) (hf : ByteHash) (hbound : ∀ x, hf x < 2 ^ 64)
    (lib : ColorLib F) (calls : List (Call F)) (hplain : ∀ c ∈ calls, Plain c)
    (hcol : ∀ a ∈ calls, ∀ b ∈ calls, ∀ x ∈ a.streams hf, ∀ y ∈ b.streams hf, hf x = hf y → x = y)
    (hquiet : ∀ a ∈ calls, ∀ b ∈ calls, ∀ op ∈ callOps a, ∀ op' ∈ callOps b, Quiet op op')
    (cache : Cache (Image F H)) (hempty : cache.lru = []) (answers : List (Option (Image F H)))
    (h : Session p hf lib cache calls answers) :
    List.Forall₂ (fun call answer => call.fresh p lib = .ok answer) calls answers := by
  have main : ∀ (all : List (Call F)), (∀ c ∈ all, Plain c) →
      (∀ a ∈ all, ∀ b ∈ all, ∀ x ∈ a.streams hf, ∀ y ∈ b.streams hf, hf x = hf y → x = y) →
      (∀ a ∈ all, ∀ b ∈ all, ∀ op ∈ callOps a, ∀ op' ∈ callOps b, Quiet op op') →
      ∀ (cache : Cache (Image F H)) (calls : List (Call F)) (answers : List (Option (Image F H))),
      Session p hf lib cache calls answers → calls ⊆ all →
      Cache.Good (fun k image => ∃ c ∈ all, callKey hf c = some k ∧
        c.fresh p lib = .ok (some image)) cache →
      List.Forall₂ (fun call answer => call.fresh p lib = .ok answer) calls answers := by
    intro all hp hc hq cache calls answers hs
    induction hs with
    | done => intro _ _; exact .nil
    | setCapacity e _ ih =>
      intro hsub hg
      exact .cons rfl (ih (fun c hc => hsub (by simp [hc])) (hg.setCapacity e))
    | @transform src dst n cache cache' image calls answers e hs ih =>
      intro hsub hg
      have hmem : Call.transform src dst n ∈ all := hsub (by simp)
      obtain ⟨h1, c, hcm, hk, hfr⟩ := hg.cached (fun i hi => ⟨_, hmem, rfl, by
        show Except.map some (generateTransformLut p lib n 3 src dst) = _
        rw [hi]; rfl⟩) e
      refine .cons ?_ (ih (fun c hc => hsub (by simp [hc])) h1)
      rw [← hfr]
      exact same_key hbound (hp _ hmem) (hp _ hcm) (hc _ hmem _ hcm) (hq _ hmem _ hcm) rfl hk
    | @operations n m cache cache' image calls answers stream e hs ih =>
      intro hsub hg
      have hmem : Call.operations stream.colorOps n m ∈ all := hsub (by simp)
      obtain ⟨h1, c, hcm, hk, hfr⟩ := hg.cached (fun i hi => ⟨_, hmem, rfl, by
        show Except.map some (generateOpsLut p n m stream.colorOps) = _
        rw [hi]; rfl⟩) e
      refine .cons ?_ (ih (fun c hc => hsub (by simp [hc])) h1)
      rw [← hfr]
      exact same_key hbound (hp _ hmem) (hp _ hcm) (hc _ hmem _ hcm) (hq _ hmem _ hcm) rfl hk
  exact main calls hplain hcol hquiet cache calls answers h (List.Subset.refl _)
    (Cache.good_empty cache hempty)

end


/-! ### Examples -/

section Examples
attribute [local instance] ratRound

theorem ratCeil_laws : CeilLaws Rat where
  exact k hk := by
    show min (max ⌊((⌈(k : Rat)⌉ : Int) : Rat)⌋ (-2147483648)) 2147483647 = k
    rw [Int.ceil_intCast, Int.floor_intCast]
    unfold InI32 at hk
    omega

-- C58: a table of 2 steps has an image of 4 by 2 pixels and 8 colours; green alone is the third.
example {H : Type} [HalfLike Rat H] (p : Profile) (lib : ColorLib Rat) :
    ∃ values : List Rat, (generateTransformLut (H := H) p lib 2 3 [65] [65]).map
        (fun i => (i.pixelBlock.size, i.dataWindow)) = .ok (⟨4, 2, 3⟩, ⟨0, 0, 4, 2⟩) ∧
      pixel 3 values 2 = [0, 1, 0] ∧ IsLattice 2 values := by
  have := ratCeil_laws
  obtain ⟨values, h, e⟩ := C58_image (H := H) p lib 2 (by decide) (by decide) [65]
  refine ⟨values, ?_, ?_, h⟩
  · rw [show ((2 : Nat) : Int) = 2 from rfl] at e
    rw [e]
    rfl
  · rw [show 2 = (0 * 2 + 1) * 2 + 0 from rfl, h.2 0 1 0 (by decide) (by decide) (by decide)]
    simp only [step]
    norm_num

-- C58: each of the 27 colours of a table of 3 steps exactly once.
example (p : Profile) : ∃ values : List Rat,
    identityLut p (List.replicate 81 0) 3 3 = .ok values ∧
    ∃! i, i < values.length / 3 ∧ pixel 3 values i = [1 / 2, 0, 1] := by
  obtain ⟨values, e, h⟩ := C58_lattice (F := Rat) p 3 (by decide) (List.replicate 81 0) (by simp)
  refine ⟨values, e, ?_⟩
  have := (C58_exactly_once (by decide) h).1 1 0 2 (by decide) (by decide) (by decide)
  simp only [step] at this
  norm_num at this
  exact this

-- C58: different spaces.
example {H : Type} [HalfLike Rat H] (p : Profile) :
    ∃ values : List Rat, (generateTransformLut (H := H) p
      (⟨fun px _ _ _ _ _ _ _ => (true, px.map (· * 2))⟩ : ColorLib Rat) 2 3 [65] [66]).map (fun i => i.spec.colorSpace) =
        .ok [66] ∧ IsLattice 2 values := by
  have := ratCeil_laws
  obtain ⟨values, h, e⟩ := C58_transform (H := H) p (⟨fun px _ _ _ _ _ _ _ => (true, px.map (· * 2))⟩ : ColorLib Rat)
    2 (by decide) (by decide) [65] [66] (by decide)
  refine ⟨values, ?_, h⟩
  rw [show ((2 : Nat) : Int) = 2 from rfl] at e
  rw [e]
  rfl

example (p : Profile) (x y : Rat) : identityLut p [x, y] 2 1 =
    .ok [axisValue Rat 2 0, axisValue Rat 2 1] := C58_one_channel p 2 [x, y] rfl

-- C75: no operations leave the lattice; entry 7 is white.
example {H : Type} [HalfLike Rat H] (p : Profile) :
    ∃ values : List Rat, (generateOpsLut (H := H) p 2 3 []).map (fun i => i.pixelBlock) =
      .ok (floatImage ⟨4, 2, 3⟩ values) ∧ pixel 3 values 7 = [1, 1, 1] := by
  have := ratCeil_laws
  obtain ⟨values, e, -, h⟩ := C75_ops_lut (F := Rat) (H := H) p 2 (by decide) (by decide) []
  refine ⟨values, ?_, ?_⟩
  · rw [show ((2 : Nat) : Int) = 2 from rfl] at e
    rw [e]
    rfl
  · have h := h 1 1 1 (by decide) (by decide) (by decide)
    simp only [step] at h
    norm_num [applyColorOps] at h
    exact h.symm

end Examples

-- C59: the keys for `a` to `b` and for `a` to `c` differ (with a hash function without collisions).
example : Encodable.encode (hashBytes (transformLutItems [97] [98] 2)) ≠
    Encodable.encode (hashBytes (transformLutItems [97] [99] 2)) := by
  intro h
  have nomark : ¬ toMark <:+: [97] := fun h => by have := h.length_le; simp [toMark] at this
  have := C59_key_partial (fun l => Encodable.encode l) [97] [98] [97] [99] 2 2 (by decide)
    (by decide) nomark nomark (fun h => Encodable.encode_injective h) h
  simp at this

example : Encodable.encode (hashBytes (transformLutItems [97] [98] 2)) ≠
    Encodable.encode (hashBytes (opsLutItems 7 2 3)) :=
  C59_kinds (fun l => Encodable.encode l) [97] [98] 2 2 3 7 (fun h => Encodable.encode_injective h)

section Session
attribute [local instance] finFloat finBits finHalf

/-- A library that leaves the pixels alone. -/
def stillLib : ColorLib (Fin 256) := ⟨fun px _ _ _ _ _ _ _ => (true, px)⟩

theorem fin_lut (dst : Bytes) (hd : [97] ≠ dst) : ∃ image : Image (Fin 256) (Fin 256),
    generateTransformLut .debug stillLib 2 3 [97] dst = .ok image := by
  have hv : ValidSize ⟨4, 2, 3⟩ := by unfold ValidSize; decide
  have e1 : lutImageSize (Fin 256) .debug 2 3 = .ok (4, 2) := by decide
  have e2 := identityLut_eq (F := Fin 256) .debug 2 (by decide) (List.replicate 24 0) (by simp)
  obtain ⟨values, e2⟩ : ∃ values : List (Fin 256),
      identityLut .debug (List.replicate 24 0) 2 3 = .ok values := ⟨_, e2⟩
  have e3 : PixelBlock.new (F := Fin 256) (H := Fin 256) .debug ⟨4, 2, 3⟩ (.known .f32) =
      .ok (floatImage ⟨4, 2, 3⟩ (List.replicate 24 (0 : Fin 256))) := by
    unfold PixelBlock.new
    exact Res.bind_ok.mpr ⟨_, size_eq .debug ⟨4, 2, 3⟩ hv, rfl⟩
  have e4 : PixelBlock.updateF32 (F := Fin 256) (H := Fin 256)
      (floatImage ⟨4, 2, 3⟩ (List.replicate 24 (0 : Fin 256)))
      (fun px => identityLut .debug px 2 3) = .ok (floatImage ⟨4, 2, 3⟩ values) :=
    Res.bind_ok.mpr ⟨_, rfl, Res.bind_ok.mpr ⟨_, e2, rfl⟩⟩
  have e5 : bakeColorspace (H := Fin 256) stillLib (floatImage ⟨4, 2, 3⟩ values)
      { ImageSpec.new with colorSpace := [97] } [97] dst =
      .ok (floatImage ⟨4, 2, 3⟩ values, { ImageSpec.new with colorSpace := dst }) := by
    unfold bakeColorspace
    exact Res.bind_ok.mpr ⟨_, rfl, (if_neg hd).trans (Res.bind_ok.mpr ⟨_, rfl, rfl⟩)⟩
  refine ⟨⟨floatImage ⟨4, 2, 3⟩ values, { ImageSpec.new with colorSpace := dst }, ⟨0, 0, 4, 2⟩,
    ⟨0, 0, 4, 2⟩⟩, ?_⟩
  unfold generateTransformLut
  exact Res.bind_ok.mpr ⟨_, e1, Res.bind_ok.mpr ⟨_, e3, Res.bind_ok.mpr ⟨_, e4,
    Res.bind_ok.mpr ⟨_, e5, rfl⟩⟩⟩⟩

-- C74: three calls on a cache without room.
example : ∃ answers, Session (F := Fin 256) (H := Fin 256) .debug (fun l => l.length % 2 ^ 64)
    stillLib ⟨[], 0, 0, 0, 0, 0, 0⟩ [.transform [97] [98] 2, .setCapacity 0, .transform [97] [98, 99] 2]
    answers ∧
    List.Forall₂ (fun (call : Call (Fin 256)) (answer : Option (Image (Fin 256) (Fin 256))) =>
        call.fresh .debug stillLib = .ok answer)
      [.transform [97] [98] 2, .setCapacity 0, .transform [97] [98, 99] 2] answers := by
  obtain ⟨i1, e1⟩ := fin_lut [98] (by decide)
  obtain ⟨i2, e2⟩ := fin_lut [98, 99] (by decide)
  have miss : ∀ (k : Nat) (m : Nat) (make : Res (Image (Fin 256) (Fin 256))) (i : Image (Fin 256) (Fin 256)),
      make = .ok i → cached .debug ⟨[], 0, 0, 0, m, 0, 0⟩ k make = .ok (⟨[], 0, 0, 0, m + 1, 0, 0⟩, i) := by
    intro k m make i h
    rw [h]
    rfl
  have session : Session (F := Fin 256) (H := Fin 256) .debug (fun l => l.length % 2 ^ 64)
      stillLib ⟨[], 0, 0, 0, 0, 0, 0⟩
      [.transform [97] [98] 2, .setCapacity 0, .transform [97] [98, 99] 2] [some i1, none, some i2] :=
    .transform (miss _ 0 _ _ e1) (.setCapacity rfl (.transform (miss _ 1 _ _ e2) (.done _)))
  have nomark : ¬ toMark <:+: [97] := fun h => by have := h.length_le; simp [toMark] at this
  refine ⟨_, session, C74_cached_is_fresh_partial .debug _ (fun x => Nat.mod_lt _ (by decide)) stillLib
    _ ?_ ?_ ?_ _ rfl _ session⟩
  · simp only [List.mem_cons, List.not_mem_nil, or_false]
    rintro c (rfl | rfl | rfl)
    · exact ⟨by decide, nomark⟩
    · trivial
    · exact ⟨by decide, nomark⟩
  · simp only [List.mem_cons, List.not_mem_nil, or_false]
    rintro a (rfl | rfl | rfl) b (rfl | rfl | rfl) x hx y hy <;>
      simp only [Call.streams, List.mem_singleton, List.not_mem_nil] at hx hy <;>
      subst hx <;> subst hy <;>
      simp [transformLutItems, hashBytes_cons, hashBytes_nil, HashItem.toBytes, leBytes]
  · simp only [List.mem_cons, List.not_mem_nil, or_false]
    rintro a (rfl | rfl | rfl) b (rfl | rfl | rfl) op hop <;> cases hop

end Session

end OCG.Props
