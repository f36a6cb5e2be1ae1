import Verif.Spec.Deform
import Verif.Proofs.Pixels
import Verif.Props.Xform
/-
Properties C48 and C49: deforming positions and pixel coordinates.
-/

namespace OCG.Props

open DeformSpec PixelSpec

section
variable {F : Type} [FloatLike F] [FloatConst F]

/-- The first two components moved by `f`. -/
def moveXY (f : F → F → F × F) : List F → List F
  | x :: y :: rest => (f x y).1 :: (f x y).2 :: rest
  | v => v

omit [FloatLike F] [FloatConst F] in
theorem moveXY_length (f : F → F → F × F) (v : List F) : (moveXY f v).length = v.length := by
  unfold moveXY
  split <;> rfl

/-- A usable deformer moves every point. -/
theorem point_total (lib : DeformLib F) (w : BBoxF F) (inv : Bool) (d : Deformer F)
    (h : Usable d) : ∃ f : F → F → F × F, ∀ x y, d.point lib w inv x y = .ok (f x y) := by
  cases d with
  | transform d => exact ⟨_, fun x y => rfl⟩
  | tde4 d =>
    have h' : ∀ x y, ∃ v, (Deformer.tde4 d).point lib w inv x y = .ok v := by
      intro x y
      rcases h with h | h
      · simp only [Deformer.point, Tde4Deformer.point, Tde4Deformer.apply, h, if_pos, bind,
          Except.bind]
        exact ⟨_, rfl⟩
      · simp only [Deformer.point, Tde4Deformer.point, Tde4Deformer.apply, h, if_pos, bind,
          Except.bind, if_neg (show ¬ (1 : Int) = 0 by decide)]
        exact ⟨_, rfl⟩
    choose f hf using h'
    exact ⟨f, hf⟩

/-- An unusable deformer panics on every point. -/
theorem point_panics (lib : DeformLib F) (w : BBoxF F) (inv : Bool) (d : Deformer F)
    (h : ¬ Usable d) (x y : F) : d.point lib w inv x y = .error .explicit := by
  cases d with
  | transform d => exact absurd trivial h
  | tde4 d =>
    have h0 : d.direction ≠ 0 := fun e => h (.inl e)
    have h1 : d.direction ≠ 1 := fun e => h (.inr e)
    simp only [Deformer.point, Tde4Deformer.point, Tde4Deformer.apply, if_neg h0, if_neg h1, bind,
      Except.bind]

theorem sliceStep_eq (lib : DeformLib F) (w : BBoxF F) (inv : Bool) (d : Deformer F)
    (f : F → F → F × F) (hf : ∀ x y, d.point lib w inv x y = .ok (f x y)) {n : Nat} (hn : 2 ≤ n)
    (i : Nat) (buf : List F) (h : i < buf.length / n) :
    d.sliceStep lib w inv n i buf = .ok (putPixel n buf i (moveXY f (pixel n buf i))) := by
  have hl := pixel_length h
  obtain ⟨x, y, rest, hp⟩ : ∃ x y rest, pixel n buf i = x :: y :: rest := by
    match hq : pixel n buf i, hl with
    | [], hl => simp at hl; omega
    | [_], hl => simp at hl; omega
    | x :: y :: rest, _ => exact ⟨x, y, rest, rfl⟩
  have hin : i * n ≤ buf.length :=
    Nat.le_trans (Nat.mul_le_mul_right n h.le) (Nat.div_mul_le_self _ _)
  have hA : i * n = (buf.take (i * n)).length := by
    rw [List.length_take]; omega
  unfold Deformer.sliceStep putPixel
  rw [hp]
  have hs := split_pixel n buf i
  rw [hp] at hs
  generalize buf.take (i * n) = A at *
  generalize buf.drop ((i + 1) * n) = B at *
  rw [hs]
  simp only [List.cons_append, moveXY, Nat.add_zero]
  have s1 : ∀ x y : F, A ++ x :: y :: (rest ++ B) = (A ++ [x]) ++ y :: (rest ++ B) := by simp
  rw [getAt_mid A _ x _ hA, s1, getAt_mid (A ++ [x]) _ y _ (by simp [hA]), ← s1]
  dsimp only [bind, Except.bind]
  rw [hf]
  dsimp only
  rw [setAt_mid A _ x _ _ hA]
  dsimp only
  rw [s1, setAt_mid (A ++ [_]) _ y _ _ (by simp [hA]), ← s1]

theorem deformSlice_mapped (lib : DeformLib F) (w : BBoxF F) (inv : Bool) (d : Deformer F)
    (f : F → F → F × F) (hf : ∀ x y, d.point lib w inv x y = .ok (f x y)) {n : Nat} (hn : 2 ≤ n)
    (buf : List F) :
    ∃ out, d.applySlice lib buf w inv n = .ok out ∧ Mapped n (moveXY f) buf out := by
  unfold Deformer.applySlice
  rw [if_neg (by omega)]
  exact loop_mapped n (by omega) _ (fun v hv => by rw [moveXY_length, hv]) _
    (sliceStep_eq lib w inv d f hf hn) buf

omit [FloatLike F] [FloatConst F] in
/-- The element `k` of a buffer, through the point it belongs to. -/
theorem getElem?_pixel_mod {n : Nat} (hn : 0 < n) (l : List F) (k : Nat) :
    (pixel n l (k / n))[k % n]? = l[k]? := by
  unfold pixel
  rw [List.getElem?_take_of_lt (Nat.mod_lt _ hn), List.getElem?_drop, Nat.mul_comm,
    Nat.div_add_mod]

/-- Applying usable deformers one after the other maps every point. -/
theorem forEach_mapped (lib : DeformLib F) (w : BBoxF F) (inv : Bool) {n : Nat} (hn : 2 ≤ n) :
    ∀ (ds : List (Deformer F)), (∀ d ∈ ds, d.enable = 1 → Usable d) →
      ∃ f : F → F → F × F, (∀ x y, Carried lib w inv ds (x, y) (f x y)) ∧ ∀ buf : List F,
        ∃ out, forEach (fun d b => d.applySlice lib b w inv n) (enabledDeformers ds) buf = .ok out ∧
          Mapped n (moveXY f) buf out := by
  intro ds
  induction ds with
  | nil =>
    intro _
    refine ⟨fun x y => (x, y), fun _ _ => .nil, fun buf => ⟨buf, rfl, Mapped.id ?_⟩⟩
    intro v _
    unfold moveXY
    split <;> rfl
  | cons d ds ih =>
    intro hu
    obtain ⟨f, hc, hf⟩ := ih (fun e he => hu e (List.mem_cons_of_mem _ he))
    by_cases he : d.enable = 1
    · obtain ⟨g, hg⟩ := point_total lib w inv d (hu d List.mem_cons_self he)
      refine ⟨fun x y => f (g x y).1 (g x y).2, fun x y => .on he (hg x y) (hc _ _), fun buf => ?_⟩
      obtain ⟨mid, e1, m1⟩ := deformSlice_mapped lib w inv d g hg hn buf
      obtain ⟨out, e2, m2⟩ := hf mid
      refine ⟨out, ?_, (m1.comp m2).congr ?_⟩
      · unfold enabledDeformers at *
        rw [List.filter_cons_of_pos (by simpa using he)]
        exact Res.bind_ok.mpr ⟨mid, e1, e2⟩
      · intro v _
        match v with
        | [] => rfl
        | [_] => rfl
        | _ :: _ :: _ => rfl
    · refine ⟨f, fun x y => .off he (hc x y), fun buf => ?_⟩
      unfold enabledDeformers at *
      rw [List.filter_cons_of_neg (by simpa using he)]
      exact hf buf

omit [FloatLike F] [FloatConst F] in
theorem moved_of_mapped {n : Nat} (hn : 2 ≤ n) {f : F → F → F × F}
    {move : F × F → F × F → Prop} (hm : ∀ x y, move (x, y) (f x y)) {buf out : List F}
    (h : Mapped n (moveXY f) buf out) : Moved n move buf out := by
  have key : ∀ k, k < buf.length / n * n → out[k]? = (moveXY f (pixel n buf (k / n)))[k % n]? := by
    intro k hk
    have hi : k / n < buf.length / n := by
      rw [Nat.div_lt_iff_lt_mul (by omega)]; exact hk
    rw [← getElem?_pixel_mod (by omega : 0 < n) out k, h.pixels _ hi]
  have shape : ∀ i, i < buf.length / n → ∃ x y rest, pixel n buf i = x :: y :: rest := by
    intro i hi
    have hl := pixel_length hi
    match hq : pixel n buf i, hl with
    | [], hl => simp at hl; omega
    | [_], hl => simp at hl; omega
    | x :: y :: rest, _ => exact ⟨x, y, rest, rfl⟩
  refine ⟨h.length, ?_, ?_⟩
  · intro i hi x y x' y' hx hy hx' hy'
    obtain ⟨a, b, rest, hp⟩ := shape i hi
    have hb : (i + 1) * n ≤ buf.length / n * n := Nat.mul_le_mul_right n hi
    have e : (i + 1) * n = i * n + n := by rw [Nat.add_mul, Nat.one_mul]
    have d0 : i * n / n = i := Nat.mul_div_cancel _ (by omega)
    have m0 : i * n % n = 0 := Nat.mul_mod_left _ _
    have d1 : (i * n + 1) / n = i := by
      rw [Nat.add_comm, Nat.add_mul_div_right _ _ (by omega : 0 < n),
        Nat.div_eq_of_lt (by omega : 1 < n), Nat.zero_add]
    have m1 : (i * n + 1) % n = 1 := by
      rw [Nat.add_comm, Nat.add_mul_mod_self_right, Nat.mod_eq_of_lt (by omega)]
    rw [key _ (by omega), d0, m0, hp] at hx'
    rw [key _ (by omega), d1, m1, hp] at hy'
    rw [← getElem?_pixel_mod (by omega : 0 < n) buf, d0, m0, hp] at hx
    rw [← getElem?_pixel_mod (by omega : 0 < n) buf, d1, m1, hp] at hy
    have hx : a = x := by simpa using hx
    have hy : b = y := by simpa using hy
    have hx' : (f a b).1 = x' := by simpa [moveXY] using hx'
    have hy' : (f a b).2 = y' := by simpa [moveXY] using hy'
    rw [← hx, ← hy, ← hx', ← hy']
    exact hm a b
  · intro k hk
    by_cases hlt : k < buf.length / n * n
    · have hi : k / n < buf.length / n := by
        rw [Nat.div_lt_iff_lt_mul (by omega)]; exact hlt
      obtain ⟨a, b, rest, hp⟩ := shape _ hi
      rw [key k hlt, ← getElem?_pixel_mod (by omega : 0 < n) buf k, hp]
      rcases hk with ⟨h0, h1⟩ | hk
      · obtain ⟨m, hm⟩ : ∃ m, k % n = m + 2 := ⟨k % n - 2, by omega⟩
        rw [hm]
        rfl
      · omega
    · have := congrArg (fun l => l[k - buf.length / n * n]?) h.rest
      simp only [List.getElem?_drop] at this
      rwa [Nat.add_sub_cancel' (by omega)] at this

/-! ### C49 and the first half of C48 -/

/-- The deformation of positions is the loop over the enabled deformers. -/
theorem positions_eq (lib : DeformLib F) (ds : List (Deformer F)) (w : BBoxF F) (buf : List F) :
    applyDeformersToPositions lib ds w buf =
      forEach (fun d b => d.applySlice lib b w false 3) (enabledDeformers ds) buf := by
  unfold applyDeformersToPositions
  split
  · rename_i h
    rw [List.length_eq_zero_iff] at h
    subst h
    rfl
  · dsimp only
    split
    · rename_i h
      rw [List.length_eq_zero_iff] at h
      rw [h]
      rfl
    · rfl

/-- C48 (positions) and C49: applying deformers to a position buffer carries the x and y of every
complete triple through the enabled deformers in list order, and keeps the length, every z and
an incomplete last triple.  It does not panic if the enabled lens deformers have a known
direction. -/
theorem C49_positions (lib : DeformLib F) (ds : List (Deformer F)) (w : BBoxF F)
    (hu : ∀ d ∈ ds, d.enable = 1 → Usable d) (buf : List F) :
    ∃ out, applyDeformersToPositions lib ds w buf = .ok out ∧
      Moved 3 (Carried lib w false ds) buf out := by
  obtain ⟨f, hc, hf⟩ := forEach_mapped lib w false (show 2 ≤ 3 by decide) ds hu
  obtain ⟨out, e, hm⟩ := hf buf
  exact ⟨out, by rw [positions_eq]; exact e, moved_of_mapped (by decide) hc hm⟩

/-- Where a point is carried is determined by the point. -/
theorem Carried.unique {lib : DeformLib F} {w : BBoxF F} {inv : Bool} :
    ∀ {ds : List (Deformer F)} {q r r' : F × F}, Carried lib w inv ds q r →
      Carried lib w inv ds q r' → r = r' := by
  intro ds q r r' h
  induction h generalizing r' with
  | nil => intro h'; cases h'; rfl
  | off hd _ ih =>
    intro h'
    cases h' with
    | off _ h' => exact ih h'
    | on hd' _ _ => exact absurd hd' hd
  | on hd hp _ ih =>
    intro h'
    cases h' with
    | off hd' _ => exact absurd hd hd'
    | on _ hp' h' =>
      rw [hp] at hp'
      have := Except.ok.inj hp'
      subst this
      exact ih h'

/-- C49: each vertex is treated independently: two buffers with the same vertex at possibly
different places get the same vertex there. -/
theorem C49_independent (lib : DeformLib F) (ds : List (Deformer F)) (w : BBoxF F)
    (hu : ∀ d ∈ ds, d.enable = 1 → Usable d) (buf buf' out out' : List F)
    (h : applyDeformersToPositions lib ds w buf = .ok out)
    (h' : applyDeformersToPositions lib ds w buf' = .ok out')
    (i j : Nat) (hi : i < buf.length / 3) (hj : j < buf'.length / 3)
    (hv : ∀ c, c < 3 → buf[i * 3 + c]? = buf'[j * 3 + c]?) (c : Nat) (hc : c < 3) :
    out[i * 3 + c]? = out'[j * 3 + c]? := by
  obtain ⟨o, e, m⟩ := C49_positions lib ds w hu buf
  obtain ⟨o', e', m'⟩ := C49_positions lib ds w hu buf'
  rw [h] at e
  rw [h'] at e'
  have := Except.ok.inj e
  have := Except.ok.inj e'
  subst o o'
  have li : i * 3 + 2 < buf.length := by omega
  have lj : j * 3 + 2 < buf'.length := by omega
  have gi : ∀ (l : List F) k, k < l.length → ∃ v, l[k]? = some v := fun l k hk =>
    ⟨l[k], List.getElem?_eq_getElem hk⟩
  obtain ⟨x, hx⟩ := gi buf (i * 3) (by omega)
  obtain ⟨y, hy⟩ := gi buf (i * 3 + 1) (by omega)
  obtain ⟨x1, hx1⟩ := gi out (i * 3) (by rw [m.length]; omega)
  obtain ⟨y1, hy1⟩ := gi out (i * 3 + 1) (by rw [m.length]; omega)
  obtain ⟨x2, hx2⟩ := gi out' (j * 3) (by rw [m'.length]; omega)
  obtain ⟨y2, hy2⟩ := gi out' (j * 3 + 1) (by rw [m'.length]; omega)
  have hx' := hv 0 (by decide)
  have hy' := hv 1 (by decide)
  rw [Nat.add_zero, Nat.add_zero, hx] at hx'
  rw [hy] at hy'
  have c1 := m.points i hi x y x1 y1 hx hy hx1 hy1
  have c2 := m'.points j hj x y x2 y2 hx'.symm hy'.symm hx2 hy2
  have := Carried.unique c1 c2
  injection this with ea eb
  rcases (by omega : c = 0 ∨ c = 1 ∨ c = 2) with rfl | rfl | rfl
  · rw [Nat.add_zero, Nat.add_zero, hx1, hx2, ea]
  · rw [hy1, hy2, eb]
  · rw [m.others _ (.inl (by omega)), m'.others _ (.inl (by omega))]
    exact hv 2 (by decide)

/-- C49: with no deformer switched on, the positions stay as they are. -/
theorem C49_none (lib : DeformLib F) (ds : List (Deformer F)) (w : BBoxF F)
    (h : ∀ d ∈ ds, d.enable ≠ 1) (buf : List F) :
    applyDeformersToPositions lib ds w buf = .ok buf := by
  have e : enabledDeformers ds = [] := by
    unfold enabledDeformers
    rw [List.filter_eq_nil_iff]
    intro d hd
    simpa using h d hd
  rw [positions_eq, e]
  rfl

theorem applySlice_panics (lib : DeformLib F) (w : BBoxF F) (inv : Bool) (d : Deformer F)
    (h : ¬ Usable d) {n : Nat} (hn : 2 ≤ n) (buf : List F) (hb : n ≤ buf.length) :
    d.applySlice lib buf w inv n = .error .explicit := by
  unfold Deformer.applySlice
  rw [if_neg (by omega)]
  have : 0 < buf.length / n := Nat.div_pos hb (by omega)
  obtain ⟨m, hm⟩ : ∃ m, buf.length / n = m + 1 := ⟨buf.length / n - 1, by omega⟩
  rw [hm]
  refine Res.bind_error.mpr (.inl ?_)
  unfold Deformer.sliceStep
  rw [Nat.zero_mul]
  obtain ⟨x, hx⟩ : ∃ x, getAt buf (0 + 0) = .ok x := by
    unfold getAt; rw [List.getElem?_eq_getElem (by omega)]; exact ⟨_, rfl⟩
  obtain ⟨y, hy⟩ : ∃ x, getAt buf (0 + 1) = .ok x := by
    unfold getAt; rw [List.getElem?_eq_getElem (by omega)]; exact ⟨_, rfl⟩
  refine Res.bind_error.mpr (.inr ⟨x, hx, Res.bind_error.mpr (.inr ⟨y, hy, ?_⟩)⟩)
  exact Res.bind_error.mpr (.inl (point_panics lib w inv _ h x y))

/-- C48 counterexample: an enabled lens deformer with any other direction value, anywhere in the
list, makes the program panic as soon as there is a vertex. -/
theorem C48_counterexample_direction (lib : DeformLib F) (w : BBoxF F) (d : Deformer F)
    (he : d.enable = 1) (h : ¬ Usable d) :
    ∀ (ds : List (Deformer F)), d ∈ ds → ∀ buf : List F, 3 ≤ buf.length →
      applyDeformersToPositions lib ds w buf = .error .explicit := by
  intro ds
  induction ds with
  | nil => intro hm; cases hm
  | cons e es ih =>
    intro hm buf hb
    rw [positions_eq]
    by_cases hee : e.enable = 1
    · have ef : enabledDeformers (e :: es) = e :: enabledDeformers es := by
        unfold enabledDeformers
        rw [List.filter_cons_of_pos (by simpa using hee)]
      rw [ef]
      by_cases hu : Usable e
      · obtain ⟨g, hg⟩ := point_total lib w false e hu
        obtain ⟨mid, e1, m1⟩ := deformSlice_mapped lib w false e g hg (show 2 ≤ 3 by decide) buf
        have hmem : d ∈ es := by
          rcases List.mem_cons.mp hm with rfl | h'
          · exact absurd hu h
          · exact h'
        have := ih hmem mid (by rw [m1.length]; exact hb)
        rw [positions_eq] at this
        exact Res.bind_error.mpr (.inr ⟨mid, e1, this⟩)
      · exact Res.bind_error.mpr (.inl (applySlice_panics lib w false e hu (by decide) buf hb))
    · have ef : enabledDeformers (e :: es) = enabledDeformers es := by
        unfold enabledDeformers
        rw [List.filter_cons_of_neg (by simpa using hee)]
      have hmem : d ∈ es := by
        rcases List.mem_cons.mp hm with rfl | h'
        · exact absurd he hee
        · exact h'
      have := ih hmem buf hb
      rw [positions_eq] at this
      rw [ef]
      exact this

end
end OCG.Props
