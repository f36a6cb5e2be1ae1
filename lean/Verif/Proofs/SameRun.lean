import Verif.Proofs.CacheRun
import Verif.Spec.Compute
import Mathlib.Data.List.Forall2
/-
Computations on streams that differ only in their hashes.
-/

namespace OCG.ComputeSpec

open CacheSpec

variable {F H : Type} [FloatLike F] [HalfLike F H] [FloatConst F]

omit [FloatLike F] [HalfLike F H] [FloatConst F] in
theorem SameImage.refl (s : Stream F H) : SameImage s s := ⟨rfl, rfl, rfl, rfl, rfl, rfl, rfl, rfl⟩

omit [FloatLike F] [HalfLike F H] [FloatConst F] in
theorem SameImage.symm {s t : Stream F H} (h : SameImage s t) : SameImage t s :=
  ⟨h.state.symm, h.display.symm, h.data.symm, h.pixels.symm, h.spec.symm, h.matrix.symm,
    h.deformers.symm, h.ops.symm⟩

omit [FloatLike F] [HalfLike F H] [FloatConst F] in
theorem SameImage.trans {s t u : Stream F H} (h : SameImage s t) (k : SameImage t u) :
    SameImage s u :=
  ⟨h.state.trans k.state, h.display.trans k.display, h.data.trans k.data, h.pixels.trans k.pixels,
    h.spec.trans k.spec, h.matrix.trans k.matrix, h.deformers.trans k.deformers, h.ops.trans k.ops⟩

omit [FloatLike F] [HalfLike F H] [FloatConst F] in
theorem SameImage.rehash (s : Stream F H) (h : Nat) : SameImage s { s with hash := h } :=
  ⟨rfl, rfl, rfl, rfl, rfl, rfl, rfl, rfl⟩

omit [FloatLike F] [HalfLike F H] [FloatConst F] in
/-- Streams with the same image differ in their hashes only. -/
theorem SameImage.eq {s t : Stream F H} (h : SameImage s t) : t = { s with hash := t.hash } := by
  obtain ⟨h1, h2, h3, h4, h5, h6, h7, h8⟩ := h
  cases s
  cases t
  simp_all

/-- Baking does not look at the hash. -/
theorem bake_rehash (p : Profile) (lib : BakeLib F) (option : BakeOption) (display : BBox)
    (s : Stream F H) (k : Nat) (src dst : Bytes) (t : DataType) {b : Baked F H}
    (e : bake p lib option display s.toBake src dst t = .ok b) :
    bake p lib option display ({ s with hash := k } : Stream F H).toBake src dst t =
      .ok { b with stream := { b.stream with hash := k } } := by
  unfold bake at e ⊢
  cases option
  case nothing =>
    cases e
    rfl
  case colorSpace =>
    obtain ⟨⟨block, spec⟩, e1, e⟩ := Res.bind_ok.mp e
    obtain ⟨block', e2, e⟩ := Res.bind_ok.mp e
    cases e
    exact Res.bind_ok.mpr ⟨_, e1, Res.bind_ok.mpr ⟨_, e2, rfl⟩⟩
  case colorSpaceAndGrade =>
    obtain ⟨⟨block, spec⟩, e1, e⟩ := Res.bind_ok.mp e
    obtain ⟨⟨block1, stream⟩, e2, e⟩ := Res.bind_ok.mp e
    obtain ⟨⟨block2, spec2⟩, e3, e⟩ := Res.bind_ok.mp e
    obtain ⟨block3, e4, e⟩ := Res.bind_ok.mp e
    cases e
    obtain ⟨blk, f1, f2⟩ := Res.bind_ok.mp e2
    cases f2
    exact Res.bind_ok.mpr ⟨_, e1, Res.bind_ok.mpr ⟨_, Res.bind_ok.mpr ⟨_, f1, rfl⟩,
      Res.bind_ok.mpr ⟨_, e3, Res.bind_ok.mpr ⟨_, e4, rfl⟩⟩⟩⟩
  case all =>
    obtain ⟨⟨block, spec⟩, e1, e⟩ := Res.bind_ok.mp e
    obtain ⟨⟨block1, stream⟩, e2, e⟩ := Res.bind_ok.mp e
    obtain ⟨⟨block2, window⟩, e5, e⟩ := Res.bind_ok.mp e
    obtain ⟨⟨block3, spec2⟩, e3, e⟩ := Res.bind_ok.mp e
    obtain ⟨block4, e4, e⟩ := Res.bind_ok.mp e
    cases e
    obtain ⟨blk, f1, f2⟩ := Res.bind_ok.mp e2
    cases f2
    exact Res.bind_ok.mpr ⟨_, e1, Res.bind_ok.mpr ⟨_, Res.bind_ok.mpr ⟨_, f1, rfl⟩,
      Res.bind_ok.mpr ⟨_, e5, Res.bind_ok.mpr ⟨_, e3, Res.bind_ok.mpr ⟨_, e4, rfl⟩⟩⟩⟩⟩
  case uninitialized => cases e

/-- Two worlds with the cache off and the same files handed over. -/
structure BothOff (w w' : World F H) : Prop where
  left : IsOff w
  right : IsOff w'
  writes : w.writes = w'.writes

omit [FloatConst F] in
/-- Lookups with the cache off compute, whatever the key. -/
theorem lookup_both {X : Type} {p : Profile} {u : Bool} {w w' w1 : World F H} (hw : BothOff w w')
    {key key' : Nat} {hit hit' : X} {make make' : Res (Image F H × X)} {R : X → X → Prop}
    (hm : ∀ i x, make = .ok (i, x) → ∃ x', make' = .ok (i, x') ∧ R x x') {i : Image F H} {x : X}
    (e : lookup p u w key hit make = .ok (w1, i, x)) :
    ∃ w1' x', lookup p u w' key' hit' make' = .ok (w1', i, x') ∧ R x x' ∧ BothOff w1 w1' := by
  have e1 := lookup_off_mp hw.left e
  obtain ⟨v, f, f2, f3⟩ := lookup_off_mpr (p := p) (u := u) (key := key) (hit := hit) hw.left e1
  rw [e] at f
  cases f
  obtain ⟨x', m, r⟩ := hm i x e1
  obtain ⟨v', g, g2, g3⟩ := lookup_off_mpr (p := p) (u := u) (key := key') (hit := hit') hw.right m
  exact ⟨v', x', g, r, f2, g2, f3.trans (hw.writes.trans g3.symm)⟩

variable [FloatBits F]

/-- A computation with the cache off depends on the images of its inputs only, not on their
hashes. -/
theorem run_same (p : Profile) (lib : NodeLib F H) (n n' : Node F) (hn : n.attrs = n'.attrs)
    (frame : F) (mode : Mode) {ins ins' : List (Stream F H)} (hi : List.Forall₂ SameImage ins ins')
    {prev prev' : Stream F H} (hp : SameImage prev prev') {w w' : World F H} (hw : BothOff w w')
    {st : NodeStatus} {out : Stream F H} {w1 : World F H}
    (e : n.run p lib frame mode ins prev w = .ok (st, out, w1)) :
    ∃ out' w1', n'.run p lib frame mode ins' prev' w' = .ok (st, out', w1') ∧ SameImage out out' ∧
      BothOff w1 w1' := by
  obtain ⟨id, s, attrs⟩ := n
  obtain ⟨id', s', attrs'⟩ := n'
  dsimp only at hn
  subst hn
  unfold Node.run at e ⊢
  generalize Node.hash lib.hash lib.shell ⟨id, s, attrs⟩ frame (ins.map (·.hash)) = key at e
  generalize Node.hash lib.hash lib.shell ⟨id', s', attrs⟩ frame (ins'.map (·.hash)) = key'
  cases attrs <;> dsimp only at e ⊢
  case null a =>
    cases hi with
    | nil => cases e; exact ⟨_, _, rfl, .refl _, hw⟩
    | cons h t => cases e; exact ⟨_, _, rfl, h, hw⟩
  case readImage a =>
    unfold ReadImageAttrs.compute at e ⊢
    split at e
    · split at e
      · cases e
        rename_i h1 h2
        rw [if_pos h1, if_pos h2]
        exact ⟨_, _, rfl, .refl _, hw⟩
      · rename_i h1 h2
        rw [if_pos h1, if_neg h2]
        dsimp only at e ⊢
        split at e
        · cases e
          exact ⟨_, _, rfl, .refl _, hw⟩
        · obtain ⟨⟨w2, i, x⟩, e1, e⟩ := Res.bind_ok.mp e
          cases e
          obtain ⟨w2', x', f1, -, f2⟩ := lookup_both hw (key' := key') (hit' := ()) (R := fun _ _ => True)
            (fun i x h => ⟨x, h, trivial⟩) e1
          exact ⟨_, _, Res.bind_ok.mpr ⟨_, f1, rfl⟩, ⟨rfl, rfl, rfl, rfl, rfl, rfl, rfl, rfl⟩, f2⟩
        · split at e
          · cases e
            rename_i h3
            rw [if_pos h3]
            exact ⟨_, _, rfl, ⟨rfl, rfl, rfl, rfl, rfl, rfl, rfl, rfl⟩, hw⟩
          · cases e
            rename_i h3
            rw [if_neg h3]
            exact ⟨_, _, rfl, hp, hw⟩
    · cases e
      rename_i h
      rw [if_neg h]
      exact ⟨_, _, rfl, hp, hw⟩
  case writeImage a =>
    unfold WriteImageAttrs.compute at e ⊢
    split at e
    · cases e
      rename_i h
      rw [if_pos h]
      exact ⟨_, _, rfl, .refl _, hw⟩
    · rename_i h
      rw [if_neg h]
      cases hi with
      | nil => cases e; exact ⟨_, _, rfl, .refl _, hw⟩
      | @cons x y _ _ hxy t =>
        dsimp only at e ⊢
        split at e
        · cases e
          rename_i h
          rw [if_pos h]
          exact ⟨_, _, rfl, hxy, hw⟩
        · rename_i h
          rw [if_neg h]
          obtain ⟨⟨b, job⟩, e1, e⟩ := Res.bind_ok.mp e
          cases e
          refine ⟨y, _, Res.bind_ok.mpr ⟨(b, job), ?_, rfl⟩, hxy,
            ⟨hw.left.1, hw.left.2⟩, ⟨hw.right.1, hw.right.2⟩, by rw [hw.writes]⟩
          unfold writeProcess at e1 ⊢
          obtain ⟨bk, g1, g2⟩ := Res.bind_ok.mp e1
          refine Res.bind_ok.mpr ⟨{ bk with stream := { bk.stream with hash := y.hash } }, ?_, ?_⟩
          · have := bake_rehash p lib.bake .all _ _ y.hash _ _ _ g1
            rw [← hxy.eq] at this
            rw [← hxy.display, ← hxy.spec, ← hxy.pixels]
            exact this
          · rw [← hxy.display]
            exact g2
  case grade a =>
    unfold GradeAttrs.compute at e ⊢
    cases hi with
    | nil =>
      dsimp only at e ⊢
      split at e <;> cases e <;> rename_i h
      · rw [if_pos h]
        exact ⟨_, _, rfl, ⟨rfl, rfl, rfl, rfl, rfl, rfl, rfl, rfl⟩, hw⟩
      · rw [if_neg h]
        exact ⟨_, _, rfl, .refl _, hw⟩
    | @cons x y _ _ hxy t =>
      dsimp only at e ⊢
      split at e <;> cases e <;> rename_i h
      · rw [if_pos h]
        exact ⟨_, _, rfl, ⟨hxy.state, hxy.display, hxy.data, hxy.pixels, hxy.spec,
          hxy.matrix, hxy.deformers, congrArg (· ++ [a.op]) hxy.ops⟩, hw⟩
      · rw [if_neg h]
        exact ⟨_, _, rfl, hxy, hw⟩
  case lensDistort a =>
    unfold LensDistortAttrs.compute at e ⊢
    cases hi with
    | nil =>
      dsimp only at e ⊢
      split at e
      · split at e
        · cases e
          rename_i h1 h2
          rw [if_pos h1, if_pos h2]
          exact ⟨_, _, rfl, ⟨rfl, rfl, rfl, rfl, rfl, rfl, rfl, rfl⟩, hw⟩
        · cases e
      · cases e
        rename_i h
        rw [if_neg h]
        exact ⟨_, _, rfl, ⟨rfl, rfl, rfl, rfl, rfl, rfl, rfl, rfl⟩, hw⟩
    | @cons x y _ _ hxy t =>
      dsimp only at e ⊢
      split at e
      · split at e
        · cases e
          rename_i h1 h2
          rw [if_pos h1, if_pos h2]
          exact ⟨_, _, rfl, ⟨hxy.state, hxy.display, hxy.data,
            hxy.pixels, hxy.spec, hxy.matrix, congrArg (fun l => l ++ [Deformer.tde4 a.deformer]) hxy.deformers,
            hxy.ops⟩, hw⟩
        · cases e
      · cases e
        rename_i h
        rw [if_neg h]
        exact ⟨_, _, rfl, ⟨hxy.state, hxy.display, hxy.data,
            hxy.pixels, hxy.spec, hxy.matrix, hxy.deformers, hxy.ops⟩, hw⟩
  case transform a =>
    unfold TransformAttrs.compute at e ⊢
    cases hi with
    | nil =>
      cases e
      exact ⟨_, _, rfl, ⟨rfl, rfl, rfl, rfl, rfl, rfl, rfl, rfl⟩, hw⟩
    | @cons x y _ _ hxy t =>
      cases e
      refine ⟨_, _, rfl, ?_, hw⟩
      dsimp only
      split
      · exact ⟨hxy.state, hxy.display, hxy.data, hxy.pixels, hxy.spec, hxy.matrix,
          congrArg (fun l => l ++ [Deformer.transform a.deformer]) hxy.deformers, hxy.ops⟩
      · exact ⟨hxy.state, hxy.display, hxy.data, hxy.pixels, hxy.spec, hxy.matrix, hxy.deformers,
          hxy.ops⟩
  case mergeImage a =>
    unfold MergeImageAttrs.compute at e ⊢
    split at e
    · cases e
      rename_i h
      rw [if_pos h]
      exact ⟨_, _, rfl, .refl _, hw⟩
    · rename_i h
      rw [if_neg h]
      cases hi with
      | nil => cases e; exact ⟨_, _, rfl, .refl _, hw⟩
      | @cons x y xs ys hxy t =>
        dsimp only at e ⊢
        obtain ⟨⟨w2, i, u⟩, e1, e⟩ := Res.bind_ok.mp e
        have hmake : ∀ (x y a2 b2 : Stream F H), SameImage x y → SameImage a2 b2 → ∀ mode mix i,
            mergeProcess p lib x a2 mode mix = .ok i → mergeProcess p lib y b2 mode mix = .ok i := by
          intro x y a2 b2 h1 h2 mode mix i e
          unfold mergeProcess at e ⊢
          obtain ⟨ba, g1, e⟩ := Res.bind_ok.mp e
          obtain ⟨bb, g2, e⟩ := Res.bind_ok.mp e
          have k1 := bake_rehash p lib.bake .all x.displayWindow x y.hash _ _ _ g1
          have k2 := bake_rehash p lib.bake .all a2.displayWindow a2 b2.hash _ _ _ g2
          rw [← h1.eq] at k1
          rw [← h2.eq] at k2
          rw [← h1.display, ← h1.spec, ← h2.display, ← h2.spec, ← h2.data]
          exact Res.bind_ok.mpr ⟨_, k1, Res.bind_ok.mpr ⟨_, k2, e⟩⟩
        cases t with
        | nil =>
          cases e
          obtain ⟨w2', x', f1, -, f2⟩ := lookup_both hw (key' := key') (hit' := ())
            (R := fun _ _ => True) (fun i x h => by
              obtain ⟨j, g1, g2⟩ := Res.bind_ok.mp h
              cases g2
              exact ⟨(), Res.bind_ok.mpr ⟨_, hmake _ _ _ _ hxy (.refl _) _ _ _ g1, rfl⟩, trivial⟩) e1
          exact ⟨_, _, Res.bind_ok.mpr ⟨_, f1, rfl⟩, ⟨rfl, rfl, rfl, rfl, rfl, rfl, rfl, rfl⟩, f2⟩
        | @cons a2 b2 _ _ h2 t =>
          cases e
          obtain ⟨w2', x', f1, -, f2⟩ := lookup_both hw (key' := key') (hit' := ())
            (R := fun _ _ => True) (fun i x h => by
              obtain ⟨j, g1, g2⟩ := Res.bind_ok.mp h
              cases g2
              exact ⟨(), Res.bind_ok.mpr ⟨_, hmake _ _ _ _ hxy h2 _ _ _ g1, rfl⟩, trivial⟩) e1
          refine ⟨{ (Stream.new : Stream F H) with
            dataWindow := i.dataWindow, displayWindow := i.displayWindow, hash := key'
            pixelBlock := i.pixelBlock }, w2', Res.bind_ok.mpr ⟨_, f1, ?_⟩,
            ⟨rfl, rfl, rfl, rfl, rfl, rfl, rfl, rfl⟩, f2⟩
          simp only [reduceCtorEq, if_false]
  case cropImage a =>
    unfold CropImageAttrs.compute at e ⊢
    cases hi with
    | nil => cases e; exact ⟨_, _, rfl, .refl _, hw⟩
    | @cons x y _ _ hxy t =>
      dsimp only at e ⊢
      split at e
      · cases e
        rename_i h
        rw [if_pos h]
        exact ⟨_, _, rfl, hxy, hw⟩
      · rename_i h
        rw [if_neg h]
        obtain ⟨⟨w2, i, u⟩, e1, e⟩ := Res.bind_ok.mp e
        cases e
        obtain ⟨w2', x', f1, f3, f2⟩ := lookup_both hw (key' := key') (hit' := y)
          (R := SameImage) (make' := cropProcess p lib y ⟨a.windowMinX, a.windowMinY, a.windowMaxX,
            a.windowMaxY⟩ (a.reformat = 1) (a.blackOutside = 1) (a.intersect = 1)) (fun i s h => by
            unfold cropProcess at h ⊢
            obtain ⟨bk, g1, h⟩ := Res.bind_ok.mp h
            obtain ⟨im, g2, h⟩ := Res.bind_ok.mp h
            cases h
            have k := bake_rehash p lib.bake .all x.displayWindow x y.hash _ _ _ g1
            rw [← hxy.eq] at k
            rw [← hxy.display, ← hxy.spec]
            exact ⟨_, Res.bind_ok.mpr ⟨_, k, Res.bind_ok.mpr ⟨_, g2, rfl⟩⟩, .rehash _ _⟩) e1
        exact ⟨_, _, Res.bind_ok.mpr ⟨_, f1, rfl⟩, ⟨f3.state, rfl, rfl, rfl, f3.spec, f3.matrix,
          f3.deformers, f3.ops⟩, f2⟩
  case viewer a =>
    have hin : ∃ x y : Stream F H, SameImage x y ∧
        a.compute p lib key ins prev w = a.compute p lib key [x] prev w ∧
        a.compute p lib key' ins' prev' w' = a.compute p lib key' [y] prev' w' := by
      cases hi with
      | nil => exact ⟨.new, .new, .refl _, rfl, rfl⟩
      | @cons x y _ _ h t => exact ⟨x, y, h, rfl, rfl⟩
    obtain ⟨x, y, hxy, ex, ey⟩ := hin
    rw [ex] at e
    rw [ey]
    unfold ViewerAttrs.compute at e ⊢
    split at e
    · cases e
      rename_i h
      rw [if_pos h]
      exact ⟨_, _, rfl, hp, hw⟩
    · rename_i h
      rw [if_neg h]
      dsimp only at e ⊢
      split at e
      · rename_i h2
        rw [if_pos h2]
        obtain ⟨⟨w2, i, u⟩, e1, e⟩ := Res.bind_ok.mp e
        cases e
        obtain ⟨w2', x', f1, f3, f2⟩ := lookup_both hw (key' := key') (hit' := y)
          (R := SameImage) (make' := viewerProcess p lib y
            (if decide (a.cropToFormat ≠ 0) = true then .all else BakeOption.ofI32 a.bakeOption)
            (DataType.ofI32 a.bakePixelDataType) (decide (a.cropToFormat ≠ 0)) a.bakeColorSpace)
          (fun i s h => by
            unfold viewerProcess at h ⊢
            obtain ⟨bk, g1, h⟩ := Res.bind_ok.mp h
            have k := bake_rehash p lib.bake _ x.displayWindow x y.hash _ _ _ g1
            rw [← hxy.eq] at k
            rw [← hxy.display, ← hxy.spec]
            dsimp only at h
            by_cases hc : decide (a.cropToFormat ≠ 0) = true
            · rw [if_pos hc] at h
              obtain ⟨im, g2, h⟩ := Res.bind_ok.mp h
              cases h
              refine ⟨_, Res.bind_ok.mpr ⟨_, k, ?_⟩, .rehash _ y.hash⟩
              dsimp only
              rw [if_pos hc]
              exact Res.bind_ok.mpr ⟨_, g2, rfl⟩
            · rw [if_neg hc] at h
              cases h
              refine ⟨_, Res.bind_ok.mpr ⟨_, k, ?_⟩, .rehash _ y.hash⟩
              dsimp only
              rw [if_neg hc]
              rfl) e1
        refine ⟨_, _, Res.bind_ok.mpr ⟨_, f1, rfl⟩, ?_, f2⟩
        dsimp only
        by_cases ho : (if decide (a.cropToFormat ≠ 0) = true then BakeOption.all
          else BakeOption.ofI32 a.bakeOption) = .all
        · simp only [if_pos ho]
          exact ⟨f3.state, rfl, rfl, rfl, rfl, f3.matrix, rfl, f3.ops⟩
        · simp only [if_neg ho]
          exact ⟨f3.state, rfl, rfl, rfl, rfl, f3.matrix, f3.deformers, f3.ops⟩
      · rename_i h2
        rw [if_neg h2]
        cases e
        exact ⟨_, _, rfl, hxy, hw⟩
  case resampleImage a =>
    unfold ResampleImageAttrs.compute at e ⊢
    cases hi with
    | nil => cases e; exact ⟨_, _, rfl, .refl _, hw⟩
    | @cons x y xs ys hxy t =>
      dsimp only at e ⊢
      split at e
      · cases e
        rename_i h
        rw [if_pos h]
        exact ⟨_, _, rfl, hxy, hw⟩
      · rename_i h
        rw [if_neg h]
        obtain ⟨⟨⟩, e0, e⟩ := Res.bind_ok.mp e
        have hl : xs.length = ys.length := t.length_eq
        rw [hl] at e0
        split at e
        · rename_i h2
          obtain ⟨⟨w2, i, u⟩, e1, e⟩ := Res.bind_ok.mp e
          cases e
          have hres : resampleProcess p lib y a.factor (decide (a.interpolate ≠ 0)) =
              resampleProcess p lib x a.factor (decide (a.interpolate ≠ 0)) := by
            unfold resampleProcess
            rw [hxy.pixels, hxy.spec, hxy.display, hxy.data]
          obtain ⟨w2', x', f1, f3, f2⟩ := lookup_both hw (key' := key') (hit' := NodeStatus.valid)
            (R := fun a b => a = b) (fun i x h => ⟨x, h, rfl⟩) e1
          subst f3
          rw [← hres] at f1
          rw [if_pos h2]
          exact ⟨_, _, Res.bind_ok.mpr ⟨(), e0, Res.bind_ok.mpr ⟨_, f1, rfl⟩⟩,
            ⟨hxy.state, rfl, rfl, rfl, hxy.spec, hxy.matrix, hxy.deformers, hxy.ops⟩, f2⟩
        · cases e
          rename_i h2
          rw [if_neg h2]
          exact ⟨_, _, Res.bind_ok.mpr ⟨(), e0, rfl⟩, hxy, hw⟩

end OCG.ComputeSpec
