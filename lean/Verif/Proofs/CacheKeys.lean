import Verif.Proofs.CacheSim
/-
When the hashes identify the work, they identify the computed streams.
-/

namespace OCG.CacheSpec

open HashSpec ComputeSpec

set_option linter.unusedSimpArgs false

variable {F H : Type} [FloatLike F] [HalfLike F H] [FloatConst F] [FloatBits F]

/-- The computation gives its own hash to its output. -/
def Keyed (lib : NodeLib F H) (c : Call F H) : Prop :=
  match c.node.attrs with
  | .null _ => False
  | .writeImage _ => False
  | .readImage a =>
    c.mode &&& modePixel = modePixel ∧ a.enable ≠ 0 ∧
      (lib.pathKind (Path.expandString lib.shell a.filePath (frameNum c.frame)) = .file ∨
        (lib.pathKind (Path.expandString lib.shell a.filePath (frameNum c.frame)) = .other ∧
          a.enable ≠ 1))
  | .grade a => a.enable = 1 ∧
      (a.processR ≠ 0 ∨ a.processG ≠ 0 ∨ a.processB ≠ 0 ∨ a.processA ≠ 0)
  | .lensDistort _ => True
  | .transform _ => True
  | .mergeImage a => a.enable = 1 ∧ c.inputs ≠ []
  | .cropImage a => a.enable = 1 ∧ c.inputs ≠ []
  | .viewer a => a.enable = 1 ∧ ¬ BakeOption.ofI32 a.bakeOption = .nothing
  | .resampleImage a => a.enable = 1 ∧ c.inputs ≠ [] ∧ a.factor ≠ 0

theorem caches_keyed {lib : NodeLib F H} {c : Call F H} (h : Caches lib c) : Keyed lib c := by
  obtain ⟨⟨id, st, attrs⟩, frame, mode, inputs, prev⟩ := c
  cases attrs <;> simp only [Caches, attr_eval, and_false] at h
  case readImage a => exact ⟨h.2.1, h.2.2.1, .inl h.2.2.2⟩
  case mergeImage a => exact h.2
  case cropImage a => exact h.2
  case viewer a => exact ⟨h.2.1, fun e => h.2.2 ((Props.ofI32_nothing _).mp e)⟩
  case resampleImage a => exact h.2

/-- Where an output comes from. -/
theorem classify {p : Profile} {lib : NodeLib F H} {c : Call F H} {st : NodeStatus}
    {out : Stream F H} (h : Gives p lib c st out) :
    out = .new ∨ out ∈ c.inputs ∨ out = c.prev ∨ (Keyed lib c ∧ out.hash = c.key lib) := by
  obtain ⟨⟨id, st', attrs⟩, frame, mode, inputs, prev⟩ := c
  have hg := h
  obtain ⟨w, e⟩ := h
  cases attrs
  case null a =>
    cases inputs with
    | nil => cases e; exact .inl rfl
    | cons s rest => cases e; exact .inr (.inl List.mem_cons_self)
  case readImage a =>
    by_cases hm : mode &&& modePixel = modePixel
    · by_cases he : a.enable = 0
      · simp only [Call.run, Node.run, ReadImageAttrs.compute, if_pos hm, if_pos he] at e
        cases e; exact .inl rfl
      · cases hk : lib.pathKind (Path.expandString lib.shell a.filePath (frameNum frame)) with
        | missing =>
          simp only [Call.run, Node.run, ReadImageAttrs.compute, if_pos hm, if_neg he, hk] at e
          cases e; exact .inl rfl
        | other =>
          by_cases h1 : a.enable = 1
          · simp only [Call.run, Node.run, ReadImageAttrs.compute, if_pos hm, if_neg he, hk, h1,
              ne_eq, not_true_eq_false, if_false] at e
            cases e; exact .inr (.inr (.inl rfl))
          · simp only [Call.run, Node.run, ReadImageAttrs.compute, if_pos hm, if_neg he, hk, h1,
              ne_eq, not_false_eq_true, if_true] at e
            cases e; exact .inr (.inr (.inr ⟨⟨hm, he, .inr ⟨hk, h1⟩⟩, rfl⟩))
        | file =>
          obtain ⟨i, x, -, hf⟩ :=
            (looks_read p lib id st' a frame mode inputs prev hm he hk).gives.mp hg
          refine .inr (.inr (.inr ⟨⟨hm, he, .inl hk⟩, ?_⟩))
          rw [show out = (readFin _ i x).2 from (congrArg Prod.snd hf).symm]
          rfl
    · simp only [Call.run, Node.run, ReadImageAttrs.compute, if_neg hm] at e
      cases e; exact .inr (.inr (.inl rfl))
  case writeImage a =>
    by_cases he : a.enable = 0
    · simp only [Call.run, Node.run, WriteImageAttrs.compute, if_pos he] at e
      cases e; exact .inl rfl
    · cases inputs with
      | nil =>
        simp only [Call.run, Node.run, WriteImageAttrs.compute, if_neg he] at e
        cases e; exact .inl rfl
      | cons s rest =>
        simp only [Call.run, Node.run, WriteImageAttrs.compute, if_neg he] at e
        split at e
        · cases e; exact .inr (.inl List.mem_cons_self)
        · obtain ⟨⟨b, job⟩, e1, e⟩ := Res.bind_ok.mp e
          cases e; exact .inr (.inl List.mem_cons_self)
  case grade a =>
    by_cases hq : a.enable = 1 ∧
      (a.processR ≠ 0 ∨ a.processG ≠ 0 ∨ a.processB ≠ 0 ∨ a.processA ≠ 0)
    · simp only [Call.run, Node.run, GradeAttrs.compute, if_pos hq] at e
      cases e; exact .inr (.inr (.inr ⟨hq, rfl⟩))
    · simp only [Call.run, Node.run, GradeAttrs.compute, if_neg hq] at e
      cases inputs with
      | nil => cases e; exact .inl rfl
      | cons s rest => cases e; exact .inr (.inl List.mem_cons_self)
  case lensDistort a =>
    refine .inr (.inr (.inr ⟨trivial, ?_⟩))
    simp only [Call.run, Node.run, LensDistortAttrs.compute] at e
    split at e
    · split at e
      · cases e; rfl
      · cases e
    · cases e; rfl
  case transform a => cases e; exact .inr (.inr (.inr ⟨trivial, rfl⟩))
  case mergeImage a =>
    by_cases he : a.enable = 1
    · cases inputs with
      | nil =>
        simp only [Call.run, Node.run, MergeImageAttrs.compute, he, ne_eq, not_true_eq_false,
          if_false] at e
        cases e; exact .inl rfl
      | cons s rest =>
        obtain ⟨i, x, -, hf⟩ :=
          (looks_merge p lib id st' a frame mode s rest prev he).gives.mp hg
        refine .inr (.inr (.inr ⟨⟨he, by simp⟩, ?_⟩))
        rw [show out = (mergeFin _ _ i x).2 from (congrArg Prod.snd hf).symm]
        rfl
    · simp only [Call.run, Node.run, MergeImageAttrs.compute, he, ne_eq, not_false_eq_true,
        if_true] at e
      cases e; exact .inl rfl
  case cropImage a =>
    cases inputs with
    | nil => cases e; exact .inl rfl
    | cons s rest =>
      by_cases he : a.enable = 1
      · obtain ⟨i, x, -, hf⟩ :=
          (looks_crop p lib id st' a frame mode s rest prev he).gives.mp hg
        refine .inr (.inr (.inr ⟨⟨he, by simp⟩, ?_⟩))
        rw [show out = (cropFin _ i x).2 from (congrArg Prod.snd hf).symm]
        rfl
      · simp only [Call.run, Node.run, CropImageAttrs.compute, he, ne_eq, not_false_eq_true,
          if_true] at e
        cases e; exact .inr (.inl List.mem_cons_self)
  case viewer a =>
    by_cases he : a.enable = 1
    · by_cases ho : BakeOption.ofI32 a.bakeOption = .nothing
      · simp only [Call.run, Node.run, ViewerAttrs.compute, he, ho, ne_eq, not_true_eq_false,
          if_false] at e
        cases inputs with
        | nil => cases e; exact .inl rfl
        | cons s rest => cases e; exact .inr (.inl List.mem_cons_self)
      · obtain ⟨i, x, -, hf⟩ :=
          (looks_viewer p lib id st' a frame mode inputs prev he ho).gives.mp hg
        refine .inr (.inr (.inr ⟨⟨he, ho⟩, ?_⟩))
        rw [show out = (viewerFin _ _ i x).2 from (congrArg Prod.snd hf).symm]
        rfl
    · simp only [Call.run, Node.run, ViewerAttrs.compute, he, ne_eq, not_false_eq_true,
        if_true] at e
      cases e; exact .inr (.inr (.inl rfl))
  case resampleImage a =>
    cases inputs with
    | nil => cases e; exact .inl rfl
    | cons s rest =>
      by_cases he : a.enable = 1
      · by_cases hd : p = .release ∨ rest.length = 0
        · by_cases hf : a.factor = 0
          · simp only [Call.run, Node.run, ResampleImageAttrs.compute, he, hf, ne_eq,
              not_true_eq_false, if_false, ensure, if_pos hd] at e
            cases e; exact .inr (.inl List.mem_cons_self)
          · obtain ⟨i, x, -, hf'⟩ :=
              (looks_resample p lib id st' a frame mode s rest prev he hd hf).gives.mp hg
            refine .inr (.inr (.inr ⟨⟨he, by simp, hf⟩, ?_⟩))
            rw [show out = (resampleFin _ _ i x).2 from (congrArg Prod.snd hf').symm]
            rfl
        · simp only [Call.run, Node.run, ResampleImageAttrs.compute, he, ne_eq,
            not_true_eq_false, if_false, ensure, if_neg hd] at e
          cases e
      · simp only [Call.run, Node.run, ResampleImageAttrs.compute, he, ne_eq, not_false_eq_true,
          if_true] at e
        cases e; exact .inr (.inl List.mem_cons_self)

/-- Grades that process the same channels with the same values are the same. -/
theorem grade_eq {i i' : Nat} {st st' : NodeStatus} {a b : GradeAttrs F}
    (hen : a.enable = 1)
    (hp : a.processR ≠ 0 ∨ a.processG ≠ 0 ∨ a.processB ≠ 0 ∨ a.processA ≠ 0)
    (h1 : ∀ name ∈ relevantI32 (⟨i, st, .grade a⟩ : Node F),
      (⟨i, st, .grade a⟩ : Node F).getI32 name = (⟨i', st', .grade b⟩ : Node F).getI32 name)
    (h2 : ∀ name ∈ relevantF32 (⟨i, st, .grade a⟩ : Node F),
      (⟨i, st, .grade a⟩ : Node F).getF32 name = (⟨i', st', .grade b⟩ : Node F).getF32 name)
    (ha : Untouched (⟨i, st, .grade a⟩ : Node F)) (hb : Untouched (⟨i', st', .grade b⟩ : Node F)) :
    a = b := by
  have he0 : ¬ a.enable = 0 := by rw [hen]; decide
  have hnot : ¬ (a.processR = 0 ∧ a.processG = 0 ∧ a.processB = 0 ∧ a.processA = 0) := by
    rintro ⟨h1, h2, h3, h4⟩
    simp [h1, h2, h3, h4] at hp
  simp only [relevantI32, attr_eval, he0, if_false, hnot, List.cons_append, List.nil_append,
    List.forall_mem_cons] at h1
  obtain ⟨k1, k2, k3, k4, k5, k6, k7, k8, k9, -⟩ := h1
  simp only [relevantF32, attr_eval, he0, if_false, hnot, List.mem_append] at h2
  have qR : a.blackPointR = b.blackPointR ∧ a.whitePointR = b.whitePointR ∧ a.liftR = b.liftR ∧ a.gainR = b.gainR ∧ a.multiplyR = b.multiplyR ∧ a.offsetR = b.offsetR ∧ a.gammaR = b.gammaR := by
    by_cases h0 : a.processR = 0
    · have x := ha rfl "r" (by simp) (by simpa only [String.reduceAppend, attr_eval] using h0)
      have y := hb rfl "r" (by simp) (by
        simp only [String.reduceAppend, attr_eval]; rw [← k2]; exact h0)
      simp only [List.forall_mem_cons, gradeChannel, String.reduceAppend, attr_eval] at x y
      obtain ⟨x1, x2, x3, x4, x5, x6, x7, -⟩ := x
      obtain ⟨y1, y2, y3, y4, y5, y6, y7, -⟩ := y
      exact ⟨x1.trans y1.symm, x2.trans y2.symm, x3.trans y3.symm, x4.trans y4.symm,
        x5.trans y5.symm, x6.trans y6.symm, x7.trans y7.symm⟩
    · have x : ∀ name ∈ gradeChannel "r", a.getF32 name = b.getF32 name := fun name hname =>
        h2 name (.inl (.inl (.inl (.inl (by rw [if_neg h0]; exact hname)))))
      simp only [List.forall_mem_cons, gradeChannel, String.reduceAppend, attr_eval] at x
      obtain ⟨x1, x2, x3, x4, x5, x6, x7, -⟩ := x
      exact ⟨x1, x2, x3, x4, x5, x6, x7⟩
  have qG : a.blackPointG = b.blackPointG ∧ a.whitePointG = b.whitePointG ∧ a.liftG = b.liftG ∧ a.gainG = b.gainG ∧ a.multiplyG = b.multiplyG ∧ a.offsetG = b.offsetG ∧ a.gammaG = b.gammaG := by
    by_cases h0 : a.processG = 0
    · have x := ha rfl "g" (by simp) (by simpa only [String.reduceAppend, attr_eval] using h0)
      have y := hb rfl "g" (by simp) (by
        simp only [String.reduceAppend, attr_eval]; rw [← k3]; exact h0)
      simp only [List.forall_mem_cons, gradeChannel, String.reduceAppend, attr_eval] at x y
      obtain ⟨x1, x2, x3, x4, x5, x6, x7, -⟩ := x
      obtain ⟨y1, y2, y3, y4, y5, y6, y7, -⟩ := y
      exact ⟨x1.trans y1.symm, x2.trans y2.symm, x3.trans y3.symm, x4.trans y4.symm,
        x5.trans y5.symm, x6.trans y6.symm, x7.trans y7.symm⟩
    · have x : ∀ name ∈ gradeChannel "g", a.getF32 name = b.getF32 name := fun name hname =>
        h2 name (.inl (.inl (.inl (.inr (by rw [if_neg h0]; exact hname)))))
      simp only [List.forall_mem_cons, gradeChannel, String.reduceAppend, attr_eval] at x
      obtain ⟨x1, x2, x3, x4, x5, x6, x7, -⟩ := x
      exact ⟨x1, x2, x3, x4, x5, x6, x7⟩
  have qB : a.blackPointB = b.blackPointB ∧ a.whitePointB = b.whitePointB ∧ a.liftB = b.liftB ∧ a.gainB = b.gainB ∧ a.multiplyB = b.multiplyB ∧ a.offsetB = b.offsetB ∧ a.gammaB = b.gammaB := by
    by_cases h0 : a.processB = 0
    · have x := ha rfl "b" (by simp) (by simpa only [String.reduceAppend, attr_eval] using h0)
      have y := hb rfl "b" (by simp) (by
        simp only [String.reduceAppend, attr_eval]; rw [← k4]; exact h0)
      simp only [List.forall_mem_cons, gradeChannel, String.reduceAppend, attr_eval] at x y
      obtain ⟨x1, x2, x3, x4, x5, x6, x7, -⟩ := x
      obtain ⟨y1, y2, y3, y4, y5, y6, y7, -⟩ := y
      exact ⟨x1.trans y1.symm, x2.trans y2.symm, x3.trans y3.symm, x4.trans y4.symm,
        x5.trans y5.symm, x6.trans y6.symm, x7.trans y7.symm⟩
    · have x : ∀ name ∈ gradeChannel "b", a.getF32 name = b.getF32 name := fun name hname =>
        h2 name (.inl (.inl (.inr (by rw [if_neg h0]; exact hname))))
      simp only [List.forall_mem_cons, gradeChannel, String.reduceAppend, attr_eval] at x
      obtain ⟨x1, x2, x3, x4, x5, x6, x7, -⟩ := x
      exact ⟨x1, x2, x3, x4, x5, x6, x7⟩
  have qA : a.blackPointA = b.blackPointA ∧ a.whitePointA = b.whitePointA ∧ a.liftA = b.liftA ∧ a.gainA = b.gainA ∧ a.multiplyA = b.multiplyA ∧ a.offsetA = b.offsetA ∧ a.gammaA = b.gammaA := by
    by_cases h0 : a.processA = 0
    · have x := ha rfl "a" (by simp) (by simpa only [String.reduceAppend, attr_eval] using h0)
      have y := hb rfl "a" (by simp) (by
        simp only [String.reduceAppend, attr_eval]; rw [← k5]; exact h0)
      simp only [List.forall_mem_cons, gradeChannel, String.reduceAppend, attr_eval] at x y
      obtain ⟨x1, x2, x3, x4, x5, x6, x7, -⟩ := x
      obtain ⟨y1, y2, y3, y4, y5, y6, y7, -⟩ := y
      exact ⟨x1.trans y1.symm, x2.trans y2.symm, x3.trans y3.symm, x4.trans y4.symm,
        x5.trans y5.symm, x6.trans y6.symm, x7.trans y7.symm⟩
    · have x : ∀ name ∈ gradeChannel "a", a.getF32 name = b.getF32 name := fun name hname =>
        h2 name (.inl (.inr (by rw [if_neg h0]; exact hname)))
      simp only [List.forall_mem_cons, gradeChannel, String.reduceAppend, attr_eval] at x
      obtain ⟨x1, x2, x3, x4, x5, x6, x7, -⟩ := x
      exact ⟨x1, x2, x3, x4, x5, x6, x7⟩
  have q5 : a.mix = b.mix := by
    have := h2 "mix" (.inr (by simp))
    simpa only [attr_eval] using this
  cases a
  cases b
  simp only at k1 k2 k3 k4 k5 k6 k7 k8 k9 q5 qR qG qB qA
  obtain ⟨r1, r2, r3, r4, r5, r6, r7⟩ := qR
  obtain ⟨g1, g2, g3, g4, g5, g6, g7⟩ := qG
  obtain ⟨b1, b2, b3, b4, b5, b6, b7⟩ := qB
  obtain ⟨a1, a2, a3, a4, a5, a6, a7⟩ := qA
  subst k1 k2 k3 k4 k5 k6 k7 k8 k9 q5 r1 r2 r3 r4 r5 r6 r7 g1 g2 g3 g4 g5 g6 g7
  subst b1 b2 b3 b4 b5 b6 b7 a1 a2 a3 a4 a5 a6 a7
  rfl

/-- Computations that do the same work on the same inputs give the same. -/
theorem keyed_same {p : Profile} {lib : NodeLib F H} {c c' : Call F H} (hk : Keyed lib c)
    (hk' : Keyed lib c')
    (hs : SameWork lib.shell c.node c'.node c.frame c'.frame (c.inputs.map (·.hash))
      (c'.inputs.map (·.hash)))
    (hin : c.inputs = c'.inputs) (hg : Untouched c.node) (hg' : Untouched c'.node)
    {st : NodeStatus} {out : Stream F H} (h : Gives p lib c st out) : Gives p lib c' st out := by
  have hkey : c.key lib = c'.key lib := Props.C44_only_work _ _ _ _ _ _ _ _ hs
  obtain ⟨⟨i, st1, a⟩, frame, mode, inputs, prev⟩ := c
  obtain ⟨⟨i', st2, b⟩, frame', mode', inputs', prev'⟩ := c'
  obtain ⟨ht, h1, h2, h3, h4, -⟩ := hs
  dsimp only at hin h1 h2 h3 h4 hkey hg hg'
  subst hin
  cases a <;> cases b <;> first
    | (exfalso; simp only [attr_eval, reduceCtorEq] at ht; done)
    | skip
  case null.null a b => exact hk.elim
  case writeImage.writeImage a b => exact hk.elim
  case readImage.readImage a b =>
    obtain ⟨m1, e1, k1⟩ := hk
    obtain ⟨m2, e2, k2⟩ := hk'
    simp only [relevantI32, attr_eval, List.forall_mem_cons] at h1
    have hp : Path.expandString lib.shell a.filePath (frameNum frame) =
        Path.expandString lib.shell b.filePath (frameNum frame') := by
      have := h4 ⟨.inl rfl, by simpa only [attr_eval] using e1⟩
      simpa only [path, attr_eval] using this
    rcases k1 with k1 | ⟨k1, n1⟩
    · have k2 : lib.pathKind (Path.expandString lib.shell b.filePath (frameNum frame')) = .file := by
        rw [← hp]; exact k1
      obtain ⟨im, x, hm, hf⟩ :=
        (looks_read p lib i st1 a frame mode inputs prev m1 e1 k1).gives.mp h
      refine (looks_read p lib i' st2 b frame' mode' inputs prev' m2 e2 k2).gives.mpr
        ⟨im, x, ?_, ?_⟩
      · rw [← hp]; exact hm
      · rw [← hkey]; exact hf
    · have k2 : lib.pathKind (Path.expandString lib.shell b.filePath (frameNum frame')) = .other := by
        rw [← hp]; exact k1
      obtain ⟨w, e⟩ := h
      have n2 : ¬ b.enable = 1 := by rw [← h1.1]; exact n1
      refine ⟨⟨.withCapacity 0, []⟩, ?_⟩
      · simp only [Call.run, Node.run, ReadImageAttrs.compute, if_pos m1, if_neg e1, k1, ne_eq, n1,
          not_false_eq_true, if_true, Except.ok.injEq, Prod.mk.injEq] at e
        simp only [Call.run, Node.run, ReadImageAttrs.compute, if_pos m2, if_neg e2, k2, ne_eq, n2,
          not_false_eq_true, if_true, Except.ok.injEq, Prod.mk.injEq]
        refine ⟨e.1, ?_, trivial⟩
        rw [← e.2.1]
        unfold Call.key at hkey
        dsimp only at hkey
        rw [hkey]
  case grade.grade a b =>
    have := grade_eq hk.1 hk.2 h1 h2 hg hg'
    subst this
    obtain ⟨w, e⟩ := h
    refine ⟨w, ?_⟩
    rw [← e]
    have hk2 := hk
    unfold Keyed at hk2
    dsimp only at hk2
    unfold Call.key at hkey
    dsimp only at hkey
    simp only [Call.run, Node.run, GradeAttrs.compute, if_pos hk2, hkey]
  case lensDistort.lensDistort a b =>
    obtain ⟨w, e⟩ := h
    refine ⟨w, ?_⟩
    rw [← e]
    unfold Call.key at hkey
    dsimp only at hkey
    by_cases he : a.enable = 0
    · simp only [relevantI32, attr_eval, he, if_true, List.forall_mem_cons] at h1
      have he' : b.enable = 0 := h1.1.symm
      simp [Call.run, Node.run, LensDistortAttrs.compute, he, he', hkey]
    · simp only [relevantI32, attr_eval, he, if_false, List.forall_mem_cons] at h1
      simp only [relevantF32, attr_eval, he, if_false, List.forall_mem_cons] at h2
      have : a = b := by
        cases a
        cases b
        simp only at h1 h2
        obtain ⟨k1, k2, -⟩ := h1
        obtain ⟨r1, r2, r3, r4, r5, r6, r7, -⟩ := h2
        subst k1 k2 r1 r2 r3 r4 r5 r6 r7
        rfl
      subst this
      simp only [Call.run, Node.run, hkey]
  case transform.transform a b =>
    obtain ⟨w, e⟩ := h
    refine ⟨w, ?_⟩
    rw [← e]
    unfold Call.key at hkey
    dsimp only at hkey
    by_cases he : a.enable = 0
    · simp only [relevantI32, attr_eval, he, if_true, List.forall_mem_cons] at h1
      have he' : b.enable = 0 := h1.1.symm
      simp [Call.run, Node.run, TransformAttrs.compute, he, he', hkey]
    · simp only [relevantI32, attr_eval, he, if_false, List.forall_mem_cons] at h1
      simp only [relevantF32, attr_eval, he, if_false, List.forall_mem_cons] at h2
      have : a = b := by
        cases a
        cases b
        simp only at h1 h2
        obtain ⟨k1, k2, -⟩ := h1
        obtain ⟨r1, r2, r3, r4, r5, r6, r7, r8, r9, -⟩ := h2
        subst k1 k2 r1 r2 r3 r4 r5 r6 r7 r8 r9
        rfl
      subst this
      simp only [Call.run, Node.run, hkey]
  case mergeImage.mergeImage a b =>
    obtain ⟨he, hne⟩ := hk
    obtain ⟨he', -⟩ := hk'
    simp only [relevantI32, attr_eval, he, if_true, List.forall_mem_cons] at h1
    simp only [relevantF32, attr_eval, he, if_true, List.forall_mem_cons] at h2
    cases inputs with
    | nil => exact absurd rfl hne
    | cons s rest =>
      obtain ⟨im, x, hm, hf⟩ := (looks_merge p lib i st1 a frame mode s rest prev he).gives.mp h
      refine (looks_merge p lib i' st2 b frame' mode' s rest prev' he').gives.mpr ⟨im, x, ?_, ?_⟩
      · rw [← h1.2.1, ← h2.1]; exact hm
      · rw [← hkey]; exact hf
  case cropImage.cropImage a b =>
    obtain ⟨he, hne⟩ := hk
    obtain ⟨he', -⟩ := hk'
    have he0 : ¬ a.enable = 0 := by rw [he]; decide
    simp only [relevantI32, attr_eval, he0, if_false, List.forall_mem_cons] at h1
    obtain ⟨-, k1, k2, k3, k4, k5, k6, k7, -⟩ := h1
    cases inputs with
    | nil => exact absurd rfl hne
    | cons s rest =>
      obtain ⟨im, x, hm, hf⟩ := (looks_crop p lib i st1 a frame mode s rest prev he).gives.mp h
      refine (looks_crop p lib i' st2 b frame' mode' s rest prev' he').gives.mpr ⟨im, x, ?_, ?_⟩
      · rw [← k1, ← k2, ← k3, ← k4, ← k5, ← k6, ← k7]; exact hm
      · rw [← hkey]; exact hf
  case viewer.viewer a b =>
    obtain ⟨he, ho⟩ := hk
    obtain ⟨he', ho'⟩ := hk'
    have he0 : ¬ a.enable = 0 := by rw [he]; decide
    have hb0 : ¬ a.bakeOption = 0 := fun h => ho ((Props.ofI32_nothing _).mpr h)
    simp only [relevantI32, attr_eval, he0, hb0, if_false, List.forall_mem_cons] at h1
    simp only [relevantStr, attr_eval, he0, hb0, if_false, List.forall_mem_cons] at h3
    obtain ⟨-, k1, k2, k3, -⟩ := h1
    obtain ⟨im, x, hm, hf⟩ := (looks_viewer p lib i st1 a frame mode inputs prev he ho).gives.mp h
    refine (looks_viewer p lib i' st2 b frame' mode' inputs prev' he' ho').gives.mpr
      ⟨im, x, ?_, ?_⟩
    · unfold viewerOption at hm ⊢
      rw [← k1, ← k2, ← k3, ← h3.1]; exact hm
    · unfold viewerOption at hf ⊢
      rw [← hkey, ← k1, ← k2]; exact hf
  case resampleImage.resampleImage a b =>
    obtain ⟨he, hne, hf0⟩ := hk
    obtain ⟨he', -, hf0'⟩ := hk'
    simp only [relevantI32, attr_eval, he, if_true, hf0, if_false, List.forall_mem_cons] at h1
    obtain ⟨-, k1, k2, -⟩ := h1
    cases inputs with
    | nil => exact absurd rfl hne
    | cons s rest =>
      by_cases hd : p = .release ∨ rest.length = 0
      · obtain ⟨im, x, hm, hf⟩ :=
          (looks_resample p lib i st1 a frame mode s rest prev he hd hf0).gives.mp h
        refine (looks_resample p lib i' st2 b frame' mode' s rest prev' he' hd hf0').gives.mpr
          ⟨im, x, ?_, ?_⟩
        · rw [← k1, ← k2]; exact hm
        · rw [← hkey]; exact hf
      · obtain ⟨w, e⟩ := h
        simp only [Call.run, Node.run, ResampleImageAttrs.compute, he, ne_eq,
          not_true_eq_false, if_false, ensure, if_neg hd] at e
        cases e

theorem gives_unique {p : Profile} {lib : NodeLib F H} {c : Call F H} {st st' : NodeStatus}
    {out out' : Stream F H} (h : Gives p lib c st out) (h' : Gives p lib c st' out') :
    st = st' ∧ out = out' := by
  obtain ⟨w, e⟩ := h
  obtain ⟨w', e'⟩ := h'
  rw [e] at e'
  simp only [Except.ok.injEq, Prod.mk.injEq] at e'
  exact ⟨e'.1, e'.2.1⟩

/-- The hash of a computed stream fits in 64 bits. -/
theorem produced_hash {p : Profile} {lib : NodeLib F H} {K : Call F H → Prop}
    (hr : ∀ b, lib.hash b < 2 ^ 64) {s : Stream F H} (h : Produced p lib K s) :
    s.hash < 2 ^ 64 := by
  induction h with
  | new => exact Nat.two_pow_pos 64
  | step c st out _ _ _ hg ih1 ih2 =>
    rcases classify hg with rfl | h | rfl | ⟨-, h⟩
    · exact Nat.two_pow_pos 64
    · exact ih1 _ h
    · exact ih2
    · rw [h]; exact hr _

/-- Two computations in a regular set with the same hash, on computed inputs, do the same work. -/
theorem same_work {p : Profile} {lib : NodeLib F H} {K : Call F H → Prop} (hK : Regular p lib K)
    {c c' : Call F H} (hc : K c) (hc' : K c') (hr : ∀ s ∈ c.inputs, Produced p lib K s)
    (hr' : ∀ s ∈ c'.inputs, Produced p lib K s) (hkey : c.key lib = c'.key lib)
    (ht : c.node.attrs.nodeType = c'.node.attrs.nodeType) :
    SameWork lib.shell c.node c'.node c.frame c'.frame (c.inputs.map (·.hash))
      (c'.inputs.map (·.hash)) := by
  refine Props.C44_hash_value_covers_partial lib.hash lib.shell hK.shell c.node c'.node c.frame
    c'.frame _ _ (hK.typed c hc) (hK.typed c' hc') ?_ ?_ ?_ ?_
    (fun _ => hK.collision c c' hc hc' hkey) hkey
  · intro h hh
    obtain ⟨s, hs, rfl⟩ := List.mem_map.mp hh
    exact produced_hash hK.range (hr s hs)
  · intro h hh
    obtain ⟨s, hs, rfl⟩ := List.mem_map.mp hh
    exact produced_hash hK.range (hr' s hs)
  · rintro (⟨h1, -, h2⟩ | ⟨h1, h2, h3⟩)
    · exact h2 (hK.lenses c c' hc hc' h1 (ht ▸ h1))
    · rcases hK.files c hc h1 with h | h
      · exact h2 h
      · exact h3 h
  · intro h1
    rw [List.length_map, List.length_map, hK.single c hc h1, hK.single c' hc' (ht ▸ h1)]

/-- The byte streams begin with the node type. -/
theorem key_type {p : Profile} {lib : NodeLib F H} {K : Call F H → Prop} (hK : Regular p lib K)
    {c c' : Call F H} (hc : K c) (hc' : K c') (hkey : c.key lib = c'.key lib) :
    c.node.attrs.nodeType = c'.node.attrs.nodeType := by
  have h := hK.collision c c' hc hc' hkey
  unfold Node.hashItems at h
  rw [hashBytes_cons, hashBytes_cons, bytes_type] at h
  exact h.1

omit [FloatLike F] [HalfLike F H] [FloatConst F] [FloatBits F] in
theorem inputs_eq {P : Stream F H → Prop} : ∀ (l l' : List (Stream F H)),
    (∀ s ∈ l, ∀ t, P t → s.hash = t.hash → s = t) → (∀ t ∈ l', P t) →
    l.map (·.hash) = l'.map (·.hash) → l = l' := by
  intro l
  induction l with
  | nil =>
    intro l' _ _ h
    cases l' with
    | nil => rfl
    | cons t l' => simp at h
  | cons s l ih =>
    intro l' h1 h2 h
    cases l' with
    | nil => simp at h
    | cons t l' =>
      simp only [List.map_cons, List.cons.injEq] at h
      rw [h1 s List.mem_cons_self t (h2 t List.mem_cons_self) h.1,
        ih l' (fun x hx => h1 x (List.mem_cons_of_mem _ hx))
          (fun x hx => h2 x (List.mem_cons_of_mem _ hx)) h.2]

/-- A computed stream with the hash of a new stream is a new stream. -/
theorem produced_zero {p : Profile} {lib : NodeLib F H} {K : Call F H → Prop}
    (hK : Regular p lib K) {t : Stream F H} (h : Produced p lib K t) : t.hash = 0 → t = .new := by
  induction h with
  | new => exact fun _ => rfl
  | step c st out hc _ _ hg ih1 ih2 =>
    intro h0
    rcases classify hg with rfl | h | rfl | ⟨-, h⟩
    · rfl
    · exact ih1 _ h h0
    · exact ih2 h0
    · exact absurd (h ▸ h0) (hK.nonzero c hc)

/-- Computed streams are determined by their hashes. -/
theorem determined {p : Profile} {lib : NodeLib F H} {K : Call F H → Prop}
    (hK : Regular p lib K) {s : Stream F H} (h : Produced p lib K s) :
    ∀ t, Produced p lib K t → s.hash = t.hash → s = t := by
  induction h with
  | new => intro t ht h0; exact (produced_zero hK ht h0.symm).symm
  | step c st out hc hin _ hg ih1 ih2 =>
    intro t ht hst
    rcases classify hg with rfl | h | rfl | ⟨hk, h⟩
    · exact (produced_zero hK ht hst.symm).symm
    · exact ih1 _ h t ht hst
    · exact ih2 t ht hst
    · induction ht with
      | new => exact absurd (h ▸ hst) (hK.nonzero c hc)
      | step c' st' out' hc' hin' _ hg' ih1' ih2' =>
        rcases classify hg' with rfl | h' | rfl | ⟨hk', h'⟩
        · exact absurd (h ▸ hst) (hK.nonzero c hc)
        · exact ih1' _ h' hst
        · exact ih2' hst
        · have hkey : c.key lib = c'.key lib := by rw [← h, hst, h']
          have hw := same_work hK hc hc' hin hin' hkey (key_type hK hc hc' hkey)
          have hin2 := inputs_eq _ _ ih1 hin' hw.inputs
          exact (gives_unique (keyed_same hk hk' hw hin2 (hK.grades c hc) (hK.grades c' hc') hg)
            hg').2

/-- For a regular set of computations, the cache can be trusted. -/
theorem regular_sound {p : Profile} {lib : NodeLib F H} {K : Call F H → Prop}
    (hK : Regular p lib K) : Sound p lib K where
  settled := hK.settled
  resampled := hK.resampled
  faithful := by
    intro c c' hc hc' hr hr' hk hk' hkey
    have ht := key_type hK hc hc' hkey
    have hw := same_work hK hc hc' hr.1 hr'.1 hkey ht
    have hin := inputs_eq _ _ (fun s hs => determined hK (hr.1 s hs)) hr'.1 hw.inputs
    exact ⟨ht, fun st out hg => keyed_same (caches_keyed hk) (caches_keyed hk') hw hin
      (hK.grades c hc) (hK.grades c' hc') hg⟩

end OCG.CacheSpec
