import Verif.Spec.Compute
import Verif.Proofs.AttrEval
import Verif.Proofs.FinFloat
import Verif.Props.ColorOps
/-
C46, C47 and C65: what single nodes do with their inputs.
-/

namespace OCG.Props

open ComputeSpec

set_option linter.unusedSimpArgs false

section
variable {F H : Type} [FloatLike F] [HalfLike F H] [FloatConst F] [FloatBits F]

/-! ### C46 -/

/-- C46 for crop, resample, grade, transform and lens: with `enable` 0 the node is valid, gives
its first input unchanged (except perhaps for the hash), and touches neither cache nor files.
Merge behaves differently, see below. -/
theorem C46_pass_through_partial (p : Profile) (lib : NodeLib F H) (n : Node F) (frame : F)
    (mode : Mode) (input : Stream F H) (rest : List (Stream F H)) (prev : Stream F H)
    (w : World F H) (he : n.getI32 "enable" = 0)
    (ht : n.attrs.nodeType ∈ [.cropImage, .resampleImage, .grade, .transform, .lensDistort]) :
    ∃ out, n.run p lib frame mode (input :: rest) prev w = .ok (.valid, out, w) ∧
      SameImage out input := by
  obtain ⟨id, st, attrs⟩ := n
  cases attrs <;> simp only [NodeAttrs.nodeType, List.mem_cons, List.not_mem_nil, or_false,
    reduceCtorEq, or_true, true_or, or_self] at ht
  all_goals
    simp only [attr_eval] at he
  · exact ⟨input, by simp [Node.run, GradeAttrs.compute, he], ⟨rfl, rfl, rfl, rfl, rfl, rfl, rfl, rfl⟩⟩
  · refine ⟨_, by simp [Node.run, LensDistortAttrs.compute, he]; rfl, ?_⟩
    exact ⟨rfl, rfl, rfl, rfl, rfl, rfl, rfl, rfl⟩
  · refine ⟨_, by simp [Node.run, TransformAttrs.compute, he]; rfl, ?_⟩
    exact ⟨rfl, rfl, rfl, rfl, rfl, rfl, rfl, rfl⟩
  · exact ⟨input, by simp [Node.run, CropImageAttrs.compute, he], ⟨rfl, rfl, rfl, rfl, rfl, rfl, rfl, rfl⟩⟩
  · exact ⟨input, by simp [Node.run, ResampleImageAttrs.compute, he], ⟨rfl, rfl, rfl, rfl, rfl, rfl, rfl, rfl⟩⟩

/-- C46 fails for merge: a disabled merge gives the colour bars of a new stream, whatever its
inputs are, so B is lost unless it is that image. -/
theorem C46_counterexample_merge (p : Profile) (lib : NodeLib F H) (n : Node F) (frame : F)
    (mode : Mode) (inputs : List (Stream F H)) (prev : Stream F H) (w : World F H)
    (he : n.getI32 "enable" = 0) (ht : n.attrs.nodeType = .mergeImage) :
    n.run p lib frame mode inputs prev w = .ok (.warning, .new, w) := by
  obtain ⟨id, st, attrs⟩ := n
  cases attrs <;> simp only [NodeAttrs.nodeType, reduceCtorEq] at ht
  simp only [attr_eval] at he
  simp [Node.run, MergeImageAttrs.compute, he]

/-- A disabled viewer does not even pass its input on: what was last computed stays. -/
theorem C46_counterexample_viewer (p : Profile) (lib : NodeLib F H) (n : Node F) (frame : F)
    (mode : Mode) (inputs : List (Stream F H)) (prev : Stream F H) (w : World F H)
    (he : n.getI32 "enable" = 0) (ht : n.attrs.nodeType = .viewer) :
    n.run p lib frame mode inputs prev w = .ok (.valid, prev, w) := by
  obtain ⟨id, st, attrs⟩ := n
  cases attrs <;> simp only [NodeAttrs.nodeType, reduceCtorEq] at ht
  simp only [attr_eval] at he
  simp [Node.run, ViewerAttrs.compute, he]

/-! ### C47, the nodes -/

/-- C47: a grade node that is switched on appends one enabled operation, with the values of the
node, to the operations of its input; nothing else changes but the hash. -/
theorem C47_grade_appends (p : Profile) (lib : NodeLib F H) (n : Node F) (frame : F)
    (mode : Mode) (input : Stream F H) (rest : List (Stream F H)) (prev : Stream F H)
    (w : World F H) (ht : n.attrs.nodeType = .grade) (hg : Grades n) :
    ∃ out op, n.run p lib frame mode (input :: rest) prev w = .ok (.valid, out, w) ∧
      op.getI32 "enable" = 1 ∧ Describes n op.getI32 op.getF32 ∧
      SameImage out { input with colorOps := input.colorOps ++ [op] } := by
  obtain ⟨id, st, attrs⟩ := n
  cases attrs <;> simp only [NodeAttrs.nodeType, reduceCtorEq] at ht
  rename_i a
  simp only [Grades, attr_eval] at hg
  refine ⟨{ input.pushColorOp a.op with
    hash := Node.hash lib.hash lib.shell ⟨id, st, .grade a⟩ frame ((input :: rest).map (·.hash)) },
    a.op, ?_, rfl, ⟨?_, ?_⟩, ⟨rfl, rfl, rfl, rfl, rfl, rfl, rfl, rfl⟩⟩
  · simp only [Node.run, GradeAttrs.compute]
    rw [if_pos hg]
    rfl
  · simp only [AttrSpec.names, NodeAttrs.nodeType, attr_eval, List.forall_mem_cons]
    refine ⟨fun h => absurd rfl h, ?_⟩
    repeat' first
      | (intro x hx; cases hx)
      | refine ⟨fun _ => rfl, ?_⟩
  · simp only [AttrSpec.names, NodeAttrs.nodeType, attr_eval, List.forall_mem_cons]
    repeat' first
      | (intro x hx; cases hx)
      | refine ⟨rfl, ?_⟩

/-- C47: any other grade node hands its input on as it is. -/
theorem C47_grade_idle (p : Profile) (lib : NodeLib F H) (n : Node F) (frame : F)
    (mode : Mode) (input : Stream F H) (rest : List (Stream F H)) (prev : Stream F H)
    (w : World F H) (ht : n.attrs.nodeType = .grade) (hg : ¬ Grades n) :
    n.run p lib frame mode (input :: rest) prev w = .ok (.valid, input, w) := by
  obtain ⟨id, st, attrs⟩ := n
  cases attrs <;> simp only [NodeAttrs.nodeType, reduceCtorEq] at ht
  simp only [Grades, attr_eval] at hg
  simp only [Node.run, GradeAttrs.compute]
  rw [if_neg hg]
  rfl

/-- The stream at the end of a chain of nodes, each with the one before as its input. -/
inductive Chain (p : Profile) (lib : NodeLib F H) (frame : F) (mode : Mode) :
    List (Node F) → Stream F H → Stream F H → Prop
  | nil (s) : Chain p lib frame mode [] s s
  | cons {n ns s t u w w' prev st} : n.run p lib frame mode [s] prev w = .ok (st, t, w') →
      Chain p lib frame mode ns t u → Chain p lib frame mode (n :: ns) s u

/-- C47: after a chain of grade nodes the stream has exactly one operation for each grade that is
switched on, upstream first, behind the operations it had before; image and windows are the
same. -/
theorem C47_chain (p : Profile) (lib : NodeLib F H) (frame : F) (mode : Mode)
    (nodes : List (Node F)) (ht : ∀ n ∈ nodes, n.attrs.nodeType = .grade)
    (s t : Stream F H) (h : Chain p lib frame mode nodes s t) :
    ∃ ops, List.Forall₂ (fun n op => op.getI32 "enable" = 1 ∧ Describes n op.getI32 op.getF32)
        (nodes.filter (fun n => decide (Grades n))) ops ∧
      SameImage t { s with colorOps := s.colorOps ++ ops } := by
  induction h with
  | nil s => exact ⟨[], .nil, ⟨rfl, rfl, rfl, rfl, rfl, rfl, rfl, by simp⟩⟩
  | @cons n ns s t u w w' prev st e hc ih =>
    obtain ⟨ops, h1, h2⟩ := ih (fun m hm => ht m (List.mem_cons_of_mem _ hm))
    have hn := ht n List.mem_cons_self
    by_cases hg : Grades n
    · obtain ⟨out, op, e', h3, h4, h5⟩ :=
        C47_grade_appends p lib n frame mode s [] prev w hn hg
      rw [e] at e'
      simp only [Except.ok.injEq, Prod.mk.injEq] at e'
      obtain ⟨-, rfl, -⟩ := e'
      refine ⟨op :: ops, ?_, ?_⟩
      · rw [List.filter_cons_of_pos (by simpa using hg)]
        exact .cons ⟨h3, h4⟩ h1
      · refine ⟨h2.state.trans h5.state, h2.display.trans h5.display, h2.data.trans h5.data,
          h2.pixels.trans h5.pixels, h2.spec.trans h5.spec, h2.matrix.trans h5.matrix,
          h2.deformers.trans h5.deformers, ?_⟩
        rw [h2.ops]
        simp [h5.ops]
    · rw [C47_grade_idle p lib n frame mode s [] prev w hn hg] at e
      simp only [Except.ok.injEq, Prod.mk.injEq] at e
      obtain ⟨-, rfl, -⟩ := e
      refine ⟨ops, ?_, h2⟩
      rw [List.filter_cons_of_neg (by simpa using hg)]
      exact h1

/-! ### C82 -/

/-- C82: a transform node that is switched on appends one enabled deformer, with the values of the
node, to the deformers of its input; nothing else changes but the hash. -/
theorem C82_transform_appends (p : Profile) (lib : NodeLib F H) (n : Node F) (frame : F)
    (mode : Mode) (input : Stream F H) (rest : List (Stream F H)) (prev : Stream F H)
    (w : World F H) (ht : n.attrs.nodeType = .transform) (he : n.getI32 "enable" = 1) :
    ∃ out, ∃ d : TransformDeformer F,
      n.run p lib frame mode (input :: rest) prev w = .ok (.valid, out, w) ∧
      d.getI32 "enable" = 1 ∧ Describes n d.getI32 d.getF32 ∧
      SameImage out { input with deformers := input.deformers ++ [.transform d] } := by
  obtain ⟨id, st, attrs⟩ := n
  cases attrs <;> simp only [NodeAttrs.nodeType, reduceCtorEq] at ht
  rename_i a
  simp only [attr_eval] at he
  refine ⟨{ input.pushDeformer (.transform a.deformer) with
    hash := Node.hash lib.hash lib.shell ⟨id, st, .transform a⟩ frame
      ((input :: rest).map (·.hash)) },
    a.deformer, ?_, rfl, ⟨?_, ?_⟩, ⟨rfl, rfl, rfl, rfl, rfl, rfl, rfl, rfl⟩⟩
  · simp only [Node.run, TransformAttrs.compute]
    rw [if_pos he]
    rfl
  · simp only [AttrSpec.names, NodeAttrs.nodeType, attr_eval, List.forall_mem_cons]
    refine ⟨fun h => absurd rfl h, ?_⟩
    repeat' first
      | (intro x hx; cases hx)
      | refine ⟨fun _ => rfl, ?_⟩
  · simp only [AttrSpec.names, NodeAttrs.nodeType, attr_eval, List.forall_mem_cons]
    repeat' first
      | (intro x hx; cases hx)
      | refine ⟨rfl, ?_⟩

/-- C82: the same for a lens node, if the plug-in accepts the values; otherwise the node
panics. -/
theorem C82_lens_appends (p : Profile) (lib : NodeLib F H) (n : Node F) (frame : F)
    (mode : Mode) (input : Stream F H) (rest : List (Stream F H)) (prev : Stream F H)
    (w : World F H) (ht : n.attrs.nodeType = .lensDistort) (he : n.getI32 "enable" = 1) :
    ∃ d : Tde4Deformer F, d.getI32 "enable" = 1 ∧ Describes n d.getI32 d.getF32 ∧
      StandardCamera d.getF32 ∧
      (lib.lensAccepts d = true → ∃ out,
        n.run p lib frame mode (input :: rest) prev w = .ok (.valid, out, w) ∧
        SameImage out { input with deformers := input.deformers ++ [.tde4 d] }) ∧
      (lib.lensAccepts d = false →
        n.run p lib frame mode (input :: rest) prev w = .error .explicit) := by
  obtain ⟨id, st, attrs⟩ := n
  cases attrs <;> simp only [NodeAttrs.nodeType, reduceCtorEq] at ht
  rename_i a
  simp only [attr_eval] at he
  refine ⟨a.deformer, rfl, ⟨?_, ?_⟩, ⟨rfl, rfl, rfl, rfl⟩, ?_, ?_⟩
  · simp only [AttrSpec.names, NodeAttrs.nodeType, attr_eval, List.forall_mem_cons]
    refine ⟨fun h => absurd rfl h, ?_⟩
    repeat' first
      | (intro x hx; cases hx)
      | refine ⟨fun _ => rfl, ?_⟩
  · simp only [AttrSpec.names, NodeAttrs.nodeType, attr_eval, List.forall_mem_cons]
    repeat' first
      | (intro x hx; cases hx)
      | refine ⟨rfl, ?_⟩
  · intro ha
    refine ⟨{ input.pushDeformer (.tde4 a.deformer) with
      hash := Node.hash lib.hash lib.shell ⟨id, st, .lensDistort a⟩ frame
        ((input :: rest).map (·.hash)) }, ?_, ⟨rfl, rfl, rfl, rfl, rfl, rfl, rfl, rfl⟩⟩
    simp only [Node.run, LensDistortAttrs.compute]
    rw [if_pos he, if_pos ha]
    rfl
  · intro ha
    simp only [Node.run, LensDistortAttrs.compute]
    rw [if_pos he, if_neg (by rw [ha]; decide)]

/-! ### C65 -/

/-- C65, second half: a write node that is disabled, or whose execution is disabled, hands
nothing to OpenImageIO. -/
theorem C65_no_write (p : Profile) (lib : NodeLib F H) (n : Node F) (frame : F)
    (mode : Mode) (inputs : List (Stream F H)) (prev : Stream F H) (w w' : World F H)
    (st : NodeStatus) (out : Stream F H) (ht : n.attrs.nodeType = .writeImage)
    (h0 : n.getI32 "execute" = 0 ∨ n.getI32 "enable" = 0)
    (e : n.run p lib frame mode inputs prev w = .ok (st, out, w')) : w' = w := by
  obtain ⟨id, s, attrs⟩ := n
  cases attrs <;> simp only [NodeAttrs.nodeType, reduceCtorEq] at ht
  rename_i a
  simp only [attr_eval] at h0
  simp only [Node.run, WriteImageAttrs.compute] at e
  split at e
  · simp_all
  · cases inputs with
    | nil => simp_all
    | cons i is =>
      rcases h0 with h0 | h0
      · simp_all
      · contradiction

/-- No other node hands anything to OpenImageIO. -/
theorem lookup_writes {X : Type} {p : Profile} {b : Bool} {w w' : World F H} {key : Nat} {hit x : X}
    {make : Res (Image F H × X)} {image : Image F H}
    (e : lookup p b w key hit make = .ok (w', image, x)) : w'.writes = w.writes := by
  unfold lookup at e
  split at e
  · split at e
    · simp only [Except.ok.injEq, Prod.mk.injEq] at e
      rw [← e.1]
    · obtain ⟨m, -, e⟩ := Res.bind_ok.mp e
      obtain ⟨c, -, e⟩ := Res.bind_ok.mp e
      simp only [Except.ok.injEq, Prod.mk.injEq] at e
      rw [← e.1]
  · obtain ⟨m, -, e⟩ := Res.bind_ok.mp e
    simp only [Except.ok.injEq, Prod.mk.injEq] at e
    rw [← e.1]

/-- C65: only write nodes write. -/
theorem C65_only_write_nodes (p : Profile) (lib : NodeLib F H) (n : Node F) (frame : F)
    (mode : Mode) (inputs : List (Stream F H)) (prev : Stream F H) (w w' : World F H)
    (st : NodeStatus) (out : Stream F H) (ht : n.attrs.nodeType ≠ .writeImage)
    (e : n.run p lib frame mode inputs prev w = .ok (st, out, w')) : w'.writes = w.writes := by
  obtain ⟨id, s, attrs⟩ := n
  cases attrs <;> simp only [NodeAttrs.nodeType, ne_eq, not_true_eq_false] at ht <;>
    simp only [Node.run] at e
  case null => unfold computeNull at e; split at e <;> simp_all
  case readImage a =>
    unfold ReadImageAttrs.compute at e
    split at e
    · split at e
      · simp_all
      · dsimp only at e
        split at e
        · simp_all
        · obtain ⟨⟨w1, i, x⟩, e1, e⟩ := Res.bind_ok.mp e
          simp only [Except.ok.injEq, Prod.mk.injEq] at e
          rw [← e.2.2]; exact lookup_writes e1
        · split at e <;> simp_all
    · simp_all
  case grade a => unfold GradeAttrs.compute at e; dsimp only at e; split at e <;> simp_all
  case lensDistort a =>
    unfold LensDistortAttrs.compute at e
    dsimp only at e
    split at e
    · split at e <;> simp_all
    · simp_all
  case transform a => unfold TransformAttrs.compute at e; simp_all
  case mergeImage a =>
    unfold MergeImageAttrs.compute at e
    split at e
    · simp_all
    · split at e
      · simp_all
      · obtain ⟨⟨w1, i, x⟩, e1, e⟩ := Res.bind_ok.mp e
        simp only [Except.ok.injEq, Prod.mk.injEq] at e
        rw [← e.2.2]; exact lookup_writes e1
  case cropImage a =>
    unfold CropImageAttrs.compute at e
    split at e
    · simp_all
    · split at e
      · simp_all
      · obtain ⟨⟨w1, i, x⟩, e1, e⟩ := Res.bind_ok.mp e
        simp only [Except.ok.injEq, Prod.mk.injEq] at e
        rw [← e.2.2]; exact lookup_writes e1
  case viewer a =>
    unfold ViewerAttrs.compute at e
    split at e
    · simp_all
    · dsimp only at e
      split at e
      · obtain ⟨⟨w1, i, x⟩, e1, e⟩ := Res.bind_ok.mp e
        simp only [Except.ok.injEq, Prod.mk.injEq] at e
        rw [← e.2.2]; exact lookup_writes e1
      · simp_all
  case resampleImage a =>
    unfold ResampleImageAttrs.compute at e
    split at e
    · simp_all
    · split at e
      · simp_all
      · obtain ⟨u, -, e⟩ := Res.bind_ok.mp e
        split at e
        · obtain ⟨⟨w1, i, x⟩, e1, e⟩ := Res.bind_ok.mp e
          simp only [Except.ok.injEq, Prod.mk.injEq] at e
          rw [← e.2.2]; exact lookup_writes e1
        · simp_all

/-- C65, first half, fails: a write node with an input is Valid whatever OpenImageIO answers. -/
theorem C65_always_valid (p : Profile) (lib : NodeLib F H) (n : Node F) (frame : F)
    (mode : Mode) (input : Stream F H) (rest : List (Stream F H)) (prev : Stream F H)
    (w w' : World F H) (st : NodeStatus) (out : Stream F H)
    (ht : n.attrs.nodeType = .writeImage)
    (e : n.run p lib frame mode (input :: rest) prev w = .ok (st, out, w')) : st = .valid := by
  obtain ⟨id, s, attrs⟩ := n
  cases attrs <;> simp only [NodeAttrs.nodeType, reduceCtorEq] at ht
  rename_i a
  simp only [Node.run, WriteImageAttrs.compute] at e
  split at e
  · simp_all
  · split at e
    · simp_all
    · obtain ⟨r, -, e⟩ := Res.bind_ok.mp e
      simp only [Except.ok.injEq, Prod.mk.injEq] at e
      exact e.1.symm

/-- C65: when a write node does write, it hands over exactly one file, with the path of this
frame, and only if there is a plug-in for it. -/
theorem C65_one_job (p : Profile) (lib : NodeLib F H) (n : Node F) (frame : F)
    (mode : Mode) (inputs : List (Stream F H)) (prev : Stream F H) (w w' : World F H)
    (st : NodeStatus) (out : Stream F H) (ht : n.attrs.nodeType = .writeImage)
    (e : n.run p lib frame mode inputs prev w = .ok (st, out, w')) :
    w'.cache = w.cache ∧ (w'.writes = w.writes ∨ ∃ job, w'.writes = w.writes ++ [job] ∧
      job.path = Path.expandString lib.shell (n.getStr "file_path") (frameNum frame) ∧
      lib.oiio.hasWriter job.path = true) := by
  obtain ⟨id, s, attrs⟩ := n
  cases attrs <;> simp only [NodeAttrs.nodeType, reduceCtorEq] at ht
  rename_i a
  simp only [Node.run, WriteImageAttrs.compute] at e
  simp only [attr_eval]
  split at e
  · simp_all
  · split at e
    · simp_all
    · split at e
      · simp_all
      · obtain ⟨⟨flag, job⟩, e1, e⟩ := Res.bind_ok.mp e
        simp only [Except.ok.injEq, Prod.mk.injEq] at e
        rw [← e.2.2]
        refine ⟨rfl, ?_⟩
        cases job with
        | none => exact .inl (by simp)
        | some job =>
          refine .inr ⟨job, by simp, ?_⟩
          obtain ⟨b, -, e1⟩ := Res.bind_ok.mp e1
          obtain ⟨c, -, e1⟩ := Res.bind_ok.mp e1
          unfold writeImage at e1
          dsimp only at e1
          have e2 : ∃ i, oiioWrite lib.oiio (Path.expandString lib.shell a.filePath
              (frameNum frame)) i a.compression = .ok (flag, some job) := by
            split at e1
            · obtain ⟨i, -, e1⟩ := Res.bind_ok.mp e1
              exact ⟨i, e1⟩
            · obtain ⟨i, -, e1⟩ := Res.bind_ok.mp e1
              exact ⟨i, e1⟩
          obtain ⟨i, e1⟩ := e2
          unfold oiioWrite at e1
          split at e1
          · rename_i hw
            obtain ⟨sp, -, e1⟩ := Res.bind_ok.mp e1
            simp only [Except.ok.injEq, Prod.mk.injEq, Option.some.injEq] at e1
            rw [← e1.2]
            exact ⟨rfl, hw⟩
          · simp at e1

end

/-! ### Examples -/

section
attribute [local instance] finFloat finBits finHalf

/-- Some value of pi. -/
@[instance_reducible] def finPi : FloatConst (Fin 256) := ⟨3⟩

attribute [local instance] finPi

/-- OpenImageIO on a full disk: there are plug-ins, but nothing can be stored. -/
def fullDisk : Oiio (Fin 256) (Fin 256) where
  header _ := none
  pixels _ _ _ _ old := old
  hasWriter _ := true
  stores _ := false
  resample _ _ _ _ _ _ old := (true, old)
  toInt q := if 0 ≤ q then q.floor else q.ceil
  pixels_length _ _ _ _ _ := rfl
  resample_length _ _ _ _ _ _ _ := rfl
  toInt_fits _ _ _ := rfl

/-- Libraries for the examples. -/
def finLib : NodeLib (Fin 256) (Fin 256) where
  hash bs := bs.sum % 2 ^ 64
  shell _ := none
  pathKind _ := .missing
  bake := { color := ⟨fun px _ _ _ _ _ _ _ => (true, px)⟩,
            deform := ⟨fun _ => none, ⟨fun _ x y => (x, y), fun _ x y => (x, y), fun _ b => b,
              fun _ b => b⟩⟩ }
  lensAccepts _ := true
  oiio := fullDisk

/-- A write node for the file `a.exr`. -/
def writeNode : Node (Fin 256) :=
  ⟨1, .uninitialized, .writeImage { WriteImageAttrs.new with
    enable := 1, execute := 1, filePath := [97, 46, 101, 120, 114], cropOnWrite := 0,
    pixelDataType := 0 }⟩

/-- One red pixel. -/
def onePixel : Stream (Fin 256) (Fin 256) :=
  { (Stream.new : Stream (Fin 256) (Fin 256)) with
    displayWindow := ⟨0, 0, 1, 1⟩, dataWindow := ⟨0, 0, 1, 1⟩
    pixelBlock := ⟨⟨1, 1, 3⟩, ⟨.f32, ([1, 0, 0] : List (Fin 256))⟩⟩ }

/-- An empty cache, and nothing written. -/
def blankWorld : World (Fin 256) (Fin 256) := ⟨⟨[], 1000, 0, 0, 0, 0, 0⟩, []⟩

/-- C65 fails: nothing is stored, yet the node is Valid. -/
theorem C65_counterexample : ∃ job,
    writeNode.run .debug finLib 1 modeAll [onePixel] .new blankWorld =
      .ok (.valid, onePixel, { blankWorld with writes := [job] }) ∧
    finLib.oiio.stores job = false := by
  exact ⟨_, rfl, rfl⟩

/-- A node of some type for the examples. -/
def nodeOf (a : NodeAttrs (Fin 256)) : Node (Fin 256) := ⟨1, .uninitialized, a⟩

/-- The hypotheses of C46 are met, for instance by a crop. -/
example : ∃ out, (nodeOf (.cropImage { CropImageAttrs.new with enable := 0 })).run .debug finLib 1
    modeAll [onePixel] .new blankWorld = .ok (.valid, out, blankWorld) ∧ SameImage out onePixel :=
  C46_pass_through_partial _ _ _ _ _ _ _ _ _ rfl (by decide)

example : (nodeOf (.mergeImage { MergeImageAttrs.new with enable := 0 })).run .debug finLib 1
    modeAll [onePixel, onePixel] .new blankWorld = .ok (.warning, .new, blankWorld) ∧
    ¬ SameImage (Stream.new : Stream (Fin 256) (Fin 256)) onePixel :=
  ⟨C46_counterexample_merge _ _ _ _ _ _ _ _ rfl rfl, fun h => absurd h.display (by decide)⟩

example : (nodeOf (.viewer { ViewerAttrs.new with enable := 0 })).run .debug finLib 1
    modeAll [onePixel] .new blankWorld = .ok (.valid, .new, blankWorld) :=
  C46_counterexample_viewer _ _ _ _ _ _ _ _ rfl rfl

/-- A grade that doubles. -/
def doubling : Node (Fin 256) := nodeOf (.grade { GradeAttrs.new with multiplyR := 2 })

/-- A grade that is switched off. -/
def switchedOff : Node (Fin 256) := nodeOf (.grade { GradeAttrs.new with enable := 0 })

example : ∃ out op, doubling.run .debug finLib 1 modeAll [onePixel] .new blankWorld =
    .ok (.valid, out, blankWorld) ∧ op.getI32 "enable" = 1 ∧
    Describes doubling op.getI32 op.getF32 ∧
    SameImage out { onePixel with colorOps := onePixel.colorOps ++ [op] } :=
  C47_grade_appends _ _ _ _ _ _ _ _ _ rfl (by decide)

example : switchedOff.run .debug finLib 1 modeAll [onePixel] .new blankWorld =
    .ok (.valid, onePixel, blankWorld) :=
  C47_grade_idle _ _ _ _ _ _ _ _ _ rfl (by decide)

/-- Three grades in a row, the middle one off. -/
example : ∃ t ops, Chain .debug finLib 1 modeAll [doubling, switchedOff, doubling] onePixel t ∧
    ops.length = 2 ∧ SameImage t { onePixel with colorOps := onePixel.colorOps ++ ops } := by
  have h : ∃ t, Chain .debug finLib 1 modeAll [doubling, switchedOff, doubling] onePixel t :=
    ⟨_, .cons (w := blankWorld) (prev := .new) rfl (.cons (w := blankWorld) (prev := .new) rfl
      (.cons (w := blankWorld) (prev := .new) rfl (.nil _)))⟩
  obtain ⟨t, h⟩ := h
  obtain ⟨ops, h1, h2⟩ := C47_chain .debug finLib 1 modeAll _
    (by simp [doubling, switchedOff, nodeOf, NodeAttrs.nodeType]) onePixel t h
  exact ⟨t, ops, h, h1.length_eq.symm.trans (by decide), h2⟩

example : ∃ out, ∃ d : TransformDeformer (Fin 256),
    (nodeOf (.transform { TransformAttrs.new with translateX := 3 })).run .debug finLib 1 modeAll
      [onePixel] .new blankWorld = .ok (.valid, out, blankWorld) ∧ d.getI32 "enable" = 1 ∧
    Describes (nodeOf (.transform { TransformAttrs.new with translateX := 3 })) d.getI32 d.getF32 ∧
    SameImage out { onePixel with deformers := onePixel.deformers ++ [.transform d] } :=
  C82_transform_appends _ _ _ _ _ _ _ _ _ rfl rfl

example : ∃ out, ∃ d : Tde4Deformer (Fin 256),
    (nodeOf (.lensDistort LensDistortAttrs.new)).run .debug finLib 1 modeAll [onePixel] .new
      blankWorld = .ok (.valid, out, blankWorld) ∧
    SameImage out { onePixel with deformers := onePixel.deformers ++ [.tde4 d] } := by
  obtain ⟨d, -, -, -, h, -⟩ := C82_lens_appends .debug finLib
    (nodeOf (.lensDistort LensDistortAttrs.new)) 1 modeAll onePixel [] .new blankWorld rfl rfl
  obtain ⟨out, h1, h2⟩ := h rfl
  exact ⟨out, d, h1, h2⟩

/-- Not executing: nothing is written. -/
example : ∃ st out w, (nodeOf (.writeImage { WriteImageAttrs.new with execute := 0 })).run .debug
    finLib 1 modeAll [onePixel] .new blankWorld = .ok (st, out, w) ∧ w = blankWorld :=
  ⟨_, _, _, rfl, C65_no_write .debug finLib
    (nodeOf (.writeImage { WriteImageAttrs.new with execute := 0 })) 1 modeAll [onePixel] .new
    blankWorld _ _ _ rfl (.inl rfl) rfl⟩

example : ∃ st out w, doubling.run .debug finLib 1 modeAll [onePixel] .new blankWorld =
    .ok (st, out, w) ∧ w.writes = [] :=
  ⟨_, _, _, rfl, C65_only_write_nodes .debug finLib doubling 1 modeAll [onePixel] .new blankWorld
    _ _ _ (by decide) rfl⟩

example : ∃ st out w, writeNode.run .debug finLib 1 modeAll [onePixel] .new blankWorld =
    .ok (st, out, w) ∧ st = .valid :=
  ⟨_, _, _, rfl, C65_always_valid .debug finLib writeNode 1 modeAll onePixel [] .new blankWorld _ _
    _ rfl rfl⟩

example : ∃ st out w job, writeNode.run .debug finLib 1 modeAll [onePixel] .new blankWorld =
    .ok (st, out, w) ∧ w.writes = [job] ∧ job.path = [97, 46, 101, 120, 114] := by
  obtain ⟨job, e, -⟩ := C65_counterexample
  obtain ⟨-, h | ⟨job', h1, h2, -⟩⟩ := C65_one_job _ _ _ _ _ _ _ _ _ _ _ rfl e
  · cases h
  · exact ⟨_, _, _, job', e, h1, h2⟩

end
end OCG.Props
