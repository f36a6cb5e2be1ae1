import Verif.Spec.Blocks
import Verif.Props.Compute
import Mathlib.Tactic.CasesM
/-
Property C137: the settings of deformers and colour operations.
-/

namespace OCG.Props

open SettingsSpec

section
variable {F : Type} [FloatLike F]

/-- C137 for the transform deformer. -/
theorem C137_transform :
    Keeps (transform (F := F)) transformInts transformFloats := by
  constructor
  case has =>
    intro a name
    dsimp only [transform, TransformDeformer.attrExists]
    split <;> simp_all [transformInts, transformFloats]
  case distinct =>
    intro name h
    obtain ⟨h1, h2⟩ := h
    simp only [transformInts, transformFloats, List.cons_append, List.mem_cons, List.mem_append,
      List.not_mem_nil, or_false] at h1
    (try casesm* _ ∨ _) <;> first | contradiction | (subst_vars; revert h2; decide)
  case int =>
    intro a name v h
    simp only [transformInts, transformFloats, List.cons_append, List.mem_cons, List.mem_append,
      List.not_mem_nil, or_false] at h
    (try casesm* _ ∨ _) <;> first | contradiction | (subst_vars; rfl)
  case float =>
    intro a name v h
    simp only [transformInts, transformFloats, List.cons_append, List.mem_cons, List.mem_append,
      List.not_mem_nil, or_false] at h
    (try casesm* _ ∨ _) <;> first | contradiction | (subst_vars; rfl)
  case noInt =>
    intro a name v h
    dsimp only [transform, TransformDeformer.setI32, TransformDeformer.getI32]
    split <;> first | exact ⟨rfl, rfl⟩ | exact absurd (by decide) h
  case noFloat =>
    intro a name v h
    dsimp only [transform, TransformDeformer.setF32, TransformDeformer.getF32]
    split <;> first | exact ⟨rfl, rfl⟩ | exact absurd (by decide) h
  case otherInt =>
    intro a name v other h
    dsimp only [transform, TransformDeformer.setI32]
    split <;> first
      | rfl
      | (unfold TransformDeformer.getI32; split <;> first | rfl | exact absurd rfl h)
  case otherFloat =>
    intro a name v other h
    dsimp only [transform, TransformDeformer.setF32]
    split <;> first
      | rfl
      | (unfold TransformDeformer.getF32; split <;> first | rfl | exact absurd rfl h)
  case intFloat =>
    intro a name v other
    dsimp only [transform, TransformDeformer.setI32]
    split <;> rfl
  case floatInt =>
    intro a name v other
    dsimp only [transform, TransformDeformer.setF32]
    split <;> rfl
  case all =>
    intro a a' hi hf
    cases a
    cases a'
    rw [TransformDeformer.mk.injEq]
    exact ⟨hi "enable", hi "invert", hf "translate_x", hf "translate_y", hf "rotate",
      hf "rotate_center_x", hf "rotate_center_y", hf "scale_x", hf "scale_y",
      hf "pivot_x", hf "pivot_y"⟩

/-- C137 for the lens deformer. -/
theorem C137_lens :
    Keeps (lens (F := F)) lensInts lensFloats := by
  constructor
  case has =>
    intro a name
    dsimp only [lens, Tde4Deformer.attrExists]
    split <;> simp_all [lensInts, lensFloats]
  case distinct =>
    intro name h
    obtain ⟨h1, h2⟩ := h
    simp only [lensInts, lensFloats, List.cons_append, List.mem_cons, List.mem_append,
      List.not_mem_nil, or_false] at h1
    (try casesm* _ ∨ _) <;> first | contradiction | (subst_vars; revert h2; decide)
  case int =>
    intro a name v h
    simp only [lensInts, lensFloats, List.cons_append, List.mem_cons, List.mem_append,
      List.not_mem_nil, or_false] at h
    (try casesm* _ ∨ _) <;> first | contradiction | (subst_vars; rfl)
  case float =>
    intro a name v h
    simp only [lensInts, lensFloats, List.cons_append, List.mem_cons, List.mem_append,
      List.not_mem_nil, or_false] at h
    (try casesm* _ ∨ _) <;> first | contradiction | (subst_vars; rfl)
  case noInt =>
    intro a name v h
    dsimp only [lens, Tde4Deformer.setI32, Tde4Deformer.getI32]
    split <;> first | exact ⟨rfl, rfl⟩ | exact absurd (by decide) h
  case noFloat =>
    intro a name v h
    dsimp only [lens, Tde4Deformer.setF32, Tde4Deformer.getF32]
    split <;> first | exact ⟨rfl, rfl⟩ | exact absurd (by decide) h
  case otherInt =>
    intro a name v other h
    dsimp only [lens, Tde4Deformer.setI32]
    split <;> first
      | rfl
      | (unfold Tde4Deformer.getI32; split <;> first | rfl | exact absurd rfl h)
  case otherFloat =>
    intro a name v other h
    dsimp only [lens, Tde4Deformer.setF32]
    split <;> first
      | rfl
      | (unfold Tde4Deformer.getF32; split <;> first | rfl | exact absurd rfl h)
  case intFloat =>
    intro a name v other
    dsimp only [lens, Tde4Deformer.setI32]
    split <;> rfl
  case floatInt =>
    intro a name v other
    dsimp only [lens, Tde4Deformer.setF32]
    split <;> rfl
  case all =>
    intro a a' hi hf
    cases a
    cases a'
    rw [Tde4Deformer.mk.injEq]
    exact ⟨hi "enable", hi "direction", hf "focal_length", hf "film_back_width",
      hf "film_back_height", hf "pixel_aspect", hf "lens_center_offset_x",
      hf "lens_center_offset_y", hf "distortion", hf "anamorphic_squeeze",
      hf "curvature_x", hf "curvature_y", hf "quartic_distortion"⟩

/-- C137 for the grade. -/
theorem C137_grade :
    Keeps (grade (F := F)) gradeInts gradeFloats := by
  constructor
  case has =>
    intro a name
    dsimp only [grade, GradeOp.attrExists]
    split <;> simp_all [gradeInts, gradeFloats, channels]
  case distinct =>
    intro name h
    obtain ⟨h1, h2⟩ := h
    simp only [gradeInts, gradeFloats, channels, List.cons_append, List.mem_cons, List.mem_append,
      List.not_mem_nil, or_false] at h1
    (try casesm* _ ∨ _) <;> first | contradiction | (subst_vars; revert h2; decide)
  case int =>
    intro a name v h
    simp only [gradeInts, gradeFloats, channels, List.cons_append, List.mem_cons, List.mem_append,
      List.not_mem_nil, or_false] at h
    (try casesm* _ ∨ _) <;> first | contradiction | (subst_vars; rfl)
  case float =>
    intro a name v h
    simp only [gradeInts, gradeFloats, channels, List.cons_append, List.mem_cons, List.mem_append,
      List.not_mem_nil, or_false] at h
    (try casesm* _ ∨ _) <;> first | contradiction | (subst_vars; rfl)
  case noInt =>
    intro a name v h
    dsimp only [grade, GradeOp.setI32, GradeOp.getI32]
    split <;> first | exact ⟨rfl, rfl⟩ | exact absurd (by decide) h
  case noFloat =>
    intro a name v h
    dsimp only [grade, GradeOp.setF32, GradeOp.getF32]
    split <;> first | exact ⟨rfl, rfl⟩ | exact absurd (by decide) h
  case otherInt =>
    intro a name v other h
    dsimp only [grade, GradeOp.setI32]
    split <;> first
      | rfl
      | (unfold GradeOp.getI32; split <;> first | rfl | exact absurd rfl h)
  case otherFloat =>
    intro a name v other h
    dsimp only [grade, GradeOp.setF32]
    split <;> first
      | rfl
      | (unfold GradeOp.getF32; split <;> first | rfl | exact absurd rfl h)
  case intFloat =>
    intro a name v other
    dsimp only [grade, GradeOp.setI32]
    split <;> rfl
  case floatInt =>
    intro a name v other
    dsimp only [grade, GradeOp.setF32]
    split <;> rfl
  case all =>
    intro a a' hi hf
    cases a
    cases a'
    rw [GradeOp.mk.injEq]
    exact ⟨hi "enable", hi "process_r", hi "process_g", hi "process_b", hi "process_a",
      hf "black_point_r", hf "black_point_g", hf "black_point_b", hf "black_point_a",
      hf "white_point_r", hf "white_point_g", hf "white_point_b", hf "white_point_a",
      hf "lift_r", hf "lift_g", hf "lift_b", hf "lift_a", hf "gain_r", hf "gain_g",
      hf "gain_b", hf "gain_a", hf "multiply_r", hf "multiply_g", hf "multiply_b",
      hf "multiply_a", hf "offset_r", hf "offset_g", hf "offset_b", hf "offset_a",
      hf "gamma_r", hf "gamma_g", hf "gamma_b", hf "gamma_a", hi "reverse",
      hi "clamp_black", hi "clamp_white", hi "premult", hf "mix"⟩

/-- C137 for the Brownian deformer. -/
theorem C137_brownian :
    Keeps (brownian (F := F)) ["enable"] ["k1", "k2", "xc", "yc"] := by
  constructor
  case has =>
    intro a name
    dsimp only [brownian, BrownianDeformer.attrExists]
    split <;> simp_all 
  case distinct =>
    intro name h
    obtain ⟨h1, h2⟩ := h
    simp only [List.cons_append, List.mem_cons, List.mem_append,
      List.not_mem_nil, or_false] at h1
    (try casesm* _ ∨ _) <;> first | contradiction | (subst_vars; revert h2; decide)
  case int =>
    intro a name v h
    simp only [List.cons_append, List.mem_cons, List.mem_append,
      List.not_mem_nil, or_false] at h
    (try casesm* _ ∨ _) <;> first | contradiction | (subst_vars; rfl)
  case float =>
    intro a name v h
    simp only [List.cons_append, List.mem_cons, List.mem_append,
      List.not_mem_nil, or_false] at h
    (try casesm* _ ∨ _) <;> first | contradiction | (subst_vars; rfl)
  case noInt =>
    intro a name v h
    dsimp only [brownian, BrownianDeformer.setI32, BrownianDeformer.getI32]
    split <;> first | exact ⟨rfl, rfl⟩ | exact absurd (by decide) h
  case noFloat =>
    intro a name v h
    dsimp only [brownian, BrownianDeformer.setF32, BrownianDeformer.getF32]
    split <;> first | exact ⟨rfl, rfl⟩ | exact absurd (by decide) h
  case otherInt =>
    intro a name v other h
    dsimp only [brownian, BrownianDeformer.setI32]
    split <;> first
      | rfl
      | (unfold BrownianDeformer.getI32; split <;> first | rfl | exact absurd rfl h)
  case otherFloat =>
    intro a name v other h
    dsimp only [brownian, BrownianDeformer.setF32]
    split <;> first
      | rfl
      | (unfold BrownianDeformer.getF32; split <;> first | rfl | exact absurd rfl h)
  case intFloat =>
    intro a name v other
    dsimp only [brownian, BrownianDeformer.setI32]
    split <;> rfl
  case floatInt =>
    intro a name v other
    dsimp only [brownian, BrownianDeformer.setF32]
    split <;> rfl
  case all =>
    intro a a' hi hf
    cases a
    cases a'
    rw [BrownianDeformer.mk.injEq]
    exact ⟨hi "enable", hf "xc", hf "yc", hf "k1", hf "k2"⟩

end

attribute [local instance] finFloat

/-- Setting the gain of the red channel of a grade. -/
example : (GradeOp.new.setF32 "gain_r" (7 : Fin 256)).getF32 "gain_r" = 7 ∧
    (GradeOp.new.setF32 "gain_r" (7 : Fin 256)).getF32 "gain_g" = GradeOp.new.getF32 "gain_g" := by
  have h := C137_grade (F := Fin 256)
  exact ⟨h.float .new "gain_r" 7 (by decide), h.otherFloat .new "gain_r" 7 "gain_g" (by decide)⟩

end OCG.Props
