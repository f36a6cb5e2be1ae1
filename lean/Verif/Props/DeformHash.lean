import Verif.Proofs.NodeHash
import Verif.Props.Compute
/-
Deformers that are hashed alike (C90).
-/

namespace OCG.Props

section

variable {F : Type} [FloatLike F] [FloatBits F]

/-- The integers of a deformer fit `i32`. -/
def DeformerTyped : Deformer F → Prop
  | .transform d => InI32 d.enable ∧ InI32 d.invert
  | .tde4 d => InI32 d.enable ∧ InI32 d.direction

/-- Lens deformers work in the same direction. -/
def SameDirection : Deformer F → Deformer F → Prop
  | .tde4 d, .tde4 d' => d.direction = d'.direction
  | _, _ => True

omit [FloatLike F] in
theorem hashFloat_length (x : F) : (hashBytes (hashFloat x)).length = 11 := by
  simp [hashFloat, hashF32, hashBytes_cons, hashBytes_nil, HashItem.toBytes, leBytes_length]

omit [FloatLike F] in
theorem last_f32 (x y : F) : hashBytes (hashFloat x) = hashBytes (hashFloat y) ↔ x = y := by
  rw [← List.append_nil (hashBytes (hashFloat x)), ← List.append_nil (hashBytes (hashFloat y)),
    bytes_f32]
  simp

/-- C90: deformers that feed the same data to the hasher are equal or both switched off, if lens
deformers work in the same direction.  Missing from the full claim: that direction, which is not
hashed (`C90_counterexample`). -/
theorem C90_same_hash_partial (a b : Deformer F) (ha : DeformerTyped a) (hb : DeformerTyped b)
    (hdir : SameDirection a b) (h : hashBytes a.hashItems = hashBytes b.hashItems) :
    a = b ∨ (a.enable = 0 ∧ b.enable = 0) := by
  cases a with
  | transform a =>
    cases b with
    | transform b =>
      simp only [Deformer.hashItems, TransformDeformer.hashItems] at h
      by_cases h1 : a.enable = 0 <;> by_cases h2 : b.enable = 0
      · exact .inr ⟨h1, h2⟩
      all_goals
        simp only [h1, h2, if_true, if_false, hashBytes_append, hashBytes_cons, hashBytes_nil,
          List.append_assoc, List.nil_append, List.cons_append] at h
      · rw [bytes_i32 (by decide) hb.1] at h
        exact absurd h.1.symm h2
      · rw [bytes_i32 ha.1 (by decide)] at h
        exact absurd h.1 h1
      · left
        rw [bytes_i32 ha.1 hb.1, bytes_i32 ha.2 hb.2] at h
        simp only [bytes_f32, last_f32] at h
        obtain ⟨a1, a2, a3, a4, a5, a6, a7, a8, a9, a10, a11⟩ := a
        obtain ⟨b1, b2, b3, b4, b5, b6, b7, b8, b9, b10, b11⟩ := b
        simp only at h
        obtain ⟨rfl, rfl, rfl, rfl, rfl, rfl, rfl, rfl, rfl, rfl, rfl⟩ := h
        rfl
    | tde4 b =>
      simp only [Deformer.hashItems, TransformDeformer.hashItems, Tde4Deformer.hashItems] at h
      by_cases h1 : a.enable = 0 <;> by_cases h2 : b.enable = 0
      · exact .inr ⟨h1, h2⟩
      all_goals
        exfalso
        have hl := congrArg List.length h
        simp [h1, h2, hashBytes_append, hashBytes_cons, hashBytes_nil, HashItem.toBytes,
          leBytes_length, hashFloat_length] at hl
  | tde4 a =>
    cases b with
    | transform b =>
      simp only [Deformer.hashItems, TransformDeformer.hashItems, Tde4Deformer.hashItems] at h
      by_cases h1 : a.enable = 0 <;> by_cases h2 : b.enable = 0
      · exact .inr ⟨h1, h2⟩
      all_goals
        exfalso
        have hl := congrArg List.length h
        simp [h1, h2, hashBytes_append, hashBytes_cons, hashBytes_nil, HashItem.toBytes,
          leBytes_length, hashFloat_length] at hl
    | tde4 b =>
      simp only [Deformer.hashItems, Tde4Deformer.hashItems] at h
      by_cases h1 : a.enable = 0 <;> by_cases h2 : b.enable = 0
      · exact .inr ⟨h1, h2⟩
      all_goals
        simp only [h1, h2, if_true, if_false, hashBytes_append, hashBytes_cons, hashBytes_nil,
          List.append_assoc, List.nil_append, List.cons_append] at h
      · rw [bytes_i32 (by decide) hb.1] at h
        exact absurd h.1.symm h2
      · rw [bytes_i32 ha.1 (by decide)] at h
        exact absurd h.1 h1
      · left
        rw [bytes_i32 ha.1 hb.1] at h
        simp only [bytes_f32, last_f32] at h
        obtain ⟨a1, a2, a3, a4, a5, a6, a7, a8, a9, a10, a11, a12, a13⟩ := a
        obtain ⟨b1, b2, b3, b4, b5, b6, b7, b8, b9, b10, b11, b12, b13⟩ := b
        simp only [SameDirection] at h hdir
        obtain ⟨rfl, rfl, rfl, rfl, rfl, rfl, rfl, rfl, rfl, rfl, rfl, rfl⟩ := h
        cases hdir
        rfl

/-- C90: the direction never enters the hash. -/
theorem C90_direction (d : Tde4Deformer F) (k : Int) :
    (Deformer.tde4 { d with direction := k }).hashItems = (Deformer.tde4 d).hashItems := rfl

end

attribute [local instance] finFloat finBits finHalf finPi

example : DeformerTyped (Deformer.tde4 (Tde4Deformer.new : Tde4Deformer (Fin 256))) ∧
    DeformerTyped (Deformer.transform (TransformDeformer.new : TransformDeformer (Fin 256))) ∧
    SameDirection (Deformer.tde4 (Tde4Deformer.new : Tde4Deformer (Fin 256)))
      (Deformer.tde4 { Tde4Deformer.new with enable := 0 }) := by
  refine ⟨⟨?_, ?_⟩, ⟨?_, ?_⟩, rfl⟩ <;> decide

/-- A lens that shifts sideways by its distortion. -/
def sideways : DeformLib (Fin 256) :=
  ⟨fun _ => none, ⟨fun d x y => (x + d.distortion, y), fun d x y => (x - d.distortion, y),
    fun _ b => b, fun _ b => b⟩⟩

def sidewaysBy (direction : Int) : Deformer (Fin 256) :=
  .tde4 { Tde4Deformer.new with direction := direction, distortion := 3 }

/-- C90 is false for the direction: two lens deformers that are hashed alike, one shifting a point
to the right and the other to the left. -/
theorem C90_counterexample :
    DeformerTyped (sidewaysBy 0) ∧ DeformerTyped (sidewaysBy 1) ∧
    (sidewaysBy 0).hashItems = (sidewaysBy 1).hashItems ∧
    (sidewaysBy 0).point sideways ⟨0, 0, 1, 1⟩ false 4 4 = .ok (7, 4) ∧
    (sidewaysBy 1).point sideways ⟨0, 0, 1, 1⟩ false 4 4 = .ok (1, 4) :=
  ⟨⟨by decide, by decide⟩, ⟨by decide, by decide⟩, by decide +kernel,
    by decide +kernel, by decide +kernel⟩

end OCG.Props
