import Verif.Model.Data
import Verif.Props.DeformHash
import Verif.Props.ColorOps
/-
Property C98: matrices and vectors on their way to C++ and back.
-/

namespace OCG.Props

section
variable {F : Type} [FloatLike F]

/-- C98: converting a matrix to the form used for computing and back, or the other way round,
changes no entry; every entry keeps its row and column. -/
theorem C98_matrix (m : Matrix4 F) (v : Mat4 F) :
    Matrix4.fromNa m.toNa = m ∧ (Matrix4.fromNa v).toNa = v := by
  refine ⟨rfl, ?_⟩
  funext i j
  have hi : i = 0 ∨ i = 1 ∨ i = 2 ∨ i = 3 := by omega
  have hj : j = 0 ∨ j = 1 ∨ j = 2 ∨ j = 3 := by omega
  rcases hi with rfl | rfl | rfl | rfl <;> rcases hj with rfl | rfl | rfl | rfl <;> rfl

omit [FloatLike F] in
/-- C98: the same for vectors. -/
theorem C98_vector (v : Vector4 F) (u : Fin 4 → F) :
    Vector4.fromNa v.toNa = v ∧ (Vector4.fromNa u).toNa = u := by
  refine ⟨rfl, ?_⟩
  funext i
  have hi : i = 0 ∨ i = 1 ∨ i = 2 ∨ i = 3 := by omega
  rcases hi with rfl | rfl | rfl | rfl <;> rfl

/-- C98: the identity is the diagonal of ones, and a diagonal has its numbers on the diagonal and
zeros elsewhere. -/
theorem C98_diagonal (x y z w : F) :
    (Matrix4.identity : Matrix4 F) = Matrix4.fromDiagonal 1 1 1 1 ∧
    ∀ i j : Fin 4, (Matrix4.fromDiagonal x y z w).toNa i j =
      if i = j then (if i = 0 then x else if i = 1 then y else if i = 2 then z else w) else 0 := by
  refine ⟨rfl, fun i j => ?_⟩
  have hi : i = 0 ∨ i = 1 ∨ i = 2 ∨ i = 3 := by omega
  have hj : j = 0 ∨ j = 1 ∨ j = 2 ∨ j = 3 := by omega
  rcases hi with rfl | rfl | rfl | rfl <;> rcases hj with rfl | rfl | rfl | rfl <;> rfl

/-- C98: matrices and vectors that feed the same bytes to the hasher are equal. -/
theorem C98_hash [FloatBits F] :
    (∀ a b : Matrix4 F, hashBytes a.hashItems = hashBytes b.hashItems → a = b) ∧
    (∀ a b : Vector4 F, hashBytes a.hashItems = hashBytes b.hashItems → a = b) := by
  constructor
  · intro a b h
    simp only [Matrix4.hashItems, hashBytes_append, List.append_assoc, bytes_f32, last_f32] at h
    obtain ⟨a1, a2, a3, a4, a5, a6, a7, a8, a9, a10, a11, a12, a13, a14, a15, a16⟩ := a
    obtain ⟨b1, b2, b3, b4, b5, b6, b7, b8, b9, b10, b11, b12, b13, b14, b15, b16⟩ := b
    simp only at h
    obtain ⟨rfl, rfl, rfl, rfl, rfl, rfl, rfl, rfl, rfl, rfl, rfl, rfl, rfl, rfl, rfl, rfl⟩ := h
    rfl
  · intro a b h
    simp only [Vector4.hashItems, hashBytes_append, List.append_assoc, bytes_f32, last_f32] at h
    obtain ⟨a1, a2, a3, a4⟩ := a
    obtain ⟨b1, b2, b3, b4⟩ := b
    simp only at h
    obtain ⟨rfl, rfl, rfl, rfl⟩ := h
    rfl

end

section
variable {F : Type} [Field F] [LinearOrder F] [FloatOps F]

/-- C98: in exact arithmetic the identity matrix moves no vector, and is neutral in products. -/
theorem C98_identity (m : Mat4 F) (v : Vec4 F) :
    Xform.mulVec (Matrix4.identity : Matrix4 F).toNa v = v ∧
    Xform.mul (Matrix4.identity : Matrix4 F).toNa m = m ∧
    Xform.mul m (Matrix4.identity : Matrix4 F).toNa = m := by
  refine ⟨?_, ?_, ?_⟩
  · funext i
    have hi : i = 0 ∨ i = 1 ∨ i = 2 ∨ i = 3 := by omega
    rcases hi with rfl | rfl | rfl | rfl <;>
      simp [Xform.mulVec, Matrix4.toNa, Matrix4.identity, Xform.mk]
  all_goals
    funext i j
    have hi : i = 0 ∨ i = 1 ∨ i = 2 ∨ i = 3 := by omega
    have hj : j = 0 ∨ j = 1 ∨ j = 2 ∨ j = 3 := by omega
    rcases hi with rfl | rfl | rfl | rfl <;> rcases hj with rfl | rfl | rfl | rfl <;>
      simp [Xform.mul, Matrix4.toNa, Matrix4.identity, Xform.mk]

end

/-- C98: the vector called identity is zero: neutral for adding, not for multiplying. -/
theorem C98_vector_identity (v : Vector4 Int) (i : Fin 4) :
    v.toNa i + (Vector4.identity : Vector4 Int).toNa i = v.toNa i ∧
    v.toNa i * (Vector4.identity : Vector4 Int).toNa i = 0 := by
  have hi : i = 0 ∨ i = 1 ∨ i = 2 ∨ i = 3 := by omega
  rcases hi with rfl | rfl | rfl | rfl <;> simp [Vector4.toNa, Vector4.identity]

section
attribute [local instance] finFloat finBits finHalf finPi

example : (Matrix4.fromNa (Xform.mk 1 2 3 4 5 6 7 8 9 10 11 12 13 14 15 (16 : Fin 256))).m12 = 7 :=
  rfl

example : hashBytes (Vector4.hashItems (⟨1, 2, 3, 4⟩ : Vector4 (Fin 256))) ≠
    hashBytes (Vector4.hashItems (⟨1, 2, 4, 3⟩ : Vector4 (Fin 256))) := by decide +kernel

end
end OCG.Props
