import Verif.Model.Plane
import Mathlib.Algebra.BigOperators.Group.List.Basic
import Mathlib.Tactic.Ring
/-
Loops that write a buffer from front to back.
-/

namespace OCG

/-- The state of a front-to-back writer that has written `L` into the buffer `buf0`. -/
def Wrote {α : Type} (buf0 L : List α) (st : List α × Nat) : Prop :=
  st.2 = L.length ∧ st.1 = L ++ buf0.drop L.length

theorem Wrote.start {α : Type} (buf0 : List α) : Wrote buf0 [] (buf0, 0) := ⟨rfl, rfl⟩

theorem setAt_wrote {α : Type} (buf0 L : List α) (v : α) (h : L.length < buf0.length) :
    setAt (L ++ buf0.drop L.length) L.length v
      = .ok ((L ++ [v]) ++ buf0.drop (L ++ [v]).length) := by
  unfold setAt
  rw [if_pos (by simp only [List.length_append, List.length_drop]; omega)]
  congr 1
  rw [List.set_append_right _ _ (Nat.le_refl _), Nat.sub_self, List.append_assoc]
  congr 1
  rw [List.drop_eq_getElem_cons h]
  simp only [List.set_cons_zero, List.length_append, List.length_singleton,
    List.singleton_append]

theorem writeAll_wrote {α : Type} (buf0 : List α) : ∀ (vs L : List α),
    L.length + vs.length ≤ buf0.length →
    Plane.writeAll (L ++ buf0.drop L.length) L.length vs
      = .ok ((L ++ vs) ++ buf0.drop (L ++ vs).length) := by
  intro vs
  induction vs with
  | nil => intro L _; simp [Plane.writeAll]
  | cons v vs ih =>
    intro L h
    simp only [List.length_cons] at h
    unfold Plane.writeAll
    rw [setAt_wrote buf0 L v (by omega)]
    dsimp only [bind, Except.bind]
    have := ih (L ++ [v]) (by simp only [List.length_append, List.length_singleton]; omega)
    simp only [List.length_append, List.length_singleton, List.append_assoc,
      List.singleton_append] at this ⊢
    exact this

/-- One loop body that writes `vs`. -/
theorem body_wrote {α : Type} (buf0 L vs : List α) (st : List α × Nat) (h : Wrote buf0 L st)
    (hl : L.length + vs.length ≤ buf0.length) (k : Nat) (hk : k = vs.length) :
    ∃ b, Plane.writeAll st.1 st.2 vs = .ok b ∧ Wrote buf0 (L ++ vs) (b, st.2 + k) := by
  obtain ⟨h1, h2⟩ := h
  refine ⟨_, by rw [h1, h2]; exact writeAll_wrote buf0 vs L hl, ?_, rfl⟩
  simp [h1, hk]

/-- A loop of such bodies. -/
theorem loop_wrote {α : Type} (buf0 : List α) (g : Nat → List α)
    (f : Nat → List α × Nat → Res (List α × Nat)) (n : Nat) (L : List α) (st : List α × Nat)
    (h : Wrote buf0 L st)
    (hl : L.length + ((List.range n).flatMap g).length ≤ buf0.length)
    (hf : ∀ i L st, i < n → Wrote buf0 L st → L.length + (g i).length ≤ buf0.length →
      ∃ st', f i st = .ok st' ∧ Wrote buf0 (L ++ g i) st') :
    ∃ st', forRange n f st = .ok st' ∧ Wrote buf0 (L ++ (List.range n).flatMap g) st' := by
  have hmono : ∀ i, i < n → ((List.range (i + 1)).flatMap g).length ≤
      ((List.range n).flatMap g).length := by
    intro i hi
    obtain ⟨k, rfl⟩ : ∃ k, n = (i + 1) + k := ⟨n - (i + 1), by omega⟩
    rw [List.range_add (n := i + 1) (m := k), List.flatMap_append, List.length_append]
    omega
  refine forRange_inv f (fun i s => Wrote buf0 (L ++ (List.range i).flatMap g) s) n st
    (by simpa using h) ?_
  intro j s hj hs
  have hm := hmono j hj
  rw [List.range_succ, List.flatMap_append, List.length_append] at hm
  simp only [List.flatMap_singleton] at hm
  obtain ⟨s', e, hs'⟩ := hf j _ s hj hs (by rw [List.length_append]; omega)
  refine ⟨s', e, ?_⟩
  rw [List.range_succ, List.flatMap_append]
  simpa [List.flatMap_singleton, List.append_assoc] using hs'

/-- A loop of such bodies over a whole buffer, keeping the buffer at the end. -/
theorem loop_fill {α : Type} (buf0 : List α) (g : Nat → List α)
    (f : Nat → List α × Nat → Res (List α × Nat)) (n : Nat)
    (hl : ((List.range n).flatMap g).length ≤ buf0.length)
    (hf : ∀ i L st, i < n → Wrote buf0 L st → L.length + (g i).length ≤ buf0.length →
      ∃ st', f i st = .ok st' ∧ Wrote buf0 (L ++ g i) st') :
    (forRange n f (buf0, 0) >>= fun r => (Except.ok r.1 : Res (List α))) =
      .ok ((List.range n).flatMap g ++ buf0.drop ((List.range n).flatMap g).length) := by
  obtain ⟨st, e, h⟩ := loop_wrote buf0 g f n [] (buf0, 0) (Wrote.start buf0)
    (by rw [List.length_nil, Nat.zero_add]; exact hl) hf
  exact Res.bind_ok.mpr ⟨st, e, congrArg Except.ok h.2⟩

theorem length_flatMap_const {α : Type} (g : Nat → List α) (k n : Nat)
    (h : ∀ i < n, (g i).length = k) : ((List.range n).flatMap g).length = n * k := by
  induction n with
  | zero => simp
  | succ n ih =>
    rw [List.range_succ, List.flatMap_append, List.length_append, ih (fun i hi => h i (by omega))]
    simp only [List.flatMap_singleton, h n (by omega)]
    ring

/-- Element `j` of block `i`. -/
theorem getElem?_flatMap_const {α : Type} (g : Nat → List α) (k : Nat) : ∀ (n i j : Nat),
    (∀ i < n, (g i).length = k) → i < n → j < k →
    ((List.range n).flatMap g)[i * k + j]? = (g i)[j]? := by
  intro n
  induction n with
  | zero => intro i j _ hi; omega
  | succ n ih =>
    intro i j h hi hj
    have hlen := length_flatMap_const g k n (fun i hi => h i (by omega))
    rw [List.range_succ, List.flatMap_append, List.flatMap_singleton]
    by_cases hin : i < n
    · rw [List.getElem?_append_left]
      · exact ih i j (fun i hi => h i (by omega)) hin hj
      · rw [hlen]
        have : (i + 1) * k ≤ n * k := Nat.mul_le_mul_right k hin
        rw [Nat.add_mul] at this
        omega
    · have : i = n := by omega
      subst this
      rw [List.getElem?_append_right (by rw [hlen]; omega), hlen]
      congr 1
      omega

theorem mem_flatMap_range {α : Type} (g : Nat → List α) (n : Nat) (v : α) :
    v ∈ (List.range n).flatMap g ↔ ∃ i < n, v ∈ g i := by
  simp [List.mem_flatMap]

end OCG
