import Verif.Model.StableGraph
import Verif.Model.Oiio
/-
Properties C28 and C78: two facts about external code that hold in the model but that the code of
the library cannot bring to light.
-/

namespace OCG.Props

/-- Graphs that adding and removing nodes leads to. -/
inductive Grown : SGraph → Prop
  | empty : Grown .empty
  | add {g} (w : Nat) : Grown g → Grown (g.addNode w).1
  | remove {g g'} (a : Nat) : Grown g → g.removeNode a = some g' → Grown g'

/-- The free list names every vacant slot once. -/
theorem grown_free {g : SGraph} (h : Grown g) :
    g.free.Nodup ∧ ∀ i, i ∈ g.free ↔ g.slots[i]? = some none := by
  induction h with
  | empty => exact ⟨List.nodup_nil, fun i => by simp [SGraph.empty]⟩
  | @add g w _ ih =>
    unfold SGraph.addNode
    split
    · rename_i hf
      refine ⟨ih.1, fun i => ?_⟩
      rw [ih.2]
      dsimp only
      by_cases hi : i < g.slots.length
      · rw [List.getElem?_append_left hi]
      · rw [List.getElem?_append_right (by omega), List.getElem?_eq_none (by omega)]
        rcases Nat.eq_zero_or_pos (i - g.slots.length) with h | h
        · simp [h]
        · rw [List.getElem?_eq_none (by simp; omega)]
    · rename_i k rest hf
      rw [hf] at ih
      obtain ⟨h1, h2⟩ := ih
      rw [List.nodup_cons] at h1
      refine ⟨h1.2, fun i => ?_⟩
      dsimp only
      by_cases hk : i = k
      · subst hk
        refine ⟨fun h => absurd h h1.1, fun h => ?_⟩
        rw [List.getElem?_set_self'] at h
        cases hx : g.slots[i]? with
        | none => rw [hx] at h; cases h
        | some x => rw [hx] at h; cases h
      · rw [List.getElem?_set_ne (fun h => hk h.symm), ← h2 i]
        simp [hk]
  | @remove g g' a _ e ih =>
    unfold SGraph.removeNode at e
    split at e <;> cases e
    rename_i hc
    have ha : ∃ x, g.slots[a]? = some (some x) := by
      unfold SGraph.contains at hc
      split at hc
      · rename_i x hx; exact ⟨x, hx⟩
      · cases hc
    obtain ⟨x, hx⟩ := ha
    refine ⟨List.nodup_cons.mpr ⟨fun h => ?_, ih.1⟩, fun i => ?_⟩
    · rw [ih.2, hx] at h; cases h
    · dsimp only
      by_cases hk : i = a
      · subst hk
        rw [List.getElem?_set_self', hx]
        simp
      · rw [List.getElem?_set_ne (fun h => hk h.symm), ← ih.2]
        simp [hk]

/-- C28, the graph beneath: adding a node never overwrites one, after any additions and removals,
and the new node is at the index given. -/
theorem C28_slots {g : SGraph} (h : Grown g) (w : Nat) :
    g.contains (g.addNode w).2 = false ∧ (g.addNode w).1.slots[(g.addNode w).2]? = some (some w) ∧
    (∀ a, a ≠ (g.addNode w).2 → (g.addNode w).1.contains a = g.contains a) ∧
    (g.addNode w).1.edges = g.edges := by
  obtain ⟨h1, h2⟩ := grown_free h
  unfold SGraph.addNode
  split
  · dsimp only
    refine ⟨?_, by simp, fun a ha => ?_, rfl⟩
    · unfold SGraph.contains
      rw [List.getElem?_eq_none (by omega)]
    · unfold SGraph.contains
      dsimp only
      by_cases hi : a < g.slots.length
      · rw [List.getElem?_append_left hi]
      · rw [List.getElem?_eq_none (by simp; omega), List.getElem?_eq_none (by omega)]
  · rename_i i rest hf
    dsimp only
    have hi := (h2 i).mp (by rw [hf]; simp)
    refine ⟨?_, ?_, fun a ha => ?_, rfl⟩
    · unfold SGraph.contains
      rw [hi]
    · rw [List.getElem?_set_self', hi]; rfl
    · unfold SGraph.contains
      dsimp only
      rw [List.getElem?_set_ne (fun h => ha h.symm)]

/-- Three nodes, of which the second is removed; the next one takes its place and the one after
that gets a new one. -/
example : ∃ g, Grown g ∧ g.slots = [some 1, none, some 3] ∧ (g.addNode 4).2 = 1 ∧
    ((g.addNode 4).1.addNode 5).2 = 3 :=
  ⟨_, .remove 1 (.add 3 (.add 2 (.add 1 .empty))) rfl, rfl, rfl, rfl⟩

/-- C78: upper and lower case: the name of a file is compared in small letters, for all 26 letters. -/
theorem C78_lower (c : Char) (hs : c ∈ "ABCDEFGHIJKLMNOPQRSTUVWXYZ".toList) :
    toLower c.toNat = c.toLower.toNat ∧ toLower c.toLower.toNat = c.toLower.toNat := by
  revert c
  decide

/-- C78: other bytes stay as they are. -/
theorem C78_other (c : Nat) (h : c < 65 ∨ 90 < c) : toLower c = c := by
  unfold toLower
  rw [if_neg (by omega)]

example : toLower 90 = 122 ∧ toLower 46 = 46 := by decide

end OCG.Props
