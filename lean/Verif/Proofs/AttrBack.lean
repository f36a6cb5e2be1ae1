import Verif.Proofs.Attrs
import Mathlib.Tactic.CasesM
/-
Setting attributes back.
-/

namespace OCG
open AttrSpec
variable {F : Type} [FloatLike F]
set_option linter.unusedSectionVars false

/-- Setting an attribute back to what it was. -/
theorem NodeAttrs.setStr_back (a : NodeAttrs F) (n : String) (v : Bytes) :
    (a.setStr n v).setStr n (a.getStr n) = a := by
  by_cases h : n ∈ names a.nodeType .str
  · cases a <;> simp only [names, NodeAttrs.nodeType, List.mem_cons, List.not_mem_nil, or_false] at h
    all_goals first
      | exact h.elim
      | (subst h; rfl)
      | (casesm* _ ∨ _ <;> subst_vars <;> rfl)
  · rw [(NodeAttrs.setStr_self a n v).2 h, (NodeAttrs.setStr_self a n _).2 h]

/-- Setting an attribute back to what it was. -/
theorem NodeAttrs.setI32_back (a : NodeAttrs F) (n : String) (v : Int) :
    (a.setI32 n v).setI32 n (a.getI32 n) = a := by
  by_cases h : n ∈ names a.nodeType .i32
  · cases a <;> simp only [names, NodeAttrs.nodeType, List.mem_cons, List.not_mem_nil, or_false] at h
    all_goals first
      | exact h.elim
      | (subst h; rfl)
      | (casesm* _ ∨ _ <;> subst_vars <;> rfl)
  · rw [(NodeAttrs.setI32_self a n v).2 h, (NodeAttrs.setI32_self a n _).2 h]

/-- Setting an attribute back to what it was. -/
theorem NodeAttrs.setF32_back (a : NodeAttrs F) (n : String) (v : F) :
    (a.setF32 n v).setF32 n (a.getF32 n) = a := by
  by_cases h : n ∈ names a.nodeType .f32
  · cases a <;> simp only [names, NodeAttrs.nodeType, List.mem_cons, List.not_mem_nil, or_false] at h
    all_goals first
      | exact h.elim
      | (subst h; rfl)
      | (casesm* _ ∨ _ <;> subst_vars <;> rfl)
  · rw [(NodeAttrs.setF32_self a n v).2 h, (NodeAttrs.setF32_self a n _).2 h]

end OCG
