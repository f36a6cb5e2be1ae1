import Verif.Model.Interp
import Verif.Spec.Field
import Mathlib.Tactic.FieldSimp
import Mathlib.Tactic.Ring
/-
Property C61: interpolation helpers (exact arithmetic).
-/

namespace OCG.Props

open Interp

variable {F : Type} [Field F] [LinearOrder F] [IsStrictOrderedRing F] [FloatOps F]

/-- C61: `lerp` hits both endpoints, and is the straight line between them. -/
theorem C61_lerp_endpoints (a b : F) :
    lerp a b 0 = a ∧ lerp a b 1 = b ∧ ∀ t, lerp a b t = a + t * (b - a) := by
  refine ⟨?_, ?_, fun t => ?_⟩ <;> unfold lerp <;> ring

/-- C61: `inverse_lerp` undoes `lerp` on a non-degenerate range, and conversely. -/
theorem C61_inverse_lerp (a b t : F) (h : a ≠ b) :
    inverseLerp a b (lerp a b t) = t ∧ lerp a b (inverseLerp a b t) = t := by
  have hb : b - a ≠ 0 := sub_ne_zero.mpr (Ne.symm h)
  unfold inverseLerp lerp
  constructor <;> field_simp <;> ring

/-- C61: `remap` maps the ends of the old range to the ends of the new range, and is undone
by remapping back. -/
theorem C61_remap_endpoints (a b c d t : F) (h : a ≠ b) :
    remap a b c d a = c ∧ remap a b c d b = d ∧
      (c ≠ d → remap c d a b (remap a b c d t) = t) := by
  have hb : b - a ≠ 0 := sub_ne_zero.mpr (Ne.symm h)
  unfold remap
  refine ⟨?_, ?_, ?_⟩
  · unfold inverseLerp; rw [sub_self, zero_div]; exact (C61_lerp_endpoints c d).1
  · unfold inverseLerp; rw [div_self hb]; exact (C61_lerp_endpoints c d).2.1
  · intro hcd
    rw [(C61_inverse_lerp c d _ hcd).1, (C61_inverse_lerp a b t h).2]

/-- C61: inside the range the result stays inside the range. -/
theorem C61_lerp_between (a b t : F) (hab : a ≤ b) (h0 : 0 ≤ t) (h1 : t ≤ 1) :
    a ≤ lerp a b t ∧ lerp a b t ≤ b := by
  rw [(C61_lerp_endpoints a b).2.2]
  have h2 : 0 ≤ b - a := sub_nonneg.mpr hab
  constructor
  · have := mul_nonneg h0 h2
    exact le_add_of_nonneg_right this
  · have := mul_le_mul_of_nonneg_right h1 h2
    calc a + t * (b - a) ≤ a + 1 * (b - a) := by gcongr
      _ = b := by ring

example : ((0 : F) ≠ 1) ∧ remap (0 : F) 1 10 20 1 = 20 :=
  ⟨zero_ne_one, (C61_remap_endpoints 0 1 10 20 0 zero_ne_one).2.1⟩

end OCG.Props
