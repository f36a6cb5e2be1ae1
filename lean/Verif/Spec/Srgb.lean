import Mathlib.Analysis.SpecialFunctions.Pow.Real
/-
The sRGB curve (IEC 61966-2-1) in real numbers, and images that lose at most one level.
-/

namespace OCG.SrgbSpec

/-- From a signal to linear light. -/
noncomputable def decode (v : ℝ) : ℝ :=
  if v ≤ 0.04045 then v / 12.92 else ((v + 0.055) / 1.055) ^ (2.4 : ℝ)

/-- From linear light to a signal. -/
noncomputable def encode (l : ℝ) : ℝ :=
  if l ≤ 0.0031308 then 12.92 * l else 1.055 * l ^ (1 / 2.4 : ℝ) - 0.055

/-- Samples that are the same, or one level darker. -/
def OneLevel (a b : List (Fin 256)) : Prop :=
  a.length = b.length ∧ ∀ (i : Nat) (x y : Fin 256), a[i]? = some x → b[i]? = some y →
    y.val = x.val ∨ y.val + 1 = x.val

end OCG.SrgbSpec
