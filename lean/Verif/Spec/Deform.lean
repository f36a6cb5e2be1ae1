import Verif.Model.Deform
import Verif.Spec.Pixels
/-
What applying deformers should do.
-/

namespace OCG.DeformSpec

variable {F : Type} [FloatLike F] [FloatConst F]

/-- The point `q` is carried to `r` by the deformers that are switched on, one after the other
in list order. -/
inductive Carried (lib : DeformLib F) (window : BBoxF F) (inverse : Bool) :
    List (Deformer F) → F × F → F × F → Prop
  | nil {q} : Carried lib window inverse [] q q
  | off {d ds q r} : d.enable ≠ 1 → Carried lib window inverse ds q r →
      Carried lib window inverse (d :: ds) q r
  | on {d ds q q' r} : d.enable = 1 → d.point lib window inverse q.1 q.2 = .ok q' →
      Carried lib window inverse ds q' r → Carried lib window inverse (d :: ds) q r

/-- Lens deformers have one of the two known directions; the code panics for other values. -/
def Usable : Deformer F → Prop
  | .transform _ => True
  | .tde4 d => d.direction = 0 ∨ d.direction = 1

/-- The deformer's two directions undo each other: mapping a point backwards and then forwards
gives the point back. -/
def Undoes (lib : DeformLib F) (window : BBoxF F) (d : Deformer F) : Prop :=
  ∀ x y, ∃ q : F × F, d.point lib window true x y = .ok q ∧
    d.point lib window false q.1 q.2 = .ok (x, y)

/-- `out` is the buffer of `n`-component points `buf` with the first two components of every
complete point carried by `move`, and everything else kept. -/
structure Moved (n : Nat) (move : F × F → F × F → Prop) (buf out : List F) : Prop where
  length : out.length = buf.length
  points : ∀ i, i < buf.length / n → ∀ x y x' y',
    buf[i * n]? = some x → buf[i * n + 1]? = some y →
    out[i * n]? = some x' → out[i * n + 1]? = some y' → move (x, y) (x', y')
  others : ∀ k, (k % n ≠ 0 ∧ k % n ≠ 1 ∨ buf.length / n * n ≤ k) → out[k]? = buf[k]?

end OCG.DeformSpec
