import Verif.Spec.Lens
/-
The documented formula of the Brownian lens model (the comment in deformer/brownian.rs:79-91).
-/

namespace OCG.BrownianSpec

variable {F : Type} [Field F] [LinearOrder F]

/-- `xu = xd + (xd - xc) * (k1 * r^2 + k2 * r^4)`, and the same for y, where `r` is the distance from
the centre. -/
def undistorted (xc yc k1 k2 : F) (q : F × F) : F × F :=
  let rr := (q.1 - xc) ^ 2 + (q.2 - yc) ^ 2
  (q.1 + (q.1 - xc) * (k1 * rr + k2 * rr ^ 2), q.2 + (q.2 - yc) * (k1 * rr + k2 * rr ^ 2))

/-- Square roots of numbers that are not negative. -/
def IsSqrt (sqrt : F → F) : Prop := ∀ s, 0 ≤ s → sqrt s * sqrt s = s

end OCG.BrownianSpec
