import Verif.Model.Float
/-
Model of src/math/interp.rs.
-/

namespace OCG.Interp

variable {F : Type} [FloatLike F]

/-- math/interp.rs:27-30 `lerp`. -/
def lerp (minValue maxValue mix : F) : F := (1 - mix) * minValue + mix * maxValue

/-- math/interp.rs:34-36 `inverse_lerp`. -/
def inverseLerp (minValue maxValue mix : F) : F := (mix - minValue) / (maxValue - minValue)

/-- math/interp.rs:40-43 `remap`. -/
def remap (oldMin oldMax newMin newMax mix : F) : F :=
  lerp newMin newMax (inverseLerp oldMin oldMax mix)

end OCG.Interp
