import Verif.Model.Deform
/-
Model of src/deformer/brownian.rs, a deformer that no node uses yet.
-/

namespace OCG

/-- deformer/brownian.rs:36-51 `DeformerBrownian`. -/
structure BrownianDeformer (F : Type) where
  enable : Int
  xc : F
  yc : F
  k1 : F
  k2 : F
  deriving DecidableEq

namespace BrownianDeformer

variable {F : Type} [FloatLike F]

/-- deformer/brownian.rs:67-77 `default`. -/
def new : BrownianDeformer F := ⟨1, 0, 0, 0, 0⟩

/-- deformer/brownian.rs:53-65 `Hash`. -/
def hashItems [FloatBits F] (d : BrownianDeformer F) : List HashItem :=
  if d.enable = 0 then [.i32 d.enable]
  else [.i32 d.enable] ++ hashFloat d.k1 ++ hashFloat d.k2 ++ hashFloat d.xc ++ hashFloat d.yc

/-- deformer/brownian.rs:92-131 `_apply`; `sqrt` is `f32::sqrt`.  Simplification: `powi` multiplies
repeatedly. -/
def apply (sqrt : F → F) (d : BrownianDeformer F) (xd yd : F) (w : BBoxF F) (inverse : Bool) :
    F × F :=
  let x := Interp.remap w.minX w.maxX 0 1 xd
  let y := Interp.remap w.minY w.maxY 0 1 yd
  let r := sqrt ((xd - d.xc) * (xd - d.xc) + (yd - d.yc) * (yd - d.yc))
  let r2 := r * r
  let r4 := r * r * r * r * FloatLike.ofInt 2
  let (xu, yu) :=
    if inverse = false then
      (x + (x - d.xc) * (d.k1 * r2 + d.k2 * r4), y + (y - d.yc) * (d.k1 * r2 + d.k2 * r4))
    else
      (x - (x - d.xc) * (d.k1 * r2 + d.k2 * r4), y - (y - d.yc) * (d.k1 * r2 + d.k2 * r4))
  (Interp.remap 0 1 w.minX w.maxX xu, Interp.remap 0 1 w.minY w.maxY yu)

/-- The body of the loop of deformer/brownian.rs:151-162. -/
def sliceStep (sqrt : F → F) (d : BrownianDeformer F) (window : BBoxF F) (inverse : Bool)
    (stride i : Nat) (buffer : List F) : Res (List F) := do
  let index := i * stride
  let x ← getAt buffer (index + 0)
  let y ← getAt buffer (index + 1)
  let (xu, yu) := d.apply sqrt x y window inverse
  let buffer ← setAt buffer (index + 0) xu
  setAt buffer (index + 1) yu

/-- deformer/brownian.rs:144-163 `apply_slice_in_place`. -/
def applySlice (sqrt : F → F) (d : BrownianDeformer F) (buffer : List F) (window : BBoxF F)
    (inverse : Bool) (stride : Nat) : Res (List F) :=
  if stride = 0 then .error .explicit
  else forRange (buffer.length / stride) (d.sliceStep sqrt window inverse stride) buffer

/-- deformer/brownian.rs:171-180 `attr_exists`. -/
def attrExists (name : String) : AttrState :=
  match name with
  | "enable" => .exists
  | "k1" => .exists
  | "k2" => .exists
  | "xc" => .exists
  | "yc" => .exists
  | _ => .missing

/-- deformer/brownian.rs:190-195 `get_attr_i32`. -/
def getI32 (d : BrownianDeformer F) (name : String) : Int :=
  match name with
  | "enable" => d.enable
  | _ => 0

/-- deformer/brownian.rs:197-202 `set_attr_i32`. -/
def setI32 (d : BrownianDeformer F) (name : String) (value : Int) : BrownianDeformer F :=
  match name with
  | "enable" => { d with enable := value }
  | _ => d

/-- deformer/brownian.rs:204-212 `get_attr_f32`. -/
def getF32 (d : BrownianDeformer F) (name : String) : F :=
  match name with
  | "k1" => d.k1
  | "k2" => d.k2
  | "xc" => d.xc
  | "yc" => d.yc
  | _ => 0

/-- deformer/brownian.rs:214-222 `set_attr_f32`. -/
def setF32 (d : BrownianDeformer F) (name : String) (value : F) : BrownianDeformer F :=
  match name with
  | "k1" => { d with k1 := value }
  | "k2" => { d with k2 := value }
  | "xc" => { d with xc := value }
  | "yc" => { d with yc := value }
  | _ => d

end BrownianDeformer
end OCG
