import Verif.Model.Hash
import Verif.Model.Xform
/-
The floating point types of Rust: `f32`, `f64` and the `half` crate's `f16` (all external to
/repo), as IEEE 754 binary formats with rounding to nearest, ties to even.

`f32` values appear all over /repo (for example ops/colorgrade.rs:28-79, math/interp.rs:27-43,
pixelblock/utils.rs:30-117); `f64` is the type of frames (data.rs:36)
and `f16` of half-float pixels (pixelblock/datablock.rs:22).

Simplifications: every operation that gives a NaN gives the same NaN (Rust leaves the payload
open); `powf`, `sin` and `cos` are arbitrary functions, because Rust leaves their precision open.
-/

namespace OCG

/-- A binary format: the number of fraction bits, the exponent field of infinities and NaNs, and
the exponent of the smallest positive value (2 to the minus `unit`). -/
structure Format where
  mant : Nat
  expMax : Nat
  unit : Nat

/-- binary16, the `half` crate's `f16` (pixelblock/datablock.rs:22). -/
abbrev half16 : Format := ⟨10, 31, 24⟩
/-- binary32, Rust's `f32` (e.g. ops/colorgrade.rs:28-38). -/
abbrev single32 : Format := ⟨23, 255, 149⟩
/-- binary64, Rust's `f64` (data.rs:36 `FrameValue`). -/
abbrev double64 : Format := ⟨52, 2047, 1074⟩

/-- A value: the sign bit and the other bits (exponent field and fraction) as a number. -/
structure Ieee (f : Format) where
  neg : Bool
  code : Nat
  lt : code < (f.expMax + 1) * 2 ^ f.mant
  deriving DecidableEq

/-- Rust's `f32` (e.g. ops/colorgrade.rs:28-38). -/
abbrev F32 := Ieee single32
/-- Rust's `f64` (data.rs:36). -/
abbrev F64 := Ieee double64
/-- The `half` crate's `f16` (pixelblock/datablock.rs:22). -/
abbrev F16 := Ieee half16

namespace Ieee

/-- The code of infinity; larger codes are NaNs (IEEE 754, 3.4). -/
def infCode (f : Format) : Nat := f.expMax * 2 ^ f.mant

theorem infCode_lt (f : Format) : infCode f < (f.expMax + 1) * 2 ^ f.mant :=
  Nat.mul_lt_mul_of_pos_right (Nat.lt_succ_self _) (Nat.pow_pos (by decide))

/-- The magnitude of a finite value as a multiple of 2 to the minus `unit` (IEEE 754, 3.4:
exponent field 0 is subnormal, otherwise there is a hidden bit). -/
def units (f : Format) (c : Nat) : Nat :=
  if c < 2 ^ f.mant then c else (2 ^ f.mant + c % 2 ^ f.mant) * 2 ^ (c / 2 ^ f.mant - 1)

/-- The code of `num / den` (a multiple of 2 to the minus `unit`) rounded to nearest, ties to
even, as if the exponent were unbounded above (IEEE 754, 4.3.1). -/
def nearestCode (f : Format) (num den : Nat) : Nat :=
  let s := (num / den).log2 - f.mant
  let d := den * 2 ^ s
  let n := num / d
  let r := num % d
  s * 2 ^ f.mant + (if d < 2 * r ∨ (2 * r = d ∧ n % 2 = 1) then n + 1 else n)

variable {f : Format}

/-- A value from its sign and code, overflowing to infinity (IEEE 754, 7.4). -/
def pack (neg : Bool) (code : Nat) : Ieee f :=
  ⟨neg, min code (infCode f), Nat.lt_of_le_of_lt (Nat.min_le_right _ _) (infCode_lt f)⟩

/-- The rounded value of `num / den` units. -/
def rounded (neg : Bool) (num den : Nat) : Ieee f := pack neg (nearestCode f num den)

/-- Zero with a sign. -/
def zero (neg : Bool) : Ieee f := pack neg 0

/-- Infinity with a sign. -/
def inf (neg : Bool) : Ieee f := pack neg (infCode f)

/-- The NaN given by operations (see the simplifications above).  `mant` is not 0 in the formats
used. -/
def nan : Ieee f :=
  ⟨false, (f.expMax + 1) * 2 ^ f.mant - 1,
    Nat.sub_lt (Nat.mul_pos (Nat.succ_pos _) (Nat.pow_pos (by decide))) (by decide)⟩

def isNan (x : Ieee f) : Bool := decide (infCode f < x.code)
def isInf (x : Ieee f) : Bool := decide (x.code = infCode f)
def isFinite (x : Ieee f) : Bool := decide (x.code < infCode f)

/-- The magnitude in units. -/
def mag (x : Ieee f) : Nat := units f x.code

/-- The value in units. -/
def int (x : Ieee f) : Int := if x.neg then -(x.mag : Int) else x.mag

/-- The position in the order of the finite and infinite values; both zeros are at 0. -/
def key (x : Ieee f) : Int := if x.neg then -(x.code : Int) else x.code

/-- `-x` -/
def opp (x : Ieee f) : Ieee f := ⟨!x.neg, x.code, x.lt⟩

/-- `x + y` (IEEE 754, 5.4.1, 6.1 and 6.3). -/
def add (x y : Ieee f) : Ieee f :=
  if x.isNan || y.isNan then nan
  else if x.isInf then (if y.isInf && x.neg != y.neg then nan else x)
  else if y.isInf then y
  else if x.int + y.int = 0 then zero (x.neg && y.neg)
  else rounded (decide (x.int + y.int < 0)) (x.int + y.int).natAbs 1

/-- `x - y` -/
def sub (x y : Ieee f) : Ieee f := add x y.opp

/-- `x * y` -/
def mul (x y : Ieee f) : Ieee f :=
  if x.isNan || y.isNan then nan
  else if x.isInf || y.isInf then (if x.code = 0 ∨ y.code = 0 then nan else inf (x.neg != y.neg))
  else rounded (x.neg != y.neg) (x.mag * y.mag) (2 ^ f.unit)

/-- `x / y` -/
def div (x y : Ieee f) : Ieee f :=
  if x.isNan || y.isNan then nan
  else if x.isInf then (if y.isInf then nan else inf (x.neg != y.neg))
  else if y.isInf then zero (x.neg != y.neg)
  else if y.code = 0 then (if x.code = 0 then nan else inf (x.neg != y.neg))
  else rounded (x.neg != y.neg) (x.mag * 2 ^ f.unit) y.mag

/-- `x < y` -/
def ltb (x y : Ieee f) : Bool := !x.isNan && !y.isNan && decide (x.key < y.key)

/-- `x == y` -/
def eqb (x y : Ieee f) : Bool := !x.isNan && !y.isNan && decide (x.key = y.key)

/-- `n as f32` for integers. -/
def ofInt (n : Int) : Ieee f := rounded (decide (n < 0)) (n.natAbs * 2 ^ f.unit) 1

/-- The integer part, towards zero. -/
def trunc (x : Ieee f) : Int :=
  if x.neg then -((x.mag / 2 ^ f.unit : Nat) : Int) else (x.mag / 2 ^ f.unit : Nat)

/-- `x as i32` and the like: truncated and saturated to a range; NaN gives 0. -/
def toRange (lo hi : Int) (x : Ieee f) : Int :=
  if x.isNan then 0 else max lo (min hi x.trunc)

/-- The value with the sign of `x` and the integer `n` as magnitude, or `x` itself when it is
infinite or NaN. -/
def integral (x : Ieee f) (n : Nat) : Ieee f :=
  if x.isFinite then rounded x.neg (n * 2 ^ f.unit) 1 else x

/-- `x.floor()` -/
def floor (x : Ieee f) : Ieee f :=
  x.integral (if x.neg then (x.mag + 2 ^ f.unit - 1) / 2 ^ f.unit else x.mag / 2 ^ f.unit)

/-- `x.ceil()` -/
def ceil (x : Ieee f) : Ieee f :=
  x.integral (if x.neg then x.mag / 2 ^ f.unit else (x.mag + 2 ^ f.unit - 1) / 2 ^ f.unit)

/-- `x.round()`, halves away from zero. -/
def round (x : Ieee f) : Ieee f :=
  x.integral ((2 * x.mag + 2 ^ f.unit) / (2 * 2 ^ f.unit))

/-- Conversion to another format (`as`, `f16::from_f32`, `f32::from`). -/
def convert {g : Format} (x : Ieee f) : Ieee g :=
  if x.isNan then nan
  else if x.isInf then inf x.neg
  else rounded x.neg (x.mag * 2 ^ g.unit) (2 ^ f.unit)

end Ieee

/-- The functions whose precision Rust leaves open. -/
class Libm (f : Format) where
  powf : Ieee f → Ieee f → Ieee f
  sin : Ieee f → Ieee f
  cos : Ieee f → Ieee f

/-- Rust's floating point numbers are an instance of the interface used by the model. -/
instance ieeeFloat {f : Format} [Libm f] : FloatLike (Ieee f) where
  add := Ieee.add
  sub := Ieee.sub
  mul := Ieee.mul
  div := Ieee.div
  neg := Ieee.opp
  zero := Ieee.zero false
  one := Ieee.ofInt 1
  lt := Ieee.ltb
  eq := Ieee.eqb
  ofInt := Ieee.ofInt
  toI32 := Ieee.toRange (-2147483648) 2147483647
  toU8 x := Fin.ofNat 256 (Ieee.toRange 0 255 x).toNat
  toU16 x := Fin.ofNat 65536 (Ieee.toRange 0 65535 x).toNat
  powf := Libm.powf
  round := Ieee.round
  floor := Ieee.floor
  ceil := Ieee.ceil
  sin := Libm.sin
  cos := Libm.cos

/-- `f16::from_f32` and `f32::from` (the `half` crate). -/
instance ieeeHalf : HalfLike F32 F16 where
  ofF32 := Ieee.convert
  toF32 := Ieee.convert

/-- `mem::transmute` to `u32` (hashutils.rs:64). -/
instance ieeeBits : FloatBits F32 where
  toBits x := (if x.neg then 2147483648 else 0) + x.code
  toBits_lt x := by
    have h := x.lt
    change x.code < (255 + 1) * 2 ^ 23 at h
    split <;> omega
  toBits_inj x y h := by
    obtain ⟨a, c, hc⟩ := x
    obtain ⟨b, d, hd⟩ := y
    change c < (255 + 1) * 2 ^ 23 at hc
    change d < (255 + 1) * 2 ^ 23 at hd
    cases a <;> cases b <;> simp at h ⊢ <;> omega

/-- `std::f32::consts::PI`, 0x40490fdb (math/xform.rs:50). -/
instance ieeePi : FloatConst F32 where
  pi := ⟨false, 0x40490fdb, by decide⟩

end OCG
