import Verif.Model.Ieee
/-
`fastapprox::faster::pow` of the crate fastapprox 0.3.0 (Cargo.toml:18), an external function that
colorutils.rs:26-44 uses: powers by reading the bits of a float as a logarithm.  The source of the
crate is not part of the repository; this is the published algorithm.
-/

namespace OCG.FastPow

open Ieee

/-- The `f32` with the given bits (`mem::transmute`). -/
def ofBits (n : Nat) : F32 :=
  if h : n % 2147483648 < (single32.expMax + 1) * 2 ^ single32.mant then
    ⟨decide (2147483648 ≤ n), n % 2147483648, h⟩
  else nan

/-- The literal `126.94269504`, a multiple of 2^-17. -/
def offset : F32 := div (ofInt 16638633) (ofInt 131072)

/-- `faster::log2`; the factor is 2^-23. -/
def log2 (x : F32) : F32 :=
  sub (mul (ofInt (FloatBits.toBits x)) (div (ofInt 1) (ofInt 8388608))) offset

/-- `faster::pow2`. -/
def pow2 (p : F32) : F32 :=
  let clipped := if ltb p (ofInt (-126)) then ofInt (-126) else p
  ofBits (toRange 0 4294967295 (mul (ofInt 8388608) (add clipped offset))).toNat

/-- `faster::pow`. -/
def pow (x p : F32) : F32 := pow2 (mul p (log2 x))

end OCG.FastPow
