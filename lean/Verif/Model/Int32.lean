import Verif.Model.Prelude
/-
Machine integers other than `usize`: `i32` and `u32`, and the casts between them.
-/

namespace OCG

/-- Values an `i32` can have. -/
def InI32 (x : Int) : Prop := -2147483648 ≤ x ∧ x ≤ 2147483647

instance (x : Int) : Decidable (InI32 x) := by unfold InI32; infer_instance

/-- Wrap an exact integer to `i32` (two's complement). -/
def wrapI32 (x : Int) : Int := x.bmod 4294967296

/-- Result of an `i32` operation whose exact result is `x`: overflow panics in debug builds
and wraps in release builds (Cargo.toml:65 `overflow-checks = false`). -/
def i32 (p : Profile) (x : Int) : Res Int :=
  if InI32 x then .ok x
  else match p with
    | .debug => .error .overflow
    | .release => .ok (wrapI32 x)

/-- Rust's `as u32` on an `i32` value. -/
def asU32 (x : Int) : Nat := (x % 4294967296).toNat

/-- Rust's `as usize` on an `i32` value (sign extension to 64 bits). -/
def asUsize (x : Int) : Nat := if 0 ≤ x then x.toNat else usizeMod - x.natAbs

theorem i32_of {p : Profile} {x : Int} (h : InI32 x) : i32 p x = .ok x := by
  unfold i32; rw [if_pos h]

theorem asUsize_of_nonneg {x : Int} (h : 0 ≤ x) : asUsize x = x.toNat := by
  unfold asUsize; rw [if_pos h]

end OCG
