/-
Common conventions of the model: build profiles, panics, machine arithmetic.
-/

namespace OCG

/-- Cargo build profile.  `debug` is the default `cargo build` profile (overflow
checks on); `release` is configured in Cargo.toml:61-75, with
`overflow-checks = false` (Cargo.toml:65), so unsigned arithmetic wraps. -/
inductive Profile where
  | debug
  | release
  deriving DecidableEq, Repr

/-- Reasons for which the Rust code panics.  Model-only enumeration: the Rust
code aborts the process in all these cases (Cargo.toml:69 `panic = "abort"`). -/
inductive Panic where
  /-- arithmetic overflow, detected in debug builds only -/
  | overflow
  /-- a failed `assert!`/`assert_eq!` -/
  | assertion
  /-- slice or `Vec` index out of range, or a petgraph index of a missing node -/
  | index
  /-- `panic!("Parent node index is missing")`, graph.rs:384 and graph.rs:408 -/
  | missingParent
  /-- any other explicit `panic!` or `unwrap` on a failure -/
  | explicit
  /-- not a panic: a `while` loop has not finished within the iterations given to the model -/
  | unfinished
  deriving DecidableEq, Repr

/-- A computation that may panic. -/
abbrev Res := Except Panic

theorem Res.bind_ok {α β : Type} {x : Res α} {f : α → Res β} {y : β} :
    (x >>= f) = .ok y ↔ ∃ a, x = .ok a ∧ f a = .ok y := by
  cases x <;> simp [bind, Except.bind]

theorem Res.bind_error {α β : Type} {x : Res α} {f : α → Res β} {e : Panic} :
    (x >>= f) = .error e ↔ x = .error e ∨ ∃ a, x = .ok a ∧ f a = .error e := by
  cases x <;> simp [bind, Except.bind]

/-- Rust's `assert!` and `assert_eq!`. -/
def ensure (c : Prop) [Decidable c] : Res Unit := if c then .ok () else .error .assertion

theorem ensure_ok {c : Prop} [Decidable c] (h : c) : ensure c = .ok () := if_pos h

theorem ensure_error {c : Prop} [Decidable c] (h : ¬ c) : ensure c = .error .assertion := if_neg h

/-- The number 2^64, hidden from the kernel's reduction (an `opaque` constant with its
defining property, so that type checking never computes with it in unary). -/
opaque usizeModBox : { n : Nat // n = 2 ^ 64 } := ⟨2 ^ 64, rfl⟩

/-- Number of values of `usize` on the supported 64-bit platforms. -/
def usizeMod : Nat := usizeModBox.1

theorem usizeMod_eq : usizeMod = 2 ^ 64 := usizeModBox.2

/-- The number 2^63, hidden in the same way. -/
opaque allocLimitBox : { n : Nat // n = 2 ^ 63 } := ⟨2 ^ 63, rfl⟩

/-- Rust never allocates more than `isize::MAX` bytes, so every image is smaller than
this many bytes. -/
def allocLimit : Nat := allocLimitBox.1

theorem allocLimit_eq : allocLimit = 2 ^ 63 := allocLimitBox.2

/-- `a - b` on `usize`: panics in debug when `b > a`, wraps in release
(used by cache.rs:119, 139, 140, 222). -/
def usub (p : Profile) (a b : Nat) : Res Nat :=
  if b ≤ a then .ok (a - b)
  else match p with
    | .debug => .error .overflow
    | .release => .ok (a + usizeMod - b)

/-- Deciding whether a number is a `usize` by the number of its binary digits, which the kernel can
compute. -/
@[instance_reducible] def fitsUsize (n : Nat) : Decidable (n < usizeMod) :=
  decidable_of_iff (n.log2 < 64) (by
    rw [usizeMod_eq]
    by_cases h : n = 0
    · subst h; exact ⟨fun _ => Nat.two_pow_pos 64, fun _ => by decide⟩
    · exact Nat.log2_lt h)

attribute [local instance] fitsUsize

/-- `a + b` on `usize`: panics in debug on overflow, wraps in release
(used by cache.rs:137, 145). -/
def uadd (p : Profile) (a b : Nat) : Res Nat :=
  if a + b < usizeMod then .ok (a + b)
  else match p with
    | .debug => .error .overflow
    | .release => .ok ((a + b) % usizeMod)

/-- `a * b` on `usize`: panics in debug on overflow, wraps in release
(used by deformutils.rs:111 and ops/pixelremap.rs:54). -/
def umul (p : Profile) (a b : Nat) : Res Nat :=
  if a * b < usizeMod then .ok (a * b)
  else match p with
    | .debug => .error .overflow
    | .release => .ok (a * b % usizeMod)

theorem umul_small {p : Profile} {a b : Nat} (h : a * b < usizeMod) :
    umul p a b = .ok (a * b) := by
  unfold umul; rw [if_pos h]

end OCG
