import Verif.Model.Hash
/-
Model of `rustc_hash::FxHasher` (version 1.1.0, Cargo.lock:620; external) on a little-endian 64-bit
machine.  hashutils.rs:30-34 `calculate_hash` uses it; node names become identifiers that way.
-/

namespace OCG

/-- rustc_hash `SEED64`. -/
def fxSeed : Nat := 5871781006564002453

/-- `usize::rotate_left(5)` (core). -/
def rotl5 (h : Nat) : Nat := (h <<< 5) % 18446744073709551616 ||| h >>> 59

/-- rustc_hash `add_to_hash`. -/
def fxAdd (h w : Nat) : Nat := (rotl5 h ^^^ w) * fxSeed % 18446744073709551616

/-- `from_ne_bytes` of some bytes, little-endian. -/
def leWord : Bytes → Nat
  | [] => 0
  | b :: rest => b + 256 * leWord rest

/-- The end of rustc_hash `write`: at most one word each of 4, 2 and 1 bytes. -/
def fxTail (b : Bytes) : List Nat :=
  let r4 := if 4 ≤ b.length then ([leWord (b.take 4)], b.drop 4) else ([], b)
  let r2 := if 2 ≤ r4.2.length then ([leWord (r4.2.take 2)], r4.2.drop 2) else ([], r4.2)
  let r1 := if 1 ≤ r2.2.length then [leWord (r2.2.take 1)] else []
  r4.1 ++ r2.1 ++ r1

/-- rustc_hash `write`: the words added to the hash. -/
def fxWords : Bytes → List Nat
  | a :: b :: c :: d :: e :: f :: g :: h :: rest => leWord [a, b, c, d, e, f, g, h] :: fxWords rest
  | tail => fxTail tail

/-- The words that one `Hasher::write_*` call adds to the hash (rustc_hash; signed numbers are cast
to unsigned ones of the same size by std). -/
def HashItem.fxWords : HashItem → List Nat
  | .u8 n => [n]
  | .u32 n => [n]
  | .u64 n => [n]
  | .usize n => [n]
  | .i8 n => [(n % 256).toNat]
  | .i16 n => [(n % 65536).toNat]
  | .i32 n => [(n % 4294967296).toNat]
  | .bytes b => OCG.fxWords b
  | .tag n => [n]

/-- hashutils.rs:30-34 `calculate_hash`, with `FxHasher` as it is. -/
def fxHash : HashFn := fun items => (items.flatMap HashItem.fxWords).foldl fxAdd 0

end OCG
