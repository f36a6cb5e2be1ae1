import Verif.Model.Float
/-
Model of src/hashutils.rs: what `Hash` implementations feed to a `Hasher`.
-/

namespace OCG

/-- One `Hasher::write_*` call (std::hash::Hasher, external).  A hash value is an arbitrary
function of the list of these calls, see `HashFn`. -/
inductive HashItem where
  | u8 (n : Nat)
  | u32 (n : Nat)
  | u64 (n : Nat)
  | usize (n : Nat)
  | i8 (n : Int)
  | i16 (n : Int)
  | i32 (n : Int)
  /-- `write` of a byte slice -/
  | bytes (b : List Nat)
  /-- discriminant of an enumeration value (written by derived `Hash` implementations) -/
  | tag (n : Nat)
  deriving DecidableEq, Repr

/-- hashutils.rs:30-34 `calculate_hash`: the `FxHasher` as a function of everything fed to
it.  Simplification: an arbitrary function; theorems about absent collisions assume that it
is injective. -/
abbrev HashFn := List HashItem → Nat

/-- Strings are held as their UTF-8 bytes. -/
abbrev Bytes := List Nat

/-- `impl Hash for str` (std): the bytes and a terminator. -/
def hashStr (s : Bytes) : List HashItem := [.bytes s, .u8 255]

/-- hashutils.rs:36-38 `generate_id_from_name`. -/
def generateIdFromName (hf : HashFn) (name : Bytes) : Nat := hf (hashStr name)

/-- hashutils.rs:63-75 `integer_decode_f32`, on the bit pattern of the value. -/
def integerDecodeF32 (bits : Nat) : Nat × Int × Int :=
  let sign : Int := if bits >>> 31 = 0 then 1 else -1
  let exponent : Nat := (bits >>> 23) &&& 0xff
  let mantissa : Nat :=
    if exponent = 0 then (bits &&& 0x7fffff) <<< 1 else (bits &&& 0x7fffff) ||| 0x800000
  (mantissa, (exponent : Int) - (127 + 23), sign)

/-- hashutils.rs:86-93 `HashableF32` with its derived `Hash` (the three tuple fields in
order). -/
def hashF32 (bits : Nat) : List HashItem :=
  let d := integerDecodeF32 bits
  [.u64 d.1, .i16 d.2.1, .i8 d.2.2]

/-- `f32` values as bit patterns (`mem::transmute`, hashutils.rs:64). -/
class FloatBits (F : Type) where
  toBits : F → Nat
  toBits_lt : ∀ x, toBits x < 4294967296
  toBits_inj : ∀ x y, toBits x = toBits y → x = y

/-- The items an `f32` attribute contributes to a hash (hashutils.rs:89-92). -/
def hashFloat {F : Type} [FloatBits F] (x : F) : List HashItem := hashF32 (FloatBits.toBits x)

end OCG
