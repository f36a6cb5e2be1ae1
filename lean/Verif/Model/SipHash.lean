import Verif.Model.NodeHash
/-
Model of std's `DefaultHasher::new()` (SipHash-1-3 with both keys zero; external), which
node/traits.rs:70, colorlutimage.rs:151, 240 and colorop.rs:76 use.
-/

namespace OCG

/-- The four words of state (core::hash::sip `State`). -/
structure SipState where
  v0 : Nat
  v1 : Nat
  v2 : Nat
  v3 : Nat
  deriving DecidableEq, Repr

/-- `u64::wrapping_add`. -/
def add64 (a b : Nat) : Nat := (a + b) % 18446744073709551616

/-- `u64::rotate_left`. -/
def rotl64 (a n : Nat) : Nat := (a <<< n) % 18446744073709551616 ||| a >>> (64 - n)

/-- core::hash::sip `Sip13Rounds::c_rounds`: one round. -/
def SipState.round (s : SipState) : SipState :=
  let v0 := add64 s.v0 s.v1
  let v2 := add64 s.v2 s.v3
  let v1 := rotl64 s.v1 13 ^^^ v0
  let v3 := rotl64 s.v3 16 ^^^ v2
  let v0 := rotl64 v0 32
  let v2 := add64 v2 v1
  let v0 := add64 v0 v3
  let v1 := rotl64 v1 17 ^^^ v2
  let v2 := rotl64 v2 32
  let v3 := rotl64 v3 21 ^^^ v0
  ⟨v0, v1, v2, v3⟩

/-- core::hash::sip, a word of the message goes in. -/
def SipState.word (s : SipState) (m : Nat) : SipState :=
  let s := ({ s with v3 := s.v3 ^^^ m } : SipState).round
  { s with v0 := s.v0 ^^^ m }

/-- core::hash::sip `reset` with the keys 0 and 0. -/
def SipState.init : SipState :=
  ⟨8317987319222330741, 7237128888997146477, 7816392313619706465, 8387220255154660723⟩

/-- A number from little-endian bytes (`u8`, so each is below 256). -/
def leNat : List Nat → Nat
  | [] => 0
  | b :: rest => b % 256 + 256 * leNat rest

/-- core::hash::sip: whole words of eight bytes first, then what is left with the length. -/
def SipState.absorb (length : Nat) : SipState → List Nat → SipState
  | s, a :: b :: c :: d :: e :: f :: g :: h :: rest =>
    SipState.absorb length (s.word (leNat [a, b, c, d, e, f, g, h])) rest
  | s, rest => s.word (leNat rest ||| (length % 256) <<< 56)

/-- core::hash::sip `finish` of `DefaultHasher::new()` that was fed these bytes. -/
def sipHash : ByteHash := fun bytes =>
  let s := SipState.init.absorb bytes.length bytes
  let s := ({ s with v2 := s.v2 ^^^ 255 } : SipState).round.round.round
  s.v0 ^^^ s.v1 ^^^ s.v2 ^^^ s.v3

end OCG
