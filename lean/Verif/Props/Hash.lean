import Verif.Model.Hash
import Mathlib.Data.Nat.Bitwise
import Mathlib.Tactic.NormNum
/-
Property C19: float hashing distinguishes all bit patterns.
-/

namespace OCG.Props

/-- C19: two 32-bit patterns feed the same data to the hasher only if they are equal. -/
theorem C19_float_hash_injective (a b : Nat) (ha : a < 2 ^ 32) (hb : b < 2 ^ 32)
    (h : hashF32 a = hashF32 b) : a = b := by
  have m : ∀ n : Nat, n &&& 0x7fffff = n % 2 ^ 23 := fun n => Nat.and_two_pow_sub_one_eq_mod n 23
  have e : ∀ n : Nat, n &&& 0xff = n % 2 ^ 8 := fun n => Nat.and_two_pow_sub_one_eq_mod n 8
  have o : ∀ n : Nat, n % 2 ^ 23 ||| 0x800000 = 2 ^ 23 + n % 2 ^ 23 := by
    intro n
    rw [Nat.or_comm]
    exact (Nat.two_pow_add_eq_or_of_lt (Nat.mod_lt n (by decide : 0 < 2 ^ 23)) 1).symm
  simp only [hashF32, integerDecodeF32, m, e, o, Nat.shiftRight_eq_div_pow,
    Nat.shiftLeft_eq, List.cons.injEq, HashItem.u64.injEq, HashItem.i16.injEq,
    HashItem.i8.injEq, and_true] at h
  obtain ⟨h1, h2, h3⟩ := h
  split at h1 <;> split at h1 <;> split at h3 <;> split at h3 <;> simp_all <;> omega

/-- C19 for the hashed values themselves. -/
theorem C19_float_value_hash_injective {F : Type} [FloatBits F] (x y : F)
    (h : hashFloat x = hashFloat y) : x = y :=
  FloatBits.toBits_inj x y
    (C19_float_hash_injective _ _ (FloatBits.toBits_lt x) (FloatBits.toBits_lt y) h)

/-- 1.0, its neighbour, -0.0 and 0.0 feed different data. -/
example : hashF32 0x3f800000 ≠ hashF32 0x3f800001 ∧ hashF32 0x80000000 ≠ hashF32 0 ∧
    hashF32 0x3f800000 = [.u64 0x800000, .i16 (-23), .i8 1] := by decide

/-- Bit patterns themselves are a `FloatBits` type. -/
example : FloatBits (Fin 4294967296) :=
  ⟨Fin.val, fun x => x.isLt, fun _ _ h => Fin.ext h⟩

end OCG.Props
