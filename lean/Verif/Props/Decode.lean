import Verif.Props.Hash
import Verif.Proofs.Ieee
/-
Property C19 in IEEE arithmetic: the numbers that are hashed for a float describe its value.
-/

namespace OCG.Props

open IeeeSpec

/-- C19: the mantissa, the exponent and the sign that are hashed for a finite value say what the
value is. -/
theorem C19_decode (x : F32) :
    let d := integerDecodeF32 (FloatBits.toBits x)
    x.code / 2 ^ 23 < 255 → val x = (d.2.2 : ℚ) * d.1 * 2 ^ d.2.1 := by
  intro d hx
  have hl : x.code < (255 + 1) * 2 ^ 23 := x.lt
  have m : ∀ n : Nat, n &&& 0x7fffff = n % 2 ^ 23 := fun n => Nat.and_two_pow_sub_one_eq_mod n 23
  have e : ∀ n : Nat, n &&& 0xff = n % 2 ^ 8 := fun n => Nat.and_two_pow_sub_one_eq_mod n 8
  have o : ∀ n : Nat, n % 2 ^ 23 ||| 0x800000 = 2 ^ 23 + n % 2 ^ 23 := by
    intro n
    rw [Nat.or_comm]
    exact (Nat.two_pow_add_eq_or_of_lt (Nat.mod_lt n (by decide : 0 < 2 ^ 23)) 1).symm
  have hb : FloatBits.toBits x = (if x.neg then 2147483648 else 0) + x.code := rfl
  have h1 : FloatBits.toBits x % 2 ^ 23 = x.code % 2 ^ 23 := by rw [hb]; split <;> omega
  have h2 : FloatBits.toBits x / 2 ^ 23 % 2 ^ 8 = x.code / 2 ^ 23 := by rw [hb]; split <;> omega
  have h3 : (FloatBits.toBits x / 2 ^ 31 = 0) ↔ x.neg = false := by
    rw [hb]; split <;> simp_all <;> omega
  simp only [d, integerDecodeF32, m, e, o, Nat.shiftRight_eq_div_pow, Nat.shiftLeft_eq, h1, h2, h3]
  unfold val
  simp only [single32]
  generalize x.code % 2 ^ 23 = f
  generalize x.code / 2 ^ 23 = k
  have hs : (((if x.neg = false then 1 else -1 : ℤ)) : ℚ) = if x.neg then -1 else 1 := by
    cases x.neg <;> rfl
  rw [hs, mul_assoc]
  congr 1
  split
  · rename_i hk
    subst hk
    push_cast
    norm_num
    ring
  · push_cast
    rw [show (23 : ℤ) + k - 1 - 149 = 23 + ((k : ℤ) - (127 + 23)) by ring,
      zpow_add₀ (by norm_num : (2 : ℚ) ≠ 0)]
    norm_num
    ring

/-- 0.15625 is hashed as 10485760 times 2 to the -26. -/
example : ∃ x : F32, x.code = 0x3e200000 ∧ val x = 5 / 32 ∧
    integerDecodeF32 (FloatBits.toBits x) = (10485760, -26, 1) := by
  refine ⟨⟨false, 0x3e200000, by decide⟩, rfl, ?_, by decide⟩
  rw [C19_decode _ (by decide), show integerDecodeF32 (FloatBits.toBits
    (⟨false, 0x3e200000, by decide⟩ : F32)) = (10485760, -26, 1) by decide]
  norm_num

end OCG.Props
