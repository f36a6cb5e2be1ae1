import Verif.Model.SipHash
/-
The hash of std's `DefaultHasher` is a 64-bit number.
-/

namespace OCG

/-- All words are below 2^64. -/
structure SipState.Fits (s : SipState) : Prop where
  v0 : s.v0 < 18446744073709551616
  v1 : s.v1 < 18446744073709551616
  v2 : s.v2 < 18446744073709551616
  v3 : s.v3 < 18446744073709551616

theorem add64_lt (a b : Nat) : add64 a b < 18446744073709551616 := Nat.mod_lt _ (by decide)

theorem xor64_lt {a b : Nat} (ha : a < 18446744073709551616) (hb : b < 18446744073709551616) :
    a ^^^ b < 18446744073709551616 := Nat.xor_lt_two_pow (n := 64) ha hb

theorem rotl64_lt {a : Nat} (n : Nat) (ha : a < 18446744073709551616) :
    rotl64 a n < 18446744073709551616 := by
  unfold rotl64
  refine Nat.or_lt_two_pow (n := 64) (Nat.mod_lt _ (by decide)) ?_
  exact Nat.lt_of_le_of_lt (Nat.shiftRight_le _ _) ha

theorem SipState.Fits.round {s : SipState} (h : s.Fits) : s.round.Fits := by
  refine ⟨?_, ?_, ?_, ?_⟩ <;> unfold SipState.round <;> dsimp only
  · exact add64_lt _ _
  · exact xor64_lt (rotl64_lt _ (xor64_lt (rotl64_lt _ h.v1) (add64_lt _ _))) (add64_lt _ _)
  · exact rotl64_lt _ (add64_lt _ _)
  · exact xor64_lt (rotl64_lt _ (xor64_lt (rotl64_lt _ h.v3) (add64_lt _ _))) (add64_lt _ _)

theorem SipState.Fits.word {s : SipState} (h : s.Fits) {m : Nat} (hm : m < 18446744073709551616) :
    (s.word m).Fits := by
  have h1 : ({ s with v3 := s.v3 ^^^ m } : SipState).round.Fits :=
    SipState.Fits.round ⟨h.v0, h.v1, h.v2, xor64_lt h.v3 hm⟩
  exact ⟨xor64_lt h1.v0 hm, h1.v1, h1.v2, h1.v3⟩

theorem leNat_lt : ∀ b : List Nat, leNat b < 256 ^ b.length
  | [] => by simp [leNat]
  | x :: b => by
    have h1 := leNat_lt b
    rw [leNat, List.length_cons, Nat.pow_succ]
    omega

theorem leNat_word {b : List Nat} (h : b.length ≤ 8) : leNat b < 18446744073709551616 :=
  Nat.lt_of_lt_of_le (leNat_lt b) (Nat.le_trans (Nat.pow_le_pow_right (by decide) h) (by decide))

theorem last_lt {b : List Nat} (length : Nat) (h : b.length ≤ 8) :
    leNat b ||| (length % 256) <<< 56 < 18446744073709551616 := by
  refine Nat.or_lt_two_pow (n := 64) (leNat_word h) ?_
  rw [Nat.shiftLeft_eq]
  omega

theorem SipState.Fits.absorb (length : Nat) : ∀ (n : Nat) (b : List Nat), b.length ≤ n →
    ∀ {s : SipState}, s.Fits → (SipState.absorb length s b).Fits := by
  intro n
  induction n with
  | zero =>
    intro b hb s h
    have e : b = [] := List.length_eq_zero_iff.mp (by omega)
    subst e
    rw [SipState.absorb]
    · exact h.word (last_lt length (by simp))
    · intros; simp_all
  | succ n ih =>
    intro b hb s h
    unfold SipState.absorb
    split
    · refine ih _ (by simp at hb; omega) (h.word (leNat_word (by simp)))
    · rename_i hne
      refine h.word (last_lt length ?_)
      match b with
      | [] | [_] | [_, _] | [_, _, _] | [_, _, _, _] | [_, _, _, _, _] | [_, _, _, _, _, _]
      | [_, _, _, _, _, _, _] => simp
      | a :: b :: c :: d :: e :: f :: g :: h :: rest => exact (hne a b c d e f g h rest rfl).elim

theorem sipHash_lt (b : List Nat) : sipHash b < 2 ^ 64 := by
  have h0 : SipState.init.Fits := by
    refine ⟨?_, ?_, ?_, ?_⟩ <;> decide
  have h1 := SipState.Fits.absorb b.length b.length b (Nat.le_refl _) h0
  have h2 := (SipState.Fits.round (s := { SipState.absorb b.length SipState.init b with
    v2 := (SipState.absorb b.length SipState.init b).v2 ^^^ 255 })
    ⟨h1.v0, h1.v1, xor64_lt h1.v2 (by decide), h1.v3⟩).round.round
  exact xor64_lt (xor64_lt (xor64_lt h2.v0 h2.v1) h2.v2) h2.v3

end OCG
