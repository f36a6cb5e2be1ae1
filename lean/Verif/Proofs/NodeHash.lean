import Verif.Spec.NodeHash
import Verif.Props.Hash
/-
Reading the byte stream of a node hash back.
-/

namespace OCG

theorem leBytes_length (k n : Nat) : (leBytes k n).length = k := by
  induction k generalizing n with
  | zero => rfl
  | succ k ih => simp [leBytes, ih]

theorem leBytes_inj (k : Nat) {m n : Nat} (hm : m < 256 ^ k) (hn : n < 256 ^ k)
    (h : leBytes k m = leBytes k n) : m = n := by
  induction k generalizing m n with
  | zero => simp at hm hn; omega
  | succ k ih =>
    rw [pow_succ] at hm hn
    simp only [leBytes, List.cons.injEq] at h
    have := ih (Nat.div_lt_of_lt_mul (by omega)) (Nat.div_lt_of_lt_mul (by omega)) h.2
    omega

theorem leBytes_append {k m n : Nat} {x y : List Nat} (hm : m < 256 ^ k) (hn : n < 256 ^ k) :
    leBytes k m ++ x = leBytes k n ++ y ↔ m = n ∧ x = y := by
  constructor
  · intro h
    obtain ⟨h1, h2⟩ := List.append_inj h (by rw [leBytes_length, leBytes_length])
    exact ⟨leBytes_inj k hm hn h1, h2⟩
  · rintro ⟨rfl, rfl⟩; rfl

theorem hashBytes_nil : hashBytes [] = [] := rfl

theorem hashBytes_cons (i : HashItem) (l : List HashItem) :
    hashBytes (i :: l) = i.toBytes ++ hashBytes l := by simp [hashBytes]

theorem hashBytes_append (l l' : List HashItem) :
    hashBytes (l ++ l') = hashBytes l ++ hashBytes l' := by simp [hashBytes]

theorem bytes_i32 {a b : Int} {x y : List Nat} (ha : InI32 a) (hb : InI32 b) :
    (HashItem.i32 a).toBytes ++ x = (HashItem.i32 b).toBytes ++ y ↔ a = b ∧ x = y := by
  unfold InI32 at ha hb
  unfold HashItem.toBytes
  rw [leBytes_append (by norm_num; omega) (by norm_num; omega)]
  constructor
  · rintro ⟨h, rfl⟩; exact ⟨by omega, rfl⟩
  · rintro ⟨rfl, rfl⟩; exact ⟨rfl, rfl⟩

theorem decode_bounds (b : Nat) (hb : b < 4294967296) :
    (integerDecodeF32 b).1 < 2 ^ 64 ∧ -32768 ≤ (integerDecodeF32 b).2.1 ∧
    (integerDecodeF32 b).2.1 < 32768 ∧
    ((integerDecodeF32 b).2.2 = 1 ∨ (integerDecodeF32 b).2.2 = -1) := by
  have m : ∀ n : Nat, n &&& 0x7fffff = n % 2 ^ 23 := fun n => Nat.and_two_pow_sub_one_eq_mod n 23
  have e : ∀ n : Nat, n &&& 0xff = n % 2 ^ 8 := fun n => Nat.and_two_pow_sub_one_eq_mod n 8
  have o : ∀ n : Nat, n % 2 ^ 23 ||| 0x800000 = 2 ^ 23 + n % 2 ^ 23 := by
    intro n
    rw [Nat.or_comm]
    exact (Nat.two_pow_add_eq_or_of_lt (Nat.mod_lt n (by decide : 0 < 2 ^ 23)) 1).symm
  simp only [integerDecodeF32, m, e, o, Nat.shiftRight_eq_div_pow, Nat.shiftLeft_eq]
  refine ⟨?_, ?_, ?_, ?_⟩
  · split <;> omega
  · omega
  · omega
  · split <;> simp

theorem bytes_f32 {F : Type} [FloatBits F] {a b : F} {x y : List Nat} :
    hashBytes (hashFloat a) ++ x = hashBytes (hashFloat b) ++ y ↔ a = b ∧ x = y := by
  constructor
  · intro h
    have ba := decode_bounds _ (FloatBits.toBits_lt a)
    have bb := decode_bounds _ (FloatBits.toBits_lt b)
    simp only [hashFloat, hashF32, hashBytes_cons, hashBytes_nil, List.append_nil,
      List.append_assoc, HashItem.toBytes] at h
    rw [leBytes_append (by norm_num at ba ⊢; omega) (by norm_num at bb ⊢; omega),
      leBytes_append (by norm_num; omega) (by norm_num; omega),
      leBytes_append (by norm_num; omega) (by norm_num; omega)] at h
    obtain ⟨h1, h2, h3, h4⟩ := h
    refine ⟨Props.C19_float_value_hash_injective a b ?_, h4⟩
    unfold hashFloat hashF32
    dsimp only
    rw [h1, show (integerDecodeF32 (FloatBits.toBits a)).2.1 =
        (integerDecodeF32 (FloatBits.toBits b)).2.1 by omega,
      show (integerDecodeF32 (FloatBits.toBits a)).2.2 =
        (integerDecodeF32 (FloatBits.toBits b)).2.2 by omega]
  · rintro ⟨rfl, rfl⟩; rfl

theorem split_at_255 {s t x y : List Nat} (hs : ∀ b ∈ s, b < 255) (ht : ∀ b ∈ t, b < 255)
    (h : s ++ 255 :: x = t ++ 255 :: y) : s = t ∧ x = y := by
  induction s generalizing t with
  | nil =>
    cases t with
    | nil => simpa using h
    | cons b t =>
      simp only [List.nil_append, List.cons_append, List.cons.injEq] at h
      have := ht b (by simp)
      omega
  | cons a s ih =>
    cases t with
    | nil =>
      simp only [List.nil_append, List.cons_append, List.cons.injEq] at h
      have := hs a (by simp)
      omega
    | cons b t =>
      simp only [List.cons_append, List.cons.injEq] at h
      obtain ⟨h1, h2⟩ := ih (fun c hc => hs c (by simp [hc])) (fun c hc => ht c (by simp [hc])) h.2
      exact ⟨by rw [h.1, h1], h2⟩

theorem bytes_str {s t : Bytes} {x y : List Nat} (hs : ∀ b ∈ s, b < 255) (ht : ∀ b ∈ t, b < 255) :
    hashBytes (hashStr s) ++ x = hashBytes (hashStr t) ++ y ↔ s = t ∧ x = y := by
  constructor
  · intro h
    simp only [hashStr, hashBytes_cons, hashBytes_nil, List.append_nil, HashItem.toBytes, leBytes,
      List.append_assoc, List.cons_append, List.nil_append] at h
    exact split_at_255 hs ht h
  · rintro ⟨rfl, rfl⟩; rfl

theorem bytes_inputs {a b : List Nat} (ha : ∀ h ∈ a, h < 2 ^ 64) (hb : ∀ h ∈ b, h < 2 ^ 64)
    (h : hashBytes (a.map .u64) = hashBytes (b.map .u64)) : a = b := by
  induction a generalizing b with
  | nil =>
    cases b with
    | nil => rfl
    | cons y b =>
      simp [hashBytes_cons, hashBytes_nil, HashItem.toBytes, leBytes] at h
  | cons x a ih =>
    cases b with
    | nil => simp [hashBytes_cons, hashBytes_nil, HashItem.toBytes, leBytes] at h
    | cons y b =>
      simp only [List.map_cons, hashBytes_cons, HashItem.toBytes] at h
      rw [leBytes_append (by have := ha x (by simp); norm_num at this ⊢; omega)
        (by have := hb y (by simp); norm_num at this ⊢; omega)] at h
      rw [h.1, ih (fun c hc => ha c (by simp [hc])) (fun c hc => hb c (by simp [hc])) h.2]

theorem code_inj {s t : NodeType} (h : s.code = t.code) : s = t := by
  cases s <;> cases t <;> first | rfl | (simp [NodeType.code] at h)

theorem bytes_type {s t : NodeType} {x y : List Nat} :
    (HashItem.u8 s.code).toBytes ++ x = (HashItem.u8 t.code).toBytes ++ y ↔ s = t ∧ x = y := by
  unfold HashItem.toBytes
  rw [leBytes_append (by cases s <;> decide) (by cases t <;> decide)]
  constructor
  · rintro ⟨h, rfl⟩; exact ⟨code_inj h, rfl⟩
  · rintro ⟨rfl, rfl⟩; exact ⟨rfl, rfl⟩

end OCG
