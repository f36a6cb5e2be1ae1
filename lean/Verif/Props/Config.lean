import Verif.Model.Config
import Verif.Spec.Field
import Mathlib.Data.Rat.Floor
import Mathlib.Tactic.NormNum
import Mathlib.Tactic.Positivity
import Mathlib.Algebra.Order.Ring.Rat
/-
C62: the configured cache percentage.  C70: which configuration file is used.
-/

namespace OCG.Props
open Config

/-- The part of IEEE-754 ordering the configuration code depends on, NaN included.  Single
precision satisfies it; so does every ordered field (instance below). -/
class OrderLaws (F : Type) [FloatLike F] : Prop where
  lt_num : ∀ a b : F, FloatLike.lt a b = true → isNan a = false ∧ isNan b = false
  lt_trans : ∀ a b c : F, FloatLike.lt a b = true → FloatLike.lt b c = true →
    FloatLike.lt a c = true
  lt_irrefl : ∀ a : F, FloatLike.lt a a = false
  lt_of_not_lt : ∀ a b c : F, isNan a = false → isNan b = false → FloatLike.lt b a = false →
    FloatLike.lt b c = true → FloatLike.lt a c = true
  zero_lt_one : FloatLike.lt (0 : F) 1 = true

instance fieldOrderLaws {F : Type} [Field F] [LinearOrder F] [IsStrictOrderedRing F]
    [FloatOps F] : OrderLaws F where
  lt_num a b _ := by simp [isNan, eq_eq]
  lt_trans a b c h1 h2 := by
    simp only [lt_eq, decide_eq_true_eq] at *; exact lt_trans h1 h2
  lt_irrefl a := by simp [lt_eq]
  lt_of_not_lt a b c _ _ h1 h2 := by
    simp only [lt_eq, decide_eq_true_eq, decide_eq_false_iff_not, not_lt] at *
    exact lt_of_le_of_lt h1 h2
  zero_lt_one := by simp [lt_eq]

/-- C62 is false, for every configured percentage (NaN and infinities included): the factor is
always 1, because `min` and `max` are exchanged. -/
theorem C62_always_one {F : Type} [FloatLike F] [OrderLaws F] (c : Config F) :
    c.ramFactor = 1 := by
  obtain ⟨h0, h1⟩ := OrderLaws.lt_num (0 : F) 1 OrderLaws.zero_lt_one
  unfold ramFactor
  generalize c.ramCapacityPercent / FloatLike.ofInt 100 = x
  have key : isNan (fmin x 0) = false ∧ FloatLike.lt (fmin x 0) 1 = true := by
    unfold fmin
    cases hx : isNan x
    · simp only [Bool.false_eq_true, if_false, h0]
      cases hl : FloatLike.lt (0 : F) x
      · simp only [Bool.false_eq_true, if_false]
        exact ⟨hx, OrderLaws.lt_of_not_lt x 0 1 hx h0 hl OrderLaws.zero_lt_one⟩
      · simp only [if_true]
        exact ⟨h0, OrderLaws.zero_lt_one⟩
    · simp only [if_true]
      exact ⟨h0, OrderLaws.zero_lt_one⟩
  unfold fmax
  rw [key.1, key.2, h1]
  simp

/-- The documented meaning: the percentage over one hundred, limited to [0, 1]. -/
def documentedFactor {F : Type} [Field F] [LinearOrder F] (percent : F) : F :=
  max 0 (min 1 (percent / 100))

/-- C62, the part that holds: percentages of one hundred or more give the documented factor
(and those are the only ones). Missing: every percentage below one hundred. -/
theorem C62_percent_partial {F : Type} [Field F] [LinearOrder F] [IsStrictOrderedRing F]
    [FloatOps F] (c : Config F) :
    c.ramFactor = documentedFactor c.ramCapacityPercent ↔ 100 ≤ c.ramCapacityPercent := by
  rw [C62_always_one]
  unfold documentedFactor
  constructor
  · intro h
    by_contra hlt
    rw [not_le] at hlt
    have : c.ramCapacityPercent / 100 < 1 := by rw [div_lt_one (by norm_num)]; exact hlt
    rcases max_choice (0 : F) (min 1 (c.ramCapacityPercent / 100)) with h' | h'
    · rw [h'] at h; exact one_ne_zero h
    · rw [h', min_eq_right this.le] at h; exact absurd h.symm this.ne
  · intro h
    have : 1 ≤ c.ramCapacityPercent / 100 := by rw [le_div_iff₀ (by norm_num)]; linarith
    rw [min_eq_left this, max_eq_right zero_le_one]

/-- Exact rationals with no meaning for the remaining operations, for examples. -/
local instance : FloatOps Rat := ⟨fun _ => 0, fun _ => 0, fun _ => 0, fun x _ => x,
  fun x => x, fun x => x, fun x => x, fun x => x, fun x => x⟩

/-- C62 counterexample: 25 percent of 1000 bytes reserves all 1000 bytes instead of 250. -/
theorem C62_counterexample :
    ramCapacityBytes (F := Rat) (fun x => ⌊x⌋₊) 1000 ⟨25, 0⟩ = 1000 ∧
      ⌊(1000 : Rat) * documentedFactor 25⌋₊ = 250 := by
  constructor
  · unfold ramCapacityBytes
    rw [C62_always_one, ofInt_eq]
    norm_num
  · have : (1000 : Rat) * documentedFactor 25 = ((250 : Nat) : Rat) := by
      unfold documentedFactor
      norm_num
    rw [this, Nat.floor_natCast]

example : ramFactor (F := Rat) ⟨150, 0⟩ = documentedFactor 150 :=
  (C62_percent_partial (F := Rat) ⟨150, 0⟩).mpr (by norm_num)

/-! ### C70 -/

/-- C70: the configuration comes from the first directory of the search path that has the file
(with a readable name); without such a directory the defaults are used. -/
theorem C70_first_file {F P : Type} [FloatLike F] (join : P → P) (isFile : P → Bool)
    (toStr : P → Option Bytes) (hne : ∀ d, toStr d ≠ some []) (load : Bytes → Option (Config F))
    (paths : List P) :
    (∀ (i : Nat) (d : P) (name : Bytes), paths[i]? = some d → isFile (join d) = true →
      toStr (join d) = some name →
      (∀ (j : Nat) (e : P), j < i → paths[j]? = some e → isFile (join e) = true →
        toStr (join e) = none) →
      getConfig join isFile toStr load paths =
        match load name with
        | some c => .ok c
        | none => .error .explicit) ∧
    ((∀ d ∈ paths, isFile (join d) = true → toStr (join d) = none) →
      getConfig join isFile toStr load paths = .ok ⟨0, 0⟩) := by
  have find : ∀ (paths : List P) (i : Nat) (d : P) (name : Bytes), paths[i]? = some d →
      isFile (join d) = true → toStr (join d) = some name →
      (∀ (j : Nat) (e : P), j < i → paths[j]? = some e → isFile (join e) = true →
        toStr (join e) = none) →
      getConfigPath join isFile toStr paths = name := by
    intro paths
    induction paths with
    | nil => intro i d name h; simp at h
    | cons a as ih =>
      intro i d name h hf hn hb
      unfold getConfigPath
      cases i with
      | zero =>
        simp only [List.getElem?_cons_zero, Option.some.injEq] at h
        subst h
        rw [if_pos hf, hn]
      | succ i =>
        simp only [List.getElem?_cons_succ] at h
        have tail := ih i d name h hf hn (fun j e hj he => hb (j + 1) e (by omega) (by simpa using he))
        split
        · rename_i ha
          rw [hb 0 a (by omega) rfl ha]
          exact tail
        · exact tail
  constructor
  · intro i d name h hf hn hb
    unfold getConfig
    rw [find paths i d name h hf hn hb]
    cases name with
    | nil => exact absurd hn (hne _)
    | cons a as => rfl
  · intro h
    have : ∀ paths : List P, (∀ d ∈ paths, isFile (join d) = true → toStr (join d) = none) →
        getConfigPath join isFile toStr paths = [] := by
      intro paths
      induction paths with
      | nil => intro _; rfl
      | cons a as ih =>
        intro h
        have tail := ih (fun d hd => h d (List.mem_cons_of_mem _ hd))
        unfold getConfigPath
        split
        · rename_i ha
          rw [h a (List.mem_cons_self ..) ha]
          exact tail
        · exact tail
    unfold getConfig
    rw [this paths h]
    rfl

/-- Search path of three directories, numbered; the file is in the last two. -/
example : getConfig (F := Rat) (P := Nat) (fun d => d + 10) (fun p => decide (12 ≤ p))
    (fun p => some [47, p]) (fun name => if name = [47, 12] then some ⟨3, 4⟩ else none) [1, 2, 5]
    = .ok ⟨3, 4⟩ :=
  ((C70_first_file (F := Rat) (P := Nat) (fun d => d + 10) (fun p => decide (12 ≤ p))
    (fun p => some [47, p]) (by simp)
    (fun name => if name = [47, 12] then some ⟨3, 4⟩ else none) [1, 2, 5]).1 1 2 [47, 12] rfl rfl
      rfl (by
        intro j e hj he
        have : j = 0 := by omega
        subst this
        simp only [List.getElem?_cons_zero, Option.some.injEq] at he
        subst he
        decide))

end OCG.Props
