import Verif.Model.Int32
/-
Loops and buffer writes shared by the models of the buffer-filling code.
-/

namespace OCG

/-- Result of a `u32` operation whose exact result is `x`: overflow panics in debug builds
and wraps in release builds. -/
def u32 (p : Profile) (x : Int) : Res Nat :=
  if 0 ≤ x ∧ x < 4294967296 then .ok x.toNat
  else match p with
    | .debug => .error .overflow
    | .release => .ok (x % 4294967296).toNat

theorem u32_of {p : Profile} {x : Int} (h0 : 0 ≤ x) (h1 : x < 4294967296) :
    u32 p x = .ok x.toNat := by
  unfold u32; rw [if_pos ⟨h0, h1⟩]

theorem u32_nat {p : Profile} {n : Nat} (h : n < 4294967296) : u32 p (n : Int) = .ok n := by
  rw [u32_of (by omega) (by omega)]
  rfl

/-- `n` more iterations of a `for` loop, starting at index `i`. -/
def forFrom {σ : Type} (f : Nat → σ → Res σ) : Nat → Nat → σ → Res σ
  | 0, _, s => .ok s
  | n + 1, i, s => do
    let s' ← f i s
    forFrom f n (i + 1) s'

/-- Rust's `for i in 0..n { .. }` with the mutated variables as state. -/
def forRange {σ : Type} (n : Nat) (f : Nat → σ → Res σ) (s : σ) : Res σ := forFrom f n 0 s

/-- Rust's `for x in items { .. }` with the mutated variables as state. -/
def forEach {σ α : Type} (f : α → σ → Res σ) : List α → σ → Res σ
  | [], s => .ok s
  | x :: xs, s => do
    let s' ← f x s
    forEach f xs s'

/-- `buffer[i] = v`, panicking out of range. -/
def setAt {α : Type} (buf : List α) (i : Nat) (v : α) : Res (List α) :=
  if i < buf.length then .ok (buf.set i v) else .error .index

/-- `buffer[i]`, panicking out of range. -/
def getAt {α : Type} (buf : List α) (i : Nat) : Res α :=
  match buf[i]? with
  | some v => .ok v
  | none => .error .index

/-- The invariant rule for `for` loops. -/
theorem forFrom_inv {σ : Type} (f : Nat → σ → Res σ) (P : Nat → σ → Prop) :
    ∀ (n i : Nat) (s : σ), P i s →
      (∀ j s, i ≤ j → j < i + n → P j s → ∃ s', f j s = .ok s' ∧ P (j + 1) s') →
      ∃ s', forFrom f n i s = .ok s' ∧ P (i + n) s' := by
  intro n
  induction n with
  | zero => intro i s h _; exact ⟨s, rfl, h⟩
  | succ n ih =>
    intro i s h hs
    obtain ⟨s1, e1, h1⟩ := hs i s (Nat.le_refl _) (by omega) h
    obtain ⟨s2, e2, h2⟩ := ih (i + 1) s1 h1 (fun j s a b c => hs j s (by omega) (by omega) c)
    refine ⟨s2, ?_, ?_⟩
    · simp only [forFrom, e1, bind, Except.bind]; exact e2
    · have : i + (n + 1) = i + 1 + n := by omega
      rw [this]; exact h2

theorem forRange_inv {σ : Type} (f : Nat → σ → Res σ) (P : Nat → σ → Prop) (n : Nat) (s : σ)
    (h : P 0 s)
    (hs : ∀ j s, j < n → P j s → ∃ s', f j s = .ok s' ∧ P (j + 1) s') :
    ∃ s', forRange n f s = .ok s' ∧ P n s' := by
  obtain ⟨s', e, h'⟩ := forFrom_inv f P n 0 s h (fun j s _ b c => hs j s (by omega) c)
  exact ⟨s', e, by simpa using h'⟩

end OCG
