import Verif.Model.Hash
/-
Independent specification of frame number expansion.
-/

namespace OCG.PathSpec

/-- Every byte is an ASCII digit. -/
def AllDigits (s : Bytes) : Prop := ∀ c ∈ s, 48 ≤ c ∧ c ≤ 57

/-- The value of a string of ASCII digits, read from the left. -/
def value (s : Bytes) : Nat := s.foldl (fun a c => 10 * a + (c - 48)) 0

/-- `s` is the decimal notation of `frame`, zero-padded to at least `w` characters: a minus
sign for negative numbers, at least one digit, the right value, and no leading zero unless it
is needed for padding or the number is the single digit 0. -/
def IsPadded (s : Bytes) (w : Nat) (frame : Int) : Prop :=
  w ≤ s.length ∧
  ∃ sign digits, s = sign ++ digits ∧ sign = (if frame < 0 then [45] else []) ∧
    digits ≠ [] ∧ AllDigits digits ∧ (value digits : Int) = frame.natAbs ∧
    (w < s.length → digits.head? = some 48 → digits.length = 1)

/-- `s` splits into the part before the first '#', the whole first run of '#' (of length `n`)
and the rest. -/
def FirstRun (s pre : Bytes) (n : Nat) (post : Bytes) : Prop :=
  s = pre ++ List.replicate n 35 ++ post ∧ 35 ∉ pre ∧ 0 < n ∧ post.head? ≠ some 35

end OCG.PathSpec
