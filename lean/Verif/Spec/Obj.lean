import Verif.Spec.Path
/-
A small reader for the subset of the Wavefront OBJ format used by the mesh export: lines of
words; a vertex line starts with "v", a texture coordinate line with "vt", a face line
with "f".
-/

namespace OCG.ObjSpec

/-- Split at every occurrence of the byte `c`. -/
def splitAt (c : Nat) : Bytes → List Bytes
  | [] => [[]]
  | b :: bs =>
    if b = c then [] :: splitAt c bs
    else match splitAt c bs with
      | [] => [[b]]
      | w :: ws => (b :: w) :: ws

/-- Lines of a text (byte 10 ends a line). -/
def lines (text : Bytes) : List Bytes := splitAt 10 text

/-- Words of a line (byte 32 separates words). -/
def words (line : Bytes) : List Bytes := splitAt 32 line

/-- The arguments of all lines that start with the given keyword, in order. -/
def records (key : Bytes) (text : Bytes) : List (List Bytes) :=
  (lines text).filterMap fun l =>
    match words l with
    | [] => none
    | w :: ws => if w = key then some ws else none

/-- "v" -/
def vertices (text : Bytes) : List (List Bytes) := records [118] text
/-- "vt" -/
def uvs (text : Bytes) : List (List Bytes) := records [118, 116] text
/-- "f"; every argument is split at "/" -/
def faces (text : Bytes) : List (List (List Bytes)) :=
  (records [102] text).map fun ws => ws.map (splitAt 47)

/-- `s` is the decimal notation of `n`. -/
def IsDecimal (s : Bytes) (n : Nat) : Prop :=
  s ≠ [] ∧ PathSpec.AllDigits s ∧ PathSpec.value s = n

end OCG.ObjSpec
