import Verif.Model.Hash
/-
Model of src/pathutils.rs.  Strings are lists of bytes; '#' is 35, '0' is 48, '-' is 45.
-/

namespace OCG.Path

/-- The loop state of pathutils.rs:31-61: `start_index`, `end_index`, `last_char_valid`. -/
structure Scan where
  startIndex : Nat
  endIndex : Nat
  lastCharValid : Bool
  deriving DecidableEq, Repr

/-- pathutils.rs:36-54, the loop over `value.bytes().enumerate()`, at byte number `i`. -/
def scan : Bytes → Nat → Scan → Scan
  | [], _, s => s
  | byte :: rest, i, s =>
    if byte = 35 then
      if s.lastCharValid = false then
        scan rest (i + 1) { startIndex := i, endIndex := i + 1, lastCharValid := true }
      else scan rest (i + 1) { s with endIndex := i + 1, lastCharValid := true }
    else if s.lastCharValid = true then s
    else scan rest (i + 1) s

/-- pathutils.rs:25-29 `FramePaddingIndexRange`. -/
structure IndexRange where
  startIndex : Nat
  endIndex : Nat
  paddingCount : Nat
  deriving DecidableEq, Repr

/-- pathutils.rs:31-61 `find_frame_padding_index_range`. -/
def findRange (value : Bytes) : IndexRange :=
  let s := scan value 0 { startIndex := 0, endIndex := 0, lastCharValid := false }
  { startIndex := s.startIndex, endIndex := s.endIndex,
    paddingCount := s.endIndex - s.startIndex }

/-- Decimal digits of a natural number (std's integer `Display`), least significant first;
the number of steps is bounded by `fuel`. -/
def digitsRev : Nat → Nat → Bytes
  | 0, _ => []
  | fuel + 1, n => if n < 10 then [48 + n] else (48 + n % 10) :: digitsRev fuel (n / 10)

/-- Decimal representation of a natural number (std, external). -/
def decimal (n : Nat) : Bytes := (digitsRev (n + 1) n).reverse

/-- `format!("{:0w}", frame)` (std, external): the sign, then zeros up to the width `w`, then
the digits. -/
def formatPadded (w : Nat) (frame : Int) : Bytes :=
  let d := decimal frame.natAbs
  if frame < 0 then 45 :: (List.replicate (w - (d.length + 1)) 48 ++ d)
  else List.replicate (w - d.length) 48 ++ d

/-- pathutils.rs:77-89, the match on `padding_count`. -/
def frameString (paddingCount : Nat) (frame : Int) : Bytes :=
  match paddingCount with
  | 0 => []
  | 1 => formatPadded 1 frame
  | 2 => formatPadded 2 frame
  | 3 => formatPadded 3 frame
  | 4 => formatPadded 4 frame
  | 5 => formatPadded 5 frame
  | 6 => formatPadded 6 frame
  | 7 => formatPadded 7 frame
  | 8 => formatPadded 8 frame
  | 9 => formatPadded 9 frame
  | _ => []

/-- pathutils.rs:63-95 `create_expanded_string`; `replace_range` replaces the bytes from
`start_index` to `end_index`.  ('#' is a one-byte character, so both are character
boundaries.) -/
def createExpanded (value : Bytes) (r : IndexRange) (frame : Int) : Bytes :=
  value.take r.startIndex ++ frameString r.paddingCount frame ++ value.drop r.endIndex

/-- pathutils.rs:97-109 `expand_file_path`; `shell` is `shellexpand::full` (external), `none`
for its error. -/
def expandFilePath (shell : Bytes → Option Bytes) (value : Bytes) : Bytes :=
  match shell value with
  | some v => v
  | none => value

/-- pathutils.rs:111-121 `expand_string`. -/
def expandString (shell : Bytes → Option Bytes) (value : Bytes) (frame : Int) : Bytes :=
  let expanded := expandFilePath shell value
  let r := findRange expanded
  if r.paddingCount > 0 then createExpanded expanded r frame else expanded

end OCG.Path
