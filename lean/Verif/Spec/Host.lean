import Verif.Model.Host
/-
C140: the objects of a host program.
-/

namespace OCG.HostSpec

variable {F H : Type}

/-- An object of a host program. -/
inductive Obj where
  | graph (i : Nat)
  | cache (i : Nat)
  | stream (i : Nat)
  deriving DecidableEq

/-- The objects that a statement names. -/
def names : HostOp F → List Obj
  | .newGraph g | .dropGraph g | .graph g _ => [.graph g]
  | .execute g _ _ c => [.graph g, .cache c]
  | .output g s => [.graph g, .stream s]
  | .newCache c | .dropCache c | .setCapacity c _ | .lookCache c => [.cache c]
  | .newStream s | .dropStream s | .lookStream s => [.stream s]
  | .transformLut _ _ _ c => [.cache c]
  | .opsLut s _ _ c => [.stream s, .cache c]

/-- The object is the same in two hosts. -/
def SameObj (h k : Host F H) : Obj → Prop
  | .graph i => h.graphs i = k.graphs i
  | .cache i => h.caches i = k.caches i
  | .stream i => h.streams i = k.streams i

/-- All objects hold what they should: no box is missing. -/
def Whole (h : Host F H) : Prop :=
  (∀ i, h.caches i ≠ some none) ∧ ∀ i, h.streams i ≠ some none

/-- The objects of one part of the host are the same in two hosts, and so are the files that the
graphs of this part have written. -/
structure SamePart (A : Obj → Bool) (h k : Host F H) : Prop where
  objects : ∀ o, A o = true → SameObj h k o
  files : h.writes.filter (fun w => A (.graph w.1)) = k.writes.filter (fun w => A (.graph w.1))

/-- The statement belongs to a part of the host: it names only objects of this part. -/
def Within (A : Obj → Bool) (op : HostOp F) : Bool := (names op).all A

/-- The statement stays in one of the two parts. -/
def OneSided (A : Obj → Bool) (op : HostOp F) : Prop :=
  (∀ o ∈ names op, A o = true) ∨ ∀ o ∈ names op, A o = false

/-- The answers that one part of the host gets. -/
def answersOf {B : Type} (A : Obj → Bool) (ops : List (HostOp F)) (answers : List B) : List B :=
  ((ops.zip answers).filter fun x => Within A x.1).map Prod.snd

/-- The statements that give the variable of a stream a new value. -/
def SetsStream (s : Nat) : HostOp F → Prop
  | .output _ s' => s' = s
  | .newStream s' => s' = s
  | .dropStream s' => s' = s
  | _ => False

end OCG.HostSpec
