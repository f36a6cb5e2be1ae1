import Verif.Model.GraphCpp
/-
What it means that a debug build and a release build agree (property C130).
-/

namespace OCG.Spec

/-- The debug build does what the release build does, unless it stops at one of the additional
checks it contains: an arithmetic overflow or an assertion. -/
def SameUnlessStopped {α : Type} (debug release : Res α) : Prop :=
  debug = release ∨ debug = .error .overflow ∨ debug = .error .assertion

/-- What the debug build computes, the release build computes too. -/
def ReleaseFollows {α : Type} (debug release : Res α) : Prop :=
  ∀ x, debug = .ok x → release = .ok x

variable {F H : Type} [FloatLike F] [HalfLike F H] [FloatConst F] [FloatBits F]

/-- What a user can do with a graph and its cache. -/
inductive Action (F H : Type)
  | addNode (n : Node F)
  | removeNode (id : Nat)
  | connect (src dst slot : Nat)
  | disconnect (dst slot : Nat)
  | edit (id : Nat) (change : Node F → Node F)
  | execute (id : Nat) (frames : List F)
  | cache (call : Cache.Op (Image F H))

/-- One action, in a build. -/
def Action.perform (p : Profile) (lib : NodeLib F H) (srt : EdgeSort) (fuel : Nat)
    (s : Graph (Node F) (Stream F H) × World F H) :
    Action F H → Res (Graph (Node F) (Stream F H) × World F H)
  | .addNode n => do let r ← s.1.addNode (nodeSem p lib) n; .ok (r.1, s.2)
  | .removeNode id => .ok ((s.1.removeNode id).1, s.2)
  | .connect a b slot => do let g ← s.1.connect a b slot; .ok (g, s.2)
  | .disconnect b slot => .ok (s.1.disconnectInput b slot, s.2)
  | .edit id f => do let g ← s.1.setAttr id f; .ok (g, s.2)
  | .execute id frames => do
    let r ← s.1.execute (nodeSem p lib) srt fuel id frames s.2
    .ok (r.2.1, r.2.2)
  | .cache op => do
    let r ← Cache.step Image.sizeBytes p s.2.cache op
    .ok (s.1, { s.2 with cache := r.1 })

/-- A session: one action after another. -/
def session (p : Profile) (lib : NodeLib F H) (srt : EdgeSort) (fuel : Nat) :
    List (Action F H) → Graph (Node F) (Stream F H) × World F H →
      Res (Graph (Node F) (Stream F H) × World F H)
  | [], s => .ok s
  | a :: as, s => do
    let s' ← a.perform p lib srt fuel s
    session p lib srt fuel as s'

end OCG.Spec
