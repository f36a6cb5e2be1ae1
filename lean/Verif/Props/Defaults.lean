import Verif.Props.Attrs
import Verif.Props.IeeeColor
import Verif.Props.IeeeConvert
import Verif.Props.IeeeTransform
import Verif.Props.Picture
import Verif.Spec.Defaults
import Mathlib.Tactic.IntervalCases
/-
C112: a new node is of the kind asked for, has the usual settings, and changes nothing before it is
set up.
-/

namespace OCG.Props

open AttrSpec DefaultSpec GraphSpec ComputeSpec PictureSpec ColorSpec IeeeSpec ImageSpecs
open PixelSpec BlockSpec Ieee

section
variable {F H : Type} [FloatLike F]

/-- C112: a new node is of the type asked for, has the identifier asked for, and was not computed. -/
theorem C112_type (t : NodeType) (id : Nat) : (Node.create t id : Node F).attrs.nodeType = t ∧
    (Node.create t id : Node F).id = id ∧
    (Node.create t id : Node F).status = .uninitialized := by
  cases t <;> exact ⟨rfl, rfl, rfl⟩

theorem defaults_node (t : NodeType) (id : Nat) (k : Kind) : ∀ name ∈ names t k,
    nodeGet (Node.create t id : Node F) name k = defaultOf t name k := by
  cases t <;> cases k <;> simp only [names, List.forall_mem_cons, List.not_mem_nil, false_implies,
    implies_true, and_true] <;> (repeat' apply And.intro) <;> rfl

/-- C112: after a node was added, every attribute of it has its usual value. -/
theorem C112_defaults {S C Fr : Type} (sem : NodeSem (Node F) S C Fr) (hsem : sem.id = Node.id)
    {r : Bool} {srt : EdgeSort} {g g' : Graph (Node F) S} (hr : Reach sem srt r g) (t : NodeType)
    (id i : Nat) (hid : Unknown g id) (h : g.addNode sem (.create t id) = .ok (g', i)) (k : Kind)
    (name : String) (hn : name ∈ names t k) :
    AttrSpec.get g' id name k = .ok (defaultOf t name k) := by
  have inv := hr.inv
  unfold Graph.addNode at h
  dsimp only at h
  split at h
  case isFalse => cases h
  cases h
  rw [get_eq]
  have hf : Graph.find (⟨g.nodes ++ [.create t id], g.ids ++ [sem.id (.create t id)],
      (g.graph.addNode (sem.id (.create t id))).1, g.output, .dirty, g.status⟩ : Graph (Node F) S) id =
        some g.nodes.length := by
    rw [find_at]
    refine ⟨?_, ?_⟩
    · rw [hsem, ← inv.ids_len]
      simp [Node.create]
    · intro j hj
      rw [← inv.ids_len] at hj
      rw [List.getElem?_append_left hj]
      intro h2
      exact hid (List.mem_of_getElem? h2)
  unfold Graph.query
  rw [hf]
  simp only [List.getElem?_append_right (Nat.le_refl _), Nat.sub_self, List.getElem?_cons_zero]
  rw [defaults_node t id k name hn]

variable [FloatConst F] [FloatBits F] [HalfLike F H]

/-- C112: new null, resample and viewer nodes pass on their first input as it is. -/
theorem C112_pass (p : Profile) (lib : NodeLib F H) (t : NodeType)
    (ht : t = .null ∨ t = .resampleImage ∨ t = .viewer) (id : Nat) (frame : F) (mode : Mode)
    (input prev : Stream F H) (w : World F H) :
    (Node.create t id).run p lib frame mode [input] prev w = .ok (.valid, input, w) := by
  rcases ht with rfl | rfl | rfl
  · rfl
  · cases p <;> rfl
  · rfl

/-- C112: a new write node passes on its input as it is (if it does not crash), and asks for one
file at most. -/
theorem C112_write (p : Profile) (lib : NodeLib F H) (id : Nat) (frame : F) (mode : Mode)
    (input : Stream F H) (rest : List (Stream F H)) (prev out : Stream F H) (w w' : World F H)
    (status : NodeStatus)
    (h : (Node.create .writeImage id).run p lib frame mode (input :: rest) prev w =
      .ok (status, out, w')) :
    status = .valid ∧ out = input ∧ w'.cache = w.cache ∧
      ∃ jobs, jobs.length ≤ 1 ∧ w'.writes = w.writes ++ jobs := by
  obtain ⟨⟨ok, job⟩, -, h⟩ := Res.bind_ok.mp h
  cases h
  refine ⟨rfl, rfl, rfl, job.toList, ?_, rfl⟩
  cases job <;> simp

/-- C112: a new transform node passes on its input with a transform waiting that has the usual
values (C103: such a transform changes nothing). -/
theorem C112_transform (p : Profile) (lib : NodeLib F H) (id : Nat) (frame : F) (mode : Mode)
    (input : Stream F H) (rest : List (Stream F H)) (prev : Stream F H) (w : World F H) :
    ∃ out, (Node.create .transform id).run p lib frame mode (input :: rest) prev w =
        .ok (.valid, out, w) ∧
      SameImage out { input with deformers := input.deformers ++ [.transform .default] } :=
  ⟨_, rfl, ⟨rfl, rfl, rfl, rfl, rfl, rfl, rfl, rfl⟩⟩

end

theorem carried_one {F : Type} [FloatLike F] {op : GradeOp F} {n : Int} {a b : List F}
    (he : op.getI32 "enable" = 1) (h : Carried n [op] a b) : op.applySlice a n = .ok b := by
  cases h with
  | skip h => exact absurd he h
  | step _ h2 h3 =>
    cases h3
    exact h2

section
variable {H : Type} [Libm single32] [FloatConst F32] [HalfLike F32 H]

/-- C112 (partial): in IEEE arithmetic a new grade node keeps every finite value of its picture,
except for the sign of a zero, if the power function of the platform is exact for exponent 1.
Missing: infinite values. -/
theorem C112_grade_partial (hpow : ∀ x : F32, IsFinite x → Libm.powf x (Ieee.ofInt 1) = x)
    (p : Profile) (lib : NodeLib F32 H) (id : Nat) (frame : F32) (mode : Mode)
    (input : Stream F32 H) (rest : List (Stream F32 H)) (prev : Stream F32 H) (w : World F32 H)
    {P : Picture F32} (hP : Still lib.bake.color input P)
    (hfin : ∀ x y, BBoxSpec.Has P.data x y → ∀ v ∈ P.at_ x y, IsFinite v) :
    ∃ out Q, (Node.create .grade id).run p lib frame mode (input :: rest) prev w =
        .ok (.valid, out, w) ∧ Still lib.bake.color out Q ∧
      out.deformers = input.deformers ∧ Q.data = P.data ∧
      Q.display = P.display ∧ Q.channels = P.channels ∧ Q.space = P.space ∧
      ∀ x y, BBoxSpec.Has P.data x y → (Q.at_ x y).length = (P.at_ x y).length ∧
        ∀ (k : Nat) v, (P.at_ x y)[k]? = some v → ∃ u, (Q.at_ x y)[k]? = some u ∧ Same u v := by
  have hg : Grades (Node.create .grade id : Node F32) := ⟨rfl, .inl (by show (1 : Int) ≠ 0; decide)⟩
  obtain ⟨out, op, e, hop, hd, ⟨Q, hQ⟩, hs⟩ := C86_grade p lib (.create .grade id) frame mode input
    rest prev w rfl hg hP
  have hop' : IsGradeOf (Node.create .grade id : Node F32) (GradeAttrs.new.op : GradeOp F32) := by
    refine ⟨rfl, ⟨?_, ?_⟩⟩
    · simp only [C112_type, names, List.forall_mem_cons, List.not_mem_nil, false_implies,
        implies_true, and_true]
      (repeat' apply And.intro) <;> first | rfl | exact fun _ => rfl
    · simp only [C112_type, names, List.forall_mem_cons, List.not_mem_nil, false_implies,
        implies_true, and_true]
      (repeat' apply And.intro) <;> rfl
  have hopeq := gradeOf_unique (n := Node.create .grade id) rfl hop hop'
  subst hopeq
  refine ⟨out, Q, e, hs Q hQ, hd, ?_⟩
  refine ⟨hQ.data, hQ.display, hQ.channels, hQ.space, fun x y hxy => ?_⟩
  obtain ⟨b, e1, l1, h1⟩ := C53_single_partial hpow (GradeAttrs.new.op : GradeOp F32)
    (by intro c hc; interval_cases c <;> rfl) rfl
    (by intro c hc; interval_cases c <;> first | exact .inr rfl | exact .inl rfl)
    hP.channels (P.at_ x y) (hfin x y hxy)
  have hb : Q.at_ x y = b := by
    have h2 := carried_one rfl (hQ.pixels x y hxy)
    rw [e1] at h2
    exact (Except.ok.inj h2).symm
  rw [hb]
  refine ⟨l1, fun k v hk => ?_⟩
  obtain ⟨q, h2, h3, -⟩ := h1 k v hk
  exact ⟨q, h2, h3⟩

end

section
attribute [local instance] finFloat finBits finHalf finPi

/-- A new crop node does not pass on its input: its window is empty, and so is its picture. -/
theorem C112_counterexample_crop : ∃ out w',
    (Node.create .cropImage 5).run .debug finLib 1 modeAll [onePixel] .new blankWorld =
      .ok (.valid, out, w') ∧ onePixel.dataWindow = ⟨0, 0, 1, 1⟩ ∧ out.dataWindow = ⟨0, 0, 0, 0⟩ ∧
      out.pixelBlock.size = ⟨0, 0, 3⟩ := ⟨_, _, rfl, rfl, rfl, rfl⟩

/-- A new merge node with one input does not pass it on: it is merged with the colour bars of a new
stream. -/
theorem C112_counterexample_merge : ∃ out w',
    (Node.create .mergeImage 5).run .debug finLib 1 modeAll [onePixel] .new blankWorld =
      .ok (.warning, out, w') ∧ onePixel.dataWindow = ⟨0, 0, 1, 1⟩ ∧
      out.dataWindow = ⟨0, 0, 4, 4⟩ := ⟨_, _, rfl, rfl, rfl⟩

example : (Node.create .viewer 5).run .debug finLib 1 modeAll [onePixel] .new blankWorld =
    .ok (.valid, onePixel, blankWorld) :=
  C112_pass _ _ _ (.inr (.inr rfl)) _ _ _ _ _ _

example : ∃ out w', (Node.create .writeImage 5).run .debug finLib 1 modeAll [onePixel] .new
    blankWorld = .ok (.valid, out, w') ∧ w'.writes.length = 1 := ⟨_, _, rfl, rfl⟩

end

section
attribute [local instance] IeeeConvertExamples.someLibm

/-- One white pixel of floats. -/
def whiteFloats : Stream F32 F16 :=
  { (Stream.new : Stream F32 F16) with
    dataWindow := ⟨0, 0, 1, 1⟩, displayWindow := ⟨0, 0, 1, 1⟩
    pixelBlock := floatImage (sizeFor ⟨0, 0, 1, 1⟩ 3) [Ieee.ofInt 1, Ieee.ofInt 1, Ieee.ofInt 1] }

theorem whiteFloats_shows (lib : ColorLib F32) : Shows lib whiteFloats ⟨⟨0, 0, 1, 1⟩, ⟨0, 0, 1, 1⟩, 3,
    colorSpaceLinear, fun _ _ => [Ieee.ofInt 1, Ieee.ofInt 1, Ieee.ofInt 1]⟩ := by
  refine stored_shows rfl rfl rfl rfl (.inr (.inl rfl)) (by unfold BlockSpec.ValidSize; decide)
    (fun d hd => nomatch hd) rfl rfl rfl rfl ?_
  rintro x y ⟨h1, h2, h3, h4⟩
  simp only at h1 h2 h3 h4
  obtain rfl : x = 0 := by omega
  obtain rfl : y = 0 := by omega
  refine ⟨_, ?_, .nil _⟩
  decide +kernel

/-- The hypotheses of `C112_grade_partial` are met by a white pixel and a power function that is exact
for exponent 1. -/
example : (∀ x : F32, IsFinite x → Libm.powf x (Ieee.ofInt 1) = x) ∧
    ∀ v ∈ [(Ieee.ofInt 1 : F32), Ieee.ofInt 1, Ieee.ofInt 1], IsFinite v :=
  ⟨fun _ _ => rfl, by
    intro v hv
    have : v = Ieee.ofInt 1 := by simpa using hv
    rw [this]
    exact (one_spec ok_single).1⟩

end
end OCG.Props
