import Verif.Model.GraphCpp
import Verif.Proofs.IeeeRound
import Verif.Props.Rerun
import Verif.Props.IeeeColor
/-
C102: frames count through the nearest whole number.  C20 in IEEE arithmetic.
-/

namespace OCG.Props

/-! ### Executions see a frame only through its number -/

section
variable {N S C Fr : Type}

/-- The nodes do the same at both frames. -/
def SameAt (sem : NodeSem N S C Fr) (f f' : Fr) : Prop :=
  (∀ n hs, sem.hash n f hs = sem.hash n f' hs) ∧
    ∀ n mode inputs prev c, sem.compute n f mode inputs prev c = sem.compute n f' mode inputs prev c

theorem hashPhase_sameAt {sem : NodeSem N S C Fr} {f f' : Fr} (h : SameAt sem f f')
    (srt : EdgeSort) (g : Graph N S) (is : List Nat) (m : Graph.IdxMap Nat) :
    Graph.hashPhase sem srt g f is m = Graph.hashPhase sem srt g f' is m := by
  induction is generalizing m with
  | nil => rfl
  | cons i is ih =>
    unfold Graph.hashPhase
    cases g.nodes[i]? with
    | none => rfl
    | some n => simp only [h.1, ih]

theorem computePhase_sameAt {sem : NodeSem N S C Fr} {f f' : Fr} (h : SameAt sem f f')
    (srt : EdgeSort) (is : List (Nat × Mode)) (g : Graph N S) (c : C) (m : Graph.IdxMap S) :
    Graph.computePhase sem srt f is g c m = Graph.computePhase sem srt f' is g c m := by
  induction is generalizing g c m with
  | nil => rfl
  | cons i is ih =>
    unfold Graph.computePhase
    simp only [h.2, ih]

theorem executeFrame_sameAt {sem : NodeSem N S C Fr} {f f' : Fr} (h : SameAt sem f f')
    (srt : EdgeSort) (fuel : Nat) (g : Graph N S) (order : List Nat) (c : C) :
    g.executeFrame sem srt fuel order f c = g.executeFrame sem srt fuel order f' c := by
  unfold Graph.executeFrame
  simp only [hashPhase_sameAt h, computePhase_sameAt h]

theorem frameLoop_sameAt {sem : NodeSem N S C Fr} {fs fs' : List Fr}
    (h : List.Forall₂ (SameAt sem) fs fs') (srt : EdgeSort) (fuel : Nat) (order : List Nat)
    (g : Graph N S) (c : C) :
    Graph.frameLoop sem srt fuel order fs g c = Graph.frameLoop sem srt fuel order fs' g c := by
  induction h generalizing g c with
  | nil => rfl
  | cons h _ ih =>
    unfold Graph.frameLoop
    simp only [executeFrame_sameAt h, ih]

theorem execute_sameAt {sem : NodeSem N S C Fr} {fs fs' : List Fr}
    (h : List.Forall₂ (SameAt sem) fs fs') (srt : EdgeSort) (fuel : Nat) (g : Graph N S) (id : Nat)
    (c : C) : g.execute sem srt fuel id fs c = g.execute sem srt fuel id fs' c := by
  unfold Graph.execute
  simp only [frameLoop_sameAt h]

end

section
variable {F H : Type} [FloatLike F] [HalfLike F H] [FloatConst F] [FloatBits F]

theorem nodes_sameAt (p : Profile) (lib : NodeLib F H) {f f' : F} (h : frameNum f = frameNum f') :
    SameAt (nodeSem (H := H) p lib) f f' := by
  have hh : ∀ (n : Node F) hs, n.hash lib.hash lib.shell f hs = n.hash lib.hash lib.shell f' hs := by
    intro n hs
    unfold Node.hash Node.hashItems NodeAttrs.hashItems
    cases n.attrs <;> simp only [ReadImageAttrs.hashItems, WriteImageAttrs.hashItems, h]
  refine ⟨hh, ?_⟩
  intro n mode inputs prev c
  have hr : n.run p lib f mode inputs prev c = n.run p lib f' mode inputs prev c := by
    unfold Node.run
    simp only [hh]
    cases n.attrs <;>
      simp only [ReadImageAttrs.compute, WriteImageAttrs.compute, writeProcess, h]
  show (n.run p lib f mode inputs prev c >>= _) = (n.run p lib f' mode inputs prev c >>= _)
  rw [hr]

/-- C102: executions at frames with the same nearest whole numbers are the same: same status, same
graph with its output, same files and cache, or the same panic. -/
theorem C102_nearest (p : Profile) (lib : NodeLib F H) (srt : EdgeSort) (fuel : Nat)
    (g : Graph (Node F) (Stream F H)) (id : Nat) {frames frames' : List F}
    (h : frames.map frameNum = frames'.map frameNum) (w : World F H) :
    g.execute (nodeSem p lib) srt fuel id frames w =
      g.execute (nodeSem p lib) srt fuel id frames' w := by
  refine execute_sameAt ?_ srt fuel g id w
  induction frames generalizing frames' with
  | nil =>
    cases frames' with
    | nil => exact .nil
    | cons _ _ => cases h
  | cons f fs ih =>
    cases frames' with
    | nil => cases h
    | cons f' fs' =>
      obtain ⟨h1, h2⟩ := List.cons.inj h
      exact .cons (nodes_sameAt p lib h1) (ih h2)

/-- C102: executing at the nearest whole frames, given as integers, is the same.  The hypothesis
holds for every `f64` (`C20_double_again`). -/
theorem C102_whole (p : Profile) (lib : NodeLib F H) (srt : EdgeSort) (fuel : Nat)
    (g : Graph (Node F) (Stream F H)) (id : Nat) (frames : List F)
    (h : ∀ f ∈ frames, frameNum (FloatLike.ofInt (frameNum f) : F) = frameNum f) (w : World F H) :
    g.executeWhole p lib srt fuel id (frames.map frameNum) w =
      g.execute (nodeSem p lib) srt fuel id frames w := by
  refine C102_nearest p lib srt fuel g id ?_ w
  rw [List.map_map, List.map_map]
  exact List.map_congr_left fun f hf => h f hf

end

/-! ### The numbers of `f64` frames -/

section
open IeeeSpec
open Ieee hiding floor ceil round

variable [Libm double64]

theorem frameNum_double {x : F64} (hx : IsFinite x) :
    frameNum x = max (-2147483648) (min 2147483647 (roundInt x)) := by
  unfold frameNum
  rw [op_round, op_toI32, toRange_round ok_double hx]

/-- C20 in IEEE arithmetic: the frame in a path is a nearest whole number to the frame, among the
numbers that fit. -/
theorem C20_double_nearest {x : F64} (hx : IsFinite x) {k : Int} (hk : InI32 k) :
    |val x - (frameNum x : ℚ)| ≤ |val x - (k : ℚ)| := by
  rw [frameNum_double hx]
  exact Ieee.clamp_nearest (roundInt_close x) hk

/-- C20 in IEEE arithmetic: whole frames given as integers are themselves. -/
theorem C20_double_whole {n : Int} (hn : InI32 n) : frameNum (ofInt n : F64) = n := by
  have h : n.natAbs ≤ 2 * 2 ^ double64.mant := by
    obtain ⟨h1, h2⟩ := hn
    show n.natAbs ≤ 2 * 2 ^ 52
    omega
  rw [frameNum_double (ofInt_spec ok_double h).1, roundInt_eq (m := n)]
  · obtain ⟨h1, h2⟩ := hn
    omega
  · rw [ofInt_val ok_double h]; norm_num

theorem frameNum_range (x : F64) : InI32 (frameNum x) := by
  unfold frameNum
  rw [op_round, op_toI32]
  unfold toRange
  generalize (Ieee.round x).trunc = t
  unfold InI32
  split <;> omega

theorem C20_double_again (x : F64) :
    frameNum (FloatLike.ofInt (frameNum x) : F64) = frameNum x := by
  rw [op_ofInt]
  exact C20_double_whole (frameNum_range x)

/-- Frames that are not numbers count as frame 0, infinite frames as the first and last one. -/
theorem C20_double_special :
    frameNum (Ieee.nan : F64) = 0 ∧ frameNum (Ieee.inf false : F64) = 2147483647 ∧
      frameNum (Ieee.inf true : F64) = -2147483648 := by
  unfold frameNum
  simp only [op_round, op_toI32]
  decide +kernel

end

/-! ### Examples -/

section Examples
open IeeeSpec
open Ieee hiding floor ceil round

attribute [local instance] exactPowf

@[instance_reducible] def doubleLibm : Libm double64 := ⟨fun x _ => x, id, id⟩

attribute [local instance] doubleLibm

/-- 1.25 -/
def oneQuarter : F32 := ⟨false, 0x3fa00000, by decide⟩
/-- 1000.5, as a double -/
def thousandHalf : F64 := ⟨false, 0x408f440000000000, by decide⟩

-- Frames 1.25 and 3 are frames 1 and 3.
example (lib : NodeLib F32 F16) (srt : EdgeSort) (g : Graph (Node F32) (Stream F32 F16))
    (w : World F32 F16) :
    g.execute (nodeSem .debug lib) srt 100 7 [oneQuarter, ofInt 3] w =
      g.executeWhole .debug lib srt 100 7 [1, 3] w :=
  C102_nearest .debug lib srt 100 g 7 (by decide +kernel) w

example (lib : NodeLib F32 F16) (srt : EdgeSort) (g : Graph (Node F32) (Stream F32 F16))
    (w : World F32 F16) :
    g.executeWhole .debug lib srt 100 7 ([oneQuarter, ofInt 3].map frameNum) w =
      g.execute (nodeSem .debug lib) srt 100 7 [oneQuarter, ofInt 3] w :=
  C102_whole .debug lib srt 100 g 7 _ (by decide +kernel) w

-- Halves go away from zero.
example : frameNum thousandHalf = 1001 := by decide +kernel
example : |val thousandHalf - ((1001 : Int) : ℚ)| ≤ |val thousandHalf - ((1000 : Int) : ℚ)| := by
  have := C20_double_nearest (x := thousandHalf) (by rw [finite_iff]; decide +kernel) (k := 1000)
    (by decide)
  rwa [show frameNum thousandHalf = 1001 by decide +kernel] at this
example : frameNum (ofInt (-2147483648) : F64) = -2147483648 := C20_double_whole (by decide)

end Examples

end OCG.Props
