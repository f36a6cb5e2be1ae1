import Verif.Props.CacheRun
import Verif.Props.Rerun
/-
C45 with the hash that is really used.
-/

namespace OCG.Props

open CacheSpec

/-- `413078cb8dd326ca.exr` -/
def firstName : Bytes := [52, 49, 51, 48, 55, 56, 99, 98, 56, 100, 100, 51, 50, 54, 99, 97, 46, 101, 120, 114]

/-- `996fd6a81db9fb1d.exr` -/
def secondName : Bytes := [57, 57, 54, 102, 100, 54, 97, 56, 49, 100, 98, 57, 102, 98, 49, 100, 46, 101, 120, 114]

theorem names_collide : sipHash (hashBytes [.u8 1, .i32 1, .bytes firstName, .u8 255]) =
    sipHash (hashBytes [.u8 1, .i32 1, .bytes secondName, .u8 255]) := by
  decide +kernel

section
variable {F : Type} [FloatLike F] [FloatBits F]

/-- C45: nodes that read these two files have the same hash, in every frame and whatever the floats
are, where file names without variables and home directories are left as they are. -/
theorem C45_collision (shell : Bytes → Option Bytes) (h1 : shell firstName = some firstName)
    (h2 : shell secondName = some secondName) (i j : Nat) (s t : NodeStatus) (frame : F) :
    (⟨i, s, .readImage { ReadImageAttrs.new with filePath := firstName }⟩ : Node F).hash sipHash
        shell frame [] =
      (⟨j, t, .readImage { ReadImageAttrs.new with filePath := secondName }⟩ : Node F).hash
        sipHash shell frame [] := by
  have e1 : Path.expandString shell firstName (frameNum frame) = firstName := by
    unfold Path.expandString Path.expandFilePath
    rw [h1]
    exact if_neg (by decide +kernel)
  have e2 : Path.expandString shell secondName (frameNum frame) = secondName := by
    unfold Path.expandString Path.expandFilePath
    rw [h2]
    exact if_neg (by decide +kernel)
  have items : ∀ (k : Nat) (u : NodeStatus) (path : Bytes),
      Path.expandString shell path (frameNum frame) = path →
      (⟨k, u, .readImage { ReadImageAttrs.new with filePath := path }⟩ : Node F).hashItems shell
        frame [] = [.u8 1, .i32 1, .bytes path, .u8 255] := by
    intro k u path e
    unfold Node.hashItems NodeAttrs.hashItems ReadImageAttrs.hashItems
    dsimp only
    rw [e]
    rfl
  unfold Node.hash
  rw [items _ _ _ e1, items _ _ _ e2, names_collide]

example : (fun b => some b : Bytes → Option Bytes) firstName = some firstName := rfl

end

section
attribute [local instance] finFloat finBits finHalf finPi

/-- Two files with these names: the first is one pixel wide, all others are two pixels wide. -/
def hexFiles : NodeLib (Fin 256) (Fin 256) :=
  { twoFiles with
    oiio := { fullDisk with
      header := fun path => some (plainFile (if path = firstName then 1 else 2)) } }

/-- A graph with one node, which reads a file. -/
def readOne (path : Bytes) : Graph (Node (Fin 256)) (Stream (Fin 256) (Fin 256)) :=
  ⟨[⟨1, .uninitialized, .readImage { ReadImageAttrs.new with filePath := path }⟩], [1],
    ⟨[some 1], [], []⟩, .new, .dirty, .uninitialized⟩

/-- C45 is false with the hash that is really used: after the file `413078cb8dd326ca.exr` was read,
a graph that reads `996fd6a81db9fb1d.exr` with the same cache gives the picture of the other file.
All settings are the defaults. -/
theorem C45_counterexample_collision : ∃ g1 w1 g2 w2 g3 w3,
    (readOne firstName).execute (nodeSem .debug hexFiles) insSort 20 1 [1] blankWorld =
      .ok (.success, g1, w1) ∧
    (readOne secondName).execute (nodeSem .debug hexFiles) insSort 20 1 [1] w1 =
      .ok (.success, g2, w2) ∧
    (readOne secondName).execute (nodeSem .debug hexFiles) insSort 20 1 [1] blankWorld =
      .ok (.success, g3, w3) ∧
    g2.output.pixelBlock.size = ⟨1, 1, 3⟩ ∧ g3.output.pixelBlock.size = ⟨2, 1, 3⟩ :=
  ⟨_, _, _, _, _, _, rfl, rfl, rfl, by decide +kernel, by decide +kernel⟩

end

end OCG.Props
