import Verif.Model.Graph
import Verif.Model.Stream
import Verif.Spec.Ieee
/-
The colour bars a stream shows before anything was computed, and the edits of a graph.
-/

namespace OCG.BarSpec

open IeeeSpec

/-- The colours of the bars. -/
inductive Bar
  | white | yellow | cyan | green | magenta | red | blue | black

/-- Red, green and blue of a colour as 8 bit video levels: 235 is full, 16 is none (the table of
SMPTE colour bars). -/
def Bar.levels : Bar → List Nat
  | .white => [235, 235, 235]
  | .yellow => [235, 235, 16]
  | .cyan => [16, 235, 235]
  | .green => [16, 235, 16]
  | .magenta => [235, 16, 235]
  | .red => [235, 16, 16]
  | .blue => [16, 16, 235]
  | .black => [16, 16, 16]

/-- The bars: two lower rows with the four bright colours, two upper rows with the four dark
ones. -/
def barAt (x y : Nat) : Bar :=
  if y < 2 then
    if x = 0 then .white else if x = 1 then .yellow else if x = 2 then .cyan else .green
  else
    if x = 0 then .magenta else if x = 1 then .red else if x = 2 then .blue else .black

/-- The float is the level, up to one part in ten thousand of full brightness. -/
def Near (v : F32) (level : Nat) : Prop :=
  IsFinite v ∧ |val v - (level : ℚ) / 255| ≤ 1 / 10000

/-- The stream shows the bars as they are: four by four pixels at the origin, with nothing waiting
to be applied. -/
structure ShowsBars (s : Stream F32 F16) : Prop where
  window : s.dataWindow = ⟨0, 0, 4, 4⟩ ∧ s.displayWindow = ⟨0, 0, 4, 4⟩
  waiting : s.deformers = [] ∧ s.colorOps = []
  pixels : ∃ values : List F32, s.pixelBlock = ⟨⟨4, 4, 3⟩, ⟨.f32, values⟩⟩ ∧ values.length = 48 ∧
    ∀ x y c : Nat, x < 4 → y < 4 → c < 3 → ∃ v level, values[3 * (4 * y + x) + c]? = some v ∧
      (barAt x y).levels[c]? = some level ∧ Near v level

variable {N S C Fr : Type}

/-- One graph becomes another one by adding, removing, connecting, disconnecting and editing
nodes, and by executing nodes that are not there or no frames at all. -/
inductive Edited (sem : NodeSem N S C Fr) (srt : EdgeSort) : Graph N S → Graph N S → Prop
  | nothing (g) : Edited sem srt g g
  | add {g g1 g2 i} (n : N) : Edited sem srt g g1 → g1.addNode sem n = .ok (g2, i) →
      Edited sem srt g g2
  | remove {g g1} (id : Nat) : Edited sem srt g g1 → Edited sem srt g (g1.removeNode id).1
  | connect {g g1 g2} (src dst slot : Nat) : Edited sem srt g g1 →
      g1.connect src dst slot = .ok g2 → Edited sem srt g g2
  | disconnect {g g1} (dst slot : Nat) : Edited sem srt g g1 →
      Edited sem srt g (g1.disconnectInput dst slot)
  | setAttr {g g1 g2} (id : Nat) (f : N → N) : Edited sem srt g g1 →
      g1.setAttr id f = .ok g2 → Edited sem srt g g2
  | executeMissing {g g1 g2 status c c'} (fuel id : Nat) (frames : List Fr) : Edited sem srt g g1 →
      id ∉ g1.ids → g1.execute sem srt fuel id frames c = .ok (status, g2, c') →
      Edited sem srt g g2
  | executeNothing {g g1 g2 status c c'} (fuel id : Nat) : Edited sem srt g g1 →
      g1.execute sem srt fuel id [] c = .ok (status, g2, c') → Edited sem srt g g2

end OCG.BarSpec
