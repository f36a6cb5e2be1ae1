import Verif.Model.Config
import Mathlib.Logic.Function.Basic
/-
Model of how src/imageio.rs changes the number of threads of OpenImageIO around each file that is
read or written.  The number is a global variable of OpenImageIO, so calls made at the same time
from several threads of the host are interleaved.
-/

namespace OCG.Threads

/-- The number of threads OpenImageIO uses (`OIIO::attribute("threads")`, external), what each call
has done so far and the number it has to restore (`old_num_threads`), and the number of threads in
force when each file was read or written.  `done` counts the statements executed of
imageio.rs:59-63 or 135-141. -/
structure State where
  threads : Int
  done : Nat → Nat
  old : Nat → Int
  ran : List Int

/-- No call has begun. -/
def State.init (threads : Int) : State := ⟨threads, fun _ => 0, fun _ => 0, []⟩

/-- The next statement of call `i`: imageio.rs:60-63 in `read_image` and 136-141 in `write_image`
with imageio.cpp:39-45.  `norm` is what OpenImageIO makes of a number it is given, `request i` the
argument `num_threads` of the call.  Simplification: OpenImageIO always knows the attribute. -/
def step (norm : Int → Int) (request : Nat → Int) (s : State) (i : Nat) : State :=
  match s.done i with
  | 0 => { s with done := Function.update s.done i 1, old := Function.update s.old i s.threads }
  | 1 => { s with done := Function.update s.done i 2, threads := norm (request i) }
  | 2 => { s with done := Function.update s.done i 3, ran := s.ran ++ [s.threads] }
  | 3 => { s with done := Function.update s.done i 4, threads := norm (s.old i) }
  | _ => s

/-- An interleaving: the numbers of the calls that execute their next statement, in order. -/
def run (norm : Int → Int) (request : Nat → Int) (s : State) (schedule : List Nat) : State :=
  schedule.foldl (step norm request) s

/-- node/read_image.rs:154 and 174, node/write_image.rs:190: the number of threads a node asks for
under a configuration. -/
def nodeRequest {F : Type} (_ : Config F) : Int := 0

end OCG.Threads
