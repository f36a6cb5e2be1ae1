import Verif.Model.Threads
import Verif.Props.Config
/-
C114: reading and writing files leaves the number of threads of OpenImageIO alone.
-/

namespace OCG.Props

open OCG.Threads

/-- Calls made one after another: each finishes before the next one begins. -/
def oneByOne (calls : List Nat) : List Nat := calls.flatMap fun i => [i, i, i, i]

theorem run_append {norm : Int → Int} {req : Nat → Int} (s : State) (a b : List Nat) :
    run norm req s (a ++ b) = run norm req (run norm req s a) b := List.foldl_append

theorem run_call {norm : Int → Int} {req : Nat → Int} (s : State) (i : Nat) (h : s.done i = 0) :
    run norm req s [i, i, i, i] =
      ⟨norm s.threads, Function.update s.done i 4, Function.update s.old i s.threads,
        s.ran ++ [norm (req i)]⟩ := by
  simp [run, step, h]

/-- C114: calls made one after another restore the number of threads, and each of them runs with the
number it asked for. -/
theorem C114_restored (norm : Int → Int) (req : Nat → Int) (s : State) (calls : List Nat)
    (hn : calls.Nodup) (hf : ∀ i ∈ calls, s.done i = 0) (h : norm s.threads = s.threads) :
    (run norm req s (oneByOne calls)).threads = s.threads ∧
      (run norm req s (oneByOne calls)).ran = s.ran ++ calls.map fun i => norm (req i) := by
  induction calls generalizing s with
  | nil => simp [oneByOne, run]
  | cons i is ih =>
    have e : oneByOne (i :: is) = [i, i, i, i] ++ oneByOne is := rfl
    rw [e, run_append, run_call s i (hf i (by simp)), h]
    have hn' := List.nodup_cons.mp hn
    have := ih ⟨s.threads, Function.update s.done i 4, Function.update s.old i s.threads,
        s.ran ++ [norm (req i)]⟩ hn'.2
      (fun j hj => by
        have : j ≠ i := fun e => hn'.1 (e ▸ hj)
        simp [Function.update_of_ne this, hf j (by simp [hj])]) h
    refine ⟨this.1, ?_⟩
    rw [this.2]
    simp

/-- What OpenImageIO makes of a number of threads on a machine with eight cores: zero and less
means one for each core, and 512 is the most. -/
def oiioThreads (n : Int) : Int := if n ≤ 0 then 8 else min n 512

example : run oiioThreads (fun _ => 0) (.init 3) (oneByOne [4, 7]) =
    run oiioThreads (fun _ => 0) (.init 3) [4, 4, 4, 4, 7, 7, 7, 7] := rfl

example : (run oiioThreads (fun _ => 0) (.init 3) (oneByOne [4, 7])).threads = 3 :=
  (C114_restored oiioThreads (fun _ => 0) (.init 3) [4, 7] (by decide) (fun _ _ => rfl) rfl).1

/-- The invariant: every number of threads that is remembered is good and a fixed point. -/
def ThreadsGood (norm : Int → Int) (good : Int → Prop) (s : State) : Prop :=
  (good s.threads ∧ norm s.threads = s.threads) ∧
    (∀ i, 0 < s.done i → good (s.old i) ∧ norm (s.old i) = s.old i) ∧ ∀ n ∈ s.ran, good n

theorem step_good {norm : Int → Int} {req : Nat → Int} {good : Int → Prop}
    (hi : ∀ n, norm (norm n) = norm n) (s : State) (i : Nat) (hr : good (norm (req i)))
    (h : ThreadsGood norm good s) : ThreadsGood norm good (step norm req s i) := by
  obtain ⟨h1, h2, h3⟩ := h
  have hu : ∀ (k : Nat) (j : Nat), 0 < s.done i → 0 < Function.update s.done i k j →
      good (s.old j) ∧ norm (s.old j) = s.old j := by
    intro k j hp hj
    by_cases e : j = i
    · subst e; exact h2 j hp
    · exact h2 j (by rwa [Function.update_of_ne e] at hj)
  unfold step
  split
  · refine ⟨h1, fun j hj => ?_, h3⟩
    by_cases e : j = i
    · subst e; simpa using h1
    · have := h2 j (by simpa [Function.update_of_ne e] using hj)
      simpa [Function.update_of_ne e] using this
  · exact ⟨⟨hr, hi _⟩, fun j hj => hu 2 j (by omega) hj, h3⟩
  · refine ⟨h1, fun j hj => hu 3 j (by omega) hj, fun n hn => ?_⟩
    rcases List.mem_append.mp hn with hn | hn
    · exact h3 n hn
    · rw [List.mem_singleton.mp hn]; exact h1.1
  · obtain ⟨g, e⟩ := h2 i (by omega)
    refine ⟨?_, fun j hj => hu 4 j (by omega) hj, h3⟩
    show good (norm (s.old i)) ∧ norm (norm (s.old i)) = norm (s.old i)
    rw [e]; exact ⟨g, e⟩
  · exact ⟨h1, h2, h3⟩

/-- C114: in every interleaving of any calls, the number of threads is always the one of the
beginning or one that was asked for, and so is the number in force for every file. -/
theorem C114_any (norm : Int → Int) (req : Nat → Int) (t : Int) (schedule : List Nat)
    (h : norm t = t) (hi : ∀ n, norm (norm n) = norm n) (good : Int → Prop)
    (ht : good t) (hr : ∀ i ∈ schedule, good (norm (req i))) :
    good (run norm req (.init t) schedule).threads ∧
      ∀ n ∈ (run norm req (.init t) schedule).ran, good n := by
  have key : ∀ (l : List Nat) (s : State), (∀ i ∈ l, good (norm (req i))) →
      ThreadsGood norm good s → ThreadsGood norm good (run norm req s l) := by
    intro l
    induction l with
    | nil => intro s _ h1; exact h1
    | cons i is ih =>
      intro s hl h1
      exact ih _ (fun j hj => hl j (by simp [hj])) (step_good hi s i (hl i (by simp)) h1)
  have := key schedule (.init t) hr
    ⟨⟨ht, h⟩, fun i hi => absurd hi (by simp [State.init]), fun n hn => by simp [State.init] at hn⟩
  exact ⟨this.1.1, this.2.2⟩

/-- Three interleaved calls of nodes on a machine with eight cores: three or eight threads. -/
example : (run oiioThreads (fun _ => 0) (.init 3) [1, 2, 1, 3, 3, 2, 2, 1, 3, 2, 3, 1]).threads ∈
    [(3 : Int), 8] :=
  (C114_any oiioThreads (fun _ => 0) 3 _ rfl
    (fun n => by unfold oiioThreads; split <;> omega) (· ∈ [(3 : Int), 8]) (by decide)
    (fun _ _ => by decide)).1

theorem step_old {norm : Int → Int} {req : Nat → Int} (s : State) (i j : Nat) (h : 0 < s.done i) :
    (step norm req s j).old i = s.old i := by
  unfold step
  split
  · rename_i hd
    have : i ≠ j := fun e => by subst e; omega
    simp [Function.update_of_ne this]
  all_goals rfl

theorem step_done {norm : Int → Int} {req : Nat → Int} (s : State) (i j : Nat) (h : 0 < s.done i) :
    0 < (step norm req s j).done i := by
  unfold step
  split
  all_goals first
    | exact h
    | (by_cases e : i = j
       · subst e; simp
       · simpa [Function.update_of_ne e] using h)

/-- C114: the call that finishes last decides: the number of threads is then the one that was in
force when this call began. -/
theorem C114_last (norm : Int → Int) (req : Nat → Int) (s : State) (i : Nat) (during : List Nat)
    (h : s.done i = 0) (h3 : (run norm req (step norm req s i) during).done i = 3) :
    (run norm req s ([i] ++ during ++ [i])).threads = norm s.threads := by
  have keep : ∀ (l : List Nat) (s : State), 0 < s.done i → (run norm req s l).old i = s.old i := by
    intro l
    induction l with
    | nil => intro s _; rfl
    | cons j js ih =>
      intro s hs
      show (run norm req (step norm req s j) js).old i = _
      rw [ih _ (step_done s i j hs), step_old s i j hs]
  rw [run_append, run_append]
  show (step norm req (run norm req (step norm req s i) during) i).threads = _
  have e1 : 0 < (step norm req s i).done i := by unfold step; rw [h]; simp
  have e2 : (step norm req s i).old i = s.threads := by unfold step; rw [h]; simp
  have e := keep during _ e1
  rw [e2] at e
  generalize run norm req (step norm req s i) during = r at h3 e
  simp only [step, h3, e]

/-- A call that begins first and finishes last restores the number although another one overlaps. -/
example : (run oiioThreads (fun _ => 0) (.init 3) ([1] ++ [2, 1, 2, 1, 2, 2] ++ [1])).threads = 3 :=
  C114_last oiioThreads (fun _ => 0) (.init 3) 1 _ rfl (by decide)

/-- C114, counterexample: two overlapping calls leave the host with another number of threads, here
eight instead of three. -/
theorem C114_counterexample_overlap :
    ∃ schedule, (∀ i ∈ [1, 2], schedule.count i = 4) ∧
      (run oiioThreads (fun _ => 0) (.init 3) schedule).threads = 8 :=
  ⟨[1, 1, 2, 1, 1, 2, 2, 2], by decide, by decide⟩

/-- C114, counterexample: the configured number of threads is not used: with one thread configured,
files are read with eight. -/
theorem C114_counterexample_config (F : Type) (percent : F) :
    (run oiioThreads (fun _ => nodeRequest (⟨percent, 1⟩ : Config F)) (.init 3)
      (oneByOne [0])).ran = [8] := by
  show (run oiioThreads (fun _ => 0) (.init 3) (oneByOne [0])).ran = [8]
  decide

end OCG.Props
