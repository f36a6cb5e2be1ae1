import Verif.Proofs.IeeeError
import Verif.Props.CacheRun
import Verif.Props.Compute
import Verif.Props.Execute
import Verif.Props.IeeeConvert
import Verif.Props.Levels
import Verif.Spec.Bars
import Mathlib.Tactic.IntervalCases
/-
C111: before anything was computed a graph shows the documented colour bars, and only computing
changes what it shows.
-/

namespace OCG.Props

open Ieee IeeeSpec BarSpec

section
variable [Libm single32]

/-- A quotient of small whole numbers, as a float. -/
theorem ratio_near {a b : Nat} (ha : a ≤ b) (hb : 1 ≤ b) (hb' : b ≤ 65535) :
    IsFinite (div (ofInt a) (ofInt b) : F32) ∧
      |val (div (ofInt a) (ofInt b) : F32) - (a : ℚ) / b| ≤ 1 / 2 ^ 20 := by
  obtain ⟨n1, -, -⟩ := whole_spec hb (by omega)
  obtain ⟨a1, -, -⟩ := ofInt_spec ok_single (n := (a : Int)) (by show a ≤ 2 * 2 ^ 23; omega)
  have vb := ofInt_val ok_single (n := (b : Int)) (by show b ≤ 2 * 2 ^ 23; omega)
  have va := ofInt_val ok_single (n := (a : Int)) (by show a ≤ 2 * 2 ^ 23; omega)
  have hbq : (1 : ℚ) ≤ b := by exact_mod_cast hb
  have haq : (a : ℚ) ≤ b := by exact_mod_cast ha
  have hr := rounds_div a1 n1 (by rw [vb]; push_cast; linarith)
  rw [va, vb] at hr
  push_cast at hr
  have hle : |(a : ℚ) / b| ≤ 1 := by
    rw [abs_of_nonneg (by positivity), div_le_iff₀ (by linarith), one_mul]
    exact haq
  have hf : IsFinite (div (ofInt a) (ofInt b) : F32) :=
    (hr.finite (y := ofInt 1) (one_spec ok_single).1 (by
      rw [ofInt_val ok_single (n := 1) (by decide), Int.cast_one, abs_one]; exact hle)).1
  refine ⟨hf, (hr.error hf).trans (max_le ?_ ?_)⟩
  · calc |(a : ℚ) / b| / (2 * 2 ^ single32.mant) ≤ 1 / (2 * 2 ^ single32.mant) := by gcongr
      _ ≤ 1 / 2 ^ 20 := by
        show (1 : ℚ) / (2 * 2 ^ 23) ≤ 1 / 2 ^ 20
        norm_num
  · show (1 : ℚ) / (2 * 2 ^ 149) ≤ 1 / 2 ^ 20
    norm_num

theorem bright_near : Near (div (ofInt 9215) (ofInt 10000) : F32) 235 := by
  obtain ⟨h1, h2⟩ := ratio_near (a := 9215) (b := 10000) (by decide) (by decide) (by decide)
  refine ⟨h1, ?_⟩
  have h3 := abs_le.mp h2
  push_cast at h3
  rw [abs_le]
  constructor <;> norm_num at h3 ⊢ <;> linarith [h3.1, h3.2]

theorem dark_near : Near (div (ofInt 627) (ofInt 10000) : F32) 16 := by
  obtain ⟨h1, h2⟩ := ratio_near (a := 627) (b := 10000) (by decide) (by decide) (by decide)
  refine ⟨h1, ?_⟩
  have h3 := abs_le.mp h2
  push_cast at h3
  rw [abs_le]
  constructor <;> norm_num at h3 ⊢ <;> linarith [h3.1, h3.2]

/-- C111: a new stream shows the documented colour bars. -/
theorem C111_new : ShowsBars (Stream.new : Stream F32 F16) := by
  refine ⟨⟨rfl, rfl⟩, ⟨rfl, rfl⟩, _, rfl, rfl, ?_⟩
  have ho := bright_near
  have hz := dark_near
  intro x y c hx hy hc
  have h : ∀ o z : F32, Near o 235 → Near z 16 → ∃ v level,
      ([o, o, o,  o, o, z,  z, o, o,  z, o, z,
        o, o, o,  o, o, z,  z, o, o,  z, o, z,
        o, z, o,  o, z, z,  z, z, o,  z, z, z,
        o, z, o,  o, z, z,  z, z, o,  z, z, z] : List F32)[3 * (4 * y + x) + c]? = some v ∧
      (barAt x y).levels[c]? = some level ∧ Near v level := by
    intro o z ho hz
    interval_cases x <;> interval_cases y <;> interval_cases c <;>
      first
        | exact ⟨o, _, rfl, rfl, ho⟩
        | exact ⟨z, _, rfl, rfl, hz⟩
  exact h _ _ ho hz

end

section
variable {N S C Fr : Type}

/-- C111: editing a graph, and executing nothing, does not change what it shows. -/
theorem C111_edits {sem : NodeSem N S C Fr} {srt : EdgeSort} {g g' : Graph N S}
    (h : Edited sem srt g g') : g'.output = g.output := by
  induction h with
  | nothing => rfl
  | add n _ e ih =>
    unfold Graph.addNode at e
    dsimp only at e
    split at e
    · cases e; exact ih
    · cases e
  | remove id _ ih =>
    unfold Graph.removeNode
    split
    · exact ih
    · split <;> exact ih
  | connect src dst slot _ e ih =>
    unfold Graph.connect at e
    split at e
    · cases e; exact ih
    · split at e
      · cases e; exact ih
      · obtain ⟨sg, -, e⟩ := Res.bind_ok.mp e
        cases e
        rw [← ih]
        unfold Graph.disconnectInput
        dsimp only
        split <;> rfl
  | disconnect dst slot _ ih =>
    unfold Graph.disconnectInput
    split <;> exact ih
  | setAttr id f _ e ih =>
    unfold Graph.setAttr at e
    split at e
    · cases e; exact ih
    · split at e
      · cases e; exact ih
      · cases e
  | executeMissing fuel id frames _ hm e ih =>
    unfold Graph.execute at e
    rw [find_none.mpr hm] at e
    cases e
    exact ih
  | executeNothing fuel id _ e ih =>
    unfold Graph.execute at e
    split at e
    · cases e; exact ih
    · obtain ⟨order, -, e⟩ := Res.bind_ok.mp e
      obtain ⟨⟨e1, g1, c1⟩, e2, e⟩ := Res.bind_ok.mp e
      cases e2
      cases e
      exact ih

theorem computePhase_last {sem : NodeSem N S C Fr} {srt : EdgeSort} {frame : Fr}
    {l : List (Nat × Mode)} {g : Graph N S} {c : C} {m : Graph.IdxMap S} {e : Option ErrorCode}
    {g' : Graph N S} {c' : C} (h : Graph.computePhase sem srt frame l g c m = .ok (e, g', c')) :
    (l = [] ∧ g'.output = g.output ∧ e = none) ∨ ∃ n mode inputs prev c1 n' st c2,
      sem.compute n frame mode inputs prev c1 = .ok (n', st, g'.output, c2) ∧
        Graph.statusError st = e := by
  induction l generalizing g c m with
  | nil => cases h; exact .inl ⟨rfl, rfl, rfl⟩
  | cons im rest ih =>
    obtain ⟨i, mode⟩ := im
    unfold Graph.computePhase at h
    obtain ⟨parents, -, h⟩ := Res.bind_ok.mp h
    obtain ⟨inputs, -, h⟩ := Res.bind_ok.mp h
    split at h
    · cases h
    · obtain ⟨⟨n', st, out, c1⟩, e1, h⟩ := Res.bind_ok.mp h
      dsimp only at h
      split at h
      · rename_i e2 he
        cases h
        exact .inr ⟨_, _, _, _, _, _, _, _, e1, he⟩
      · rename_i he
        rcases ih h with ⟨-, ho, rfl⟩ | h2
        · rw [ho]
          exact .inr ⟨_, _, _, _, _, _, _, _, e1, he⟩
        · exact .inr h2

theorem validateLoop_some {sem : NodeSem N S C Fr} {srt : EdgeSort} {g : Graph N S}
    {hashes : Graph.IdxMap Nat} {fuel : Nat} {stack done out : List (Nat × Mode)}
    (h : Graph.validateLoop sem srt g hashes fuel stack done = .ok out) (hd : done ≠ []) :
    out ≠ [] := by
  induction fuel generalizing stack done with
  | zero => cases h
  | succ fuel ih =>
    cases stack with
    | nil => cases h; exact hd
    | cons im stack =>
      obtain ⟨i, mode⟩ := im
      unfold Graph.validateLoop at h
      obtain ⟨ups, -, h⟩ := Res.bind_ok.mp h
      obtain ⟨ins, -, h⟩ := Res.bind_ok.mp h
      split at h
      · cases h
      · split at h
        · cases h
        · obtain ⟨modes, -, h⟩ := Res.bind_ok.mp h
          exact ih h (by simp [hd])

theorem frameLoop_last {sem : NodeSem N S C Fr} {srt : EdgeSort} {fuel : Nat} {order : List Nat}
    {frames : List Fr} {g : Graph N S} {c : C} {e : Option ErrorCode} {g' : Graph N S} {c' : C}
    (h : Graph.frameLoop sem srt fuel order frames g c = .ok (e, g', c')) :
    (frames = [] ∧ g'.output = g.output ∧ e = none) ∨ ∃ frame ∈ frames,
      ∃ n mode inputs prev c1 n' st c2,
      sem.compute n frame mode inputs prev c1 = .ok (n', st, g'.output, c2) ∧
        Graph.statusError st = e := by
  induction frames generalizing g c with
  | nil => cases h; exact .inl ⟨rfl, rfl, rfl⟩
  | cons f fs ih =>
    unfold Graph.frameLoop at h
    obtain ⟨⟨e1, g1, c1⟩, he, h⟩ := Res.bind_ok.mp h
    have hstep : ∃ n mode inputs prev c1 n' st c2,
        sem.compute n f mode inputs prev c1 = .ok (n', st, g1.output, c2) ∧
          Graph.statusError st = e1 := by
      unfold Graph.executeFrame at he
      obtain ⟨hashes, -, he⟩ := Res.bind_ok.mp he
      split at he
      · cases he
      · obtain ⟨validated, hv, he⟩ := Res.bind_ok.mp he
        rcases computePhase_last he with ⟨hnil, -, -⟩ | h2
        · exact absurd (List.reverse_eq_nil_iff.mp hnil) (validateLoop_some hv (by simp))
        · exact h2
    dsimp only at h
    split at h
    · cases h
      exact .inr ⟨f, by simp, hstep⟩
    · rcases ih h with ⟨-, ho, rfl⟩ | ⟨frame, hf, h2⟩
      · rw [ho]
        exact .inr ⟨f, by simp, hstep⟩
      · exact .inr ⟨frame, by simp [hf], h2⟩

/-- C111: at its end an execution shows what its last computation left, also if that computation
failed. -/
theorem C111_last {sem : NodeSem N S C Fr} {srt : EdgeSort} {fuel : Nat} {g g' : Graph N S}
    {id : Nat} {frames : List Fr} {c c' : C} {status : ExecuteStatus} (hid : id ∈ g.ids)
    (hf : frames ≠ []) (h : g.execute sem srt fuel id frames c = .ok (status, g', c')) :
    ∃ frame ∈ frames, ∃ n mode inputs prev c1 n' st c2,
      sem.compute n frame mode inputs prev c1 = .ok (n', st, g'.output, c2) ∧
        (status = .success ↔ st = .valid ∨ st = .warning) := by
  unfold Graph.execute at h
  split at h
  · rename_i hn
    exact absurd hid (find_none.mp hn)
  · obtain ⟨order, -, h⟩ := Res.bind_ok.mp h
    obtain ⟨⟨e1, g1, c1⟩, he, h⟩ := Res.bind_ok.mp h
    rcases frameLoop_last he with ⟨hnil, -, -⟩ | ⟨frame, hfr, n, mode, inputs, prev, c2, n', st, c3,
      hc, hst⟩
    · exact absurd hnil hf
    · dsimp only at h
      split at h
      · rename_i e2
        cases h
        refine ⟨frame, hfr, n, mode, inputs, prev, c2, n', st, c3, hc, ?_⟩
        cases st <;> cases e2 <;> simp_all [Graph.statusError, Graph.errorStatus]
      · cases h
        refine ⟨frame, hfr, n, mode, inputs, prev, c2, n', st, c3, hc, ?_⟩
        cases st <;> simp_all [Graph.statusError]

end

section
variable [Libm single32]

/-- C111: until something is computed, a new graph shows the documented colour bars. -/
theorem C111_new_graph {N C Fr : Type} {sem : NodeSem N (Stream F32 F16) C Fr} {srt : EdgeSort}
    {g : Graph N (Stream F32 F16)} (h : Edited sem srt (Graph.new Stream.new) g) :
    ShowsBars g.output := by
  rw [C111_edits h]
  exact C111_new

/-- A float as a byte. -/
def floatByte (x : F32) : Fin 256 := convElem (F := F32) (H := F16) .f32 .u8 x

/-- The levels are documented as 235 and 16; as bytes the pixels are 234 and 15, because conversion
to bytes cuts off the fraction. -/
theorem C111_counterexample_bytes : ∃ values : List (Fin 256),
    (Stream.new : Stream F32 F16).pixelBlock.convert (.known .u8) =
      .ok ⟨⟨4, 4, 3⟩, ⟨.u8, values⟩⟩ ∧
    values.take 6 = [234, 234, 234, 234, 234, 15] := by
  refine ⟨_, rfl, ?_⟩
  have ho : floatByte (div (ofInt 9215) (ofInt 10000)) = 234 :=
    (conv_u8_range _).trans (by show (Fin.ofNat 256 _ : Fin 256) = 234; decide +kernel)
  have hz : floatByte (div (ofInt 627) (ofInt 10000)) = 15 :=
    (conv_u8_range _).trans (by show (Fin.ofNat 256 _ : Fin 256) = 15; decide +kernel)
  have h : ∀ o z : F32, floatByte o = 234 → floatByte z = 15 →
      [o, o, o, o, o, z].map floatByte = [234, 234, 234, 234, 234, 15] := by
    intro o z ho hz
    simp only [List.map_cons, List.map_nil, ho, hz]
  exact h _ _ ho hz

end

section
attribute [local instance] finFloat finBits finHalf finPi
open GraphSpec

/-- A write node added to a graph with output, and given an input that is not there. -/
example : ∃ g, Edited (nodeSem .debug finLib) insSort readCrop g ∧ g.nodes.length = 3 ∧
    g.output = readCrop.output :=
  ⟨_, .disconnect 2 0 (.add (i := 2) writeNode (.nothing _) rfl), rfl,
    C111_edits (srt := insSort) (.disconnect 2 0 (.add (i := 2) writeNode (.nothing _) rfl))⟩

/-- An execution with two computations. -/
example : 2 ∈ readCrop.ids ∧ ∃ g' w',
    Graph.execute (nodeSem .debug twoFiles) insSort 5 readCrop 2 [1] noCache =
      .ok (.success, g', w') ∧ g'.output.dataWindow ≠ readCrop.output.dataWindow :=
  ⟨by decide, _, _, rfl, by decide⟩

end
end OCG.Props
