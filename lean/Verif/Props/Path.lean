import Verif.Model.Path
import Verif.Spec.Path
import Mathlib.Tactic.IntervalCases
/-
Properties C20 and C21: frame numbers in paths.
-/

namespace OCG.Props

open Path PathSpec

/-! ### Decimal notation -/

theorem value_snoc (s : Bytes) (c : Nat) : value (s ++ [c]) = 10 * value s + (c - 48) := by
  simp [value, List.foldl_append]

theorem digitsRev_spec (fuel : Nat) : ∀ n, n < fuel →
    AllDigits (digitsRev fuel n) ∧ value (digitsRev fuel n).reverse = n ∧
      digitsRev fuel n ≠ [] ∧
      ((digitsRev fuel n).getLast? = some 48 → (digitsRev fuel n).length = 1) := by
  induction fuel with
  | zero => intro n h; omega
  | succ f ih =>
    intro n hn
    unfold digitsRev
    by_cases h : n < 10
    · rw [if_pos h]
      refine ⟨?_, ?_, by simp, by simp⟩
      · intro c hc
        simp only [List.mem_singleton] at hc
        omega
      · simp [value]
    · rw [if_neg h]
      obtain ⟨i1, i2, i3, i4⟩ := ih (n / 10) (by omega)
      refine ⟨?_, ?_, by simp, ?_⟩
      · intro c hc
        rcases List.mem_cons.mp hc with rfl | hc
        · omega
        · exact i1 c hc
      · rw [List.reverse_cons, value_snoc, i2]
        omega
      · intro hl
        exfalso
        rw [List.getLast?_cons_of_ne_nil i3] at hl
        have h1 := i4 hl
        -- the remaining number is a single digit 0, so n < 10
        match hd : digitsRev f (n / 10), i3, h1 with
        | [d], _, _ =>
          rw [hd] at hl i2
          simp only [List.getLast?_singleton, Option.some.injEq] at hl
          subst hl
          simp [value] at i2
          omega

theorem decimal_spec (n : Nat) : AllDigits (decimal n) ∧ value (decimal n) = n ∧
    decimal n ≠ [] ∧ ((decimal n).head? = some 48 → (decimal n).length = 1) := by
  obtain ⟨h1, h2, h3, h4⟩ := digitsRev_spec (n + 1) n (by omega)
  refine ⟨?_, h2, by simpa [decimal] using h3, ?_⟩
  · intro c hc
    exact h1 c (List.mem_reverse.mp hc)
  · intro h
    rw [decimal, List.length_reverse]
    apply h4
    rw [← h, decimal, List.head?_reverse]

theorem value_zeros (k : Nat) (s : Bytes) : value (List.replicate k 48 ++ s) = value s := by
  induction k with
  | zero => simp
  | succ k ih => rw [List.replicate_succ, List.cons_append]; simpa [value] using ih

theorem formatPadded_spec (w : Nat) (hw : 0 < w) (frame : Int) :
    IsPadded (formatPadded w frame) w frame := by
  obtain ⟨h1, h2, h3, h4⟩ := decimal_spec frame.natAbs
  have hlen : 0 < (decimal frame.natAbs).length := List.length_pos_iff.mpr h3
  have hz : ∀ k, AllDigits (List.replicate k 48 ++ decimal frame.natAbs) := by
    intro k c hc
    rcases List.mem_append.mp hc with hc | hc
    · rw [List.eq_of_mem_replicate hc]; omega
    · exact h1 c hc
  unfold formatPadded
  by_cases hf : frame < 0
  · simp only [hf, if_true]
    refine ⟨?_, [45], _, rfl, by simp [hf], ?_, hz _, ?_, ?_⟩
    · simp only [List.length_cons, List.length_append, List.length_replicate]; omega
    · simp [h3]
    · exact congrArg Nat.cast ((value_zeros _ _).trans h2)
    · intro hl
      simp only [List.length_cons, List.length_append, List.length_replicate] at hl
      have : w - ((decimal frame.natAbs).length + 1) = 0 := by omega
      rw [this]
      simpa using h4
  · simp only [hf, if_false]
    refine ⟨?_, [], _, rfl, by simp [hf], ?_, hz _, ?_, ?_⟩
    · simp only [List.length_append, List.length_replicate]; omega
    · simp [h3]
    · exact congrArg Nat.cast ((value_zeros _ _).trans h2)
    · intro hl
      simp only [List.length_append, List.length_replicate] at hl
      have : w - (decimal frame.natAbs).length = 0 := by omega
      rw [this]
      simpa using h4

/-- The notation determines the number. -/
theorem isPadded_unique {s : Bytes} {w w' : Nat} {f f' : Int} (h : IsPadded s w f)
    (h' : IsPadded s w' f') : f = f' := by
  obtain ⟨-, sg, d, e, hs, hd, ha, hv, -⟩ := h
  obtain ⟨-, sg', d', e', hs', hd', ha', hv', -⟩ := h'
  rw [e] at e'
  obtain ⟨c, t, rfl⟩ := List.exists_cons_of_ne_nil hd
  obtain ⟨c', t', rfl⟩ := List.exists_cons_of_ne_nil hd'
  have hc := ha c (by simp)
  have hc' := ha' c' (by simp)
  by_cases h1 : f < 0 <;> by_cases h2 : f' < 0 <;> simp only [h1, h2, if_true, if_false] at hs hs' <;>
    subst hs hs'
  · simp only [List.cons_append, List.nil_append, List.cons.injEq, true_and] at e'
    rw [e'.1, e'.2] at hv
    omega
  · simp only [List.cons_append, List.nil_append, List.cons.injEq] at e'
    omega
  · simp only [List.cons_append, List.nil_append, List.cons.injEq] at e'
    omega
  · simp only [List.nil_append, List.cons.injEq] at e'
    rw [e'.1, e'.2] at hv
    omega

/-! ### The scan -/

theorem scan_in_run (n : Nat) : ∀ (post : Bytes) (i st : Nat), post.head? ≠ some 35 →
    scan (List.replicate n 35 ++ post) i ⟨st, i, true⟩ = ⟨st, i + n, true⟩ := by
  induction n with
  | zero =>
    intro post i st hp
    match post, hp with
    | [], _ => rfl
    | c :: t, hp =>
      have : c ≠ 35 := by simpa using hp
      simp [scan, this]
  | succ n ih =>
    intro post i st hp
    rw [List.replicate_succ, List.cons_append, scan]
    simp only [if_true, Bool.true_eq_false, if_false]
    rw [ih post (i + 1) st hp]
    congr 1
    omega

theorem scan_spec (n : Nat) (post : Bytes) (hp : post.head? ≠ some 35) : ∀ (pre : Bytes) (i : Nat)
    (st : Scan), 35 ∉ pre → 0 < n → st.lastCharValid = false →
    scan (pre ++ List.replicate n 35 ++ post) i st = ⟨i + pre.length, i + pre.length + n, true⟩ := by
  intro pre
  induction pre with
  | nil =>
    intro i st _ hn hst
    obtain ⟨m, rfl⟩ : ∃ m, n = m + 1 := ⟨n - 1, by omega⟩
    rw [List.nil_append, List.replicate_succ, List.cons_append, scan]
    simp only [if_true, hst]
    rw [scan_in_run m post (i + 1) i hp]
    simp only [List.length_nil, Scan.mk.injEq, and_true]
    omega
  | cons c t ih =>
    intro i st hpre hn hst
    have hc : c ≠ 35 := fun h => hpre (by simp [h])
    rw [List.cons_append, List.cons_append, scan]
    rw [if_neg hc, if_neg (by simp [hst]), ih (i + 1) st (fun h => hpre (by simp [h])) hn hst]
    simp only [List.length_cons, Scan.mk.injEq, and_true]
    omega

theorem scan_none : ∀ (s : Bytes) (i : Nat) (st : Scan), 35 ∉ s → st.lastCharValid = false →
    scan s i st = st := by
  intro s
  induction s with
  | nil => intros; rfl
  | cons c t ih =>
    intro i st h hst
    have hc : c ≠ 35 := fun e => h (by simp [e])
    rw [scan, if_neg hc, if_neg (by simp [hst]), ih _ _ (fun e => h (by simp [e])) hst]

theorem expand_run (shell : Bytes → Option Bytes) (path pre post : Bytes) (n : Nat) (frame : Int)
    (h : FirstRun (expandFilePath shell path) pre n post) :
    expandString shell path frame = pre ++ frameString n frame ++ post := by
  obtain ⟨e, h1, h2, h3⟩ := h
  unfold expandString findRange
  dsimp only
  rw [e, scan_spec n post h3 pre 0 _ h1 h2 rfl]
  simp only [Nat.zero_add, Nat.add_sub_cancel_left, if_pos h2, createExpanded, gt_iff_lt]
  rw [List.append_assoc pre (List.replicate n 35) post, List.take_left, List.drop_append,
    List.append_assoc]
  simp [List.drop_append]

theorem frameString_small (n : Nat) (h0 : 0 < n) (h : n ≤ 9) (frame : Int) :
    frameString n frame = formatPadded n frame := by
  interval_cases n <;> rfl

/-! ### C20 -/

/-- C20 (runs of at most nine '#'): the first run of '#' in the path (after environment
variables were expanded by the external library) is replaced by the frame number, zero-padded
to at least the run length; everything else is untouched.
Missing: longer runs, see `C20_counterexample`. -/
theorem C20_expand_partial (shell : Bytes → Option Bytes) (path : Bytes) (frame : Int)
    (pre post : Bytes) (n : Nat)
    (h : FirstRun ((shell path).getD path) pre n post) (hn : n ≤ 9) :
    ∃ s, expandString shell path frame = pre ++ s ++ post ∧ IsPadded s n frame := by
  have he : (shell path).getD path = expandFilePath shell path := by
    unfold expandFilePath; cases shell path <;> rfl
  rw [he] at h
  refine ⟨formatPadded n frame, ?_, formatPadded_spec n h.2.2.1 frame⟩
  rw [expand_run shell path pre post n frame h, frameString_small n h.2.2.1 hn]

/-- C20: a path without '#' is unchanged. -/
theorem C20_no_hash (shell : Bytes → Option Bytes) (path : Bytes) (frame : Int)
    (h : 35 ∉ (shell path).getD path) :
    expandString shell path frame = (shell path).getD path := by
  have he : (shell path).getD path = expandFilePath shell path := by
    unfold expandFilePath; cases shell path <;> rfl
  rw [he] at h ⊢
  unfold expandString findRange
  dsimp only
  rw [scan_none _ _ _ h rfl]
  simp

-- "a##.exr" at frame 7 is "a07.exr"; at frame -5 it is "a-5.exr"; at 123 it is "a123.exr".
example : FirstRun [97, 35, 35, 46, 101] [97] 2 [46, 101] ∧
    expandString (fun _ => none) [97, 35, 35, 46, 101] 7 = [97, 48, 55, 46, 101] ∧
    expandString (fun _ => none) [97, 35, 35, 46, 101] (-5) = [97, 45, 53, 46, 101] ∧
    expandString (fun _ => none) [97, 35, 35, 46, 101] 123 = [97, 49, 50, 51, 46, 101] := by
  refine ⟨⟨rfl, by decide, by decide, by decide⟩, by decide, by decide, by decide⟩

/-- C20 is false for every run of ten or more '#': the frame number is dropped. -/
theorem C20_counterexample (shell : Bytes → Option Bytes) (path : Bytes) (frame : Int)
    (pre post : Bytes) (n : Nat)
    (h : FirstRun ((shell path).getD path) pre n post) (hn : 10 ≤ n) :
    expandString shell path frame = pre ++ post := by
  have he : (shell path).getD path = expandFilePath shell path := by
    unfold expandFilePath; cases shell path <;> rfl
  rw [he] at h
  rw [expand_run shell path pre post n frame h]
  have : frameString n frame = [] := by
    unfold frameString
    split <;> first | rfl | omega
  simp [this]

example : FirstRun (97 :: List.replicate 12 35) [97] 12 [] := by
  refine ⟨rfl, by decide, by decide, by decide⟩

/-! ### C21 -/

/-- C21 (runs of at most nine '#'): two different frames never expand to the same path.
Missing: longer runs, where all frames share one path (`C21_counterexample`). -/
theorem C21_frames_distinct_partial (shell : Bytes → Option Bytes) (path : Bytes)
    (f f' : Int) (pre post : Bytes) (n : Nat)
    (h : FirstRun ((shell path).getD path) pre n post) (hn : n ≤ 9)
    (he : expandString shell path f = expandString shell path f') : f = f' := by
  obtain ⟨s, h1, h2⟩ := C20_expand_partial shell path f pre post n h hn
  obtain ⟨s', h1', h2'⟩ := C20_expand_partial shell path f' pre post n h hn
  rw [h1, h1', List.append_assoc, List.append_assoc] at he
  have := List.append_cancel_right (List.append_cancel_left he)
  rw [← this] at h2'
  exact isPadded_unique h2 h2'

example : FirstRun [35, 35, 35, 35, 46, 116] [] 4 [46, 116] ∧
    expandString (fun _ => none) [35, 35, 35, 35, 46, 116] 12 = [48, 48, 49, 50, 46, 116] := by
  refine ⟨⟨rfl, by decide, by decide, by decide⟩, by decide⟩

/-- C21 is false for ten '#': frames 1 and 2 use the same file. -/
theorem C21_counterexample :
    expandString (fun _ => none) (List.replicate 10 35) 1 =
      expandString (fun _ => none) (List.replicate 10 35) 2 := by decide

end OCG.Props
