import Verif.Proofs.ExecRule
import Verif.Spec.Walks
/-
The validate loop visits a node once for every way from it to the executed node.
-/

namespace OCG

open GraphSpec

variable {N S C Fr : Type}

/-- The node a way starts at. -/
def walkHead (w : List Nat) : Nat := w.headD 0

/-- `w` continues the way `s` further up. -/
def Further (sg : SGraph) (start : Nat) (s w : List Nat) : Prop :=
  Walk sg start w ∧ s <:+ w ∧ s ≠ w

/-- Neither way continues the other. -/
def Apart (a b : List Nat) : Prop := ¬ a <:+ b ∧ ¬ b <:+ a

theorem suffix_cons_cases {α : Type} {r s : List α} {j : α} (h : r <:+ j :: s) :
    r = j :: s ∨ r <:+ s := by
  rcases List.suffix_cons_iff.mp h with h | h
  · exact .inl h
  · exact .inr h

/-- The next step of a longer way. -/
theorem further_step {sg : SGraph} {start : Nat} {s w : List Nat} (h : Further sg start s w)
    (hs : s ≠ []) : ∃ j, Feeds sg j (walkHead s) ∧ j ≠ walkHead s ∧ (j :: s) <:+ w := by
  obtain ⟨hw, hsuf, hne⟩ := h
  induction hw with
  | stay =>
    rcases suffix_cons_cases hsuf with h | h
    · exact absurd h hne
    · exact absurd (List.eq_nil_of_suffix_nil h) hs
  | @up i j w hw hf hij ih =>
    rcases suffix_cons_cases hsuf with h | h
    · exact absurd h hne
    · by_cases he : s = j :: w
      · subst he
        exact ⟨i, hf, hij, List.suffix_refl _⟩
      · obtain ⟨k, h1, h2, h3⟩ := ih h he
        exact ⟨k, h1, h2, h3.trans (List.suffix_cons i _)⟩

theorem validate_walks {sem : NodeSem N S C Fr} {srt : EdgeSort} {g : Graph N S} (hg : Sound g)
    (hlen : ∀ n m h ns modes, sem.validate n m h ns = .ok modes → modes.length = ns.length)
    {start : Nat} (hs : g.graph.contains start = true) {hashes : Graph.IdxMap Nat} :
    ∀ (fuel : Nat) (stack validated final : List (Nat × Mode)) (ws : List (List Nat)),
    Graph.validateLoop sem srt g hashes fuel stack validated = .ok final →
    stack.map (·.1) = ws.map walkHead → (∀ w ∈ ws, Walk g.graph start w) →
    ws.Pairwise Apart →
    ∃ new : List (List Nat), final.map (·.1) = validated.map (·.1) ++ new.map walkHead ∧
      new.Nodup ∧ ∀ w, w ∈ new ↔ ∃ s ∈ ws, Further g.graph start s w := by
  intro fuel
  induction fuel with
  | zero => intro s v f ws e; cases e
  | succ fuel ih =>
    intro stack validated final ws e hst hws hap
    cases stack with
    | nil =>
      cases e
      cases ws with
      | nil => exact ⟨[], by simp, List.nodup_nil, by simp⟩
      | cons a b => simp at hst
    | cons x stack =>
      obtain ⟨i, mode⟩ := x
      cases ws with
      | nil => simp at hst
      | cons s ws =>
        simp only [List.map_cons, List.cons.injEq] at hst
        obtain ⟨hi, hst⟩ := hst
        have hsw := hws s List.mem_cons_self
        have hsne : s ≠ [] := by rintro rfl; cases hsw
        have hup : Upstream g.graph start i := by
          rw [hi]
          clear * - hsw
          induction hsw with
          | stay => exact .refl
          | up _ hf _ ih => exact .step ih hf
        have hlive := hg.upstream_live hs hup
        unfold Graph.validateLoop at e
        rw [hg.direct srt hlive] at e
        simp only [bind, Except.bind] at e
        obtain ⟨ns, hn1, hn2, -⟩ := nodesAt_ok (g := g) (l := parents srt g.graph i)
          (fun j hj => hg.live j (hg.feeds_live ((hg.mem_parents srt).mp hj).1))
        rw [hn1] at e
        dsimp only at e
        split at e
        · cases e
        rename_i n hn
        split at e
        · cases e
        rename_i h hh
        cases hv : sem.validate n mode h ns with
        | error x => rw [hv] at e; cases e
        | ok modes =>
          rw [hv] at e
          dsimp only at e
          have hl : modes.length = (parents srt g.graph i).length := by
            rw [hlen _ _ _ _ _ hv, hn2]
          have hz : ((parents srt g.graph i).zip modes).map (·.1) = parents srt g.graph i :=
            List.map_fst_zip (by omega)
          generalize hP : parents srt g.graph i = P at *
          have hPmem : ∀ j, j ∈ P ↔ Feeds g.graph j i ∧ j ≠ i := by
            intro j; rw [← hP]; exact hg.mem_parents srt
          have hPn : P.Nodup := by rw [← hP]; exact news_nodup _ _
          have hext : ∀ j ∈ P, Walk g.graph start (j :: s) := by
            intro j hj
            obtain ⟨h1, h2⟩ := (hPmem j).mp hj
            cases s with
            | nil => exact absurd rfl hsne
            | cons a t =>
              have : i = a := hi
              subst this
              exact .up hsw h1 h2
          rw [List.pairwise_cons] at hap
          have hnew : ∀ r ∈ ws, ∀ j, Apart (j :: s) r := by
            intro r hr j
            obtain ⟨h1, h2⟩ := hap.1 r hr
            refine ⟨fun h => h1 ((List.suffix_cons j s).trans h), fun h => ?_⟩
            rcases suffix_cons_cases h with h | h
            · exact h1 (h ▸ List.suffix_cons j s)
            · exact h2 h
          obtain ⟨new, e1, e2, e3⟩ := ih _ _ _ ((P.map (· :: s)).reverse ++ ws) e
            (by rw [List.map_append, List.map_reverse, hz, List.map_append, List.map_reverse,
                  List.map_map, hst]
                congr 2
                exact (List.map_id' P).symm.trans (List.map_congr_left fun a _ => rfl))
            (by
              intro w hw
              rcases List.mem_append.mp hw with hw | hw
              · obtain ⟨j, hj, rfl⟩ := List.mem_map.mp (List.mem_reverse.mp hw)
                exact hext j hj
              · exact hws w (List.mem_cons_of_mem _ hw))
            (by
              rw [List.pairwise_append]
              refine ⟨?_, hap.2, ?_⟩
              · rw [List.pairwise_reverse, List.pairwise_map]
                refine hPn.imp fun {a b} hab => ?_
                refine ⟨fun h => ?_, fun h => ?_⟩ <;>
                  · have := h.eq_of_length (by simp)
                    simp only [List.cons.injEq, and_true] at this
                    first | exact hab this | exact hab this.symm
              · intro a ha r hr
                obtain ⟨j, _, rfl⟩ := List.mem_map.mp (List.mem_reverse.mp ha)
                exact hnew r hr j)
          have hlong : ∀ j, ∀ w ∈ new, w = j :: s → False := by
            intro j w hw hjs
            obtain ⟨r, hr, -, h2, h3⟩ := (e3 w).mp hw
            subst hjs
            rcases List.mem_append.mp hr with hr | hr
            · obtain ⟨k, _, rfl⟩ := List.mem_map.mp (List.mem_reverse.mp hr)
              exact h3 (h2.eq_of_length (by simp))
            · exact (hnew r hr j).2 h2
          refine ⟨P.map (· :: s) ++ new, ?_, ?_, ?_⟩
          · rw [e1, List.map_append, hz, List.map_append, List.map_map, List.append_assoc]
            congr 2
            exact (List.map_id' P).symm.trans (List.map_congr_left fun a _ => rfl)
          · rw [List.nodup_append]
            refine ⟨hPn.map (S := (· ≠ ·)) _ (fun a b hab he => hab (by simpa using he)), e2, ?_⟩
            rintro a ha b hb rfl
            obtain ⟨j, _, rfl⟩ := List.mem_map.mp ha
            exact hlong j _ hb rfl
          · intro w
            rw [List.mem_append, e3]
            constructor
            · rintro (hw | ⟨r, hr, h1, h2, h3⟩)
              · obtain ⟨j, hj, rfl⟩ := List.mem_map.mp hw
                exact ⟨s, List.mem_cons_self, hext j hj, List.suffix_cons j s, by
                  intro h; have := congrArg List.length h; simp at this⟩
              · rcases List.mem_append.mp hr with hr | hr
                · obtain ⟨j, _, rfl⟩ := List.mem_map.mp (List.mem_reverse.mp hr)
                  refine ⟨s, List.mem_cons_self, h1, (List.suffix_cons j s).trans h2, ?_⟩
                  rintro rfl
                  have := h2.length_le
                  simp at this
                · exact ⟨r, List.mem_cons_of_mem _ hr, h1, h2, h3⟩
            · rintro ⟨r, hr, hF⟩
              rcases List.mem_cons.mp hr with rfl | hr
              · obtain ⟨j, h1, h2, h3⟩ := further_step hF hsne
                have hj : j ∈ P := (hPmem j).mpr (by rw [hi]; exact ⟨h1, h2⟩)
                by_cases he : j :: r = w
                · left; exact List.mem_map.mpr ⟨j, hj, he⟩
                · right
                  exact ⟨j :: r, List.mem_append_left _ (List.mem_reverse.mpr
                    (List.mem_map.mpr ⟨j, hj, rfl⟩)), hF.1, h3, he⟩
              · right; exact ⟨r, List.mem_append_right _ hr, hF⟩

end OCG
