import Verif.Proofs.GraphIter
import Verif.Props.Graph
/-
Upstream search: C36 and C37.
-/

namespace OCG.Props

open GraphSpec

variable {N S C Fr : Type}

/-- C36: from every node that is in the graph, the search lists that node first, every
upstream node exactly once and nothing else. -/
theorem C36_upstream_exact (sem : NodeSem N S C Fr) (srt : EdgeSort) {g : Graph N S} {r : Bool}
    (h : Reach sem srt r g) {start : Nat} (hs : g.graph.contains start = true) :
    ∃ order, g.graph.findAllUpstream srt start = .ok order ∧ order.head? = some start ∧
      order.Nodup ∧ ∀ i, i ∈ order ↔ Upstream g.graph start i := by
  obtain ⟨order, d, e, h1, _⟩ := findAll_spec srt h.inv.ends (contains_lt_bound hs)
    (fun _ _ => True) trivial (fun _ _ _ _ _ _ _ => trivial)
  exact ⟨order, e, h1.final_head, h1.final_nodup, h1.final_mem⟩

example (srt : EdgeSort) : Reach toySem srt false toyTwo ∧ toyTwo.graph.contains 3 = true ∧
    Upstream toyTwo.graph 3 0 :=
  ⟨toyTwo_reach srt, rfl, .step .refl ⟨⟨0, 3, 0⟩, by decide, rfl, rfl⟩⟩

/-- C37: the inputs of a node are its sources other than itself, each once, in the order of
the input numbers. -/
theorem C37_inputs_in_slot_order (sem : NodeSem N S C Fr) (srt : EdgeSort) {g : Graph N S}
    {r : Bool} (h : Reach sem srt r g) {b : Nat} (hb : g.graph.contains b = true) :
    ∃ es : List Edge, g.graph.findDirectUpstream srt b = .ok (es.map (·.src)) ∧
      es.Perm (g.graph.edges.filter fun e => e.dst = b ∧ e.src ≠ b) ∧
      es.Pairwise (fun x y => x.weight ≤ y.weight) ∧ (es.map (·.src)).Nodup := by
  have hi := h.inv
  have hinc : g.graph.incoming b = g.graph.edges.filter fun e => e.dst == b := by
    unfold SGraph.incoming; rw [if_pos hb]
  have hnd : ((srt.run (g.graph.incoming b)).map (·.src)).Nodup := by
    rw [((srt.perm _).map _).nodup_iff, hinc]
    have hp := hi.pairs.filter (fun e => e.dst == b)
    rw [List.Nodup, List.pairwise_map]
    refine hp.imp_of_mem ?_
    intro x y hx hy hxy hs
    have h1 := (List.mem_filter.mp hx).2
    have h2 := (List.mem_filter.mp hy).2
    simp only [beq_iff_eq] at h1 h2
    exact hxy ⟨hs, h1.trans h2.symm⟩
  refine ⟨(srt.run (g.graph.incoming b)).filter fun e => !([b] : List Nat).contains e.src,
    ?_, ?_, ?_, ?_⟩
  · rw [findDirect_eq srt hi.ends (contains_lt_bound hb), news_filter _ _ hnd]
  · refine ((srt.perm _).filter _).trans ?_
    rw [hinc, List.filter_filter]
    apply List.Perm.of_eq
    apply List.filter_congr
    intro x _
    by_cases h1 : x.dst = b <;> by_cases h2 : x.src = b <;> simp [h1, h2]
  · exact (srt.sorted _).filter _
  · exact hnd.sublist (List.filter_sublist.map _)

/-- C37: when every slot has at most one source, the inputs come in strictly increasing slot
order, so the k-th input is the source of the k-th connected slot. -/
theorem C37_strict (sem : NodeSem N S C Fr) (srt : EdgeSort) {g : Graph N S}
    {r : Bool} (h : Reach sem srt r g) (hu : UniqueSlots g) {b : Nat}
    (hb : g.graph.contains b = true) :
    ∃ es : List Edge, g.graph.findDirectUpstream srt b = .ok (es.map (·.src)) ∧
      (∀ e, e ∈ es ↔ Conn g e.src b e.weight ∧ e.dst = b ∧ e.src ≠ b) ∧
      es.Pairwise (fun x y => x.weight < y.weight) := by
  obtain ⟨es, h1, h2, h3, h4⟩ := C37_inputs_in_slot_order sem srt h hb
  refine ⟨es, h1, ?_, ?_⟩
  · intro e
    rw [h2.mem_iff, List.mem_filter]
    simp only [decide_eq_true_eq]
    unfold Conn
    constructor
    · rintro ⟨he, hd, hn⟩
      refine ⟨?_, hd, hn⟩
      obtain ⟨s, d, w⟩ := e
      dsimp only at hd ⊢
      rw [← hd]; exact he
    · rintro ⟨he, hd, hn⟩
      refine ⟨?_, hd, hn⟩
      obtain ⟨s, d, w⟩ := e
      dsimp only at hd he
      rw [hd]; exact he
  · rw [List.Nodup, List.pairwise_map] at h4
    refine (h3.and h4).imp_of_mem ?_
    intro x y hx hy ⟨hle, hne⟩
    refine Nat.lt_of_le_of_ne hle fun heq => hne ?_
    have mx := List.mem_filter.mp (h2.mem_iff.mp hx)
    have my := List.mem_filter.mp (h2.mem_iff.mp hy)
    simp only [decide_eq_true_eq] at mx my
    refine hu x.src y.src b x.weight ?_ ?_
    · unfold Conn
      have : (⟨x.src, b, x.weight⟩ : Edge) = x := by rw [← mx.2.1]
      rw [this]; exact mx.1
    · unfold Conn
      have : (⟨y.src, b, x.weight⟩ : Edge) = y := by rw [← my.2.1, heq]
      rw [this]; exact my.1

example (srt : EdgeSort) : Reach toySem srt false toyTwo ∧ UniqueSlots toyTwo ∧
    toyTwo.graph.contains 3 = true := by
  refine ⟨toyTwo_reach srt, ?_, rfl⟩
  intro a a' b s h1 h2
  simp only [Conn, toyTwo, toyGraph, List.mem_cons, Edge.mk.injEq, List.not_mem_nil,
    or_false] at h1 h2
  omega

end OCG.Props
