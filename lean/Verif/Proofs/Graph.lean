import Verif.Spec.Graph
import Mathlib.Data.List.Basic
/-
Invariants of the graph model over all histories.
-/

namespace OCG

open GraphSpec

variable {N S C Fr : Type}

/-! ### find -/

theorem position_some {id : Nat} : ∀ {l : List Nat} {k i : Nat}, Graph.position id l k = some i →
    ∃ j, i = k + j ∧ l[j]? = some id ∧ ∀ m, m < j → l[m]? ≠ some id := by
  intro l
  induction l with
  | nil => intro k i h; simp [Graph.position] at h
  | cons x xs ih =>
    intro k i h
    unfold Graph.position at h
    split at h
    · rename_i hx
      cases h
      exact ⟨0, rfl, by simp [hx], by intro m hm; omega⟩
    · rename_i hx
      obtain ⟨j, e, h1, h2⟩ := ih h
      refine ⟨j + 1, by omega, by simpa using h1, ?_⟩
      intro m hm
      cases m with
      | zero => simpa using hx
      | succ m => simpa using h2 m (by omega)

theorem position_none {id : Nat} : ∀ {l : List Nat} {k : Nat}, Graph.position id l k = none ↔
    id ∉ l := by
  intro l
  induction l with
  | nil => intro k; simp [Graph.position]
  | cons x xs ih =>
    intro k
    unfold Graph.position
    split
    · rename_i hx; simp [hx]
    · rename_i hx
      rw [ih]
      simp [Ne.symm hx]

theorem find_at {g : Graph N S} {id i : Nat} : g.find id = some i ↔ At g id i := by
  constructor
  · intro h
    obtain ⟨j, e, h1, h2⟩ := position_some h
    have : i = j := by omega
    subst this
    exact ⟨h1, h2⟩
  · intro ⟨h1, h2⟩
    cases h : g.find id with
    | none =>
      have := position_none.mp h
      exact absurd (List.mem_of_getElem? h1) this
    | some k =>
      obtain ⟨j, e, h3, h4⟩ := position_some h
      have : k = j := by omega
      subst this
      rcases Nat.lt_trichotomy i k with hlt | heq | hgt
      · exact absurd h1 (h4 i hlt)
      · rw [heq]
      · exact absurd h3 (h2 k hgt)

theorem find_none {g : Graph N S} {id : Nat} : g.find id = none ↔ Unknown g id := position_none

theorem GraphSpec.At.unique {g : Graph N S} {id i j : Nat} (h : At g id i) (h' : At g id j) : i = j := by
  have := find_at.mpr h
  rw [find_at.mpr h'] at this
  exact (Option.some.inj this).symm

/-! ### StableGraph -/

theorem contains_iff {sg : SGraph} {a : Nat} :
    sg.contains a = true ↔ ∃ w, sg.slots[a]? = some (some w) := by
  unfold SGraph.contains
  split
  · rename_i w h; simp [h]
  · rename_i h
    constructor
    · intro h'; cases h'
    · intro ⟨w, h'⟩; exact absurd h' (h w)

theorem contains_lt {sg : SGraph} {a : Nat} (h : sg.contains a = true) : a < sg.slots.length := by
  obtain ⟨w, e⟩ := contains_iff.mp h
  exact (List.getElem?_eq_some_iff.mp e).1

theorem contains_setNone {sg : SGraph} {a b : Nat} {fr : List Nat} {es : List Edge} :
    (SGraph.mk (sg.slots.set a none) fr es).contains b = true ↔
      sg.contains b = true ∧ b ≠ a := by
  rw [contains_iff, contains_iff]
  simp only [List.getElem?_set]
  by_cases h : a = b
  · subst h
    by_cases h2 : a < sg.slots.length <;> simp [h2]
  · simp [h, Ne.symm h]

/-- Invariant of every reachable graph. -/
structure Inv (g : Graph N S) (removed : Bool) : Prop where
  ids_len : g.ids.length = g.nodes.length
  slots_len : g.graph.slots.length = g.nodes.length
  live_id : ∀ (i w : Nat), g.graph.slots[i]? = some (some w) → g.ids[i]? = some w
  ends : ∀ e ∈ g.graph.edges, g.graph.contains e.src = true ∧ g.graph.contains e.dst = true
  pairs : g.graph.edges.Pairwise fun a b => ¬(a.src = b.src ∧ a.dst = b.dst)
  free_mem : ∀ i ∈ g.graph.free, g.graph.slots[i]? = some none
  free_flag : removed = true ↔ g.graph.free ≠ []
  live_flag : removed = false → ∀ i, i < g.nodes.length → g.graph.contains i = true

theorem Inv.transfer {g g' : Graph N S} {r : Bool} (h : Inv g r) (h1 : g'.ids = g.ids)
    (h2 : g'.nodes.length = g.nodes.length) (h3 : g'.graph = g.graph) : Inv g' r := by
  obtain ⟨a, b, c, d, e, f, i, j⟩ := h
  exact ⟨by rw [h1, h2, a], by rw [h3, h2, b], by rw [h3, h1]; exact c, by rw [h3]; exact d,
    by rw [h3]; exact e, by rw [h3]; exact f, by rw [h3]; exact i, by rw [h3, h2]; exact j⟩

/-! ### edge removal -/

/-- Removing edges: some of the edges, in the same order; nodes untouched. -/
structure Shrunk (sg sg' : SGraph) : Prop where
  slots : sg'.slots = sg.slots
  free : sg'.free = sg.free
  edges : sg'.edges.Sublist sg.edges

theorem Shrunk.refl (sg : SGraph) : Shrunk sg sg := ⟨rfl, rfl, List.Sublist.refl _⟩

theorem Shrunk.trans {a b c : SGraph} (h : Shrunk a b) (h' : Shrunk b c) : Shrunk a c :=
  ⟨h'.slots.trans h.slots, h'.free.trans h.free, h'.edges.trans h.edges⟩

theorem Shrunk.contains {a b : SGraph} (h : Shrunk a b) (i : Nat) :
    b.contains i = a.contains i := by
  unfold SGraph.contains; rw [h.slots]

theorem removeEdge_shrunk (sg : SGraph) (a b : Nat) : Shrunk sg (sg.removeEdge a b) :=
  ⟨rfl, rfl, List.eraseP_sublist⟩

theorem removeEdges_shrunk : ∀ (es : List Edge) (s : SGraph × GraphState),
    Shrunk s.1 (Graph.removeEdges es s).1 := by
  intro es
  induction es with
  | nil => intro s; exact Shrunk.refl _
  | cons e es ih =>
    intro s
    unfold Graph.removeEdges
    split
    · exact (removeEdge_shrunk s.1 e.src e.dst).trans
        (ih (s.1.removeEdge e.src e.dst, GraphState.dirty))
    · exact ih s

theorem disconnect_shrunk (g : Graph N S) (d i : Nat) :
    Shrunk g.graph (g.disconnectInput d i).graph := by
  unfold Graph.disconnectInput
  split
  · exact Shrunk.refl _
  · exact removeEdges_shrunk _ (g.graph, g.state)

theorem disconnect_same (g : Graph N S) (d i : Nat) :
    (g.disconnectInput d i).ids = g.ids ∧ (g.disconnectInput d i).nodes = g.nodes ∧
    (g.disconnectInput d i).output = g.output ∧ (g.disconnectInput d i).status = g.status := by
  unfold Graph.disconnectInput
  split <;> exact ⟨rfl, rfl, rfl, rfl⟩

theorem disconnect_find (g : Graph N S) (d i id : Nat) :
    (g.disconnectInput d i).find id = g.find id := by
  unfold Graph.find; rw [(disconnect_same g d i).1]

theorem Inv.shrunk {g g' : Graph N S} {r : Bool} (h : Inv g r) (h1 : g'.ids = g.ids)
    (h2 : g'.nodes.length = g.nodes.length) (h3 : Shrunk g.graph g'.graph) : Inv g' r := by
  obtain ⟨a, b, c, d, e, f, i, j⟩ := h
  refine ⟨by rw [h1, h2, a], by rw [h3.slots, h2, b], by rw [h3.slots, h1]; exact c, ?_,
    e.sublist h3.edges, by rw [h3.slots, h3.free]; exact f, by rw [h3.free]; exact i, ?_⟩
  · intro x hx
    rw [h3.contains, h3.contains]
    exact d x (h3.edges.subset hx)
  · intro hr k hk
    rw [h3.contains]
    exact j hr k (by omega)

/-- With one edge per pair, the loop removes exactly the collected edges. -/
theorem mem_removeEdges {es : List Edge} : ∀ {s : SGraph × GraphState},
    s.1.edges.Pairwise (fun a b => ¬(a.src = b.src ∧ a.dst = b.dst)) →
    (∀ e ∈ s.1.edges, s.1.contains e.src = true ∧ s.1.contains e.dst = true) →
    ∀ x, x ∈ (Graph.removeEdges es s).1.edges ↔
      x ∈ s.1.edges ∧ ∀ e ∈ es, ¬(x.src = e.src ∧ x.dst = e.dst) := by
  induction es with
  | nil => intro s _ _ x; simp [Graph.removeEdges]
  | cons e es ih =>
    intro s hp hc x
    unfold Graph.removeEdges
    have key : ∀ y, y ∈ (s.1.removeEdge e.src e.dst).edges ↔
        y ∈ s.1.edges ∧ ¬(y.src = e.src ∧ y.dst = e.dst) := by
      intro y
      have : ∀ l : List Edge, l.Pairwise (fun a b => ¬(a.src = b.src ∧ a.dst = b.dst)) →
          (y ∈ (l.eraseP fun z => z.src == e.src && z.dst == e.dst) ↔
            y ∈ l ∧ ¬(y.src = e.src ∧ y.dst = e.dst)) := by
        intro l
        induction l with
        | nil => intro _; simp
        | cons z zs ihz =>
          intro hz
          rw [List.pairwise_cons] at hz
          by_cases h : z.src = e.src ∧ z.dst = e.dst
          · rw [List.eraseP_cons_of_pos (by simp [h])]
            constructor
            · intro hy
              refine ⟨List.mem_cons_of_mem _ hy, fun h2 => hz.1 y hy ⟨?_, ?_⟩⟩
              · rw [h.1, h2.1]
              · rw [h.2, h2.2]
            · intro ⟨hy, hn⟩
              rcases List.mem_cons.mp hy with rfl | hy
              · exact absurd h hn
              · exact hy
          · rw [List.eraseP_cons_of_neg (by simpa using h), List.mem_cons, List.mem_cons,
              ihz hz.2]
            constructor
            · rintro (rfl | ⟨a, b⟩)
              · exact ⟨Or.inl rfl, h⟩
              · exact ⟨Or.inr a, b⟩
            · rintro ⟨rfl | a, b⟩
              · exact Or.inl rfl
              · exact Or.inr ⟨a, b⟩
      exact this _ hp
    split
    · rw [ih (hp.sublist List.eraseP_sublist)
        (fun y hy => by
          have := hc y ((key y).mp hy).1
          exact this) x, key x]
      constructor
      · rintro ⟨⟨a, b⟩, c⟩
        refine ⟨a, fun y hy => ?_⟩
        rcases List.mem_cons.mp hy with rfl | hy
        · exact b
        · exact c y hy
      · rintro ⟨a, b⟩
        exact ⟨⟨a, b e List.mem_cons_self⟩, fun y hy => b y (List.mem_cons_of_mem _ hy)⟩
    · rename_i hne
      rw [ih hp hc x]
      constructor
      · rintro ⟨a, b⟩
        refine ⟨a, fun y hy => ?_⟩
        rcases List.mem_cons.mp hy with rfl | hy
        · intro h2
          apply hne
          unfold SGraph.hasEdge
          rw [Bool.and_eq_true]
          refine ⟨?_, ?_⟩
          · rw [← h2.1]; exact (hc x a).1
          · rw [List.any_eq_true]; exact ⟨x, a, by simp [h2]⟩
        · exact b y hy
      · rintro ⟨a, b⟩
        exact ⟨a, fun y hy => b y (List.mem_cons_of_mem _ hy)⟩

/-! ### updateEdge -/

theorem mem_setWeight {a b w : Nat} : ∀ {es : List Edge},
    es.Pairwise (fun x y => ¬(x.src = y.src ∧ x.dst = y.dst)) →
    ∀ x, x ∈ SGraph.setWeight a b w es ↔
      (x ∈ es ∧ ¬(x.src = a ∧ x.dst = b)) ∨
        (x = ⟨a, b, w⟩ ∧ ∃ y ∈ es, y.src = a ∧ y.dst = b) := by
  intro es
  induction es with
  | nil => intro _ x; simp [SGraph.setWeight]
  | cons e es ih =>
    intro hp x
    rw [List.pairwise_cons] at hp
    unfold SGraph.setWeight
    by_cases h : e.src = a ∧ e.dst = b
    · rw [if_pos (by simp [h]), List.mem_cons, List.mem_cons]
      constructor
      · rintro (rfl | hx)
        · exact Or.inr ⟨by rw [← h.1, ← h.2], e, List.mem_cons_self, h⟩
        · refine Or.inl ⟨Or.inr hx, fun h2 => hp.1 x hx ⟨?_, ?_⟩⟩
          · rw [h.1, h2.1]
          · rw [h.2, h2.2]
      · rintro (⟨rfl | hx, hn⟩ | ⟨rfl, _⟩)
        · exact absurd h hn
        · exact Or.inr hx
        · exact Or.inl (by rw [← h.1, ← h.2])
    · rw [if_neg (by simpa using h), List.mem_cons, ih hp.2, List.mem_cons]
      constructor
      · rintro (rfl | ⟨hx, hn⟩ | ⟨rfl, y, hy, h2⟩)
        · exact Or.inl ⟨Or.inl rfl, h⟩
        · exact Or.inl ⟨Or.inr hx, hn⟩
        · exact Or.inr ⟨rfl, y, List.mem_cons_of_mem _ hy, h2⟩
      · rintro (⟨rfl | hx, hn⟩ | ⟨rfl, y, hy, h2⟩)
        · exact Or.inl rfl
        · exact Or.inr (Or.inl ⟨hx, hn⟩)
        · rcases List.mem_cons.mp hy with rfl | hy
          · exact absurd h2 h
          · exact Or.inr (Or.inr ⟨rfl, y, hy, h2⟩)

theorem setWeight_pairs {a b w : Nat} : ∀ {es : List Edge},
    (SGraph.setWeight a b w es).map (fun e => (e.src, e.dst)) =
      es.map (fun e => (e.src, e.dst)) := by
  intro es
  induction es with
  | nil => rfl
  | cons e es ih =>
    unfold SGraph.setWeight
    split
    · simp
    · simp [ih]

theorem pairs_iff {es : List Edge} :
    es.Pairwise (fun x y => ¬(x.src = y.src ∧ x.dst = y.dst)) ↔
      (es.map (fun e => (e.src, e.dst))).Nodup := by
  rw [List.Nodup, List.pairwise_map]
  constructor <;> intro h <;> refine h.imp ?_ <;> intro x y hxy <;> simpa using hxy

theorem hasEdge_iff {sg : SGraph} (hc : ∀ e ∈ sg.edges, sg.contains e.src = true ∧
    sg.contains e.dst = true) {a b : Nat} :
    sg.hasEdge a b = true ↔ ∃ e ∈ sg.edges, e.src = a ∧ e.dst = b := by
  unfold SGraph.hasEdge
  rw [Bool.and_eq_true, List.any_eq_true]
  constructor
  · rintro ⟨_, e, he, h⟩
    exact ⟨e, he, by simpa using h⟩
  · rintro ⟨e, he, h⟩
    exact ⟨by rw [← h.1]; exact (hc e he).1, e, he, by simpa using h⟩

/-- What `update_edge` does to a graph with one edge per pair. -/
theorem updateEdge_spec {sg sg' : SGraph} {a b w : Nat}
    (hp : sg.edges.Pairwise (fun x y => ¬(x.src = y.src ∧ x.dst = y.dst)))
    (hc : ∀ e ∈ sg.edges, sg.contains e.src = true ∧ sg.contains e.dst = true)
    (h : sg.updateEdge a b w = .ok sg') :
    sg'.slots = sg.slots ∧ sg'.free = sg.free ∧
    sg'.edges.Pairwise (fun x y => ¬(x.src = y.src ∧ x.dst = y.dst)) ∧
    sg.contains a = true ∧ sg.contains b = true ∧
    ∀ x, x ∈ sg'.edges ↔ (x ∈ sg.edges ∧ ¬(x.src = a ∧ x.dst = b)) ∨ x = ⟨a, b, w⟩ := by
  unfold SGraph.updateEdge at h
  split at h
  · rename_i he
    cases h
    obtain ⟨y, hy, h2⟩ := (hasEdge_iff hc).mp he
    refine ⟨rfl, rfl, ?_, by rw [← h2.1]; exact (hc y hy).1, by rw [← h2.2]; exact (hc y hy).2, ?_⟩
    · rw [pairs_iff]; dsimp only; rw [setWeight_pairs, ← pairs_iff]; exact hp
    · intro x
      rw [mem_setWeight hp]
      constructor
      · rintro (h3 | ⟨rfl, _⟩)
        · exact Or.inl h3
        · exact Or.inr rfl
      · rintro (h3 | rfl)
        · exact Or.inl h3
        · exact Or.inr ⟨rfl, y, hy, h2⟩
  · rename_i he
    split at h
    · rename_i hab
      cases h
      rw [Bool.and_eq_true] at hab
      have hno : ∀ e ∈ sg.edges, ¬(e.src = a ∧ e.dst = b) := fun e he2 h2 =>
        he ((hasEdge_iff hc).mpr ⟨e, he2, h2⟩)
      refine ⟨rfl, rfl, ?_, hab.1, hab.2, ?_⟩
      · exact List.pairwise_cons.mpr ⟨fun e he2 h2 => hno e he2 ⟨h2.1.symm, h2.2.symm⟩, hp⟩
      · intro x
        rw [List.mem_cons]
        constructor
        · rintro (rfl | hx)
          · exact Or.inr rfl
          · exact Or.inl ⟨hx, hno x hx⟩
        · rintro (⟨hx, _⟩ | rfl)
          · exact Or.inr hx
          · exact Or.inl rfl
    · cases h

/-! ### execute leaves the structure alone -/

theorem computePhase_same (sem : NodeSem N S C Fr) (srt : EdgeSort) (frame : Fr) :
    ∀ (l : List (Nat × Mode)) (g : Graph N S) (c : C) (m : Graph.IdxMap S) e g' c',
      Graph.computePhase sem srt frame l g c m = .ok (e, g', c') →
      g'.ids = g.ids ∧ g'.nodes.length = g.nodes.length ∧ g'.graph = g.graph ∧
      g'.state = g.state ∧ g'.status = g.status := by
  intro l
  induction l with
  | nil =>
    intro g c m e g' c' h
    cases h
    exact ⟨rfl, rfl, rfl, rfl, rfl⟩
  | cons x rest ih =>
    intro g c m e g' c' h
    obtain ⟨i, mode⟩ := x
    unfold Graph.computePhase at h
    obtain ⟨ps, _, h⟩ := Res.bind_ok.mp h
    obtain ⟨ins, _, h⟩ := Res.bind_ok.mp h
    split at h
    · cases h
    · obtain ⟨⟨n', st, out, c1⟩, _, h⟩ := Res.bind_ok.mp h
      dsimp only at h
      split at h
      · cases h
        exact ⟨rfl, by simp, rfl, rfl, rfl⟩
      · have := ih _ _ _ _ _ _ h
        refine ⟨this.1, this.2.1.trans (by simp), this.2.2.1, this.2.2.2.1, this.2.2.2.2⟩

theorem executeFrame_same (sem : NodeSem N S C Fr) (srt : EdgeSort) (fuel : Nat) (g : Graph N S)
    (order : List Nat) (frame : Fr) (c : C) (e : Option ErrorCode) (g' : Graph N S) (c' : C)
    (h : g.executeFrame sem srt fuel order frame c = .ok (e, g', c')) :
    g'.ids = g.ids ∧ g'.nodes.length = g.nodes.length ∧ g'.graph = g.graph ∧
    g'.state = g.state ∧ g'.status = g.status := by
  unfold Graph.executeFrame at h
  obtain ⟨hs, _, h⟩ := Res.bind_ok.mp h
  split at h
  · cases h
  · obtain ⟨v, _, h⟩ := Res.bind_ok.mp h
    exact computePhase_same sem srt frame _ _ _ _ _ _ _ h

theorem frameLoop_same (sem : NodeSem N S C Fr) (srt : EdgeSort) (fuel : Nat)
    (order : List Nat) : ∀ (fs : List Fr) (g : Graph N S) (c : C) e g' c',
      Graph.frameLoop sem srt fuel order fs g c = .ok (e, g', c') →
      g'.ids = g.ids ∧ g'.nodes.length = g.nodes.length ∧ g'.graph = g.graph ∧
      g'.state = g.state ∧ g'.status = g.status := by
  intro fs
  induction fs with
  | nil => intro g c e g' c' h; cases h; exact ⟨rfl, rfl, rfl, rfl, rfl⟩
  | cons f fs ih =>
    intro g c e g' c' h
    unfold Graph.frameLoop at h
    obtain ⟨⟨e1, g1, c1⟩, h1, h⟩ := Res.bind_ok.mp h
    have s1 := executeFrame_same _ _ _ _ _ _ _ _ _ _ h1
    dsimp only at h
    split at h
    · cases h; exact s1
    · have s2 := ih _ _ _ _ _ h
      exact ⟨s2.1.trans s1.1, s2.2.1.trans s1.2.1, s2.2.2.1.trans s1.2.2.1,
        s2.2.2.2.1.trans s1.2.2.2.1, s2.2.2.2.2.trans s1.2.2.2.2⟩

theorem execute_same (sem : NodeSem N S C Fr) (srt : EdgeSort) (fuel : Nat) (g : Graph N S)
    (id : Nat) (frames : List Fr) (c : C) (st : ExecuteStatus) (g' : Graph N S) (c' : C)
    (h : g.execute sem srt fuel id frames c = .ok (st, g', c')) :
    g'.ids = g.ids ∧ g'.nodes.length = g.nodes.length ∧ g'.graph = g.graph ∧
    g'.status = st ∧ (g'.state = g.state ∨ (st = .success ∧ g'.state = .clean)) := by
  unfold Graph.execute at h
  split at h
  · cases h; exact ⟨rfl, rfl, rfl, rfl, Or.inl rfl⟩
  · obtain ⟨o, _, h⟩ := Res.bind_ok.mp h
    obtain ⟨⟨e, g1, c1⟩, h1, h⟩ := Res.bind_ok.mp h
    have s := frameLoop_same _ _ _ _ _ _ _ _ _ _ h1
    dsimp only at h
    split at h
    · cases h; exact ⟨s.1, s.2.1, s.2.2.1, rfl, Or.inl s.2.2.2.1⟩
    · cases h; exact ⟨s.1, s.2.1, s.2.2.1, rfl, Or.inr ⟨rfl, rfl⟩⟩

/-! ### the invariant -/

theorem connect_cases {g g' : Graph N S} {s d w : Nat} (h : g.connect s d w = .ok g') :
    ((g.find s = none ∨ g.find d = none) ∧ g' = g) ∨
    ∃ a b sg, g.find s = some a ∧ g.find d = some b ∧
      (g.disconnectInput d w).graph.updateEdge a b w = .ok sg ∧
      g' = { g.disconnectInput d w with graph := sg, state := .dirty } := by
  unfold Graph.connect at h
  split at h
  · rename_i h1; cases h; exact Or.inl ⟨Or.inl h1, rfl⟩
  · rename_i a h1
    split at h
    · rename_i h2; cases h; exact Or.inl ⟨Or.inr h2, rfl⟩
    · rename_i b h2
      obtain ⟨sg, e, h⟩ := Res.bind_ok.mp h
      cases h
      exact Or.inr ⟨a, b, sg, h1, h2, e, rfl⟩

theorem Inv.disconnect {g : Graph N S} {r : Bool} (h : Inv g r) (d w : Nat) :
    Inv (g.disconnectInput d w) r :=
  h.shrunk (disconnect_same g d w).1 (by rw [(disconnect_same g d w).2.1])
    (disconnect_shrunk g d w)

theorem Inv.connect {g g' : Graph N S} {r : Bool} (h : Inv g r) {s d w : Nat}
    (hc : g.connect s d w = .ok g') : Inv g' r := by
  rcases connect_cases hc with ⟨_, rfl⟩ | ⟨a, b, sg, _, _, e, rfl⟩
  · exact h
  · have h1 := h.disconnect d w
    obtain ⟨s1, s2, s3, s4, s5, s6⟩ := updateEdge_spec h1.pairs h1.ends e
    have hcont : ∀ i, sg.contains i = (g.disconnectInput d w).graph.contains i := by
      intro i; unfold SGraph.contains; rw [s1]
    refine ⟨h1.ids_len, by dsimp only; rw [s1]; exact h1.slots_len,
      by dsimp only; rw [s1]; exact h1.live_id, ?_, s3, by dsimp only; rw [s1, s2]; exact h1.free_mem,
      by dsimp only; rw [s2]; exact h1.free_flag, ?_⟩
    · intro x hx
      dsimp only at hx ⊢
      rw [hcont, hcont]
      rcases (s6 x).mp hx with ⟨hx, _⟩ | rfl
      · exact h1.ends x hx
      · exact ⟨s4, s5⟩
    · intro hr i hi
      dsimp only
      rw [hcont]
      exact h1.live_flag hr i hi

theorem addNode_cases {sem : NodeSem N S C Fr} {g g' : Graph N S} {r : Bool} (h : Inv g r)
    {n : N} {i : Nat} (ha : g.addNode sem n = .ok (g', i)) :
    r = false ∧ i = g.nodes.length ∧
    g' = { g with
            nodes := g.nodes ++ [n]
            ids := g.ids ++ [sem.id n]
            graph := { g.graph with slots := g.graph.slots ++ [some (sem.id n)] }
            state := .dirty } := by
  unfold Graph.addNode at ha
  dsimp only at ha
  split at ha
  · rename_i hi
    cases ha
    cases hf : g.graph.free with
    | nil =>
      refine ⟨?_, ?_, ?_⟩
      · cases hr : r with
        | false => rfl
        | true => exact absurd hf (h.free_flag.mp hr)
      · exact hi
      · simp only [SGraph.addNode, hf]
    | cons k ks =>
      exfalso
      unfold SGraph.addNode at hi
      rw [hf] at hi
      dsimp only at hi
      have := h.free_mem k (by rw [hf]; exact List.mem_cons_self)
      have := (List.getElem?_eq_some_iff.mp this).1
      have := h.slots_len
      omega
  · cases ha

theorem Inv.add {sem : NodeSem N S C Fr} {g g' : Graph N S} {r : Bool} (h : Inv g r)
    {n : N} {i : Nat} (ha : g.addNode sem n = .ok (g', i)) : Inv g' r := by
  obtain ⟨hr, hi, rfl⟩ := addNode_cases h ha
  have mono : ∀ k, g.graph.contains k = true →
      ({ g.graph with slots := g.graph.slots ++ [some (sem.id n)] } : SGraph).contains k = true := by
    intro k hk
    obtain ⟨w, e⟩ := contains_iff.mp hk
    exact contains_iff.mpr ⟨w, by
      rw [List.getElem?_append_left (contains_lt hk)]; exact e⟩
  refine ⟨by simp [h.ids_len], by simp [h.slots_len], ?_, ?_, h.pairs, ?_, h.free_flag, ?_⟩
  · intro k w hk
    dsimp only at hk ⊢
    by_cases hlt : k < g.graph.slots.length
    · rw [List.getElem?_append_left hlt] at hk
      rw [List.getElem?_append_left (by rw [h.ids_len, ← h.slots_len]; exact hlt)]
      exact h.live_id k w hk
    · rw [List.getElem?_append_right (by omega)] at hk
      rw [List.getElem?_append_right (by rw [h.ids_len, ← h.slots_len]; omega),
        h.ids_len, ← h.slots_len]
      cases hd : k - g.graph.slots.length with
      | zero => rw [hd] at hk; simpa using hk
      | succ m => rw [hd] at hk; simp at hk
  · intro e he
    exact ⟨mono _ (h.ends e he).1, mono _ (h.ends e he).2⟩
  · intro k hk
    dsimp only at hk ⊢
    have := h.free_mem k hk
    rw [List.getElem?_append_left (List.getElem?_eq_some_iff.mp this).1]
    exact this
  · intro hr2 k hk
    dsimp only at hk ⊢
    by_cases hlt : k < g.nodes.length
    · exact mono k (h.live_flag hr2 k hlt)
    · rw [contains_iff]
      have : k = g.graph.slots.length := by
        rw [h.slots_len]; simp at hk; omega
      subst this
      exact ⟨sem.id n, by simp⟩

theorem removeNode_cases {g : Graph N S} {id : Nat} :
    ((g.removeNode id).2 = false ∧ (g.removeNode id).1 = g ∧
      (∀ i, g.find id = some i → g.graph.contains i = false)) ∨
    ∃ i, g.find id = some i ∧ g.graph.contains i = true ∧ (g.removeNode id).2 = true ∧
      (g.removeNode id).1 = { g with
        graph := { slots := g.graph.slots.set i none
                   free := i :: g.graph.free
                   edges := g.graph.edges.filter fun e => e.src != i && e.dst != i }
        state := .dirty } := by
  unfold Graph.removeNode
  cases hf : g.find id with
  | none => exact Or.inl ⟨rfl, rfl, fun _ h => by cases h⟩
  | some i =>
    dsimp only
    unfold SGraph.removeNode
    cases hcont : g.graph.contains i with
    | true =>
      rw [if_pos rfl]
      exact Or.inr ⟨i, rfl, hcont, rfl, rfl⟩
    | false =>
      rw [if_neg (by decide)]
      exact Or.inl ⟨rfl, rfl, fun j h => by cases h; exact hcont⟩

theorem Inv.remove {g : Graph N S} {r : Bool} (h : Inv g r) (id : Nat) :
    Inv (g.removeNode id).1 (r || (g.removeNode id).2) := by
  rcases removeNode_cases (g := g) (id := id) with ⟨h1, h2, _⟩ | ⟨i, hf, hcont, h1, h2⟩
  · rw [h1, h2, Bool.or_false]; exact h
  · rw [h1, h2, Bool.or_true]
    refine ⟨h.ids_len, by simp [h.slots_len], ?_, ?_, h.pairs.filter _, ?_, by simp, by simp⟩
    · intro k w hk
      dsimp only at hk ⊢
      rw [List.getElem?_set] at hk
      by_cases hik : i = k
      · rw [if_pos hik] at hk
        split at hk <;> simp at hk
      · rw [if_neg hik] at hk
        exact h.live_id k w hk
    · intro e he
      dsimp only at he ⊢
      rw [List.mem_filter] at he
      have hne : e.src ≠ i ∧ e.dst ≠ i := by simpa using he.2
      have hh := h.ends e he.1
      exact ⟨contains_setNone.mpr ⟨hh.1, hne.1⟩, contains_setNone.mpr ⟨hh.2, hne.2⟩⟩
    · intro k hk
      dsimp only at hk ⊢
      have hlt := contains_lt hcont
      rw [List.getElem?_set]
      by_cases hik : i = k
      · subst hik; simp [hlt]
      · rw [if_neg hik]
        rcases List.mem_cons.mp hk with rfl | hk
        · exact absurd rfl hik
        · exact h.free_mem k hk

theorem setAttr_cases {g g' : Graph N S} {id : Nat} {f : N → N} (h : g.setAttr id f = .ok g') :
    (g.find id = none ∧ g' = g) ∨
    ∃ i n, g.find id = some i ∧ g.nodes[i]? = some n ∧
      g' = { g with nodes := g.nodes.set i (f n), state := .dirty } := by
  unfold Graph.setAttr at h
  split at h
  · rename_i h1; cases h; exact Or.inl ⟨h1, rfl⟩
  · rename_i i h1
    split at h
    · rename_i n h2; cases h; exact Or.inr ⟨i, n, h1, h2, rfl⟩
    · cases h

theorem GraphSpec.Reach.inv {sem : NodeSem N S C Fr} {srt : EdgeSort} {r : Bool} {g : Graph N S}
    (h : Reach sem srt r g) : Inv g r := by
  induction h with
  | new o =>
    exact ⟨rfl, rfl, by intro i w h; simp [Graph.new, SGraph.empty] at h,
      by intro e h; simp [Graph.new, SGraph.empty] at h,
      List.Pairwise.nil, by intro i h; simp [Graph.new, SGraph.empty] at h,
      by simp [Graph.new, SGraph.empty], by intro _ i h; simp [Graph.new] at h⟩
  | add n _ ha ih => exact ih.add ha
  | remove id _ ih => exact ih.remove id
  | connect s d w _ hc ih => exact ih.connect hc
  | disconnect d w _ ih => exact ih.disconnect d w
  | setAttr id f _ _ hs ih =>
    rcases setAttr_cases hs with ⟨_, rfl⟩ | ⟨i, n, _, _, rfl⟩
    · exact ih
    · exact ih.transfer rfl (by simp) rfl
  | execute fuel id frames _ he ih =>
    have := execute_same _ _ _ _ _ _ _ _ _ _ he
    exact ih.transfer this.1 this.2.1 this.2.2.1

end OCG
