import Verif.Proofs.Graph
import Mathlib.Data.List.TakeWhile
/-
Graph edits: C27 to C33.
-/

namespace OCG.Props

open GraphSpec

variable {N S C Fr : Type}

/-- Toy nodes for the concrete examples: a node is its identifier. -/
def toySem : NodeSem Nat Unit Unit Unit where
  id := id
  status _ := .valid
  hash n _ hs := n + hs.sum
  validate _ mode _ ins := .ok (ins.map fun _ => mode)
  compute n _ _ _ _ _ := .ok (n, .valid, (), ())

/-- Four nodes 1, 2, 3, 4 without connections. -/
def toyGraph : Graph Nat Unit :=
  ⟨[1, 2, 3, 4], [1, 2, 3, 4], ⟨[some 1, some 2, some 3, some 4], [], []⟩, (), .dirty,
    .uninitialized⟩

theorem toyGraph_reach (srt : EdgeSort) : Reach toySem srt false toyGraph :=
  .add 4 (.add 3 (.add 2 (.add 1 (.new ()) rfl) rfl) rfl) rfl

/-! ### C27 -/

/-- C27: edits with an identifier that was never added change nothing. -/
theorem C27_unknown_edits (g : Graph N S) (id : Nat) (h : Unknown g id) :
    g.removeNode id = (g, false) ∧
    (∀ f, g.setAttr id f = .ok g) ∧
    (∀ slot, g.disconnectInput id slot = g) ∧
    (∀ other slot, g.connect id other slot = .ok g) ∧
    (∀ other slot, g.connect other id slot = .ok g) := by
  have hf := find_none.mpr h
  refine ⟨?_, ?_, ?_, ?_, ?_⟩
  · unfold Graph.removeNode; rw [hf]
  · intro f; unfold Graph.setAttr; rw [hf]
  · intro slot; unfold Graph.disconnectInput; rw [hf]
  · intro o slot; unfold Graph.connect; rw [hf]
  · intro o slot
    unfold Graph.connect
    rw [hf]
    cases g.find o <;> rfl

/-- C27: queries for an unknown identifier report the default, and executing it reports an
error without touching anything but the status. -/
theorem C27_unknown_queries (sem : NodeSem N S C Fr) (srt : EdgeSort) (g : Graph N S) (id : Nat)
    (h : Unknown g id) :
    g.nodeExists id = false ∧
    (∀ (α : Type) (dflt : α) (f : N → α), g.query id dflt f = .ok dflt) ∧
    (∀ fuel frames c, g.execute sem srt fuel id frames c =
      .ok (.error, { g with status := .error }, c)) := by
  have hf := find_none.mpr h
  refine ⟨?_, ?_, ?_⟩
  · unfold Graph.nodeExists; rw [hf]
  · intro α d f; unfold Graph.query; rw [hf]
  · intro fuel frames c; unfold Graph.execute; rw [hf]

example : Unknown toyGraph 7 := by unfold Unknown toyGraph; decide

/-- C27: an identifier is unknown exactly when it was never added: adding is the only call
that makes identifiers known, and only the added node's. -/
theorem C27_known_by_adding (sem : NodeSem N S C Fr) (srt : EdgeSort) {r : Bool} {g : Graph N S}
    (h : Reach sem srt r g) (id : Nat) :
    (∀ n g' i, g.addNode sem n = .ok (g', i) → (Unknown g' id ↔ Unknown g id ∧ id ≠ sem.id n)) ∧
    (∀ x, Unknown (g.removeNode x).1 id ↔ Unknown g id) ∧
    (∀ s d w g', g.connect s d w = .ok g' → (Unknown g' id ↔ Unknown g id)) ∧
    (∀ d w, Unknown (g.disconnectInput d w) id ↔ Unknown g id) ∧
    (∀ x f g', g.setAttr x f = .ok g' → (Unknown g' id ↔ Unknown g id)) ∧
    (∀ fuel x frames c st g' c', g.execute sem srt fuel x frames c = .ok (st, g', c') →
      (Unknown g' id ↔ Unknown g id)) := by
  have hi := h.inv
  unfold Unknown
  refine ⟨?_, ?_, ?_, ?_, ?_, ?_⟩
  · intro n g' i ha
    obtain ⟨_, _, rfl⟩ := addNode_cases hi ha
    simp [not_or]
  · intro x
    rcases removeNode_cases (g := g) (id := x) with ⟨_, h2, _⟩ | ⟨i, _, _, _, h2⟩ <;> rw [h2]
  · intro s d w g' hc
    rcases connect_cases hc with ⟨_, rfl⟩ | ⟨a, b, sg, _, _, _, rfl⟩
    · rfl
    · dsimp only; rw [(disconnect_same g d w).1]
  · intro d w; rw [(disconnect_same g d w).1]
  · intro x f g' hs
    rcases setAttr_cases hs with ⟨_, rfl⟩ | ⟨i, n, _, _, rfl⟩ <;> rfl
  · intro fuel x frames c st g' c' he
    rw [(execute_same _ _ _ _ _ _ _ _ _ _ he).1]

/-! ### C28 -/

/-- C28 (no node removed before, new identifier): adding a node succeeds, returns its index,
the node exists and all queries see it; every earlier node is still found at its index with
its data, and the connections are unchanged.  Missing: adding after a removal
(`C28_counterexample`) and re-using an identifier (`C28_duplicate_counterexample`). -/
theorem C28_add_partial (sem : NodeSem N S C Fr) (srt : EdgeSort) {g : Graph N S}
    (h : Reach sem srt false g) (n : N) (hn : Unknown g (sem.id n)) :
    ∃ g', g.addNode sem n = .ok (g', g.nodes.length) ∧ g'.nodeExists (sem.id n) = true ∧
      (∀ (α : Type) (dflt : α) (f : N → α), g'.query (sem.id n) dflt f = .ok (f n)) ∧
      (∀ (α : Type) (id : Nat) (dflt : α) (f : N → α), id ≠ sem.id n →
        g'.query id dflt f = g.query id dflt f) ∧
      (∀ a b slot, Conn g' a b slot ↔ Conn g a b slot) := by
  have hi := h.inv
  have hfree : g.graph.free = [] := by
    by_contra hne
    exact absurd (hi.free_flag.mpr hne) (by decide)
  have ha : g.addNode sem n = .ok ({ g with
            nodes := g.nodes ++ [n]
            ids := g.ids ++ [sem.id n]
            graph := { g.graph with slots := g.graph.slots ++ [some (sem.id n)] }
            state := .dirty }, g.nodes.length) := by
    unfold Graph.addNode SGraph.addNode
    rw [hfree]
    dsimp only
    rw [if_pos hi.slots_len, hi.slots_len, ← hfree]
  refine ⟨_, ha, ?_, ?_, ?_, ?_⟩
  · have hfound : ∀ X : Graph N S, X.ids = g.ids ++ [sem.id n] →
        X.find (sem.id n) = some g.nodes.length := by
      intro X hX
      rw [find_at]
      unfold At
      rw [hX]
      refine ⟨by rw [← hi.ids_len]; simp, ?_⟩
      intro j hj hc
      rw [List.getElem?_append_left (by rw [hi.ids_len]; exact hj)] at hc
      exact hn (List.mem_of_getElem? hc)
    unfold Graph.nodeExists
    rw [hfound _ rfl]
  · intro α d f
    have hfound : ∀ X : Graph N S, X.ids = g.ids ++ [sem.id n] →
        X.find (sem.id n) = some g.nodes.length := by
      intro X hX
      rw [find_at]
      unfold At
      rw [hX]
      refine ⟨by rw [← hi.ids_len]; simp, ?_⟩
      intro j hj hc
      rw [List.getElem?_append_left (by rw [hi.ids_len]; exact hj)] at hc
      exact hn (List.mem_of_getElem? hc)
    unfold Graph.query
    rw [hfound _ rfl]
    simp
  · intro α id d f hid
    cases hg : g.find id with
    | none =>
      have hu := find_none.mp hg
      have : Graph.find (S := S) ({ g with
            nodes := g.nodes ++ [n]
            ids := g.ids ++ [sem.id n]
            graph := { g.graph with slots := g.graph.slots ++ [some (sem.id n)] }
            state := .dirty } : Graph N S) id = none := by
        rw [find_none]
        unfold Unknown
        simp only [List.mem_append, List.mem_singleton, not_or]
        exact ⟨hu, hid⟩
      unfold Graph.query
      rw [hg, this]
    | some i =>
      have hat := find_at.mp hg
      have hlt : i < g.ids.length := (List.getElem?_eq_some_iff.mp hat.1).1
      have : Graph.find (S := S) ({ g with
            nodes := g.nodes ++ [n]
            ids := g.ids ++ [sem.id n]
            graph := { g.graph with slots := g.graph.slots ++ [some (sem.id n)] }
            state := .dirty } : Graph N S) id = some i := by
        rw [find_at]
        refine ⟨by dsimp only; rw [List.getElem?_append_left hlt]; exact hat.1, ?_⟩
        intro j hj
        dsimp only
        rw [List.getElem?_append_left (by omega)]
        exact hat.2 j hj
      unfold Graph.query
      rw [hg, this]
      dsimp only
      rw [List.getElem?_append_left (by rw [← hi.ids_len]; exact hlt)]
  · intro a b slot; rfl

example (srt : EdgeSort) : Reach toySem srt false toyGraph ∧ Unknown toyGraph (toySem.id 9) :=
  ⟨toyGraph_reach srt, by unfold Unknown toyGraph toySem; decide⟩

/-- C28 is false after any successful removal: adding any node panics. -/
theorem C28_counterexample (sem : NodeSem N S C Fr) (srt : EdgeSort) {g : Graph N S}
    (h : Reach sem srt true g) (n : N) : g.addNode sem n = .error .assertion := by
  cases ha : g.addNode sem n with
  | ok x =>
    obtain ⟨g', i⟩ := x
    exact absurd (addNode_cases h.inv ha).1 (by decide)
  | error e =>
    unfold Graph.addNode at ha
    dsimp only at ha
    split at ha <;> cases ha
    rfl

example (srt : EdgeSort) : Reach toySem srt true (toyGraph.removeNode 2).1 :=
  Reach.remove 2 (toyGraph_reach srt)

/-- C28 is false for an identifier in use: queries keep answering for the first node. -/
theorem C28_duplicate_counterexample (sem : NodeSem N S C Fr) (srt : EdgeSort) {g g' : Graph N S}
    {r : Bool} (h : Reach sem srt r g) (n : N) (i : Nat) (hn : ¬ Unknown g (sem.id n))
    (ha : g.addNode sem n = .ok (g', i)) (α : Type) (dflt : α) (f : N → α) :
    g'.query (sem.id n) dflt f = g.query (sem.id n) dflt f := by
  have hi := h.inv
  obtain ⟨_, _, rfl⟩ := addNode_cases hi ha
  cases hg : g.find (sem.id n) with
  | none => exact absurd (find_none.mp hg) hn
  | some k =>
    have hat := find_at.mp hg
    have hlt : k < g.ids.length := (List.getElem?_eq_some_iff.mp hat.1).1
    have : Graph.find (S := S) ({ g with
          nodes := g.nodes ++ [n]
          ids := g.ids ++ [sem.id n]
          graph := { g.graph with slots := g.graph.slots ++ [some (sem.id n)] }
          state := .dirty } : Graph N S) (sem.id n) = some k := by
      rw [find_at]
      refine ⟨by dsimp only; rw [List.getElem?_append_left hlt]; exact hat.1, ?_⟩
      intro j hj
      dsimp only
      rw [List.getElem?_append_left (by omega)]
      exact hat.2 j hj
    unfold Graph.query
    rw [hg, this]
    dsimp only
    rw [List.getElem?_append_left (by rw [← hi.ids_len]; exact hlt)]

example : ¬ Unknown toyGraph (toySem.id 2) ∧ ∃ g', toyGraph.addNode toySem 2 = .ok (g', 4) :=
  ⟨by unfold Unknown toyGraph toySem; decide, _, rfl⟩

/-! ### C29 -/

/-- C29 (connections only): removing a node removes exactly the connections from and to it,
and removing it again, or disconnecting its inputs, then does nothing.  Missing: the node
still exists for all queries and connecting to it panics (`C29_counterexample`). -/
theorem C29_removed_partial (sem : NodeSem N S C Fr) (srt : EdgeSort) {g g' : Graph N S}
    {r : Bool} (h : Reach sem srt r g) (id i : Nat) (hi : At g id i)
    (hr : g.removeNode id = (g', true)) :
    (∀ a b slot, Conn g' a b slot ↔ Conn g a b slot ∧ a ≠ i ∧ b ≠ i) ∧
    g'.removeNode id = (g', false) ∧ (∀ slot, g'.disconnectInput id slot = g') := by
  rcases removeNode_cases (g := g) (id := id) with ⟨h1, _, _⟩ | ⟨k, hf, hc, h1, h2⟩
  · rw [hr] at h1; cases h1
  · rw [hr] at h2
    dsimp only at h2
    have hk : k = i := by
      have := find_at.mpr hi
      rw [hf] at this
      exact Option.some.inj this
    subst hk
    subst h2
    have hnc : (SGraph.mk (g.graph.slots.set k none) (k :: g.graph.free)
        (g.graph.edges.filter fun e => e.src != k && e.dst != k)).contains k = false := by
      rw [← Bool.not_eq_true, contains_setNone]
      exact fun hh => hh.2 rfl
    have hfind : ∀ sg st, (Graph.mk g.nodes g.ids sg g.output st g.status).find id = some k :=
      fun _ _ => hf
    refine ⟨?_, ?_, ?_⟩
    · intro a b slot
      unfold Conn
      dsimp only
      rw [List.mem_filter]
      simp
    · unfold Graph.removeNode
      rw [hfind]
      dsimp only
      unfold SGraph.removeNode
      rw [if_neg (by rw [hnc]; decide)]
    · intro slot
      unfold Graph.disconnectInput
      rw [hfind]
      dsimp only
      unfold SGraph.incoming
      rw [if_neg (by rw [hnc]; decide)]
      rfl

/-- A graph with the connection 1 → 2. -/
def toyLinked : Graph Nat Unit :=
  { toyGraph with graph := { toyGraph.graph with edges := [⟨0, 1, 0⟩] } }

theorem toyLinked_reach (srt : EdgeSort) : Reach toySem srt false toyLinked :=
  .connect 1 2 0 (toyGraph_reach srt) rfl

example (srt : EdgeSort) : Reach toySem srt false toyLinked ∧ At toyLinked 2 1 ∧
    (∃ g', toyLinked.removeNode 2 = (g', true)) ∧ Conn toyLinked 0 1 0 :=
  ⟨toyLinked_reach srt, ⟨rfl, by intro j hj; have : j = 0 := by omega
                                 subst this; decide⟩, ⟨_, rfl⟩, by unfold Conn; decide⟩

/-- C29 is false: a removed node still exists and answers all queries as before, and
connecting another node to it panics. -/
theorem C29_counterexample (g g' : Graph N S) (id : Nat) (hr : g.removeNode id = (g', true)) :
    g'.nodeExists id = true ∧
    (∀ (α : Type) (dflt : α) (f : N → α), g'.query id dflt f = g.query id dflt f) ∧
    (∀ src slot, ¬ Unknown g src → (∀ e ∈ g.graph.edges, g.graph.contains e.dst = true) →
      g'.connect src id slot = .error .index) := by
  rcases removeNode_cases (g := g) (id := id) with ⟨h1, _, _⟩ | ⟨k, hf, hc, h1, h2⟩
  · rw [hr] at h1; cases h1
  · rw [hr] at h2
    dsimp only at h2
    subst h2
    have hfind : ∀ sg st x, (Graph.mk g.nodes g.ids sg g.output st g.status).find x = g.find x :=
      fun _ _ _ => rfl
    refine ⟨?_, ?_, ?_⟩
    · unfold Graph.nodeExists
      rw [hfind, hf]
    · intro α d f
      unfold Graph.query
      rw [hfind, hf]
    · intro src slot hs hends
      cases hsf : g.find src with
      | none => exact absurd (find_none.mp hsf) hs
      | some a =>
        have hnc : (SGraph.mk (g.graph.slots.set k none) (k :: g.graph.free)
            (g.graph.edges.filter fun e => e.src != k && e.dst != k)).contains k = false := by
          rw [← Bool.not_eq_true, contains_setNone]
          exact fun hh => hh.2 rfl
        unfold Graph.connect
        rw [hfind, hsf]
        dsimp only
        rw [hfind, hf]
        dsimp only
        have hd : ∀ X : Graph N S, X.find id = some k → X.graph.contains k = false →
            X.disconnectInput id slot = X := by
          intro X hX hXc
          unfold Graph.disconnectInput
          rw [hX]
          dsimp only
          unfold SGraph.incoming
          rw [if_neg (by rw [hXc]; decide)]
          rfl
        rw [hd _ (by rw [hfind, hf]) hnc]
        rw [Res.bind_error]
        left
        unfold SGraph.updateEdge
        rw [if_neg, if_neg]
        · rw [hnc]; simp
        · intro hh
          unfold SGraph.hasEdge at hh
          rw [Bool.and_eq_true, List.any_eq_true] at hh
          obtain ⟨_, e, he, hee⟩ := hh
          rw [List.mem_filter] at he
          simp at he hee
          exact he.2.2 hee.2

example : ∃ g', toyLinked.removeNode 2 = (g', true) := ⟨_, rfl⟩

/-! ### C30, C31, C32 -/

/-- What disconnecting removes: the connections into that slot that are newer than every
connection into another slot of that node. -/
theorem disconnect_mem {g : Graph N S} {r : Bool} (h : Inv g r) {d b : Nat} (hb : At g d b)
    (slot : Nat) (x : Edge) :
    x ∈ (g.disconnectInput d slot).graph.edges ↔ x ∈ g.graph.edges ∧
      x ∉ (g.graph.incoming b).takeWhile (fun e => e.weight == slot) := by
  unfold Graph.disconnectInput
  rw [find_at.mpr hb]
  dsimp only
  rw [mem_removeEdges (s := (g.graph, g.state)) h.pairs h.ends]
  dsimp only
  constructor
  · rintro ⟨hx, hn⟩
    exact ⟨hx, fun hm => hn x hm ⟨rfl, rfl⟩⟩
  · rintro ⟨hx, hn⟩
    refine ⟨hx, fun e he hp => ?_⟩
    have hes : e ∈ g.graph.edges := by
      have h1 : e ∈ g.graph.incoming b := (List.takeWhile_prefix _).subset he
      unfold SGraph.incoming at h1
      split at h1
      · exact (List.mem_filter.mp h1).1
      · cases h1
    have : x = e := by
      by_contra hne
      have hpw := h.pairs
      have hsym : ∀ l : List Edge, l.Pairwise (fun a b => ¬(a.src = b.src ∧ a.dst = b.dst)) →
          x ∈ l → e ∈ l → False := by
        intro l
        induction l with
        | nil => intro _ hxl; cases hxl
        | cons y ys ih =>
          intro hl hxl hel
          rw [List.pairwise_cons] at hl
          rcases List.mem_cons.mp hxl with h1 | hx1 <;>
            rcases List.mem_cons.mp hel with h2 | he1
          · exact hne (h1.trans h2.symm)
          · exact hl.1 e he1 (h1 ▸ hp)
          · exact hl.1 x hx1 ⟨(h2 ▸ hp.1.symm), (h2 ▸ hp.2.symm)⟩
          · exact ih hl.2 hx1 he1
      exact hsym _ hpw hx hes
    subst this
    exact hn he

theorem mem_takeWhile_of_latest {b slot : Nat} {e : Edge} {newer older : List Edge}
    (hb : e.dst = b) (hw : e.weight = slot)
    (hn : ∀ e' ∈ newer, e'.dst = b → e'.weight = slot) :
    e ∈ ((newer ++ e :: older).filter fun x => x.dst == b).takeWhile
      (fun x => x.weight == slot) := by
  rw [List.filter_append, List.takeWhile_append_of_pos]
  · rw [List.filter_cons_of_pos (by simp [hb]), List.takeWhile_cons_of_pos (by simp [hw])]
    exact List.mem_append_right _ List.mem_cons_self
  · intro y hy
    rw [List.mem_filter] at hy
    simpa using hn y hy.1 (by simpa using hy.2)

/-- C30: connecting makes the source feed exactly that slot of the destination. -/
theorem C30_connect_sets (sem : NodeSem N S C Fr) (srt : EdgeSort) {g g' : Graph N S} {r : Bool}
    (h : Reach sem srt r g) {src dst a b : Nat} (slot : Nat) (ha : At g src a) (hb : At g dst b)
    (hc : g.connect src dst slot = .ok g') :
    Conn g' a b slot ∧ ∀ slot', Conn g' a b slot' → slot' = slot := by
  rcases connect_cases hc with ⟨hno, _⟩ | ⟨a', b', sg, h1, h2, e, rfl⟩
  · rw [find_at.mpr ha, find_at.mpr hb] at hno
    rcases hno with hno | hno <;> cases hno
  · have ea := (find_at.mp h1).unique ha
    have eb := (find_at.mp h2).unique hb
    subst ea eb
    have hi := h.inv.disconnect dst slot
    have sp := (updateEdge_spec hi.pairs hi.ends e).2.2.2.2.2
    unfold Conn
    dsimp only
    refine ⟨(sp _).mpr (Or.inr rfl), fun slot' hs => ?_⟩
    rcases (sp _).mp hs with ⟨_, hn⟩ | heq
    · exact absurd ⟨rfl, rfl⟩ hn
    · exact congrArg Edge.weight heq

/-- C30 (orderly histories): every slot has at most one source.  Missing: histories that
reconnect a slot while a connection into another slot of that node is newer
(`C30_counterexample`). -/
theorem C30_unique_partial (sem : NodeSem N S C Fr) (srt : EdgeSort) {g : Graph N S}
    (h : Orderly sem srt g) : UniqueSlots g := by
  have main : (∃ r, Reach sem srt r g) ∧ UniqueSlots g := by
    induction h with
    | new o =>
      exact ⟨⟨_, .new o⟩, by intro a a' b s hh; cases hh⟩
    | add n _ ha ih =>
      obtain ⟨⟨r, hr⟩, hu⟩ := ih
      obtain ⟨_, _, rfl⟩ := addNode_cases hr.inv ha
      exact ⟨⟨r, .add n hr ha⟩, hu⟩
    | @remove g id _ ih =>
      obtain ⟨⟨r, hr⟩, hu⟩ := ih
      refine ⟨⟨_, .remove id hr⟩, ?_⟩
      rcases removeNode_cases (g := g) (id := id) with ⟨_, h2, _⟩ | ⟨i, _, _, _, h2⟩
      · rw [h2]; exact hu
      · rw [h2]
        intro a a' b s hh hh'
        exact hu a a' b s (List.mem_filter.mp hh).1 (List.mem_filter.mp hh').1
    | @connect g g' src dst slot _ hl hc ih =>
      obtain ⟨⟨r, hr⟩, hu⟩ := ih
      refine ⟨⟨r, .connect src dst slot hr hc⟩, ?_⟩
      rcases connect_cases hc with ⟨_, rfl⟩ | ⟨a, b, sg, h1, h2, e, rfl⟩
      · exact hu
      · have hi := hr.inv.disconnect dst slot
        have sp := (updateEdge_spec hi.pairs hi.ends e).2.2.2.2.2
        have hb := find_at.mp h2
        have hlat := hl a b (find_at.mp h1) hb
        have hcontb := (updateEdge_spec hi.pairs hi.ends e).2.2.2.2.1
        rw [(disconnect_shrunk g dst slot).contains] at hcontb
        -- what remains in the slot after disconnecting comes from the same source
        have hrem : ∀ x ∈ (g.disconnectInput dst slot).graph.edges, x.dst = b →
            x.weight = slot → x.src = a := by
          intro x hx hxb hxw
          by_contra hne
          rw [disconnect_mem hr.inv hb] at hx
          obtain ⟨newer, older, heq⟩ := List.append_of_mem hx.1
          apply hx.2
          unfold SGraph.incoming
          rw [if_pos hcontb, heq]
          exact mem_takeWhile_of_latest hxb hxw (hlat newer x older heq hxb hxw hne)
        have hold : ∀ x ∈ (g.disconnectInput dst slot).graph.edges, x ∈ g.graph.edges :=
          fun x hx => (disconnect_shrunk g dst slot).edges.subset hx
        intro x x' y s hh hh'
        rcases (sp _).mp hh with ⟨m1, n1⟩ | e1 <;> rcases (sp _).mp hh' with ⟨m2, n2⟩ | e2
        · exact hu x x' y s (hold _ m1) (hold _ m2)
        · obtain ⟨rfl, rfl, rfl⟩ := Edge.mk.inj e2
          exact hrem _ m1 rfl rfl
        · obtain ⟨rfl, rfl, rfl⟩ := Edge.mk.inj e1
          exact (hrem _ m2 rfl rfl).symm
        · obtain ⟨rfl, rfl, rfl⟩ := Edge.mk.inj e1
          exact (congrArg Edge.src e2).symm
    | @disconnect g dst slot _ ih =>
      obtain ⟨⟨r, hr⟩, hu⟩ := ih
      refine ⟨⟨r, .disconnect dst slot hr⟩, ?_⟩
      intro a a' b s hh hh'
      exact hu a a' b s ((disconnect_shrunk g dst slot).edges.subset hh)
        ((disconnect_shrunk g dst slot).edges.subset hh')
    | setAttr id f _ hid hs ih =>
      obtain ⟨⟨r, hr⟩, hu⟩ := ih
      refine ⟨⟨r, .setAttr id f hr hid hs⟩, ?_⟩
      rcases setAttr_cases hs with ⟨_, rfl⟩ | ⟨i, n, _, _, rfl⟩
      · exact hu
      · exact hu
    | execute fuel id frames _ he ih =>
      obtain ⟨⟨r, hr⟩, hu⟩ := ih
      refine ⟨⟨r, .execute fuel id frames hr he⟩, ?_⟩
      have hg := (execute_same _ _ _ _ _ _ _ _ _ _ he).2.2.1
      intro a a' b s hh hh'
      unfold Conn at hh hh'
      rw [hg] at hh hh'
      exact hu a a' b s hh hh'
  exact main.2

theorem slotIsLatest_empty (g : Graph N S) (a b slot : Nat)
    (h : ∀ x, Conn g x b slot → x = a) : SlotIsLatest g a b slot := by
  intro newer e older heq hb hw hne
  exfalso
  apply hne
  apply h
  unfold Conn
  rw [heq]
  obtain ⟨s, d, w⟩ := e
  dsimp only at hb hw
  subst hb hw
  exact List.mem_append_right _ List.mem_cons_self

example (srt : EdgeSort) : Orderly toySem srt toyLinked :=
  .connect 1 2 0 (.add 4 (.add 3 (.add 2 (.add 1 (.new ()) rfl) rfl) rfl) rfl)
    (fun a b _ _ => slotIsLatest_empty _ a b 0 (fun x hx => by cases hx)) rfl

/-- Nodes 1 and 2 connected to slots 0 and 1 of node 4. -/
def toyTwo : Graph Nat Unit :=
  { toyGraph with graph := { toyGraph.graph with edges := [⟨1, 3, 1⟩, ⟨0, 3, 0⟩] } }

theorem toyTwo_reach (srt : EdgeSort) : Reach toySem srt false toyTwo :=
  .connect 2 4 1 (.connect 1 4 0 (toyGraph_reach srt) rfl) rfl

/-- C30 is false in general: connect 1 to slot 0 of node 4, 2 to slot 1 and then 3 to slot 0;
slot 0 then has two sources. -/
theorem C30_counterexample (srt : EdgeSort) :
    ∃ g : Graph Nat Unit, Reach toySem srt false g ∧ Conn g 0 3 0 ∧ Conn g 2 3 0 :=
  ⟨_, .connect 3 4 0 (toyTwo_reach srt) rfl, by unfold Conn; decide, by unfold Conn; decide⟩

/-- C31: disconnecting never touches connections into other slots or other nodes. -/
theorem C31_others_unchanged (sem : NodeSem N S C Fr) (srt : EdgeSort) {g : Graph N S} {r : Bool}
    (h : Reach sem srt r g) {dst b : Nat} (hb : At g dst b) (slot : Nat) :
    (∀ x y s, ¬(y = b ∧ s = slot) → (Conn (g.disconnectInput dst slot) x y s ↔ Conn g x y s)) ∧
    (∀ x y s, Conn (g.disconnectInput dst slot) x y s → Conn g x y s) := by
  refine ⟨?_, fun x y s hh => (disconnect_shrunk g dst slot).edges.subset hh⟩
  intro x y s hne
  unfold Conn
  rw [disconnect_mem h.inv hb]
  constructor
  · exact fun hh => hh.1
  · intro hh
    refine ⟨hh, fun hm => hne ?_⟩
    have h1 : (⟨x, y, s⟩ : Edge).weight = slot := by
      simpa using List.mem_takeWhile_imp hm
    have h2 := (List.takeWhile_prefix _).subset hm
    unfold SGraph.incoming at h2
    split at h2
    · exact ⟨by simpa using (List.mem_filter.mp h2).2, h1⟩
    · cases h2

/-- C31 (slot connected last): the slot is empty afterwards.  Missing: slots of a node with
newer connections into other slots (`C31_counterexample`). -/
theorem C31_slot_emptied_partial (sem : NodeSem N S C Fr) (srt : EdgeSort) {g : Graph N S}
    {r : Bool} (h : Reach sem srt r g) {dst b : Nat} (hb : At g dst b) (slot : Nat)
    (hl : ∀ newer e older, g.graph.edges = newer ++ e :: older → e.dst = b → e.weight = slot →
      ∀ e' ∈ newer, e'.dst = b → e'.weight = slot) (x : Nat) :
    ¬ Conn (g.disconnectInput dst slot) x b slot := by
  intro hx
  unfold Conn at hx
  rw [disconnect_mem h.inv hb] at hx
  obtain ⟨newer, older, heq⟩ := List.append_of_mem hx.1
  apply hx.2
  unfold SGraph.incoming
  rw [if_pos (h.inv.ends _ hx.1).2, heq]
  exact mem_takeWhile_of_latest rfl rfl (hl newer _ older heq rfl rfl)

example (srt : EdgeSort) : Reach toySem srt false toyTwo ∧ At toyTwo 4 3 ∧ Conn toyTwo 1 3 1 ∧
    ∀ newer e older, toyTwo.graph.edges = newer ++ e :: older → e.dst = 3 → e.weight = 1 →
      ∀ e' ∈ newer, e'.dst = 3 → e'.weight = 1 := by
  refine ⟨toyTwo_reach srt, ⟨rfl, ?_⟩, by unfold Conn; decide, ?_⟩
  · intro j hj
    have : j = 0 ∨ j = 1 ∨ j = 2 := by omega
    rcases this with rfl | rfl | rfl <;> decide
  · intro newer e older heq _ hw e' he'
    have heq2 : [(⟨1, 3, 1⟩ : Edge), ⟨0, 3, 0⟩] = newer ++ e :: older := heq
    match newer with
    | [] => cases he'
    | [y] =>
      simp only [List.cons_append, List.nil_append, List.cons.injEq] at heq2
      rw [← heq2.2.1] at hw
      cases hw
    | y :: z :: t =>
      simp at heq2

/-- C31 is false in general: after connecting slots 0 and 1 of node 4, disconnecting slot 0
does nothing. -/
theorem C31_counterexample (srt : EdgeSort) :
    ∃ g : Graph Nat Unit, Reach toySem srt false g ∧ At g 4 3 ∧ Conn g 0 3 0 ∧
      Conn (g.disconnectInput 4 0) 0 3 0 := by
  refine ⟨_, toyTwo_reach srt, ⟨rfl, ?_⟩, by unfold Conn; decide, by unfold Conn; decide⟩
  intro j hj
  have : j = 0 ∨ j = 1 ∨ j = 2 := by omega
  rcases this with rfl | rfl | rfl <;> decide

/-- C32: never more than one connection from one node to the same other node, in all
histories. -/
theorem C32_one_per_pair (sem : NodeSem N S C Fr) (srt : EdgeSort) {g : Graph N S} {r : Bool}
    (h : Reach sem srt r g) :
    (g.graph.edges.map fun e => (e.src, e.dst)).Nodup ∧
    ∀ a b s s', Conn g a b s → Conn g a b s' → s = s' := by
  have hp := h.inv.pairs
  refine ⟨pairs_iff.mp hp, ?_⟩
  intro a b s s' h1 h2
  by_contra hne
  have key : ∀ l : List Edge, l.Pairwise (fun a b => ¬(a.src = b.src ∧ a.dst = b.dst)) →
      (⟨a, b, s⟩ : Edge) ∈ l → (⟨a, b, s'⟩ : Edge) ∈ l → False := by
    intro l
    induction l with
    | nil => intro _ hh; cases hh
    | cons y ys ih =>
      intro hl m1 m2
      rw [List.pairwise_cons] at hl
      rcases List.mem_cons.mp m1 with e1 | k1 <;> rcases List.mem_cons.mp m2 with e2 | k2
      · rw [← e1] at e2
        exact hne (congrArg Edge.weight e2).symm
      · exact hl.1 _ k2 ⟨by rw [← e1], by rw [← e1]⟩
      · exact hl.1 _ k1 ⟨by rw [← e2], by rw [← e2]⟩
      · exact ih hl.2 k1 k2
  exact key _ hp h1 h2

/-- C32: connecting a pair again moves its connection to the new slot and touches no
connection of other pairs, apart from those the new slot replaces. -/
theorem C32_moves (sem : NodeSem N S C Fr) (srt : EdgeSort) {g g' : Graph N S} {r : Bool}
    (h : Reach sem srt r g) {src dst a b : Nat} (slot old : Nat) (ha : At g src a)
    (hb : At g dst b) (_hold : Conn g a b old) (hc : g.connect src dst slot = .ok g') :
    (∀ s, Conn g' a b s ↔ s = slot) ∧
    ∀ x y s, ¬(x = a ∧ y = b) → ¬(y = b ∧ s = slot) → (Conn g' x y s ↔ Conn g x y s) := by
  have hcs := C30_connect_sets sem srt h slot ha hb hc
  refine ⟨fun s => ⟨hcs.2 s, fun e => e ▸ hcs.1⟩, ?_⟩
  intro x y s hxy hys
  rcases connect_cases hc with ⟨hno, _⟩ | ⟨a', b', sg, h1, h2, e, rfl⟩
  · rw [find_at.mpr ha, find_at.mpr hb] at hno
    rcases hno with hno | hno <;> cases hno
  · have ea := (find_at.mp h1).unique ha
    have eb := (find_at.mp h2).unique hb
    subst ea eb
    have hi := h.inv.disconnect dst slot
    have sp := (updateEdge_spec hi.pairs hi.ends e).2.2.2.2.2
    have ho := (C31_others_unchanged sem srt h hb slot).1 x y s hys
    unfold Conn at ho ⊢
    dsimp only
    rw [sp, ← ho]
    constructor
    · rintro (⟨m, _⟩ | e2)
      · exact m
      · exact absurd ⟨congrArg Edge.src e2, congrArg Edge.dst e2⟩ hxy
    · exact fun m => Or.inl ⟨m, hxy⟩

example (srt : EdgeSort) : Reach toySem srt false toyLinked ∧ Conn toyLinked 0 1 0 ∧
    ∃ g', toyLinked.connect 1 2 3 = .ok g' :=
  ⟨toyLinked_reach srt, by unfold Conn; decide, _, rfl⟩

/-! ### C33 -/

theorem removeEdges_state : ∀ (es : List Edge) (s : SGraph × GraphState),
    (Graph.removeEdges es s = s) ∨ (Graph.removeEdges es s).2 = .dirty := by
  intro es
  induction es with
  | nil => intro s; exact Or.inl rfl
  | cons e es ih =>
    intro s
    unfold Graph.removeEdges
    split
    · rcases ih (s.1.removeEdge e.src e.dst, .dirty) with h | h
      · right; rw [h]
      · exact Or.inr h
    · exact ih s

/-- C33: every edit that changes something leaves the graph dirty. -/
theorem C33_edits_dirty (sem : NodeSem N S C Fr) (g : Graph N S) :
    (∀ n g' i, g.addNode sem n = .ok (g', i) → g'.state = .dirty) ∧
    (∀ id g', g.removeNode id = (g', true) → g'.state = .dirty) ∧
    (∀ src dst slot g', ¬ Unknown g src → ¬ Unknown g dst → g.connect src dst slot = .ok g' →
      g'.state = .dirty) ∧
    (∀ dst slot, (g.disconnectInput dst slot).graph.edges ≠ g.graph.edges →
      (g.disconnectInput dst slot).state = .dirty) ∧
    (∀ id f g', ¬ Unknown g id → g.setAttr id f = .ok g' → g'.state = .dirty) := by
  refine ⟨?_, ?_, ?_, ?_, ?_⟩
  · intro n g' i h
    unfold Graph.addNode at h
    dsimp only at h
    split at h <;> cases h
    rfl
  · intro id g' h
    rcases removeNode_cases (g := g) (id := id) with ⟨h1, _, _⟩ | ⟨i, _, _, _, h2⟩
    · rw [h] at h1; cases h1
    · rw [h] at h2; dsimp only at h2; rw [h2]
  · intro s d w g' hs hd h
    rcases connect_cases h with ⟨hn | hn, _⟩ | ⟨a, b, sg, _, _, _, rfl⟩
    · exact absurd (find_none.mp hn) hs
    · exact absurd (find_none.mp hn) hd
    · rfl
  · intro d w hne
    unfold Graph.disconnectInput at hne ⊢
    split at hne
    · exact absurd rfl hne
    · dsimp only at hne ⊢
      rcases removeEdges_state _ (g.graph, g.state) with h | h
      · rw [h] at hne; exact absurd rfl hne
      · exact h
  · intro id f g' hu h
    rcases setAttr_cases h with ⟨hn, _⟩ | ⟨i, n, _, _, rfl⟩
    · exact absurd (find_none.mp hn) hu
    · rfl

/-- C33: no call except a successful execute makes the graph clean. -/
theorem C33_only_execute_cleans (sem : NodeSem N S C Fr) (srt : EdgeSort) (g : Graph N S)
    (hg : g.state ≠ .clean) :
    (∀ n g' i, g.addNode sem n = .ok (g', i) → g'.state ≠ .clean) ∧
    (∀ id, (g.removeNode id).1.state ≠ .clean) ∧
    (∀ src dst slot g', g.connect src dst slot = .ok g' → g'.state ≠ .clean) ∧
    (∀ dst slot, (g.disconnectInput dst slot).state ≠ .clean) ∧
    (∀ id f g', g.setAttr id f = .ok g' → g'.state ≠ .clean) ∧
    (∀ fuel id frames c st g' c', g.execute sem srt fuel id frames c = .ok (st, g', c') →
      (g'.state = .clean ↔ st = .success)) := by
  refine ⟨?_, ?_, ?_, ?_, ?_, ?_⟩
  · intro n g' i h
    rw [(C33_edits_dirty sem g).1 n g' i h]
    decide
  · intro id
    rcases removeNode_cases (g := g) (id := id) with ⟨_, h2, _⟩ | ⟨i, _, _, _, h2⟩
    · rw [h2]; exact hg
    · rw [h2]; exact nofun
  · intro s d w g' h
    rcases connect_cases h with ⟨_, rfl⟩ | ⟨a, b, sg, _, _, _, rfl⟩
    · exact hg
    · exact nofun
  · intro d w
    unfold Graph.disconnectInput
    split
    · exact hg
    · dsimp only
      rcases removeEdges_state _ (g.graph, g.state) with h | h
      · rw [h]; exact hg
      · rw [h]; decide
  · intro id f g' h
    rcases setAttr_cases h with ⟨_, rfl⟩ | ⟨i, n, _, _, rfl⟩
    · exact hg
    · exact nofun
  · intro fuel id frames c st g' c' h
    unfold Graph.execute at h
    split at h
    · cases h
      exact ⟨fun hh => absurd hh hg, fun hh => by cases hh⟩
    · obtain ⟨o, _, h⟩ := Res.bind_ok.mp h
      obtain ⟨⟨e, g1, c1⟩, h1, h⟩ := Res.bind_ok.mp h
      have s := frameLoop_same _ _ _ _ _ _ _ _ _ _ h1
      dsimp only at h
      split at h
      · rename_i ec
        cases h
        refine ⟨fun hh => absurd (s.2.2.2.1.symm.trans hh) hg, fun hh => ?_⟩
        cases ec <;> cases hh
      · cases h
        exact ⟨fun _ => rfl, fun _ => rfl⟩

example : toyGraph.state ≠ .clean ∧ ¬ Unknown toyGraph 1 ∧ ¬ Unknown toyGraph 2 :=
  ⟨by decide, by unfold Unknown toyGraph; decide, by unfold Unknown toyGraph; decide⟩

end OCG.Props
