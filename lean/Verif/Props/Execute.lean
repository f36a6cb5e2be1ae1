import Verif.Proofs.Execute
import Verif.Props.GraphIter
/-
Executing a graph: C38 to C42.
-/

namespace OCG.Props

open GraphSpec

variable {N S C Fr : Type}

/-- No node panics while computing. -/
def ComputeTotal (sem : NodeSem N S C Fr) : Prop :=
  ∀ n fr m ins out c, ∃ r, sem.compute n fr m ins out c = .ok r

theorem toySem_total : ValidateTotal toySem ∧ ComputeTotal toySem :=
  ⟨fun _ _ _ ins => ⟨_, rfl, by simp⟩, fun _ _ _ _ _ _ => ⟨_, rfl⟩⟩

/-- The nodes that execution visits, in search order. -/
theorem order_of_reach {sem : NodeSem N S C Fr} {srt : EdgeSort} {g : Graph N S} {r : Bool}
    (h : Reach sem srt r g) {start : Nat} (hs : g.graph.contains start = true) :
    ∃ order d, g.graph.findAllUpstream srt start = .ok order ∧
      SInv g.graph start order ⟨[], d⟩ := by
  obtain ⟨order, d, e, h1, _⟩ := findAll_spec srt h.inv.ends (contains_lt_bound hs)
    (fun _ _ => True) trivial (fun _ _ _ _ _ _ _ => trivial)
  exact ⟨order, d, e, h1⟩

/-! ### C38 -/

/-- C38: the exact condition.  Executing some frames crashes exactly when the search meets
some node after one of its inputs. -/
theorem C38_crash_iff (sem : NodeSem N S C Fr) (srt : EdgeSort) {g : Graph N S} {r : Bool}
    (h : Reach sem srt r g) (hv : ValidateTotal sem) (hc : ComputeTotal sem) {id start : Nat}
    (hid : At g id start) (hs : g.graph.contains start = true) {order : List Nat}
    (ho : g.graph.findAllUpstream srt start = .ok order) :
    ((∀ v ∈ order, ∀ u, Feeds g.graph u v → u ≠ v → order.idxOf v < order.idxOf u) →
      ∃ enough, ∀ fuel, enough ≤ fuel → ∀ frames c, ∃ res,
        g.execute sem srt fuel id frames c = .ok res) ∧
    (¬ (∀ v ∈ order, ∀ u, Feeds g.graph u v → u ≠ v → order.idxOf v < order.idxOf u) →
      ∀ fuel frames c, frames ≠ [] →
        g.execute sem srt fuel id frames c = .error .missingParent) := by
  obtain ⟨order', d, e, hi⟩ := order_of_reach h hs
  rw [ho] at e
  cases e
  have hg : Sound g := h.inv.sound
  have hmem := hi.final_mem
  have hclosed : ∀ v ∈ order, ∀ u, Feeds g.graph u v → u ∈ order :=
    fun v hv u hf => (hmem u).mpr (.step ((hmem v).mp hv) hf)
  constructor
  · intro ht
    refine ⟨(order.length + 1) ^ order.length + 1, fun fuel hf frames c => ?_⟩
    obtain ⟨⟨er, g', c'⟩, hr⟩ := frameLoop_ok hv hc srt fuel (by omega) frames g c hg hs hi ht
    unfold Graph.execute
    rw [find_at.mpr hid]
    dsimp only
    simp only [ho, hr, bind, Except.bind]
    split <;> exact ⟨_, rfl⟩
  · intro ht fuel frames c hne
    have hnr : ¬ Ready (parents srt g.graph) order.reverse
        (fun k => (fun _ => none : Graph.IdxMap Nat) k ≠ none) := by
      intro hr
      exact ht ((topo_ready hg srt hi.final_nodup hclosed).mp (hr.congr (by simp)))
    cases frames with
    | nil => exact absurd rfl hne
    | cons f fs =>
      have hh := (hashPhase_spec sem srt hg f order.reverse (fun _ => none)
        (fun i hio => hg.upstream_live hs ((hmem i).mp (List.mem_reverse.mp hio)))).2 hnr
      unfold Graph.execute
      rw [find_at.mpr hid]
      dsimp only
      unfold Graph.frameLoop Graph.executeFrame
      simp only [ho, hh, bind, Except.bind]

example (srt : EdgeSort) : Reach toySem srt false toyTwo ∧ At toyTwo 4 3 ∧
    toyTwo.graph.contains 3 = true ∧ ∃ order, toyTwo.graph.findAllUpstream srt 3 = .ok order := by
  refine ⟨toyTwo_reach srt, ⟨rfl, ?_⟩, rfl, ?_⟩
  · intro j hj
    rcases j with _ | _ | _ | j <;> first | decide | omega
  · obtain ⟨o, _, h, _⟩ := order_of_reach (toyTwo_reach srt) (start := 3) rfl
    exact ⟨o, h⟩

/-- C38 for graphs arranged in levels (chains, trees, diamonds with equally long branches):
executing never crashes.  Missing from the full claim: acyclic graphs in which a node is used
both directly and through another node, for which the claim is false
(`C38_counterexample`). -/
theorem C38_no_crash_partial (sem : NodeSem N S C Fr) (srt : EdgeSort) {g : Graph N S} {r : Bool}
    (h : Reach sem srt r g) (hv : ValidateTotal sem) (hc : ComputeTotal sem) {id start : Nat}
    (hid : At g id start) (hs : g.graph.contains start = true) (hl : Leveled g.graph start) :
    ∃ enough, ∀ fuel, enough ≤ fuel → ∀ frames c, ∃ res,
      g.execute sem srt fuel id frames c = .ok res := by
  obtain ⟨L, hL⟩ := hl
  obtain ⟨order, d, e, hi, ht⟩ := leveled_topo srt h.inv.ends (contains_lt_bound hs) L hL
  exact (C38_crash_iff sem srt h hv hc hid hs e).1 ht

/-- C38 for such graphs: in every frame, every upstream node and no other is computed, and
only after all its inputs were computed. -/
theorem C38_inputs_first_partial (sem : NodeSem N S C Fr) (srt : EdgeSort) {g : Graph N S}
    {r : Bool} (h : Reach sem srt r g) (hv : ValidateTotal sem) {start : Nat}
    (hs : g.graph.contains start = true) (hl : Leveled g.graph start) :
    ∃ order enough, g.graph.findAllUpstream srt start = .ok order ∧
      ∀ fuel, enough ≤ fuel → ∀ frame c, ∃ schedule : List (Nat × Mode),
        g.executeFrame sem srt fuel order frame c =
          Graph.computePhase sem srt frame schedule g c (fun _ => none) ∧
        (∀ i, i ∈ schedule.map (·.1) ↔ Upstream g.graph start i) ∧
        ∀ before i after, schedule.map (·.1) = before ++ i :: after →
          ∀ u, Feeds g.graph u i → u ≠ i → u ∈ before := by
  obtain ⟨L, hL⟩ := hl
  obtain ⟨order, d, e, hi, ht⟩ := leveled_topo srt h.inv.ends (contains_lt_bound hs) L hL
  have hg : Sound g := h.inv.sound
  refine ⟨order, (order.length + 1) ^ order.length + 1, e, fun fuel hf frame c => ?_⟩
  obtain ⟨sched, e1, _, e3, e4, _⟩ := schedule_ok srt hg hs (fun _ _ n _ => hv n) hi ht frame fuel (by omega) c
  refine ⟨sched, e1, e3, fun pre i post heq u hu hne => ?_⟩
  rcases ready_iff.mp e4 pre i post heq u ((hg.mem_parents srt).mpr ⟨hu, hne⟩) with h | h
  · exact h
  · exact h.elim

/-- `Upstream` with the number of steps. -/
inductive UpSteps (sg : SGraph) (b : Nat) : Nat → Nat → Prop
  | refl : UpSteps sg b 0 b
  | step {k c a} : UpSteps sg b k c → Feeds sg a c → UpSteps sg b (k + 1) a

/-- C38: trees, in which every node feeds at most one node and the executed node feeds
nothing, are arranged in levels. -/
theorem C38_tree_is_leveled {sg : SGraph} {start : Nat}
    (hone : ∀ u v w, Feeds sg u v → Feeds sg u w → v = w) (hroot : ∀ v, ¬ Feeds sg start v) :
    Leveled sg start := by
  classical
  have hex : ∀ v, Upstream sg start v → ∃ k, UpSteps sg start k v := by
    intro v hv
    induction hv with
    | refl => exact ⟨0, .refl⟩
    | step _ hf ih => obtain ⟨k, hk⟩ := ih; exact ⟨k + 1, .step hk hf⟩
  have huni : ∀ k v, UpSteps sg start k v → ∀ k', UpSteps sg start k' v → k = k' := by
    intro k v hv
    induction hv with
    | refl =>
      intro k' h'
      cases h' with
      | refl => rfl
      | step _ hf => exact absurd hf (hroot _)
    | step _ hf ih =>
      intro k' h'
      cases h' with
      | refl => exact absurd hf (hroot _)
      | step h'' hf' =>
        have := hone _ _ _ hf hf'
        subst this
        rw [ih _ h'']
  refine ⟨fun v => if h : ∃ k, UpSteps sg start k v then h.choose else 0, ?_⟩
  intro u v hv hf _
  have h1 := hex v hv
  have h2 : ∃ k, UpSteps sg start k u := by
    obtain ⟨k, hk⟩ := h1; exact ⟨k + 1, .step hk hf⟩
  dsimp only
  rw [dif_pos h1, dif_pos h2]
  exact huni _ _ h2.choose_spec _ (.step h1.choose_spec hf)

theorem toyTwo_leveled : Leveled toyTwo.graph 3 := by
  apply C38_tree_is_leveled
  · rintro u v w ⟨e, he, rfl, rfl⟩ ⟨e', he', h, rfl⟩
    simp only [toyTwo, toyGraph, List.mem_cons, List.not_mem_nil, or_false] at he he'
    rcases he with rfl | rfl <;> rcases he' with rfl | rfl <;> first | rfl | simp at h
  · rintro v ⟨e, he, h, _⟩
    simp only [toyTwo, toyGraph, List.mem_cons, List.not_mem_nil, or_false] at he
    rcases he with rfl | rfl <;> simp at h

example (srt : EdgeSort) : Reach toySem srt false toyTwo ∧ ValidateTotal toySem ∧
    ComputeTotal toySem ∧ toyTwo.graph.contains 3 = true ∧ Leveled toyTwo.graph 3 :=
  ⟨toyTwo_reach srt, toySem_total.1, toySem_total.2, rfl, toyTwo_leveled⟩

theorem run_nil (srt : EdgeSort) : srt.run [] = [] := (srt.perm []).eq_nil

theorem run_one (srt : EdgeSort) (e : Edge) : srt.run [e] = [e] :=
  List.perm_singleton.mp (srt.perm [e])

theorem run_two (srt : EdgeSort) (a b : Edge) (h : b.weight < a.weight) :
    srt.run [a, b] = [b, a] := by
  have hp := srt.perm [a, b]
  have hs := srt.sorted [a, b]
  have hl := hp.length_eq
  match hrun : srt.run [a, b] with
  | [] => rw [hrun] at hl; simp at hl
  | [_] => rw [hrun] at hl; simp at hl
  | _ :: _ :: _ :: _ => rw [hrun] at hl; simp at hl
  | [x, y] =>
    rw [hrun] at hp hs
    rw [List.pairwise_pair] at hs
    have hx : x = a ∨ x = b := by simpa using hp.mem_iff.mp (List.mem_cons_self : x ∈ [x, y])
    rcases hx with rfl | rfl
    · have := List.perm_singleton.mp ((List.perm_cons _).mp hp)
      simp only [List.cons.injEq, and_true] at this
      subst this
      omega
    · have h2 : [x, y].Perm [x, a] := hp.trans (List.Perm.swap _ _ _)
      have := List.perm_singleton.mp ((List.perm_cons _).mp h2)
      rw [this]

/-- Node 1 feeds node 2, and both feed node 3. -/
def toyShortcut : Graph Nat Unit :=
  { toyGraph with graph := { toyGraph.graph with
    edges := [⟨1, 2, 1⟩, ⟨0, 2, 0⟩, ⟨0, 1, 0⟩] } }

/-- C38 is false in general: node 1 feeds node 2, and both feed node 3.  There is no cycle,
but executing node 3 panics, with every fuel and every cache. -/
theorem C38_counterexample (srt : EdgeSort) :
    Reach toySem srt false toyShortcut ∧
    (∃ level : Nat → Nat, ∀ u v, Feeds toyShortcut.graph u v → level u < level v) ∧
    ∀ fuel frames c, frames ≠ [] →
      toyShortcut.execute toySem srt fuel 3 frames c = .error .missingParent := by
  have hr : Reach toySem srt false toyShortcut :=
    .connect 2 3 1 (.connect 1 3 0 (.connect 1 2 0 (toyGraph_reach srt) rfl) rfl) rfl
  refine ⟨hr, ⟨id, ?_⟩, ?_⟩
  · rintro u v ⟨e, he, rfl, rfl⟩
    simp only [toyShortcut, toyGraph, List.mem_cons, List.not_mem_nil, or_false] at he
    rcases he with rfl | rfl | rfl <;> decide
  · have ho : toyShortcut.graph.findAllUpstream srt 2 = .ok [2, 0, 1] := by
      have i2 : toyShortcut.graph.incoming 2 = [⟨1, 2, 1⟩, ⟨0, 2, 0⟩] := rfl
      have i1 : toyShortcut.graph.incoming 1 = [⟨0, 1, 0⟩] := rfl
      have i0 : toyShortcut.graph.incoming 0 = [] := rfl
      have hn : Search.new toyShortcut.graph 2 = .ok ⟨[(2, 0)], [2]⟩ := rfl
      have hlen : toyShortcut.graph.slots.length = 4 := rfl
      unfold SGraph.findAllUpstream
      simp [hn, hlen, bind, Except.bind, Search.allLoop, Search.next, i2, i1, i0,
        run_two srt ⟨1, 2, 1⟩ ⟨0, 2, 0⟩ (by decide), run_one, run_nil, Search.pushAll]
    refine (C38_crash_iff toySem srt hr toySem_total.1 toySem_total.2 (start := 2)
      ⟨rfl, ?_⟩ rfl ho).2 ?_
    · intro j hj
      rcases j with _ | _ | j <;> first | decide | omega
    · intro hall
      have := hall 1 (by decide) 0 ⟨⟨0, 1, 0⟩, by decide, rfl, rfl⟩ (by decide)
      revert this
      decide

/-! ### C39 -/

/-- C39 is false: executing any frames crashes whenever two different nodes upstream are
upstream of each other. -/
theorem C39_counterexample (sem : NodeSem N S C Fr) (srt : EdgeSort) {g : Graph N S} {r : Bool}
    (h : Reach sem srt r g) {id start u v : Nat} (hid : At g id start)
    (hs : g.graph.contains start = true) (hv : Upstream g.graph start v)
    (huv : Upstream g.graph v u) (hvu : Upstream g.graph u v) (hne : u ≠ v)
    (fuel : Nat) (frames : List Fr) (c : C) (hf : frames ≠ []) :
    g.execute sem srt fuel id frames c = .error .missingParent := by
  obtain ⟨order, d, e, hi⟩ := order_of_reach h hs
  have hg : Sound g := h.inv.sound
  have hmem := hi.final_mem
  have hclosed : ∀ v ∈ order, ∀ u, Feeds g.graph u v → u ∈ order :=
    fun v hv u hf => (hmem u).mpr (.step ((hmem v).mp hv) hf)
  have ht : ¬ Topo g.graph order := by
    intro ht
    have h1 := ht.upstream hclosed ((hmem v).mpr hv) huv
    have h2 := ht.upstream hclosed h1.1 hvu
    rcases h1.2 with h1 | h1
    · exact hne h1
    · rcases h2.2 with h2 | h2
      · exact hne h2.symm
      · omega
  have hnr : ¬ Ready (parents srt g.graph) order.reverse
      (fun k => (fun _ => none : Graph.IdxMap Nat) k ≠ none) := by
    intro hr
    exact ht ((topo_ready hg srt hi.final_nodup hclosed).mp (hr.congr (by simp)))
  cases frames with
  | nil => exact absurd rfl hf
  | cons f fs =>
    have hh := (hashPhase_spec sem srt hg f order.reverse (fun _ => none)
      (fun i hio => hg.upstream_live hs ((hmem i).mp (List.mem_reverse.mp hio)))).2 hnr
    unfold Graph.execute
    rw [find_at.mpr hid]
    dsimp only
    unfold Graph.frameLoop Graph.executeFrame
    simp only [e, hh, bind, Except.bind]

/-- Nodes 1 and 2 feed each other, node 3 feeds itself. -/
def toyCycle : Graph Nat Unit :=
  { toyGraph with graph := { toyGraph.graph with
    edges := [⟨2, 2, 0⟩, ⟨1, 0, 0⟩, ⟨0, 1, 0⟩] } }

theorem toyCycle_reach (srt : EdgeSort) : Reach toySem srt false toyCycle :=
  .connect 3 3 0 (.connect 2 1 0 (.connect 1 2 0 (toyGraph_reach srt) rfl) rfl) rfl

example (srt : EdgeSort) : Reach toySem srt false toyCycle ∧ At toyCycle 1 0 ∧
    toyCycle.graph.contains 0 = true ∧ Upstream toyCycle.graph 0 0 ∧
    Upstream toyCycle.graph 0 1 ∧ Upstream toyCycle.graph 1 0 ∧ (1 : Nat) ≠ 0 :=
  ⟨toyCycle_reach srt, ⟨rfl, by intro j hj; omega⟩, rfl, .refl,
    .step .refl ⟨⟨1, 0, 0⟩, by decide, rfl, rfl⟩, .step .refl ⟨⟨0, 1, 0⟩, by decide, rfl, rfl⟩,
    by decide⟩

/-- C39 for cycles of one node: nodes connected to themselves, in a graph that is otherwise
arranged in levels, do not make execution crash.  Missing from the full claim: cycles of two or
more nodes, which always crash (`C39_counterexample`). -/
theorem C39_self_loop_partial (sem : NodeSem N S C Fr) (srt : EdgeSort) {g : Graph N S} {r : Bool}
    (h : Reach sem srt r g) (hv : ValidateTotal sem) (hc : ComputeTotal sem) {id start v : Nat}
    (hid : At g id start) (hs : g.graph.contains start = true)
    (_hloop : Upstream g.graph start v ∧ Feeds g.graph v v) (hl : Leveled g.graph start) :
    ∃ enough, ∀ fuel, enough ≤ fuel → ∀ frames c, ∃ res,
      g.execute sem srt fuel id frames c = .ok res :=
  C38_no_crash_partial sem srt h hv hc hid hs hl

/-- C39: with an empty list of frames no graph crashes. -/
theorem C39_no_frames_partial (sem : NodeSem N S C Fr) (srt : EdgeSort) {g : Graph N S} {r : Bool}
    (h : Reach sem srt r g) {id start : Nat} (hid : At g id start)
    (hs : g.graph.contains start = true) (fuel : Nat) (c : C) :
    g.execute sem srt fuel id [] c = .ok (.success, { g with state := .clean, status := .success }, c) := by
  obtain ⟨order, d, e, hi⟩ := order_of_reach h hs
  unfold Graph.execute
  rw [find_at.mpr hid]
  dsimp only
  simp only [e, bind, Except.bind, Graph.frameLoop]

example (srt : EdgeSort) : Reach toySem srt false toyCycle ∧ At toyCycle 3 2 ∧
    toyCycle.graph.contains 2 = true ∧
    (Upstream toyCycle.graph 2 2 ∧ Feeds toyCycle.graph 2 2) ∧ Leveled toyCycle.graph 2 := by
  refine ⟨toyCycle_reach srt, ⟨rfl, ?_⟩, rfl, ⟨.refl, ⟨2, 2, 0⟩, by decide, rfl, rfl⟩, fun _ => 0, ?_⟩
  · intro j hj
    rcases j with _ | _ | j <;> first | decide | omega
  · have hin : ∀ a, Feeds toyCycle.graph a 2 → a = 2 := by
      rintro a ⟨e, he, rfl, h⟩
      simp only [toyCycle, toyGraph, List.mem_cons, List.not_mem_nil, or_false] at he
      rcases he with rfl | rfl | rfl <;> first | rfl | simp at h
    have hup : ∀ v, Upstream toyCycle.graph 2 v → v = 2 := by
      intro v hv
      induction hv with
      | refl => rfl
      | step _ hf ih => subst ih; exact hin _ hf
    intro u v hv hf hne
    have := hup v hv
    subst this
    exact absurd (hin u hf) hne

/-! ### C40 -/

/-- The statuses that stop the execution. -/
theorem statusError_none (st : NodeStatus) : Graph.statusError st = none ↔ ¬ Fails st := by
  unfold Fails
  cases st <;> simp [Graph.statusError]

/-- What an execution of one frame that returns leaves: the values found, and the last value or
the failing computation. -/
theorem exec_outcome (sem : NodeSem N S C Fr) (srt : EdgeSort) {g : Graph N S} {r : Bool}
    (h : Reach sem srt r g) {f : N → Fr → Mode → List S → NodeStatus × S} {good : C → Prop}
    (hf : Computes sem f good) {id start : Nat} (hid : At g id start)
    (hs : g.graph.contains start = true) {frame : Fr} (hone : OneRequest sem f srt g start frame)
    {fuel : Nat} {c c' : C} {g' : Graph N S} {st : ExecuteStatus} (hgood : good c)
    (hx : g.execute sem srt fuel id [frame] c = .ok (st, g', c')) :
    good c' ∧ ∃ order streams, Topo g.graph order ∧
      (∀ i, i ∈ order ↔ Upstream g.graph start i) ∧
      Values sem f srt g start frame streams ∧
      ((st = .success ∧ streams start = some g'.output) ∨
        (st ≠ .success ∧ ∃ n m ins vals, ∃ k : Nat, g.nodes[k]? = some n ∧
          Requested sem srt g start k m ∧ g.graph.findDirectUpstream srt k = .ok ins ∧
          ins.map streams = vals.map some ∧ Fails (f n frame m vals).1)) := by
  obtain ⟨order, d, e, hi⟩ := order_of_reach h hs
  have hg : Sound g := h.inv.sound
  have hmem := hi.final_mem
  unfold Graph.execute at hx
  rw [find_at.mpr hid] at hx
  dsimp only at hx
  rw [e] at hx
  obtain ⟨_, he, hx⟩ := Res.bind_ok.mp hx
  cases he
  obtain ⟨⟨er, g1, c1⟩, hloop, hx⟩ := Res.bind_ok.mp hx
  dsimp only at hx
  unfold Graph.frameLoop at hloop
  obtain ⟨⟨er1, g2, c2⟩, hframe, hloop⟩ := Res.bind_ok.mp hloop
  dsimp only at hloop
  have hx2 : (st = .success ↔ er1 = none) ∧ g'.output = g2.output ∧ c' = c2 := by
    cases er1 with
    | some er1 =>
      simp only [Except.ok.injEq, Prod.mk.injEq] at hloop
      obtain ⟨rfl, rfl, rfl⟩ := hloop
      simp only [Except.ok.injEq, Prod.mk.injEq] at hx
      obtain ⟨rfl, rfl, rfl⟩ := hx
      exact ⟨by cases er1 <;> simp [Graph.errorStatus], rfl, rfl⟩
    | none =>
      simp only [Graph.frameLoop, Except.ok.injEq, Prod.mk.injEq] at hloop
      obtain ⟨rfl, rfl, rfl⟩ := hloop
      simp only [Except.ok.injEq, Prod.mk.injEq] at hx
      obtain ⟨rfl, rfl, rfl⟩ := hx
      exact ⟨by simp, rfl, rfl⟩
  obtain ⟨hst, hout, rfl⟩ := hx2
  unfold Graph.executeFrame at hframe
  obtain ⟨hashes, hhash, hframe⟩ := Res.bind_ok.mp hframe
  have ht : Topo g.graph order := by
    by_contra hnt
    have hclosed : ∀ v ∈ order, ∀ u, Feeds g.graph u v → u ∈ order :=
      fun v hv u hf => (hmem u).mpr (.step ((hmem v).mp hv) hf)
    have := (hashPhase_spec sem srt hg frame order.reverse (fun _ => none)
      (fun i hio => hg.upstream_live hs ((hmem i).mp (List.mem_reverse.mp hio)))).2 (by
        intro hr
        exact hnt ((topo_ready hg srt hi.final_nodup hclosed).mp (hr.congr (by simp))))
    rw [this] at hhash
    cases hhash
  have hhead := hi.final_head
  cases order with
  | nil => cases hhead
  | cons o os =>
    simp only [List.head?_cons, Option.some.injEq] at hhead
    subst hhead
    dsimp only at hframe
    obtain ⟨validated, hval, hframe⟩ := Res.bind_ok.mp hframe
    have hstart : ∀ x ∈ [(o, modeAll)], Requested sem srt g o x.1 x.2 := by
      intro x hx
      rw [List.mem_singleton] at hx
      subst hx
      exact .start
    obtain ⟨hpre, hreq⟩ := validate_requested fuel _ _ _ hstart hstart hval
    obtain ⟨hgood', streams, hv1, _, hv3, hv4⟩ := computePhase_values hf hone validated.reverse g c
      (fun _ => none) er1 g2 c' (fun x hx => hreq x (List.mem_reverse.mp hx)) rfl hgood
      (fun k n hk => ⟨n, hk, rfl⟩) (fun k v hk => by cases hk) hframe
    refine ⟨hgood', o :: os, streams, ht, hmem, hv1, ?_⟩
    by_cases her : er1 = none
    · left
      refine ⟨hst.mpr her, ?_⟩
      obtain ⟨_, hlast⟩ := hv3 her
      rw [hout]
      refine hlast (o, modeAll) ?_
      rw [List.getLast?_reverse]
      obtain ⟨t, ht⟩ := hpre
      rw [← ht]
      rfl
    · right
      refine ⟨fun hs => her (hst.mp hs), ?_⟩
      obtain ⟨n, m, ins, vals, k, b1, b2, b3, b4, b5⟩ := hv4 her
      refine ⟨n, m, ins, vals, k, b1, b2, b3, b4, ?_⟩
      by_contra hnf
      rw [(statusError_none _).mpr hnf] at b5
      exact her b5.symm

theorem requested_upstream {sem : NodeSem N S C Fr} {srt : EdgeSort} {g : Graph N S} (hg : Sound g)
    {start : Nat} (hs : g.graph.contains start = true) {i : Nat} {m : Mode}
    (h : Requested sem srt g start i m) : Upstream g.graph start i := by
  induction h with
  | start => exact .refl
  | input _ _ hins _ _ hz ih =>
    rw [hg.direct srt (hg.upstream_live hs ih)] at hins
    cases hins
    exact .step ih ((hg.mem_parents srt).mp (List.of_mem_zip hz).1).1

/-- The inputs of a node with a value have values. -/
theorem values_dom {sem : NodeSem N S C Fr} {f : N → Fr → Mode → List S → NodeStatus × S}
    {srt : EdgeSort} {g : Graph N S} (hg : Sound g) {start : Nat}
    (hs : g.graph.contains start = true) {frame : Fr} {streams : Graph.IdxMap S}
    (hv : Values sem f srt g start frame streams) (h0 : streams start ≠ none) :
    ∀ i, Upstream g.graph start i → streams i ≠ none := by
  intro i hu
  induction hu with
  | refl => exact h0
  | @step b a hb hfe ih =>
    by_cases hab : a = b
    · rw [hab]; exact ih
    · cases hsb : streams b with
      | none => exact absurd hsb ih
      | some vb =>
        obtain ⟨n, m, ins, vals, _, _, a3, a4, _, _⟩ := hv b vb hsb
        rw [hg.direct srt (hg.upstream_live hs hb)] at a3
        cases a3
        have hmem2 := (hg.mem_parents srt).mpr ⟨hfe, hab⟩
        intro hn
        have : (none : Option S) ∈ vals.map some := by
          rw [← a4, ← hn]
          exact List.mem_map_of_mem hmem2
        simp at this

/-- Induction from the inputs, along the search order. -/
theorem topo_induction {sg : SGraph} {order : List Nat} {start : Nat} (ht : Topo sg order)
    (hmem : ∀ i, i ∈ order ↔ Upstream sg start i) {P : Nat → Prop}
    (hstep : ∀ k, Upstream sg start k → (∀ u, Feeds sg u k → u ≠ k → P u) → P k) :
    ∀ k, Upstream sg start k → P k := by
  have hall : ∀ rank k, order.length - order.idxOf k ≤ rank → Upstream sg start k → P k := by
    intro rank
    induction rank with
    | zero =>
      intro k hk hu
      have := List.idxOf_lt_length_of_mem ((hmem k).mpr hu)
      omega
    | succ rank ih =>
      intro k hk hu
      refine hstep k hu fun u hf hne => ?_
      have hlt := ht k ((hmem k).mpr hu) u hf hne
      exact ih u (by omega) (.step hu hf)
  exact fun k => hall _ k (Nat.le_refl _)

/-- Inputs whose found values are the solution's. -/
theorem map_solution {streams : Graph.IdxMap S} {v : Nat → S} {ins : List Nat} {vals : List S}
    (h : ins.map streams = vals.map some) (hin : ∀ u ∈ ins, ∀ w, streams u = some w → w = v u) :
    vals = ins.map v := by
  induction ins generalizing vals with
  | nil => cases vals with
    | nil => rfl
    | cons _ _ => simp at h
  | cons a as ih =>
    cases vals with
    | nil => simp at h
    | cons b bs =>
      simp only [List.map_cons, List.cons.injEq] at h
      rw [List.map_cons, ← hin a List.mem_cons_self b h.1,
        ← ih h.2 fun u hu => hin u (List.mem_cons_of_mem _ hu)]

/-- Every value found is the solution's value. -/
theorem values_solve {sem : NodeSem N S C Fr} {f : N → Fr → Mode → List S → NodeStatus × S}
    {srt : EdgeSort} {g : Graph N S} (hg : Sound g) {start : Nat}
    (hs : g.graph.contains start = true) {frame : Fr} {order : List Nat} (ht : Topo g.graph order)
    (hmem : ∀ i, i ∈ order ↔ Upstream g.graph start i) {streams : Graph.IdxMap S}
    (hv : Values sem f srt g start frame streams) {v : Nat → S}
    (hsol : Solves sem f srt g start frame v) :
    ∀ k, Upstream g.graph start k → ∀ w, streams k = some w → w = v k := by
  refine topo_induction ht hmem ?_
  intro k hu ih w hsk
  obtain ⟨n, m, ins, vals, a1, a2, a3, a4, a5, _⟩ := hv k w hsk
  rw [hsol k m n ins hu a2 a1 a3, a5]
  rw [map_solution a4 fun u huin => by
    rw [hg.direct srt (hg.upstream_live hs hu)] at a3
    cases a3
    obtain ⟨hfu, hne⟩ := (hg.mem_parents srt).mp huin
    exact ih u hfu hne]

/-- C40: on success, the output is the value of the executed node in the system of equations
saying that each node's value is its function of its inputs' values; and that system has a
solution.  `f` is what the nodes compute when nothing is left over from before; a node used by
several others must be asked for the same work by all of them, as far as it matters (otherwise
the claim is false, `C40_counterexample`). -/
theorem C40_composition_partial (sem : NodeSem N S C Fr) (srt : EdgeSort) {g : Graph N S} {r : Bool}
    (h : Reach sem srt r g) {f : N → Fr → Mode → List S → NodeStatus × S} {good : C → Prop}
    (hf : Computes sem f good) {id start : Nat} (hid : At g id start)
    (hs : g.graph.contains start = true) {frame : Fr} (hone : OneRequest sem f srt g start frame)
    {fuel : Nat} {c c' : C} {g' : Graph N S} (hgood : good c)
    (hx : g.execute sem srt fuel id [frame] c = .ok (.success, g', c')) :
    (∃ v, Solves sem f srt g start frame v) ∧
    (∀ v, Solves sem f srt g start frame v → g'.output = v start) ∧ good c' := by
  have hg : Sound g := h.inv.sound
  obtain ⟨hgood', order, streams, ht, hmem, hv1, hor⟩ :=
    exec_outcome sem srt h hf hid hs hone hgood hx
  obtain ⟨_, hso⟩ | ⟨hbad, _⟩ := hor
  · have hdom := values_dom hg hs hv1 (by rw [hso]; simp)
    refine ⟨⟨fun i => (streams i).getD g.output, ?_⟩, ?_, hgood'⟩
    · intro i m n ins hu hrq hn hins
      cases hsi : streams i with
      | none => exact absurd hsi (hdom i hu)
      | some w =>
        obtain ⟨n1, m1, ins1, vals1, a1, a2, a3, a4, a5, _⟩ := hv1 i w hsi
        rw [hins] at a3
        cases a3
        rw [hn] at a1
        cases a1
        have : ins.map (fun j => (streams j).getD g.output) = vals1 := by
          have := congrArg (List.map (Option.getD · g.output)) a4
          simpa [List.map_map, Function.comp_def] using this
        rw [this, hone i m m1 n hrq a2 hn]
        dsimp only
        rw [hsi]
        exact a5
    · intro v hsol
      exact values_solve hg hs ht hmem hv1 hsol start .refl _ hso
  · exact absurd rfl hbad

/-- C40: the same for the recursive evaluation that passes each node's requests to its
inputs. -/
theorem C40_recursive_partial (sem : NodeSem N S C Fr) (srt : EdgeSort) {g : Graph N S} {r : Bool}
    (h : Reach sem srt r g) (htot : ValidateTotal sem)
    {f : N → Fr → Mode → List S → NodeStatus × S} {good : C → Prop}
    (hf : Computes sem f good) {id start : Nat} (hid : At g id start)
    (hs : g.graph.contains start = true) {frame : Fr} (hone : OneRequest sem f srt g start frame)
    {fuel : Nat} {c c' : C} {g' : Graph N S} (hgood : good c)
    (hx : g.execute sem srt fuel id [frame] c = .ok (.success, g', c'))
    {v : Nat → Mode → S} (hsol : SolvesRequests sem f srt g start frame v) :
    g'.output = v start modeAll := by
  have hg : Sound g := h.inv.sound
  obtain ⟨_, order, streams, ht, hmem, hv1, hor⟩ :=
    exec_outcome sem srt h hf hid hs hone hgood hx
  have hso : streams start = some g'.output := by
    rcases hor with ⟨_, h⟩ | ⟨h, _⟩
    · exact h
    · exact absurd rfl h
  have hdom := values_dom hg hs hv1 (by rw [hso]; simp)
  refine topo_induction ht hmem (P := fun k => ∀ w m, streams k = some w →
    Requested sem srt g start k m → w = v k m) ?_ start .refl _ _ hso .start
  intro k hu ih w m hsk hrq
  obtain ⟨n, m1, ins, vals, a1, a2, a3, a4, a5, _⟩ := hv1 k w hsk
  have hpar := hg.direct srt (hg.upstream_live hs hu)
  have hins : ∀ u ∈ ins, Feeds g.graph u k ∧ u ≠ k := by
    rw [hpar] at a3
    cases a3
    exact fun u hu => (hg.mem_parents srt).mp hu
  obtain ⟨ns, _, hlen, hns⟩ := nodesAt_ok (g := g) (l := ins)
    (fun j hj => hg.live j (hg.feeds_live (hins j hj).1))
  obtain ⟨modes, hmodes, hml⟩ := htot n m 0 ns
  rw [hsol k m n ins ns 0 modes hrq a1 a3 hns hmodes, a5, hone k m1 m n a2 hrq a1]
  have : vals = (ins.zip modes).map fun x => v x.1 x.2 := by
    have hpt : ins.map streams = (ins.zip modes).map (fun x => some (v x.1 x.2)) := by
      have hfst : ins = (ins.zip modes).map Prod.fst := by
        rw [List.map_fst_zip]; omega
      conv_lhs => rw [hfst]
      rw [List.map_map]
      apply List.map_congr_left
      rintro ⟨u, mu⟩ hz
      have huin := (List.of_mem_zip hz).1
      obtain ⟨hfu, hne⟩ := hins u huin
      have huu : Upstream g.graph start u := .step hu hfu
      dsimp only [Function.comp]
      cases hsu : streams u with
      | none => exact absurd hsu (hdom u huu)
      | some wu => rw [ih u hfu hne wu mu hsu (.input hrq a1 a3 hns hmodes hz)]
    rw [hpt] at a4
    have := congrArg (List.map (Option.getD · w)) a4
    simpa [List.map_map, Function.comp_def] using this.symm
  rw [this]

/-- Toy nodes that add: node 1 gives 3, node 2 gives 5, the others the sum of their inputs, and
ask all inputs for everything. -/
def sumSem : NodeSem Nat Nat Unit Unit where
  id := id
  status _ := .valid
  hash n _ hs := n + hs.sum
  validate _ _ _ ins := .ok (ins.map fun _ => modeAll)
  compute n _ _ ins _ _ := .ok (n, .valid, if n = 1 then 3 else if n = 2 then 5 else ins.sum, ())

def sumFn (n : Nat) (_ : Unit) (_ : Mode) (ins : List Nat) : NodeStatus × Nat :=
  (.valid, if n = 1 then 3 else if n = 2 then 5 else ins.sum)

/-- Nodes 1 and 2 feed node 4. -/
def sumTwo : Graph Nat Nat :=
  ⟨[1, 2, 3, 4], [1, 2, 3, 4], ⟨[some 1, some 2, some 3, some 4], [],
    [⟨1, 3, 1⟩, ⟨0, 3, 0⟩]⟩, 77, .dirty, .uninitialized⟩

theorem sumTwo_reach (srt : EdgeSort) : Reach sumSem srt false sumTwo :=
  .connect 2 4 1 (.connect 1 4 0
    (.add 4 (.add 3 (.add 2 (.add 1 (.new 77) rfl) rfl) rfl) rfl) rfl) rfl

/-- A concrete sort, for running examples. -/
def insSort : EdgeSort where
  run l := l.foldr (fun e acc => acc.takeWhile (fun x => x.weight < e.weight) ++
    e :: acc.dropWhile (fun x => x.weight < e.weight)) []
  perm l := by
    induction l with
    | nil => exact List.Perm.refl _
    | cons e l ih =>
      simp only [List.foldr_cons]
      refine (List.perm_middle).trans ?_
      rw [List.takeWhile_append_dropWhile]
      exact ih.cons e
  sorted l := by
    induction l with
    | nil => exact List.Pairwise.nil
    | cons e l ih =>
      simp only [List.foldr_cons]
      generalize l.foldr _ [] = acc at ih
      induction acc with
      | nil => simp
      | cons x xs ihx =>
        rw [List.pairwise_cons] at ih
        by_cases hx : x.weight < e.weight
        · rw [List.takeWhile_cons_of_pos (by simpa using hx),
            List.dropWhile_cons_of_pos (by simpa using hx), List.cons_append, List.pairwise_cons]
          refine ⟨fun y hy => ?_, ihx ih.2⟩
          rcases List.mem_append.mp hy with hy | hy
          · exact ih.1 y ((List.takeWhile_sublist _).subset hy)
          · rcases List.mem_cons.mp hy with rfl | hy
            · omega
            · exact ih.1 y ((List.dropWhile_sublist _).subset hy)
        · rw [List.takeWhile_cons_of_neg (by simpa using hx),
            List.dropWhile_cons_of_neg (by simpa using hx), List.nil_append, List.pairwise_cons]
          refine ⟨fun y hy => ?_, List.pairwise_cons.mpr ih⟩
          rcases List.mem_cons.mp hy with rfl | hy
          · omega
          · have := ih.1 y hy
            omega

theorem sumSem_computes : Computes sumSem sumFn (fun _ => True) := by
  intro n fr m ins prev c n' st out c' _ h
  simp only [sumSem, Except.ok.injEq, Prod.mk.injEq] at h
  obtain ⟨rfl, rfl, rfl, _⟩ := h
  exact ⟨rfl, rfl, trivial⟩

example (srt : EdgeSort) : Reach sumSem srt false sumTwo ∧ At sumTwo 4 3 ∧
    Computes sumSem sumFn (fun _ => True) ∧ OneRequest sumSem sumFn srt sumTwo 3 () := by
  refine ⟨sumTwo_reach srt, ⟨rfl, ?_⟩, sumSem_computes, fun _ _ _ _ _ _ _ => rfl⟩
  intro j hj
  rcases j with _ | _ | _ | j <;> first | decide | omega

example : ∃ g', sumTwo.execute sumSem insSort 20 4 [()] () = .ok (.success, g', ()) ∧
    g'.output = 8 := ⟨_, rfl, rfl⟩

example : SolvesRequests sumSem sumFn insSort sumTwo 3 ()
    (fun i _ => if i = 0 then 3 else if i = 1 then 5 else if i = 3 then 8 else 0) := by
  intro i m n ins ns h modes _ hn hi hns hm
  have d0 : sumTwo.graph.findDirectUpstream insSort 0 = .ok [] := rfl
  have d1 : sumTwo.graph.findDirectUpstream insSort 1 = .ok [] := rfl
  have d2 : sumTwo.graph.findDirectUpstream insSort 2 = .ok [] := rfl
  have d3 : sumTwo.graph.findDirectUpstream insSort 3 = .ok [0, 1] := rfl
  rcases i with _ | _ | _ | _ | i
  · cases hn; rfl
  · cases hn; rfl
  · cases hn; rw [d2] at hi; cases hi; rfl
  · cases hn
    rw [d3] at hi
    cases hi
    have : ns = [1, 2] := by
      have := congrArg (List.map (Option.getD · 0)) hns
      simpa [List.map_map, Function.comp_def, sumTwo] using this.symm
    subst this
    cases hm
    rfl
  · simp [sumTwo] at hn

/-- Toy nodes that pass requests on as Null nodes do (everything from the first input, nothing
from the others); node 1 gives the requested work, the others the sum of their inputs. -/
def modeSem : NodeSem Nat Nat Unit Unit where
  id := id
  status _ := .valid
  hash n _ hs := n + hs.sum
  validate _ mode _ ins := .ok (match ins with | [] => [] | _ :: rest => mode :: rest.map fun _ => 0)
  compute n _ m ins _ _ := .ok (n, .valid, if n = 1 then m else ins.sum, ())

/-- Node 1 feeds nodes 2 and 3, which feed node 4. -/
def modeDiamond : Graph Nat Nat :=
  ⟨[1, 2, 3, 4], [1, 2, 3, 4], ⟨[some 1, some 2, some 3, some 4], [],
    [⟨2, 3, 1⟩, ⟨1, 3, 0⟩, ⟨0, 2, 0⟩, ⟨0, 1, 0⟩]⟩, 77, .dirty, .uninitialized⟩

/-- C40 is false in general: node 1 is asked for everything by node 2 and for nothing by node
3; both then get the result of the last request computed, so node 2 does not get what it asked
for.  Recursive evaluation gives 15, the execution succeeds with 0. -/
theorem C40_counterexample :
    Reach modeSem insSort false modeDiamond ∧
    (∃ g', modeDiamond.execute modeSem insSort 20 4 [()] () = .ok (.success, g', ()) ∧
      g'.output = 0) ∧
    ∀ v, SolvesRequests modeSem
        (fun n _ m ins => (.valid, if n = 1 then m else ins.sum)) insSort modeDiamond 3 () v →
      v 3 modeAll = 15 := by
  have base : Reach modeSem insSort false
      (⟨[1, 2, 3, 4], [1, 2, 3, 4], ⟨[some 1, some 2, some 3, some 4], [], []⟩, 77, .dirty,
        .uninitialized⟩ : Graph Nat Nat) :=
    .add 4 (.add 3 (.add 2 (.add 1 (.new 77) rfl) rfl) rfl) rfl
  have two : Reach modeSem insSort false
      (⟨[1, 2, 3, 4], [1, 2, 3, 4], ⟨[some 1, some 2, some 3, some 4], [],
        [⟨0, 2, 0⟩, ⟨0, 1, 0⟩]⟩, 77, .dirty, .uninitialized⟩ : Graph Nat Nat) :=
    .connect 1 3 0 (.connect 1 2 0 base rfl) rfl
  refine ⟨.connect 3 4 1 (.connect 2 4 0 two rfl) rfl, ⟨_, rfl, rfl⟩, ?_⟩
  intro v hv
  have d0 : modeDiamond.graph.findDirectUpstream insSort 0 = .ok [] := rfl
  have d1 : modeDiamond.graph.findDirectUpstream insSort 1 = .ok [0] := rfl
  have d2 : modeDiamond.graph.findDirectUpstream insSort 2 = .ok [0] := rfl
  have d3 : modeDiamond.graph.findDirectUpstream insSort 3 = .ok [1, 2] := rfl
  have m3 : modeSem.validate 4 15 0 [2, 3] = .ok [15, 0] := rfl
  have m1 : modeSem.validate 2 15 0 [1] = .ok [15] := rfl
  have m2 : modeSem.validate 3 0 0 [1] = .ok [0] := rfl
  have m0 : ∀ m, modeSem.validate 1 m 0 [] = .ok [] := fun _ => rfl
  have r3 : Requested modeSem insSort modeDiamond 3 3 15 := .start
  have r1 : Requested modeSem insSort modeDiamond 3 1 15 :=
    .input r3 rfl d3 (ns := [2, 3]) rfl m3 (by decide)
  have r2 : Requested modeSem insSort modeDiamond 3 2 0 :=
    .input r3 rfl d3 (ns := [2, 3]) rfl m3 (by decide)
  have r0 : Requested modeSem insSort modeDiamond 3 0 15 :=
    .input r1 rfl d1 (ns := [1]) rfl m1 (by decide)
  have r0' : Requested modeSem insSort modeDiamond 3 0 0 :=
    .input r2 rfl d2 (ns := [1]) rfl m2 (by decide)
  have e3 := hv 3 15 4 [1, 2] [2, 3] 0 [15, 0] r3 rfl d3 rfl m3
  have e1 := hv 1 15 2 [0] [1] 0 [15] r1 rfl d1 rfl m1
  have e2 := hv 2 0 3 [0] [1] 0 [0] r2 rfl d2 rfl m2
  have e0 := hv 0 15 1 [] [] 0 [] r0 rfl d0 rfl (m0 _)
  have e0' := hv 0 0 1 [] [] 0 [] r0' rfl d0 rfl (m0 _)
  simp [e1, e2, e0, e0'] at e3
  exact e3

/-! ### C41 -/

/-- C41: the returned status is the stored one, and executing an unknown node is an error. -/
theorem C41_status_stored (sem : NodeSem N S C Fr) (srt : EdgeSort) (g : Graph N S) (id : Nat) :
    (∀ fuel frames c st g' c', g.execute sem srt fuel id frames c = .ok (st, g', c') →
      g'.status = st) ∧
    (Unknown g id → ∀ fuel frames c, g.execute sem srt fuel id frames c =
      .ok (.error, { g with status := .error }, c)) := by
  refine ⟨fun fuel frames c st g' c' h => (execute_same _ _ _ _ _ _ _ _ _ _ h).2.2.2.1, ?_⟩
  intro h fuel frames c
  unfold Graph.execute
  rw [find_none.mpr h]

example : Unknown toyTwo 9 := by unfold Unknown toyTwo toyGraph; decide

theorem recording_hashPhase (sem : NodeSem N S C Fr) (srt : EdgeSort) (g : Graph N S) (frame : Fr) :
    ∀ (l : List Nat) (m : Graph.IdxMap Nat),
    Graph.hashPhase (recording sem) srt g frame l m = Graph.hashPhase sem srt g frame l m := by
  intro l
  induction l with
  | nil => intro m; rfl
  | cons i l ih =>
    intro m
    unfold Graph.hashPhase
    simp only [ih]
    rfl

theorem recording_validateLoop (sem : NodeSem N S C Fr) (srt : EdgeSort) (g : Graph N S)
    (hashes : Graph.IdxMap Nat) : ∀ (fuel : Nat) (stack v : List (Nat × Mode)),
    Graph.validateLoop (recording sem) srt g hashes fuel stack v =
      Graph.validateLoop sem srt g hashes fuel stack v := by
  intro fuel
  induction fuel with
  | zero => intro stack v; rfl
  | succ fuel ih =>
    intro stack v
    cases stack with
    | nil => rfl
    | cons x stack =>
      obtain ⟨i, mode⟩ := x
      unfold Graph.validateLoop
      simp only [ih]
      rfl

/-- What recording adds to a result. -/
def Recorded (x : Graph.FrameResult N S C) (log : List (Nat × NodeStatus))
    (y : Graph.FrameResult N S (C × List (Nat × NodeStatus))) : Prop :=
  y.1 = x.1 ∧ y.2.1 = x.2.1 ∧ y.2.2.1 = x.2.2 ∧ ∃ new, y.2.2.2 = log ++ new ∧
    (x.1 = none ↔ ∀ s ∈ new, ¬ Fails s.2)

theorem recording_computePhase (sem : NodeSem N S C Fr) (srt : EdgeSort) (frame : Fr) :
    ∀ (l : List (Nat × Mode)) (g : Graph N S) (c : C) (log : List (Nat × NodeStatus))
    (m : Graph.IdxMap S) (x : Graph.FrameResult N S C),
    Graph.computePhase sem srt frame l g c m = .ok x →
    ∃ y, Graph.computePhase (recording sem) srt frame l g (c, log) m = .ok y ∧
      Recorded x log y := by
  intro l
  induction l with
  | nil =>
    intro g c log m x h
    cases h
    exact ⟨_, rfl, rfl, rfl, rfl, [], by simp, by simp⟩
  | cons a l ih =>
    obtain ⟨i, mode⟩ := a
    intro g c log m x h
    unfold Graph.computePhase at h ⊢
    obtain ⟨ps, h1, h⟩ := Res.bind_ok.mp h
    obtain ⟨ins, h2, h⟩ := Res.bind_ok.mp h
    simp only [h1, h2, bind, Except.bind]
    cases hn : g.nodes[i]? with
    | none => rw [hn] at h; cases h
    | some n =>
      rw [hn] at h
      dsimp only at h ⊢
      obtain ⟨⟨n', st, out, c'⟩, h3, h⟩ := Res.bind_ok.mp h
      have hrec : (recording sem).compute n frame mode ins g.output (c, log) =
          .ok (n', st, out, (c', log ++ [(sem.id n, st)])) := by
        unfold recording
        dsimp only
        rw [h3]
        rfl
      rw [hrec]
      dsimp only at h ⊢
      cases her : Graph.statusError st with
      | some e =>
        rw [her] at h
        cases h
        refine ⟨_, rfl, rfl, rfl, rfl, [(sem.id n, st)], rfl, ?_⟩
        simp only [reduceCtorEq, List.mem_singleton, forall_eq, false_iff, not_not]
        by_contra hnf
        rw [(statusError_none st).mpr hnf] at her
        cases her
      | none =>
        rw [her] at h
        dsimp only at h ⊢
        obtain ⟨y, e1, e2, e3, e4, new, e5, e6⟩ := ih _ _ (log ++ [(sem.id n, st)]) _ _ h
        refine ⟨y, e1, e2, e3, e4, (sem.id n, st) :: new, by rw [e5]; simp, ?_⟩
        rw [e6]
        simp only [List.mem_cons, forall_eq_or_imp]
        exact ⟨fun hh => ⟨(statusError_none st).mp her, hh⟩, fun hh => hh.2⟩

theorem recording_frameLoop (sem : NodeSem N S C Fr) (srt : EdgeSort) (fuel : Nat)
    (order : List Nat) : ∀ (fs : List Fr) (g : Graph N S) (c : C)
    (log : List (Nat × NodeStatus)) (x : Graph.FrameResult N S C),
    Graph.frameLoop sem srt fuel order fs g c = .ok x →
    ∃ y, Graph.frameLoop (recording sem) srt fuel order fs g (c, log) = .ok y ∧
      Recorded x log y := by
  intro fs
  induction fs with
  | nil =>
    intro g c log x h
    cases h
    exact ⟨_, rfl, rfl, rfl, rfl, [], by simp, by simp⟩
  | cons f fs ih =>
    intro g c log x h
    unfold Graph.frameLoop at h ⊢
    obtain ⟨⟨e, g1, c1⟩, h1, h⟩ := Res.bind_ok.mp h
    have hfr : ∃ y, Graph.executeFrame (recording sem) srt fuel g order f (c, log) = .ok y ∧
        Recorded (e, g1, c1) log y := by
      unfold Graph.executeFrame at h1 ⊢
      obtain ⟨hs, h2, h1⟩ := Res.bind_ok.mp h1
      rw [recording_hashPhase, h2]
      cases order with
      | nil => cases h1
      | cons o os =>
        dsimp only at h1
        obtain ⟨v, h3, h1⟩ := Res.bind_ok.mp h1
        simp only [bind, Except.bind]
        rw [recording_validateLoop, h3]
        exact recording_computePhase sem srt f _ g c log _ _ h1
    obtain ⟨⟨e', g', c', log'⟩, e1, e2, e3, e4, new, e5, e6⟩ := hfr
    dsimp only at e2 e3 e4 e5 e6
    subst e2 e3 e4
    simp only [e1, bind, Except.bind]
    dsimp only at h
    cases e' with
    | some er =>
      cases h
      exact ⟨_, rfl, rfl, rfl, rfl, new, e5, e6⟩
    | none =>
      dsimp only at h ⊢
      obtain ⟨y, a1, a2, a3, a4, new2, a5, a6⟩ := ih _ _ log' _ h
      refine ⟨y, a1, a2, a3, a4, new ++ new2, by rw [a5, e5]; simp, ?_⟩
      rw [a6]
      simp only [List.mem_append]
      have := e6.mp rfl
      constructor
      · rintro hh s (hs | hs)
        · exact this s hs
        · exact hh s hs
      · exact fun hh s hs => hh s (Or.inr hs)

/-- C41: for a known node, execute returns Success exactly when none of the node computations
it performed (over all frames) had a failing status.  Recording the computations does not change
what is executed. -/
theorem C41_success_iff_no_failure (sem : NodeSem N S C Fr) (srt : EdgeSort) (g : Graph N S)
    (id : Nat) (hknown : ¬ Unknown g id) (fuel : Nat) (frames : List Fr) (c c' : C)
    (st : ExecuteStatus) (g' : Graph N S)
    (hx : g.execute sem srt fuel id frames c = .ok (st, g', c')) :
    ∃ log, g.execute (recording sem) srt fuel id frames (c, []) = .ok (st, g', (c', log)) ∧
      (st = .success ↔ ∀ s ∈ log, s.2 = .valid ∨ s.2 = .warning) := by
  cases hf : g.find id with
  | none => exact absurd (find_none.mp hf) hknown
  | some start =>
    unfold Graph.execute at hx ⊢
    rw [hf] at hx ⊢
    dsimp only at hx ⊢
    obtain ⟨order, h1, hx⟩ := Res.bind_ok.mp hx
    obtain ⟨⟨e, g1, c1⟩, h2, hx⟩ := Res.bind_ok.mp hx
    obtain ⟨⟨e', g2, c2, log⟩, e1, e2, e3, e4, new, e5, e6⟩ :=
      recording_frameLoop sem srt fuel order frames g c [] _ h2
    dsimp only at e2 e3 e4 e5 e6
    subst e2 e3 e4
    rw [List.nil_append] at e5
    subst e5
    have hfail : (∀ s ∈ log, ¬ Fails s.2) ↔ ∀ s ∈ log, s.2 = .valid ∨ s.2 = .warning := by
      constructor
      · intro h s hs
        have := h s hs
        unfold Fails at this
        by_contra hno
        rw [not_or] at hno
        exact this hno
      · intro h s hs hF
        rcases h s hs with h | h
        · exact hF.1 h
        · exact hF.2 h
    rw [hfail] at e6
    simp only [h1, e1, bind, Except.bind]
    dsimp only at hx
    cases e' with
    | some er =>
      cases hx
      refine ⟨log, rfl, ?_⟩
      rw [← e6]
      cases er <;> simp [Graph.errorStatus]
    | none =>
      cases hx
      refine ⟨log, rfl, ?_⟩
      rw [← e6]
      simp

example : ¬ Unknown sumTwo 4 ∧ ∃ g', sumTwo.execute sumSem insSort 20 4 [(), ()] () =
    .ok (.success, g', ()) := ⟨by unfold Unknown sumTwo; decide, _, rfl⟩

/-- C41: one frame succeeds exactly when every node, applied to the values of its inputs, is
valid or gives a warning.  The same conditions as in C40 apply. -/
theorem C41_success_iff_partial (sem : NodeSem N S C Fr) (srt : EdgeSort) {g : Graph N S} {r : Bool}
    (h : Reach sem srt r g) {f : N → Fr → Mode → List S → NodeStatus × S} {good : C → Prop}
    (hf : Computes sem f good) {id start : Nat} (hid : At g id start)
    (hs : g.graph.contains start = true) {frame : Fr} (hone : OneRequest sem f srt g start frame)
    {fuel : Nat} {c c' : C} {g' : Graph N S} {st : ExecuteStatus} (hgood : good c)
    (hx : g.execute sem srt fuel id [frame] c = .ok (st, g', c'))
    {v : Nat → S} (hsol : Solves sem f srt g start frame v) :
    st = .success ↔ ∀ i m n ins, Upstream g.graph start i → Requested sem srt g start i m →
      g.nodes[i]? = some n → g.graph.findDirectUpstream srt i = .ok ins →
      ¬ Fails (f n frame m (ins.map v)).1 := by
  have hg : Sound g := h.inv.sound
  obtain ⟨_, order, streams, ht, hmem, hv1, hor⟩ :=
    exec_outcome sem srt h hf hid hs hone hgood hx
  have hval := values_solve hg hs ht hmem hv1 hsol
  have hins : ∀ i ins, Upstream g.graph start i → g.graph.findDirectUpstream srt i = .ok ins →
      ∀ vals, ins.map streams = vals.map some → vals = ins.map v := by
    intro i ins hu hi vals hm
    refine map_solution hm fun u huin => ?_
    rw [hg.direct srt (hg.upstream_live hs hu)] at hi
    cases hi
    exact hval u (.step hu ((hg.mem_parents srt).mp huin).1)
  constructor
  · rintro rfl i m n ins hu hrq hn hi
    obtain ⟨_, hso⟩ | ⟨hbad, _⟩ := hor
    · have hdom := values_dom hg hs hv1 (by rw [hso]; simp)
      cases hsi : streams i with
      | none => exact absurd hsi (hdom i hu)
      | some w =>
        obtain ⟨n1, m1, ins1, vals1, a1, a2, a3, a4, _, a6⟩ := hv1 i w hsi
        rw [hi] at a3
        cases a3
        rw [hn] at a1
        cases a1
        rw [← statusError_none, hone i m m1 n hrq a2 hn, ← hins i ins hu hi vals1 a4]
        exact a6
    · exact absurd rfl hbad
  · intro hall
    obtain ⟨hst, _⟩ | ⟨_, n, m, ins, vals, k, b1, b2, b3, b4, b5⟩ := hor
    · exact hst
    · have hu := requested_upstream hg hs b2
      rw [hins k ins hu b3 vals b4] at b5
      exact absurd b5 (hall k m n ins hu b2 b1 b3)

example : Computes sumSem sumFn (fun _ => True) ∧
    OneRequest sumSem sumFn insSort sumTwo 3 () ∧
    (∃ g', sumTwo.execute sumSem insSort 20 4 [()] () = .ok (.success, g', ())) ∧
    ∃ v, Solves sumSem sumFn insSort sumTwo 3 () v :=
  ⟨sumSem_computes, fun _ _ _ _ _ _ _ => rfl, ⟨_, rfl⟩,
    (C40_composition_partial sumSem insSort (sumTwo_reach _) sumSem_computes (id := 4)
      ⟨rfl, by intro j hj; rcases j with _ | _ | _ | j <;> first | decide | omega⟩ rfl
      (fun _ _ _ _ _ _ _ => rfl) (fuel := 20) (c := ()) trivial rfl).1⟩

/-! ### C42 -/

/-- Replace the parts of a frame result that the frames do not depend on. -/
def withFlags (s : GraphState) (t : ExecuteStatus) (x : Graph.FrameResult N S C) :
    Graph.FrameResult N S C :=
  (x.1, { x.2.1 with state := s, status := t }, x.2.2)

theorem computePhase_flags (sem : NodeSem N S C Fr) (srt : EdgeSort) (frame : Fr)
    (s : GraphState) (t : ExecuteStatus) : ∀ (l : List (Nat × Mode)) (g : Graph N S) (c : C)
    (m : Graph.IdxMap S),
    Graph.computePhase sem srt frame l { g with state := s, status := t } c m =
      (Graph.computePhase sem srt frame l g c m).map (withFlags s t) := by
  intro l
  induction l with
  | nil => intro g c m; rfl
  | cons x l ih =>
    obtain ⟨i, mode⟩ := x
    intro g c m
    unfold Graph.computePhase
    dsimp only
    cases g.graph.findDirectUpstream srt i with
    | error p => rfl
    | ok ps =>
      simp only [bind, Except.bind]
      cases Graph.lookupAll m ps with
      | error p => rfl
      | ok ins =>
        dsimp only
        cases g.nodes[i]? with
        | none => rfl
        | some n =>
          dsimp only
          cases sem.compute n frame mode ins g.output c with
          | error p => rfl
          | ok r =>
            obtain ⟨n', st, out, c'⟩ := r
            dsimp only
            cases Graph.statusError st with
            | some e => rfl
            | none => exact ih { g with nodes := g.nodes.set i n', output := out } c' _

theorem hashPhase_flags (sem : NodeSem N S C Fr) (srt : EdgeSort) (g : Graph N S) (frame : Fr)
    (s : GraphState) (t : ExecuteStatus) : ∀ (l : List Nat) (m : Graph.IdxMap Nat),
    Graph.hashPhase sem srt { g with state := s, status := t } frame l m =
      Graph.hashPhase sem srt g frame l m := by
  intro l
  induction l with
  | nil => intro m; rfl
  | cons i l ih =>
    intro m
    unfold Graph.hashPhase
    simp only [ih]

theorem nodesAt_flags (g : Graph N S) (s : GraphState) (t : ExecuteStatus) : ∀ (l : List Nat),
    Graph.nodesAt { g with state := s, status := t } l = g.nodesAt l := by
  intro l
  induction l with
  | nil => rfl
  | cons i l ih => unfold Graph.nodesAt; simp only [ih]

theorem validateLoop_flags (sem : NodeSem N S C Fr) (srt : EdgeSort) (g : Graph N S)
    (hashes : Graph.IdxMap Nat) (s : GraphState) (t : ExecuteStatus) :
    ∀ (fuel : Nat) (stack v : List (Nat × Mode)),
    Graph.validateLoop sem srt { g with state := s, status := t } hashes fuel stack v =
      Graph.validateLoop sem srt g hashes fuel stack v := by
  intro fuel
  induction fuel with
  | zero => intro stack v; rfl
  | succ fuel ih =>
    intro stack v
    cases stack with
    | nil => rfl
    | cons x stack =>
      obtain ⟨i, mode⟩ := x
      unfold Graph.validateLoop
      simp only [ih, nodesAt_flags]

theorem executeFrame_flags (sem : NodeSem N S C Fr) (srt : EdgeSort) (fuel : Nat) (g : Graph N S)
    (order : List Nat) (frame : Fr) (c : C) (s : GraphState) (t : ExecuteStatus) :
    Graph.executeFrame sem srt fuel { g with state := s, status := t } order frame c =
      (g.executeFrame sem srt fuel order frame c).map (withFlags s t) := by
  unfold Graph.executeFrame
  rw [hashPhase_flags]
  cases Graph.hashPhase sem srt g frame order.reverse (fun _ => none) with
  | error p => rfl
  | ok hashes =>
    cases order with
    | nil => rfl
    | cons o os =>
      simp only [bind, Except.bind]
      rw [validateLoop_flags]
      cases Graph.validateLoop sem srt g hashes fuel [(o, modeAll)] [(o, modeAll)] with
      | error p => rfl
      | ok v => exact computePhase_flags sem srt frame s t v.reverse g c _

theorem frameLoop_flags (sem : NodeSem N S C Fr) (srt : EdgeSort) (fuel : Nat)
    (order : List Nat) (s : GraphState) (t : ExecuteStatus) :
    ∀ (fs : List Fr) (g : Graph N S) (c : C),
    Graph.frameLoop sem srt fuel order fs { g with state := s, status := t } c =
      (Graph.frameLoop sem srt fuel order fs g c).map (withFlags s t) := by
  intro fs
  induction fs with
  | nil => intro g c; rfl
  | cons f fs ih =>
    intro g c
    unfold Graph.frameLoop
    rw [executeFrame_flags]
    cases g.executeFrame sem srt fuel order f c with
    | error p => rfl
    | ok r =>
      obtain ⟨e, g', c'⟩ := r
      cases e with
      | some e => rfl
      | none => exact ih g' c'

theorem frameLoop_cons (sem : NodeSem N S C Fr) (srt : EdgeSort) (fuel : Nat)
    (order : List Nat) (f : Fr) (fs : List Fr) (g : Graph N S) (c : C) :
    Graph.frameLoop sem srt fuel order (f :: fs) g c =
      (g.executeFrame sem srt fuel order f c).bind fun x =>
        match x.1 with
        | some e => .ok (some e, x.2.1, x.2.2)
        | none => Graph.frameLoop sem srt fuel order fs x.2.1 x.2.2 := rfl

theorem frameLoop_append (sem : NodeSem N S C Fr) (srt : EdgeSort) (fuel : Nat)
    (order : List Nat) (gs : List Fr) : ∀ (fs : List Fr) (g : Graph N S) (c : C),
    Graph.frameLoop sem srt fuel order (fs ++ gs) g c =
      (Graph.frameLoop sem srt fuel order fs g c).bind fun x =>
        match x.1 with
        | some e => .ok (some e, x.2.1, x.2.2)
        | none => Graph.frameLoop sem srt fuel order gs x.2.1 x.2.2 := by
  intro fs
  induction fs with
  | nil => intro g c; rfl
  | cons f fs ih =>
    intro g c
    rw [List.cons_append, frameLoop_cons, frameLoop_cons]
    cases g.executeFrame sem srt fuel order f c with
    | error p => rfl
    | ok r =>
      obtain ⟨e, g', c'⟩ := r
      cases e with
      | some e => rfl
      | none => exact ih g' c'

/-- C42: executing frames `fs` and then `gs` in one call equals executing `fs`, and after
success executing `gs` from the state reached.  The only difference is the dirty flag when a
later frame fails: in one call it stays as it was. -/
theorem C42_frames_in_order (sem : NodeSem N S C Fr) (srt : EdgeSort) (fuel : Nat) (g : Graph N S)
    (id : Nat) (fs gs : List Fr) (c : C) (hknown : ¬ Unknown g id) :
    g.execute sem srt fuel id (fs ++ gs) c =
      (g.execute sem srt fuel id fs c).bind fun x =>
        if x.1 = .success then
          (x.2.1.execute sem srt fuel id gs x.2.2).map fun y =>
            (y.1, (if y.1 = .success then y.2.1 else { y.2.1 with state := g.state }), y.2.2)
        else .ok x := by
  cases hf : g.find id with
  | none => exact absurd (find_none.mp hf) hknown
  | some start =>
    unfold Graph.execute
    rw [hf]
    dsimp only
    cases ho : g.graph.findAllUpstream srt start with
    | error p => rfl
    | ok order =>
      simp only [bind, Except.bind]
      rw [frameLoop_append]
      cases h1 : Graph.frameLoop sem srt fuel order fs g c with
      | error p => rfl
      | ok x =>
        obtain ⟨e, g1, c1⟩ := x
        have hsame := frameLoop_same _ _ _ _ _ _ _ _ _ _ h1
        cases e with
        | some e =>
          simp only [Except.bind]
          cases e <;> simp [Graph.errorStatus]
        | none =>
          simp only [Except.bind, if_true]
          have hf1 : (Graph.mk g1.nodes g1.ids g1.graph g1.output .clean .success).find id =
              some start := by
            unfold Graph.find at hf ⊢
            rw [hsame.1]
            exact hf
          rw [hf1]
          dsimp only
          rw [hsame.2.2.1, ho]
          dsimp only
          have hfl := frameLoop_flags sem srt fuel order .clean .success gs g1 c1
          have hg1 : g1.graph = g.graph := hsame.2.2.1
          rw [hg1] at hfl
          rw [hfl]
          cases h2 : Graph.frameLoop sem srt fuel order gs g1 c1 with
          | error p => rfl
          | ok y =>
            obtain ⟨e2, g2, c2⟩ := y
            have hsame2 := frameLoop_same _ _ _ _ _ _ _ _ _ _ h2
            have hst : g2.state = g.state := hsame2.2.2.2.1.trans hsame.2.2.2.1
            cases e2 with
            | none => rfl
            | some e2 =>
              simp only [Except.map, withFlags]
              cases e2 <;> simp [Graph.errorStatus, ← hst]

example : ¬ Unknown toyTwo 4 ∧ ∃ g', toyTwo.execute toySem insSort 20 4 [(), ()] () =
    .ok (.success, g', ()) := ⟨by unfold Unknown toyTwo toyGraph; decide, _, rfl⟩

end OCG.Props
