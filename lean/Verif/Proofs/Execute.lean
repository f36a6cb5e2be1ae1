import Verif.Proofs.GraphIter
import Verif.Spec.Execute
import Mathlib.Tactic.Ring
/-
The phases of `execute_frame`.
-/

namespace OCG

open GraphSpec

variable {N S C Fr : Type}

/-- Facts about a graph that all phases need, for the nodes upstream of `start`. -/
structure Sound (g : Graph N S) : Prop where
  ends : ∀ e ∈ g.graph.edges, g.graph.contains e.src = true ∧ g.graph.contains e.dst = true
  live : ∀ i, g.graph.contains i = true → i < g.nodes.length

theorem Inv.sound {g : Graph N S} {r : Bool} (h : Inv g r) : Sound g :=
  ⟨h.ends, fun i hi => by rw [← h.slots_len]; exact contains_lt hi⟩

/-- The inputs of a node, as `find_direct_upstream_nodes` lists them. -/
def parents (srt : EdgeSort) (sg : SGraph) (v : Nat) : List Nat :=
  news (srt.run (sg.incoming v)) [v]

theorem Sound.direct {g : Graph N S} (h : Sound g) (srt : EdgeSort) {v : Nat}
    (hv : g.graph.contains v = true) :
    g.graph.findDirectUpstream srt v = .ok (parents srt g.graph v) :=
  findDirect_eq srt h.ends (contains_lt_bound hv)

theorem Sound.mem_parents {g : Graph N S} (h : Sound g) (srt : EdgeSort) {u v : Nat} :
    u ∈ parents srt g.graph v ↔ Feeds g.graph u v ∧ u ≠ v :=
  mem_direct srt h.ends

theorem Sound.feeds_live {g : Graph N S} (h : Sound g) {u v : Nat} (hf : Feeds g.graph u v) :
    g.graph.contains u = true := by
  obtain ⟨e, he, hs, _⟩ := hf
  rw [← hs]; exact (h.ends e he).1

theorem Sound.upstream_live {g : Graph N S} (h : Sound g) {start v : Nat}
    (hs : g.graph.contains start = true) (hu : Upstream g.graph start v) :
    g.graph.contains v = true := by
  induction hu with
  | refl => exact hs
  | step _ hf _ => exact h.feeds_live hf

/-! ### looking up inputs -/

theorem lookupAll_ok {α : Type} {m : Graph.IdxMap α} : ∀ {l : List Nat},
    (∀ u ∈ l, m u ≠ none) → ∃ vs, Graph.lookupAll m l = .ok vs ∧ l.map m = vs.map some := by
  intro l
  induction l with
  | nil => intro _; exact ⟨[], rfl, rfl⟩
  | cons u us ih =>
    intro h
    obtain ⟨vs, h1, h2⟩ := ih fun x hx => h x (List.mem_cons_of_mem _ hx)
    cases hu : m u with
    | none => exact absurd hu (h u List.mem_cons_self)
    | some v =>
      refine ⟨v :: vs, ?_, by simp [hu, h2]⟩
      simp only [Graph.lookupAll, hu, h1, bind, Except.bind]

theorem lookupAll_error {α : Type} {m : Graph.IdxMap α} : ∀ {l : List Nat},
    (∃ u ∈ l, m u = none) → Graph.lookupAll m l = .error .missingParent := by
  intro l
  induction l with
  | nil => rintro ⟨u, hu, _⟩; cases hu
  | cons u us ih =>
    rintro ⟨x, hx, hn⟩
    cases hu : m u with
    | none => simp only [Graph.lookupAll, hu]
    | some v =>
      rcases List.mem_cons.mp hx with rfl | hx
      · rw [hn] at hu; cases hu
      · simp only [Graph.lookupAll, hu, ih ⟨x, hx, hn⟩, bind, Except.bind]

theorem lookupAll_inv {α : Type} {m : Graph.IdxMap α} {l : List Nat} {vs : List α}
    (h : Graph.lookupAll m l = .ok vs) : l.map m = vs.map some := by
  by_cases hh : ∃ u ∈ l, m u = none
  · rw [lookupAll_error hh] at h; cases h
  · have : ∀ u ∈ l, m u ≠ none := fun u hu hn => hh ⟨u, hu, hn⟩
    obtain ⟨vs', h1, h2⟩ := lookupAll_ok this
    rw [h] at h1
    cases h1
    exact h2

/-! ### processing in an order -/

/-- Processing this list in order, with `dom` done before, every node's inputs are done
before it. -/
def Ready (par : Nat → List Nat) : List Nat → (Nat → Prop) → Prop
  | [], _ => True
  | i :: is, dom => (∀ u ∈ par i, dom u) ∧ Ready par is (fun k => k = i ∨ dom k)

theorem Ready.congr {par : Nat → List Nat} : ∀ {l : List Nat} {d d' : Nat → Prop},
    (∀ k, d k ↔ d' k) → Ready par l d → Ready par l d' := by
  intro l
  induction l with
  | nil => intro d d' _ _; trivial
  | cons i is ih =>
    intro d d' he h
    exact ⟨fun u hu => (he u).mp (h.1 u hu), ih (fun k => or_congr Iff.rfl (he k)) h.2⟩

theorem ready_iff {par : Nat → List Nat} : ∀ {l : List Nat} {dom : Nat → Prop},
    Ready par l dom ↔ ∀ pre i post, l = pre ++ i :: post → ∀ u ∈ par i, u ∈ pre ∨ dom u := by
  intro l
  induction l with
  | nil =>
    intro dom
    constructor
    · intro _ pre i post h; simp at h
    · intro _; trivial
  | cons x xs ih =>
    intro dom
    unfold Ready
    rw [ih]
    constructor
    · rintro ⟨h1, h2⟩ pre i post heq u hu
      cases pre with
      | nil =>
        simp only [List.nil_append, List.cons.injEq] at heq
        rw [← heq.1] at hu
        exact Or.inr (h1 u hu)
      | cons y pre =>
        simp only [List.cons_append, List.cons.injEq] at heq
        rcases h2 pre i post heq.2 u hu with h | h | h
        · exact Or.inl (List.mem_cons_of_mem _ h)
        · exact Or.inl (by rw [h, heq.1]; exact List.mem_cons_self)
        · exact Or.inr h
    · intro h
      refine ⟨fun u hu => ?_, fun pre i post heq u hu => ?_⟩
      · rcases h [] x xs rfl u hu with h | h
        · cases h
        · exact h
      · rcases h (x :: pre) i post (by rw [heq]; rfl) u hu with h | h
        · rcases List.mem_cons.mp h with h | h
          · exact Or.inr (Or.inl h)
          · exact Or.inl h
        · exact Or.inr (Or.inr h)

/-! ### hash phase -/

theorem hashPhase_spec (sem : NodeSem N S C Fr) (srt : EdgeSort) {g : Graph N S} (hg : Sound g)
    (frame : Fr) : ∀ (is : List Nat) (m : Graph.IdxMap Nat),
    (∀ i ∈ is, g.graph.contains i = true) →
    (Ready (parents srt g.graph) is (fun k => m k ≠ none) →
      ∃ m', Graph.hashPhase sem srt g frame is m = .ok m' ∧
        ∀ k, m' k ≠ none ↔ (k ∈ is ∨ m k ≠ none)) ∧
    (¬ Ready (parents srt g.graph) is (fun k => m k ≠ none) →
      Graph.hashPhase sem srt g frame is m = .error .missingParent) := by
  intro is
  induction is with
  | nil =>
    intro m _
    exact ⟨fun _ => ⟨m, rfl, fun k => by simp⟩, fun h => absurd trivial h⟩
  | cons i is ih =>
    intro m hl
    have hi := hl i List.mem_cons_self
    have hlt := hg.live i hi
    have hnode : g.nodes[i]? = some g.nodes[i] := List.getElem?_eq_getElem hlt
    have hdom : ∀ h : Nat, ∀ k, (k = i ∨ m k ≠ none) ↔ (m.insert i h) k ≠ none := by
      intro h k
      unfold Graph.IdxMap.insert
      by_cases hk : k = i <;> simp [hk]
    have hl2 : ∀ j ∈ is, g.graph.contains j = true := fun j hj => hl j (List.mem_cons_of_mem _ hj)
    by_cases hp : ∀ u ∈ parents srt g.graph i, m u ≠ none
    · obtain ⟨vs, h1, _⟩ := lookupAll_ok hp
      have hstep : Graph.hashPhase sem srt g frame (i :: is) m =
          Graph.hashPhase sem srt g frame is (m.insert i (sem.hash g.nodes[i] frame vs)) := by
        conv_lhs => unfold Graph.hashPhase
        rw [hnode]
        dsimp only
        rw [hg.direct srt hi]
        simp only [bind, Except.bind, h1]
      rw [hstep]
      obtain ⟨a, b⟩ := ih (m.insert i (sem.hash g.nodes[i] frame vs)) hl2
      constructor
      · rintro ⟨_, hr⟩
        obtain ⟨m', e, hm⟩ := a (hr.congr (hdom _))
        refine ⟨m', e, fun k => ?_⟩
        rw [hm k, ← hdom, List.mem_cons]
        constructor
        · rintro (h | h | h)
          · exact Or.inl (Or.inr h)
          · exact Or.inl (Or.inl h)
          · exact Or.inr h
        · rintro ((h | h) | h)
          · exact Or.inr (Or.inl h)
          · exact Or.inl h
          · exact Or.inr (Or.inr h)
      · intro hn
        apply b
        intro hr
        exact hn ⟨hp, hr.congr fun k => (hdom _ k).symm⟩
    · constructor
      · intro hr; exact absurd hr.1 hp
      · intro _
        have : ∃ u ∈ parents srt g.graph i, m u = none := by
          by_contra hno
          exact hp fun u hu hn => hno ⟨u, hu, hn⟩
        unfold Graph.hashPhase
        rw [hnode]
        dsimp only
        rw [hg.direct srt hi]
        simp only [bind, Except.bind, lookupAll_error this]

/-! ### topological order of the search -/

/-- In this list, inputs come after the nodes that use them. -/
def Topo (sg : SGraph) (order : List Nat) : Prop :=
  ∀ v ∈ order, ∀ u, Feeds sg u v → u ≠ v → order.idxOf v < order.idxOf u

theorem idxOf_split {order pre post : List Nat} {v : Nat} (hn : order.Nodup)
    (he : order = pre ++ v :: post) : order.idxOf v = pre.length := by
  have hnp : v ∉ pre := by
    rw [he, List.nodup_append] at hn
    intro h
    exact hn.2.2 v h v List.mem_cons_self rfl
  rw [he, List.idxOf_append_of_notMem hnp]
  simp

theorem topo_ready {g : Graph N S} (hg : Sound g) (srt : EdgeSort) {order : List Nat}
    (hn : order.Nodup) (hclosed : ∀ v ∈ order, ∀ u, Feeds g.graph u v → u ∈ order) :
    Ready (parents srt g.graph) order.reverse (fun _ => False) ↔ Topo g.graph order := by
  rw [ready_iff]
  constructor
  · intro h v hv u hf hne
    obtain ⟨pre, post, heq⟩ := List.append_of_mem hv
    have h2 := h post.reverse v pre.reverse (by rw [heq]; simp) u
      ((hg.mem_parents srt).mpr ⟨hf, hne⟩)
    rcases h2 with h2 | h2
    · rw [List.mem_reverse] at h2
      have h3 := idxOf_split hn heq
      rw [h3]
      have hup : u ∉ pre := by
        intro hu
        rw [heq, List.nodup_append] at hn
        exact hn.2.2 u hu u (List.mem_cons_of_mem _ h2) rfl
      rw [heq, List.idxOf_append_of_notMem hup, List.idxOf_cons_ne _ (Ne.symm hne)]
      omega
    · exact h2.elim
  · intro h pre v post heq u hu
    obtain ⟨hf, hne⟩ := (hg.mem_parents srt).mp hu
    left
    have heq2 : order = post.reverse ++ v :: pre.reverse := by
      rw [← List.reverse_reverse order, heq]; simp
    have hv : v ∈ order := by rw [heq2]; simp
    have h1 := h v hv u hf hne
    rw [idxOf_split hn heq2] at h1
    have huo := hclosed v hv u hf
    rw [heq2, List.mem_append, List.mem_cons] at huo
    rcases huo with hu2 | hu2 | hu2
    · exfalso
      rw [heq2, List.idxOf_append_of_mem hu2] at h1
      have := List.idxOf_lt_length_of_mem hu2
      omega
    · exact absurd hu2 hne
    · exact List.mem_reverse.mp hu2

/-- In a topological order, everything upstream comes later. -/
theorem Topo.upstream {sg : SGraph} {order : List Nat} (h : Topo sg order)
    (hclosed : ∀ v ∈ order, ∀ u, Feeds sg u v → u ∈ order) {v u : Nat} (hv : v ∈ order)
    (hu : Upstream sg v u) : u ∈ order ∧ (u = v ∨ order.idxOf v < order.idxOf u) := by
  induction hu with
  | refl => exact ⟨hv, Or.inl rfl⟩
  | @step c a _ hf ih =>
    refine ⟨hclosed c ih.1 a hf, ?_⟩
    by_cases hac : a = c
    · subst hac; exact ih.2
    · have h1 := h c ih.1 a hf hac
      rcases ih.2 with rfl | h2
      · exact Or.inr h1
      · exact Or.inr (by omega)

/-- A graph arranged in levels is searched in topological order. -/
theorem leveled_topo {sg : SGraph} (srt : EdgeSort)
    (hc : ∀ e ∈ sg.edges, sg.contains e.src = true ∧ sg.contains e.dst = true)
    {start : Nat} (hb : start < sg.nodeBound) (L : Nat → Nat)
    (hL : ∀ u v, Upstream sg start v → Feeds sg u v → u ≠ v → L u = L v + 1) :
    ∃ order d, sg.findAllUpstream srt start = .ok order ∧ SInv sg start order ⟨[], d⟩ ∧
      Topo sg order := by
  obtain ⟨order, d, e, h1, h2⟩ := findAll_spec srt hc hb
    (fun acc s => (∀ q ∈ s.stack, L q.1 = L start + q.2) ∧
      (acc ++ s.stack.map (·.1)).Pairwise (fun a b => L a ≤ L b) ∧
      ∀ v d rest, s.stack = (v, d) :: rest → ∀ q ∈ rest, q.2 ≤ d + 1)
    ⟨by simp, by simp, by
      intro v d rest h q hq
      simp only [List.cons.injEq] at h
      rw [← h.2] at hq
      cases hq⟩
    (by
      intro acc v depth rest d hs ⟨p1, p2, p3⟩
      have hvd : v ∈ d := (hs.disc v).mpr (by simp)
      have hvL : L v = L start + depth := p1 (v, depth) List.mem_cons_self
      have hnew : ∀ u ∈ news (srt.run (sg.incoming v)) d, L u = L v + 1 := by
        intro u hu
        obtain ⟨⟨e, he, hes⟩, hnd⟩ := (mem_news _ _ _).mp hu
        have he := (srt.perm _).mem_iff.mp he
        rw [mem_incoming hc] at he
        exact hL u v (hs.up v hvd) ⟨e, he.1, hes, he.2⟩ (fun h => hnd (h ▸ hvd))
      have hmap : (news (srt.run (sg.incoming v)) d).map
          ((fun x : Nat × Nat => x.1) ∘ fun u => (u, depth + 1)) =
          news (srt.run (sg.incoming v)) d := by
        rw [show ((fun x : Nat × Nat => x.1) ∘ fun u => (u, depth + 1)) = id from rfl,
          List.map_id]
      have p3' := p3 v depth rest rfl
      rw [pushAll_eq]
      refine ⟨?_, ?_, ?_⟩
      · intro q hq
        dsimp only at hq
        rcases List.mem_append.mp hq with hq | hq
        · exact p1 q (List.mem_cons_of_mem _ hq)
        · obtain ⟨u, hu, rfl⟩ := List.mem_map.mp hq
          have := hnew u hu
          dsimp only
          omega
      · dsimp only
        have hlist : acc ++ [v] ++ (rest ++ (news (srt.run (sg.incoming v)) d).map
              (fun u => (u, depth + 1))).map (fun x : Nat × Nat => x.1) =
            (acc ++ ((v, depth) :: rest).map (fun x : Nat × Nat => x.1)) ++
              news (srt.run (sg.incoming v)) d := by
          rw [List.map_append, List.map_map, hmap]
          simp
        rw [hlist, List.pairwise_append]
        refine ⟨p2, ?_, ?_⟩
        · refine List.Pairwise.imp_of_mem (R := fun _ _ => True) ?_ (List.pairwise_of_forall (by simp))
          intro a b ha hb2 _
          rw [hnew a ha, hnew b hb2]
        · intro a ha b hb2
          rw [hnew b hb2]
          rcases List.mem_append.mp ha with ha | ha
          · rw [List.pairwise_append] at p2
            have := p2.2.2 a ha v (by simp)
            omega
          · obtain ⟨q, hq, rfl⟩ := List.mem_map.mp ha
            have := p1 q hq
            rcases List.mem_cons.mp hq with rfl | hq
            · dsimp only; omega
            · have := p3' q hq
              omega
      · intro v' d' rest' heq q hq
        dsimp only at heq
        have hall : ∀ x ∈ rest ++ (news (srt.run (sg.incoming v)) d).map
            (fun u => (u, depth + 1)), x.2 ≤ depth + 1 := by
          intro x hx
          rcases List.mem_append.mp hx with hx | hx
          · exact p3' x hx
          · obtain ⟨u, _, rfl⟩ := List.mem_map.mp hx
            exact Nat.le_refl _
        have hge : depth ≤ d' := by
          have hm : (v', d') ∈ rest ++ (news (srt.run (sg.incoming v)) d).map
              (fun u => (u, depth + 1)) := by rw [heq]; exact List.mem_cons_self
          rcases List.mem_append.mp hm with hm | hm
          · have h1 := p1 (v', d') (List.mem_cons_of_mem _ hm)
            rw [List.pairwise_append] at p2
            have h2 := p2.2.1
            rw [List.map_cons, List.pairwise_cons] at h2
            have h3 := h2.1 v' (List.mem_map_of_mem (f := fun x : Nat × Nat => x.1) hm)
            dsimp only at h1 h3
            omega
          · obtain ⟨u, _, hu⟩ := List.mem_map.mp hm
            have := congrArg Prod.snd hu
            dsimp only at this
            omega
        have := hall q (by rw [heq]; exact List.mem_cons_of_mem _ hq)
        omega)
  refine ⟨order, d, e, h1, ?_⟩
  intro v hv u hf hne
  have hvu := (h1.final_mem v).mp hv
  have huo : u ∈ order := (h1.final_mem u).mpr (.step hvu hf)
  have hl := hL u v hvu hf hne
  by_contra hlt
  have hvi := List.idxOf_lt_length_of_mem hv
  have hui := List.idxOf_lt_length_of_mem huo
  have hneq : order.idxOf u ≠ order.idxOf v := by
    intro h
    exact hne ((List.idxOf_inj huo).mp h)
  have hp := h2.2.1
  simp only [List.map_nil, List.append_nil] at hp
  have := (List.pairwise_iff_getElem.mp hp) (order.idxOf u) (order.idxOf v) hui hvi (by omega)
  rw [List.getElem_idxOf hui, List.getElem_idxOf hvi] at this
  omega

/-! ### validate phase -/

/-- Every node asks one mode of each of its inputs, without panicking. -/
def ValidateTotal (sem : NodeSem N S C Fr) : Prop :=
  ∀ n mode h ins, ∃ modes, sem.validate n mode h ins = .ok modes ∧ modes.length = ins.length

/-- The node asks one mode of each of its inputs, without panicking. -/
def ValidatesAt (sem : NodeSem N S C Fr) (n : N) : Prop :=
  ∀ mode h ins, ∃ modes, sem.validate n mode h ins = .ok modes ∧ modes.length = ins.length

theorem nodesAt_ok {g : Graph N S} : ∀ {l : List Nat}, (∀ i ∈ l, i < g.nodes.length) →
    ∃ ns, g.nodesAt l = .ok ns ∧ ns.length = l.length ∧ l.map (g.nodes[·]?) = ns.map some := by
  intro l
  induction l with
  | nil => intro _; exact ⟨[], rfl, rfl, rfl⟩
  | cons i is ih =>
    intro h
    obtain ⟨ns, h1, h2, h3⟩ := ih fun j hj => h j (List.mem_cons_of_mem _ hj)
    have hlt := h i List.mem_cons_self
    have hnode : g.nodes[i]? = some g.nodes[i] := List.getElem?_eq_getElem hlt
    refine ⟨g.nodes[i] :: ns, ?_, by simp [h2], by simp [hnode, h3]⟩
    unfold Graph.nodesAt
    rw [hnode]
    simp only [h1, bind, Except.bind]

/-- One iteration of the validate loop. -/
theorem validate_step {sem : NodeSem N S C Fr} (srt : EdgeSort)
    {g : Graph N S} (hg : Sound g) {hashes : Graph.IdxMap Nat} {i : Nat} (mode : Mode)
    (hv : ∀ n, g.nodes[i]? = some n → ValidatesAt sem n)
    (hi : g.graph.contains i = true) (hh : hashes i ≠ none) :
    ∃ n h ns modes, g.nodes[i]? = some n ∧ hashes i = some h ∧
      (parents srt g.graph i).map (g.nodes[·]?) = ns.map some ∧
      sem.validate n mode h ns = .ok modes ∧
      modes.length = (parents srt g.graph i).length ∧
      ∀ fuel stack validated,
        Graph.validateLoop sem srt g hashes (fuel + 1) ((i, mode) :: stack) validated =
        Graph.validateLoop sem srt g hashes fuel
          (((parents srt g.graph i).zip modes).reverse ++ stack)
          (validated ++ (parents srt g.graph i).zip modes) := by
  have hlt := hg.live i hi
  have hnode : g.nodes[i]? = some g.nodes[i] := List.getElem?_eq_getElem hlt
  cases hhi : hashes i with
  | none => exact absurd hhi hh
  | some h =>
    obtain ⟨ns, h1, h2, h3⟩ := nodesAt_ok (g := g) (l := parents srt g.graph i)
      (fun j hj => hg.live j (hg.feeds_live ((hg.mem_parents srt).mp hj).1))
    obtain ⟨modes, h4, h5⟩ := hv g.nodes[i] hnode mode h ns
    refine ⟨_, h, ns, modes, hnode, rfl, h3, h4, by rw [h5, h2], ?_⟩
    intro fuel stack validated
    conv_lhs => unfold Graph.validateLoop
    rw [hg.direct srt hi]
    simp only [bind, Except.bind, h1, hnode, hhi, h4]

/-- Work bound of a stack of the validate loop. -/
def work (B : Nat) (rank : Nat → Nat) (stack : List (Nat × Mode)) : Nat :=
  (stack.map fun x => (B + 1) ^ rank x.1).sum

theorem work_append (B : Nat) (rank : Nat → Nat) (a b : List (Nat × Mode)) :
    work B rank (a ++ b) = work B rank a + work B rank b := by
  unfold work; simp

theorem work_reverse (B : Nat) (rank : Nat → Nat) (a : List (Nat × Mode)) :
    work B rank a.reverse = work B rank a := by
  unfold work; rw [List.map_reverse, List.sum_reverse]

theorem work_le (B : Nat) (rank : Nat → Nat) (k : Nat) : ∀ (a : List (Nat × Mode)),
    (∀ x ∈ a, rank x.1 ≤ k) → work B rank a ≤ a.length * (B + 1) ^ k := by
  intro a
  induction a with
  | nil => intro _; simp [work]
  | cons x xs ih =>
    intro h
    have h1 := ih fun y hy => h y (List.mem_cons_of_mem _ hy)
    have h2 : (B + 1) ^ rank x.1 ≤ (B + 1) ^ k :=
      Nat.pow_le_pow_right (by omega) (h x List.mem_cons_self)
    have h3 : work B rank (x :: xs) = (B + 1) ^ rank x.1 + work B rank xs := by
      unfold work; simp
    rw [h3, List.length_cons, Nat.add_mul, Nat.one_mul]
    omega

/-- The validate loop finishes on topologically ordered graphs, and every validated node's
inputs are validated after it.  `Q` is any property of the loop that each step preserves. -/
theorem validateLoop_ok {sem : NodeSem N S C Fr} (srt : EdgeSort)
    {g : Graph N S} (hg : Sound g) {hashes : Graph.IdxMap Nat} {order : List Nat}
    (hv : ∀ i ∈ order, ∀ n, g.nodes[i]? = some n → ValidatesAt sem n)
    (hlive : ∀ i ∈ order, g.graph.contains i = true) (hh : ∀ i ∈ order, hashes i ≠ none)
    (hclosed : ∀ v ∈ order, ∀ u, Feeds g.graph u v → u ∈ order) (ht : Topo g.graph order)
    (Q : List (Nat × Mode) → Prop)
    (hQ : ∀ validated i mode n h ns modes, Q validated → (i, mode) ∈ validated →
      g.nodes[i]? = some n → hashes i = some h →
      (parents srt g.graph i).map (g.nodes[·]?) = ns.map some →
      sem.validate n mode h ns = .ok modes →
      modes.length = (parents srt g.graph i).length →
      Q (validated ++ (parents srt g.graph i).zip modes)) :
    ∀ (fuel : Nat) (stack validated : List (Nat × Mode)),
      work order.length (fun i => order.length - order.idxOf i) stack < fuel →
      (∀ x ∈ stack, x ∈ validated) → (∀ x ∈ validated, x.1 ∈ order) →
      (∀ pre x post, validated = pre ++ x :: post →
        (∀ u ∈ parents srt g.graph x.1, u ∈ post.map (·.1)) ∨ x ∈ stack) → Q validated →
      ∃ final, Graph.validateLoop sem srt g hashes fuel stack validated = .ok final ∧
        validated <+: final ∧ (∀ x ∈ final, x.1 ∈ order) ∧
        (∀ pre x post, final = pre ++ x :: post →
          ∀ u ∈ parents srt g.graph x.1, u ∈ post.map (·.1)) ∧ Q final := by
  intro fuel
  induction fuel with
  | zero => intro stack validated hw; omega
  | succ fuel ih =>
    intro stack validated hw hsv hvo hexp hq
    cases stack with
    | nil =>
      refine ⟨validated, rfl, List.prefix_refl _, hvo, ?_, hq⟩
      intro pre x post heq u hu
      rcases hexp pre x post heq with h | h
      · exact h u hu
      · cases h
    | cons x stack =>
      obtain ⟨i, mode⟩ := x
      have hiv := hsv (i, mode) List.mem_cons_self
      have hio : i ∈ order := hvo (i, mode) hiv
      obtain ⟨n, h, ns, modes, e1, e2, e3, e4, e5, e6⟩ :=
        validate_step srt hg (hashes := hashes) mode (hv i hio) (hlive i hio) (hh i hio)
      rw [e6]
      have hpar : ∀ u ∈ parents srt g.graph i, u ∈ order ∧ order.idxOf i < order.idxOf u := by
        intro u hu
        obtain ⟨hf, hne⟩ := (hg.mem_parents srt).mp hu
        exact ⟨hclosed i hio u hf, ht i hio u hf hne⟩
      have hzip : ∀ y ∈ (parents srt g.graph i).zip modes, y.1 ∈ parents srt g.graph i :=
        fun y hy => (List.of_mem_zip (a := y.1) (b := y.2) hy).1
      have hzlen : ((parents srt g.graph i).zip modes).length ≤ order.length := by
        rw [List.length_zip, e5, Nat.min_self]
        have hnd : (parents srt g.graph i).Nodup := news_nodup _ _
        exact (List.subperm_of_subset hnd (fun u hu => (hpar u hu).1)).length_le
      refine (fun a1 a2 a3 a4 a5 => by
        obtain ⟨final, r1, r2, r3, r4, r5⟩ := ih
          (((parents srt g.graph i).zip modes).reverse ++ stack)
          (validated ++ (parents srt g.graph i).zip modes) a1 a2 a3 a4 a5
        exact ⟨final, r1, (List.prefix_append _ _).trans r2, r3, r4, r5⟩) ?_ ?_ ?_ ?_ ?_
      · rw [work_append, work_reverse]
        have hsplit : work order.length (fun i => order.length - order.idxOf i)
            ((i, mode) :: stack) =
            (order.length + 1) ^ (order.length - order.idxOf i) +
            work order.length (fun i => order.length - order.idxOf i) stack := by
          unfold work; simp
        rw [hsplit] at hw
        have hil := List.idxOf_lt_length_of_mem hio
        have hb := work_le order.length (fun i => order.length - order.idxOf i)
          (order.length - order.idxOf i - 1) ((parents srt g.graph i).zip modes) (by
            intro y hy
            have := (hpar y.1 (hzip y hy)).2
            omega)
        have hpow : (order.length + 1) ^ (order.length - order.idxOf i) =
            (order.length + 1) ^ (order.length - order.idxOf i - 1) * (order.length + 1) := by
          rw [← pow_succ]
          congr 1
          omega
        have hle : ((parents srt g.graph i).zip modes).length *
            (order.length + 1) ^ (order.length - order.idxOf i - 1) ≤
            order.length * (order.length + 1) ^ (order.length - order.idxOf i - 1) :=
          Nat.mul_le_mul_right _ hzlen
        have hpos : 0 < (order.length + 1) ^ (order.length - order.idxOf i - 1) :=
          Nat.pow_pos (by omega)
        have hexp2 : (order.length + 1) ^ (order.length - order.idxOf i - 1) * (order.length + 1) =
            order.length * (order.length + 1) ^ (order.length - order.idxOf i - 1) +
            (order.length + 1) ^ (order.length - order.idxOf i - 1) := by ring
        omega
      · intro y hy
        rcases List.mem_append.mp hy with hy | hy
        · exact List.mem_append_right _ (List.mem_reverse.mp hy)
        · exact List.mem_append_left _ (hsv y (List.mem_cons_of_mem _ hy))
      · intro y hy
        rcases List.mem_append.mp hy with hy | hy
        · exact hvo y hy
        · exact (hpar y.1 (hzip y hy)).1
      · intro pre x post heq
        rcases List.append_eq_append_iff.mp heq with ⟨as, h1, h2⟩ | ⟨bs, h1, h2⟩
        · -- `x` is one of the new entries
          right
          apply List.mem_append_left
          rw [List.mem_reverse, h2]
          exact List.mem_append_right _ List.mem_cons_self
        · cases bs with
          | nil =>
            right
            apply List.mem_append_left
            rw [List.mem_reverse]
            rw [List.nil_append] at h2
            rw [← h2]
            exact List.mem_cons_self
          | cons b bs =>
            simp only [List.cons_append, List.cons.injEq] at h2
            obtain ⟨rfl, h2⟩ := h2
            rcases hexp pre x bs h1 with h | h
            · left
              intro u hu
              rw [h2, List.map_append]
              exact List.mem_append_left _ (h u hu)
            · rcases List.mem_cons.mp h with h | h
              · left
                intro u hu
                rw [h2, List.map_append]
                apply List.mem_append_right
                rw [h] at hu
                rw [List.map_fst_zip (by rw [e5])]
                exact hu
              · exact Or.inr (List.mem_append_right _ h)
      · exact hQ validated i mode n h ns modes hq hiv e1 e2 e3 e4 e5

/-! ### compute phase -/

theorem computePhase_ok {sem : NodeSem N S C Fr}
    (hc : ∀ n fr m ins out c, ∃ r, sem.compute n fr m ins out c = .ok r) (srt : EdgeSort)
    (frame : Fr) : ∀ (l : List (Nat × Mode)) (g : Graph N S) (c : C) (streams : Graph.IdxMap S),
    Sound g → (∀ x ∈ l, g.graph.contains x.1 = true) →
    Ready (parents srt g.graph) (l.map (·.1)) (fun k => streams k ≠ none) →
    ∃ r, Graph.computePhase sem srt frame l g c streams = .ok r := by
  intro l
  induction l with
  | nil => intro g c s _ _ _; exact ⟨_, rfl⟩
  | cons x l ih =>
    obtain ⟨i, mode⟩ := x
    intro g c streams hg hl hr
    have hi := hl (i, mode) List.mem_cons_self
    rw [List.map_cons] at hr
    obtain ⟨vs, hvs, _⟩ := lookupAll_ok hr.1
    have hlt := hg.live i hi
    have hnode : g.nodes[i]? = some g.nodes[i] := List.getElem?_eq_getElem hlt
    obtain ⟨⟨n', st, out, c'⟩, hcomp⟩ := hc g.nodes[i] frame mode vs g.output c
    unfold Graph.computePhase
    simp only [hg.direct srt hi, bind, Except.bind, hvs, hnode, hcomp]
    split
    · exact ⟨_, rfl⟩
    · apply ih
      · exact ⟨hg.ends, fun j hj => by simpa using hg.live j hj⟩
      · exact fun y hy => hl y (List.mem_cons_of_mem _ hy)
      · refine hr.2.congr fun k => ?_
        unfold Graph.IdxMap.insert
        by_cases hk : k = i <;> simp [hk]

/-- The order in which one frame computes the nodes. -/
theorem schedule_ok {sem : NodeSem N S C Fr} (srt : EdgeSort)
    {g : Graph N S} (hg : Sound g) {start : Nat} (hs : g.graph.contains start = true)
    {order d : List Nat} (hv : ∀ i ∈ order, ∀ n, g.nodes[i]? = some n → ValidatesAt sem n)
    (ho : SInv g.graph start order ⟨[], d⟩) (ht : Topo g.graph order)
    (frame : Fr) (fuel : Nat) (hfuel : (order.length + 1) ^ order.length < fuel) (c : C) :
    ∃ sched : List (Nat × Mode),
      g.executeFrame sem srt fuel order frame c =
        Graph.computePhase sem srt frame sched g c (fun _ => none) ∧
      (∀ x ∈ sched, g.graph.contains x.1 = true) ∧
      (∀ i, i ∈ sched.map (·.1) ↔ Upstream g.graph start i) ∧
      Ready (parents srt g.graph) (sched.map (·.1)) (fun _ => False) ∧
      ∃ hashes, Graph.validateLoop sem srt g hashes fuel [(start, modeAll)] [(start, modeAll)] =
        .ok sched.reverse := by
  have hmem := ho.final_mem
  have hlive : ∀ i ∈ order, g.graph.contains i = true :=
    fun i hi => hg.upstream_live hs ((hmem i).mp hi)
  have hclosed : ∀ v ∈ order, ∀ u, Feeds g.graph u v → u ∈ order :=
    fun v hv u hf => (hmem u).mpr (.step ((hmem v).mp hv) hf)
  have hso : start ∈ order := (hmem start).mpr .refl
  obtain ⟨h1, _⟩ := hashPhase_spec sem srt hg frame order.reverse (fun _ => none)
    (fun i hi => hlive i (List.mem_reverse.mp hi))
  obtain ⟨hashes, e1, hdom⟩ := h1
    (((topo_ready hg srt ho.final_nodup hclosed).mpr ht).congr (by simp))
  have hh : ∀ i ∈ order, hashes i ≠ none :=
    fun i hi => (hdom i).mpr (Or.inl (List.mem_reverse.mpr hi))
  obtain ⟨final, e2, hpre, hin, hpar, _⟩ := validateLoop_ok srt hg hv hlive hh hclosed ht
    (fun _ => True) (fun _ _ _ _ _ _ _ _ _ _ _ _ _ _ => trivial) fuel
    [(start, modeAll)] [(start, modeAll)] (by
      unfold work
      simp only [List.map_cons, List.map_nil, List.sum_cons, List.sum_nil, Nat.add_zero]
      exact Nat.lt_of_le_of_lt (Nat.pow_le_pow_right (by omega) (by omega)) hfuel)
    (fun x hx => hx) (fun x hx => by
      rw [List.mem_singleton] at hx
      subst hx
      exact hso)
    (fun pre x post heq => by
      right
      rw [heq]
      simp) trivial
  have hready : Ready (parents srt g.graph) (final.reverse.map (·.1)) (fun _ => False) := by
    rw [ready_iff]
    intro pre i post heq u hu
    left
    have heq2 : final.map (·.1) = post.reverse ++ i :: pre.reverse := by
      have := congrArg List.reverse heq
      rw [List.map_reverse, List.reverse_reverse] at this
      rw [this]; simp
    obtain ⟨a, b, hab, ha, hb⟩ := List.map_eq_append_iff.mp heq2
    obtain ⟨x, b', rfl, hx, hb'⟩ := List.map_eq_cons_iff.mp hb
    have := hpar a x b' hab u (by rw [hx]; exact hu)
    rw [hb', List.mem_reverse] at this
    exact this
  have hstartin : (start, modeAll) ∈ final := hpre.subset List.mem_cons_self
  refine ⟨final.reverse, ?_, ?_, ?_, hready, hashes, by rw [List.reverse_reverse]; exact e2⟩
  · unfold Graph.executeFrame
    have hhead := ho.final_head
    cases order with
    | nil => cases hhead
    | cons o os =>
      simp only [List.head?_cons, Option.some.injEq] at hhead
      subst hhead
      simp only [e1, bind, Except.bind, e2]
  · intro x hx
    exact hlive _ (hin x (List.mem_reverse.mp hx))
  · intro i
    constructor
    · intro hi
      obtain ⟨x, hx, rfl⟩ := List.mem_map.mp hi
      exact (hmem _).mp (hin x (List.mem_reverse.mp hx))
    · intro hu
      rw [List.map_reverse, List.mem_reverse]
      induction hu with
      | refl => exact List.mem_map_of_mem (f := fun x : Nat × Mode => x.1) hstartin
      | @step b a hb hf ih =>
        by_cases hab : a = b
        · rw [hab]; exact ih
        · obtain ⟨x, hx, hxb⟩ := List.mem_map.mp ih
          obtain ⟨pre, post, heq⟩ := List.append_of_mem hx
          have := hpar pre x post heq a (by
            rw [hxb]; exact (hg.mem_parents srt).mpr ⟨hf, hab⟩)
          rw [heq, List.map_append, List.map_cons]
          exact List.mem_append_right _ (List.mem_cons_of_mem _ this)

theorem frameLoop_ok {sem : NodeSem N S C Fr} (hv : ValidateTotal sem)
    (hc : ∀ n fr m ins out c, ∃ r, sem.compute n fr m ins out c = .ok r) (srt : EdgeSort)
    {start : Nat} {order d : List Nat} (fuel : Nat)
    (hfuel : (order.length + 1) ^ order.length < fuel) : ∀ (frames : List Fr) (g : Graph N S) (c : C),
    Sound g → g.graph.contains start = true → SInv g.graph start order ⟨[], d⟩ →
    Topo g.graph order →
    ∃ r, Graph.frameLoop sem srt fuel order frames g c = .ok r := by
  intro frames
  induction frames with
  | nil => intro g c _ _ _ _; exact ⟨_, rfl⟩
  | cons f fs ih =>
    intro g c hg hs ho ht
    obtain ⟨sched, e, hl, _, hr, _⟩ := schedule_ok srt hg hs (fun _ _ n _ => hv n) ho ht f fuel hfuel c
    obtain ⟨⟨er, g', c'⟩, hcp⟩ := computePhase_ok hc srt f sched g c (fun _ => none) hg hl
      (hr.congr (by simp))
    rw [hcp] at e
    have hsame := executeFrame_same _ _ _ _ _ _ _ _ _ _ e
    unfold Graph.frameLoop
    simp only [e, bind, Except.bind]
    split
    · exact ⟨_, rfl⟩
    · obtain ⟨_, hlen, hgr, _, _⟩ := hsame
      apply ih
      · exact ⟨by rw [hgr]; exact hg.ends, by rw [hgr, hlen]; exact hg.live⟩
      · rw [hgr]; exact hs
      · rw [hgr]; exact ho
      · rw [hgr]; exact ht

/-! ### values -/

theorem nodesAt_inv {g : Graph N S} : ∀ {l : List Nat} {ns : List N}, g.nodesAt l = .ok ns →
    l.map (g.nodes[·]?) = ns.map some := by
  intro l
  induction l with
  | nil => intro ns h; cases h; rfl
  | cons u us ih =>
    intro ns h
    unfold Graph.nodesAt at h
    split at h
    · cases h
    · rename_i nu hnu
      obtain ⟨ns', h4, h5⟩ := Res.bind_ok.mp h
      cases h5
      simp [hnu, ih h4]

theorem validate_requested {sem : NodeSem N S C Fr} {srt : EdgeSort} {g : Graph N S} {start : Nat}
    {hashes : Graph.IdxMap Nat} : ∀ (fuel : Nat) (stack validated final : List (Nat × Mode)),
    (∀ x ∈ stack, Requested sem srt g start x.1 x.2) →
    (∀ x ∈ validated, Requested sem srt g start x.1 x.2) →
    Graph.validateLoop sem srt g hashes fuel stack validated = .ok final →
    validated <+: final ∧ ∀ x ∈ final, Requested sem srt g start x.1 x.2 := by
  intro fuel
  induction fuel with
  | zero => intro s v f _ _ h; cases h
  | succ fuel ih =>
    intro stack validated final hs hv h
    cases stack with
    | nil => cases h; exact ⟨List.prefix_refl _, hv⟩
    | cons x stack =>
      obtain ⟨i, mode⟩ := x
      unfold Graph.validateLoop at h
      obtain ⟨ups, h1, h⟩ := Res.bind_ok.mp h
      obtain ⟨ns, h2, h⟩ := Res.bind_ok.mp h
      split at h
      · cases h
      · rename_i n hn
        split at h
        · cases h
        · rename_i hh _
          obtain ⟨modes, h3, h⟩ := Res.bind_ok.mp h
          have hns := nodesAt_inv h2
          have hnew : ∀ y ∈ ups.zip modes, Requested sem srt g start y.1 y.2 := fun y hy =>
            .input (hs (i, mode) List.mem_cons_self) hn h1 hns h3 hy
          have := ih _ _ _ (fun y hy => by
            rcases List.mem_append.mp hy with hy | hy
            · exact hnew y (List.mem_reverse.mp hy)
            · exact hs y (List.mem_cons_of_mem _ hy))
            (fun y hy => by
              rcases List.mem_append.mp hy with hy | hy
              · exact hv y hy
              · exact hnew y hy) h
          exact ⟨(List.prefix_append _ _).trans this.1, this.2⟩

/-- The stream values found so far: each is the node's function of the values of its inputs. -/
def Values (sem : NodeSem N S C Fr) (f : N → Fr → Mode → List S → NodeStatus × S)
    (srt : EdgeSort) (g0 : Graph N S) (start : Nat) (fr : Fr) (streams : Graph.IdxMap S) : Prop :=
  ∀ k v, streams k = some v → ∃ n m ins vals, g0.nodes[k]? = some n ∧
    Requested sem srt g0 start k m ∧ g0.graph.findDirectUpstream srt k = .ok ins ∧
    ins.map streams = vals.map some ∧ v = (f n fr m vals).2 ∧
    Graph.statusError (f n fr m vals).1 = none

theorem computePhase_values {sem : NodeSem N S C Fr}
    {f : N → Fr → Mode → List S → NodeStatus × S} {good : C → Prop} (hf : Computes sem f good)
    {srt : EdgeSort} {g0 : Graph N S} {start : Nat} {fr : Fr}
    (hone : OneRequest sem f srt g0 start fr) :
    ∀ (l : List (Nat × Mode)) (g : Graph N S) (c : C) (streams : Graph.IdxMap S) e g' c',
    (∀ x ∈ l, Requested sem srt g0 start x.1 x.2) → g.graph = g0.graph → good c →
    (∀ (k : Nat) n, g.nodes[k]? = some n → ∃ n0, g0.nodes[k]? = some n0 ∧ f n = f n0) →
    Values sem f srt g0 start fr streams →
    Graph.computePhase sem srt fr l g c streams = .ok (e, g', c') →
    good c' ∧ ∃ streams', Values sem f srt g0 start fr streams' ∧
      (∀ k v, streams k = some v → streams' k = some v) ∧
      (e = none → (∀ x ∈ l, streams' x.1 ≠ none) ∧
        ∀ x, l.getLast? = some x → streams' x.1 = some g'.output) ∧
      (e ≠ none → ∃ n m ins vals, ∃ k : Nat, g0.nodes[k]? = some n ∧
        Requested sem srt g0 start k m ∧ g0.graph.findDirectUpstream srt k = .ok ins ∧
        ins.map streams' = vals.map some ∧ Graph.statusError (f n fr m vals).1 = e) := by
  intro l
  induction l with
  | nil =>
    intro g c streams e g' c' _ _ hgood _ hval h
    cases h
    exact ⟨hgood, streams, hval, fun _ _ h => h, fun _ => ⟨by simp, by simp⟩, fun h => absurd rfl h⟩
  | cons x l ih =>
    obtain ⟨i, mode⟩ := x
    intro g c streams e g' c' hreq hgr hgood hnodes hval h
    unfold Graph.computePhase at h
    obtain ⟨ins, h1, h⟩ := Res.bind_ok.mp h
    obtain ⟨vals, h2, h⟩ := Res.bind_ok.mp h
    have hlook := lookupAll_inv h2
    rw [hgr] at h1
    split at h
    · cases h
    · rename_i n hn
      obtain ⟨⟨n', st, out, c1⟩, h3, h⟩ := Res.bind_ok.mp h
      dsimp only at h
      obtain ⟨hfe, hfn, hgood1⟩ := hf _ _ _ _ _ _ _ _ _ _ hgood h3
      obtain ⟨n0, hn0, hfn0⟩ := hnodes i n hn
      have hri := hreq (i, mode) List.mem_cons_self
      rw [hfn0] at hfe
      have hout : out = (f n0 fr mode vals).2 := congrArg Prod.snd hfe
      have hst : st = (f n0 fr mode vals).1 := congrArg Prod.fst hfe
      split at h
      · rename_i er her
        cases h
        refine ⟨hgood1, streams, hval, fun _ _ h => h, (fun h => by cases h), fun _ => ?_⟩
        exact ⟨n0, mode, ins, vals, i, hn0, hri, h1, hlook, by rw [← hst]; exact her⟩
      · rename_i her
        -- values already present do not change
        have hmono : ∀ k v, streams k = some v → (streams.insert i out) k = some v := by
          intro k v hk
          unfold Graph.IdxMap.insert
          split
          · rename_i hki
            subst hki
            obtain ⟨n1, m1, ins1, vals1, a1, a2, a3, a4, a5, _⟩ := hval k v hk
            rw [h1] at a3
            cases a3
            rw [hlook] at a4
            have : vals = vals1 := by
              have := congrArg (List.map (Option.getD · v)) a4
              simpa [List.map_map] using this
            rw [hn0] at a1
            cases a1
            rw [hout, a5, ← this, hone k mode m1 n0 hri a2 hn0]
          · exact hk
        have hmap : ∀ (ins : List Nat) (vals : List S), ins.map streams = vals.map some →
            ins.map (streams.insert i out) = vals.map some := by
          intro ins
          induction ins with
          | nil => intro vals h; exact h
          | cons a as iha =>
            intro vals h
            cases vals with
            | nil => simp at h
            | cons b bs =>
              simp only [List.map_cons, List.cons.injEq] at h ⊢
              exact ⟨hmono a b h.1, iha bs h.2⟩
        have hval' : Values sem f srt g0 start fr (streams.insert i out) := by
          intro k v hk
          by_cases hki : k = i
          · subst hki
            have : v = out := by
              unfold Graph.IdxMap.insert at hk
              rw [if_pos rfl] at hk
              exact (Option.some.inj hk).symm
            subst this
            exact ⟨n0, mode, ins, vals, hn0, hri, h1, hmap _ _ hlook, hout, by rw [← hst]; exact her⟩
          · have hk' : streams k = some v := by
              unfold Graph.IdxMap.insert at hk
              rw [if_neg hki] at hk
              exact hk
            obtain ⟨n1, m1, ins1, vals1, a1, a2, a3, a4, a5, a6⟩ := hval k v hk'
            exact ⟨n1, m1, ins1, vals1, a1, a2, a3, hmap _ _ a4, a5, a6⟩
        have hnodes' : ∀ (k : Nat) n1, (g.nodes.set i n')[k]? = some n1 →
            ∃ n0, g0.nodes[k]? = some n0 ∧ f n1 = f n0 := by
          intro k n1 hk
          rw [List.getElem?_set] at hk
          split at hk
          · rename_i hik
            split at hk
            · cases hk
              subst hik
              exact ⟨n0, hn0, by rw [hfn, hfn0]⟩
            · cases hk
          · exact hnodes k n1 hk
        obtain ⟨r1, streams', r2, r3, r4, r5⟩ := ih
          { g with nodes := g.nodes.set i n', output := out } _ _ _ _ _
          (fun y hy => hreq y (List.mem_cons_of_mem _ hy)) hgr hgood1 hnodes' hval' h
        · refine ⟨r1, streams', r2, fun k v hk => r3 k v (hmono k v hk), ?_, r5⟩
          intro hen
          obtain ⟨r4a, r4b⟩ := r4 hen
          have hii : streams' i = some out := r3 i out (by
            unfold Graph.IdxMap.insert; rw [if_pos rfl])
          refine ⟨?_, ?_⟩
          · intro y hy
            rcases List.mem_cons.mp hy with rfl | hy
            · dsimp only; rw [hii]; simp
            · exact r4a y hy
          · intro y hy
            cases l with
            | nil =>
              simp only [List.getLast?_singleton, Option.some.injEq] at hy
              subst hy
              cases h
              exact hii
            | cons z zs =>
              rw [List.getLast?_cons_cons] at hy
              exact r4b y hy

end OCG
