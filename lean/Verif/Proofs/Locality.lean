import Verif.Proofs.Execute
/-
Executions of two graphs that agree upstream of the executed node.
-/

namespace OCG

open GraphSpec

variable {N S C Fr : Type}

/-- The two graphs agree on the set `U` of node indices, which is closed under inputs. -/
structure SameOn (U : Nat → Prop) (g g' : Graph N S) : Prop where
  closed : ∀ v, U v → ∀ u, Feeds g.graph u v → U u
  live : ∀ v, U v → g.graph.contains v = true ∧ g'.graph.contains v = true
  inc : ∀ v, U v → g'.graph.incoming v = g.graph.incoming v
  node : ∀ v : Nat, U v → g'.nodes[v]? = g.nodes[v]?
  out : g'.output = g.output

/-- Results that are the same panic, or values related by `P`. -/
def ResRel {α β : Type} (P : α → β → Prop) : Res α → Res β → Prop
  | .ok a, .ok b => P a b
  | .error e, .error e' => e = e'
  | _, _ => False

theorem ResRel.bind {α β α' β' : Type} {P : α → β → Prop} {Q : α' → β' → Prop} {x : Res α}
    {y : Res β} {f : α → Res α'} {f' : β → Res β'} (h : ResRel P x y)
    (hf : ∀ a b, P a b → ResRel Q (f a) (f' b)) : ResRel Q (x >>= f) (y >>= f') := by
  cases x <;> cases y <;> simp only [ResRel] at h
  · subst h; rfl
  · exact hf _ _ h

theorem ResRel.of_eq {α : Type} {x y : Res α} (h : x = y) : ResRel (· = ·) x y := by
  subst h; cases x <;> rfl

section
variable {U : Nat → Prop} {g g' : Graph N S} {srt : EdgeSort}

theorem SameOn.parents (h : SameOn U g g') {v : Nat} (hv : U v) :
    parents srt g'.graph v = OCG.parents srt g.graph v := by
  unfold OCG.parents; rw [h.inc v hv]

theorem SameOn.parents_mem (h : SameOn U g g') (hs : Sound g) {v u : Nat} (hv : U v)
    (hu : u ∈ OCG.parents srt g.graph v) : U u :=
  h.closed v hv u ((hs.mem_parents srt).mp hu).1

theorem SameOn.direct (h : SameOn U g g') (hs : Sound g) (hs' : Sound g') {v : Nat} (hv : U v) :
    g'.graph.findDirectUpstream srt v = g.graph.findDirectUpstream srt v := by
  rw [hs'.direct srt (h.live v hv).2, hs.direct srt (h.live v hv).1, h.parents hv]

theorem SameOn.hashPhase (h : SameOn U g g') (hs : Sound g) (hs' : Sound g')
    (sem : NodeSem N S C Fr) (frame : Fr) : ∀ (l : List Nat) (m : Graph.IdxMap Nat),
    (∀ i ∈ l, U i) → Graph.hashPhase sem srt g' frame l m = Graph.hashPhase sem srt g frame l m := by
  intro l
  induction l with
  | nil => intro m _; rfl
  | cons i is ih =>
    intro m hl
    have hi := hl i List.mem_cons_self
    unfold Graph.hashPhase
    rw [h.node i hi, h.direct hs hs' hi]
    split
    · rfl
    · congr 1; funext ps
      congr 1; funext hv
      exact ih _ fun j hj => hl j (List.mem_cons_of_mem _ hj)

theorem SameOn.nodesAt (h : SameOn U g g') : ∀ (l : List Nat), (∀ i ∈ l, U i) →
    g'.nodesAt l = g.nodesAt l := by
  intro l
  induction l with
  | nil => intro _; rfl
  | cons i is ih =>
    intro hl
    unfold Graph.nodesAt
    rw [h.node i (hl i List.mem_cons_self), ih fun j hj => hl j (List.mem_cons_of_mem _ hj)]

theorem SameOn.validateLoop (h : SameOn U g g') (hs : Sound g) (hs' : Sound g')
    (sem : NodeSem N S C Fr) (hashes : Graph.IdxMap Nat) :
    ∀ (fuel : Nat) (stack validated : List (Nat × Mode)), (∀ x ∈ stack, U x.1) →
    Graph.validateLoop sem srt g' hashes fuel stack validated =
      Graph.validateLoop sem srt g hashes fuel stack validated := by
  intro fuel
  induction fuel with
  | zero => intro s v _; rfl
  | succ fuel ih =>
    intro stack validated hst
    cases stack with
    | nil => rfl
    | cons x stack =>
      obtain ⟨i, mode⟩ := x
      have hi : U i := hst (i, mode) List.mem_cons_self
      unfold Graph.validateLoop
      rw [h.direct hs hs' hi, hs.direct srt (h.live i hi).1, h.node i hi]
      simp only [bind, Except.bind]
      rw [h.nodesAt _ fun j hj => h.parents_mem hs hi hj]
      cases g.nodesAt (OCG.parents srt g.graph i) with
      | error e => rfl
      | ok ns =>
        cases g.nodes[i]? with
        | none => rfl
        | some n =>
          cases hashes i with
          | none => rfl
          | some hh =>
            dsimp only
            cases sem.validate n mode hh ns with
            | error e => rfl
            | ok ms =>
              apply ih
              intro y hy
              rcases List.mem_append.mp hy with hy | hy
              · exact h.parents_mem hs hi (List.of_mem_zip (List.mem_reverse.mp hy)).1
              · exact hst y (List.mem_cons_of_mem _ hy)

/-- What is compared after computing: the error, the graphs on `U`, and the cache. -/
def SameFrame (U : Nat → Prop) (g0 g0' : Graph N S) (x y : Graph.FrameResult N S C) : Prop :=
  y.1 = x.1 ∧ SameOn U x.2.1 y.2.1 ∧ y.2.2 = x.2.2 ∧ x.2.1.graph = g0.graph ∧
    y.2.1.graph = g0'.graph ∧ x.2.1.nodes.length = g0.nodes.length ∧
    y.2.1.nodes.length = g0'.nodes.length

theorem SameOn.set (h : SameOn U g g') (hs : Sound g) (hs' : Sound g') {i : Nat} (hi : U i)
    (n : N) (out : S) :
    SameOn U { g with nodes := g.nodes.set i n, output := out }
      { g' with nodes := g'.nodes.set i n, output := out } := by
  refine ⟨h.closed, h.live, h.inc, ?_, rfl⟩
  intro v hv
  have h1 := hs.live i (h.live i hi).1
  have h2 := hs'.live i (h.live i hi).2
  simp only [List.getElem?_set, h1, h2, if_true, h.node v hv]

theorem SameOn.computePhase (sem : NodeSem N S C Fr) (frame : Fr) :
    ∀ (l : List (Nat × Mode)) (g g' : Graph N S) (c : C) (streams : Graph.IdxMap S),
    SameOn U g g' → Sound g → Sound g' → (∀ x ∈ l, U x.1) →
    ResRel (SameFrame U g g') (Graph.computePhase sem srt frame l g c streams)
      (Graph.computePhase sem srt frame l g' c streams) := by
  intro l
  induction l with
  | nil =>
    intro g g' c streams h _ _ _
    exact ⟨rfl, h, rfl, rfl, rfl, rfl, rfl⟩
  | cons x l ih =>
    intro g g' c streams h hs hs' hl
    obtain ⟨i, mode⟩ := x
    have hi := hl (i, mode) List.mem_cons_self
    unfold Graph.computePhase
    rw [h.direct hs hs' hi, h.node i hi, h.out]
    refine (ResRel.of_eq rfl).bind (P := (· = ·)) ?_
    rintro ps _ rfl
    refine (ResRel.of_eq rfl).bind (P := (· = ·)) ?_
    rintro ins _ rfl
    split
    · rfl
    · refine (ResRel.of_eq rfl).bind (P := (· = ·)) ?_
      rintro ⟨n', st, out, c'⟩ _ rfl
      have hset := h.set hs hs' hi n' out
      have hb : Sound { g with nodes := g.nodes.set i n', output := out } :=
        ⟨hs.ends, fun j hj => by simpa using hs.live j hj⟩
      have hb' : Sound { g' with nodes := g'.nodes.set i n', output := out } :=
        ⟨hs'.ends, fun j hj => by simpa using hs'.live j hj⟩
      dsimp only
      split
      · exact ⟨rfl, hset, rfl, rfl, rfl, by simp, by simp⟩
      · have := ih _ _ c' (streams.insert i out) hset hb hb'
          fun y hy => hl y (List.mem_cons_of_mem _ hy)
        revert this
        generalize Graph.computePhase sem srt frame l _ c' (streams.insert i out) = r
        generalize Graph.computePhase sem srt frame l _ c' (streams.insert i out) = r'
        intro this
        cases r <;> cases r' <;> simp only [ResRel] at this ⊢
        · exact this
        · obtain ⟨a, b, c, d, e, f, k⟩ := this
          exact ⟨a, b, c, d, e, by simpa using f, by simpa using k⟩

theorem requested_in {sem : NodeSem N S C Fr} (h : SameOn U g g') (hs : Sound g)
    {start : Nat} (hU : U start) {i : Nat} {m : Mode} (hr : Requested sem srt g start i m) :
    U i := by
  induction hr with
  | start => exact hU
  | input _ _ e _ _ hz ih =>
    rw [hs.direct srt (h.live _ ih).1] at e
    cases e
    exact h.parents_mem hs ih (List.of_mem_zip hz).1

theorem SameOn.executeFrame (h : SameOn U g g') (hs : Sound g) (hs' : Sound g')
    (sem : NodeSem N S C Fr) (fuel : Nat) (order : List Nat) (ho : ∀ i ∈ order, U i) (frame : Fr)
    (c : C) : ResRel (SameFrame U g g') (g.executeFrame sem srt fuel order frame c)
      (g'.executeFrame sem srt fuel order frame c) := by
  unfold Graph.executeFrame
  rw [h.hashPhase hs hs' sem frame _ _ fun i hi => ho i (List.mem_reverse.mp hi)]
  refine (ResRel.of_eq rfl).bind (P := (· = ·)) ?_
  rintro hashes _ rfl
  cases order with
  | nil => rfl
  | cons start rest =>
    have hst : U start := ho start List.mem_cons_self
    dsimp only
    rw [h.validateLoop hs hs' sem hashes fuel _ _ fun x hx => by
      rw [List.mem_singleton.mp hx]; exact hst]
    cases hv : Graph.validateLoop sem srt g hashes fuel [(start, modeAll)] [(start, modeAll)] with
    | error e => rfl
    | ok validated =>
      have hreq := validate_requested (start := start) _ _ _ _
        (fun x hx => by rw [List.mem_singleton.mp hx]; exact .start)
        (fun x hx => by rw [List.mem_singleton.mp hx]; exact .start) hv
      exact SameOn.computePhase sem frame _ g g' c _ h hs hs' fun x hx =>
        requested_in h hs hst (hreq.2 x (List.mem_reverse.mp hx))

theorem SameOn.frameLoop (sem : NodeSem N S C Fr) (fuel : Nat) (order : List Nat)
    (ho : ∀ i ∈ order, U i) : ∀ (frames : List Fr) (g g' : Graph N S) (c : C),
    SameOn U g g' → Sound g → Sound g' →
    ResRel (SameFrame U g g') (Graph.frameLoop sem srt fuel order frames g c)
      (Graph.frameLoop sem srt fuel order frames g' c) := by
  intro frames
  induction frames with
  | nil => intro g g' c h _ _; exact ⟨rfl, h, rfl, rfl, rfl, rfl, rfl⟩
  | cons f fs ih =>
    intro g g' c h hs hs'
    unfold Graph.frameLoop
    refine (h.executeFrame hs hs' sem fuel order ho f c).bind ?_
    rintro ⟨e, g1, c1⟩ ⟨e', g1', c1'⟩ ⟨h1, h2, h3, h4, h5, h6, h7⟩
    simp only at h1 h2 h3 h4 h5 h6 h7
    cases h1
    cases h3
    dsimp only
    cases e with
    | some e => exact ⟨rfl, h2, rfl, h4, h5, h6, h7⟩
    | none =>
      have hb : Sound g1 := ⟨by rw [h4]; exact hs.ends, by rw [h4, h6]; exact hs.live⟩
      have hb' : Sound g1' := ⟨by rw [h5]; exact hs'.ends, by rw [h5, h7]; exact hs'.live⟩
      have := ih g1 g1' c1 h2 hb hb'
      revert this
      dsimp only
      generalize Graph.frameLoop sem srt fuel order fs g1 c1 = r
      generalize Graph.frameLoop sem srt fuel order fs g1' c1 = r'
      intro this
      cases r <;> cases r' <;> simp only [ResRel] at this ⊢
      · exact this
      · obtain ⟨a, b, c, d, e, f, k⟩ := this
        exact ⟨a, b, c, d.trans h4, e.trans h5, f.trans h6, k.trans h7⟩

/-! ### the search -/

theorem allLoop_more (srt : EdgeSort) (sg : SGraph) : ∀ (fuel : Nat) (s : Search)
    (acc r : List Nat) (k : Nat), Search.allLoop srt sg fuel s acc = .ok r →
    Search.allLoop srt sg (fuel + k) s acc = .ok r := by
  intro fuel
  induction fuel with
  | zero => intro s acc r k h; cases h
  | succ fuel ih =>
    intro s acc r k h
    rw [Nat.succ_add]
    unfold Search.allLoop at h ⊢
    split
    · rename_i e; rw [e] at h; exact h
    · rename_i v d s' e; rw [e] at h; exact ih _ _ _ k h

theorem SameOn.allLoop (h : SameOn U g g') (hs : Sound g) : ∀ (fuel : Nat) (s : Search)
    (acc : List Nat), (∀ x ∈ s.stack, U x.1) →
    Search.allLoop srt g'.graph fuel s acc = Search.allLoop srt g.graph fuel s acc := by
  intro fuel
  induction fuel with
  | zero => intro s acc _; rfl
  | succ fuel ih =>
    intro s acc hst
    obtain ⟨stack, d⟩ := s
    cases stack with
    | nil => rfl
    | cons x rest =>
      obtain ⟨v, depth⟩ := x
      have hv := hst (v, depth) List.mem_cons_self
      unfold Search.allLoop Search.next
      dsimp only
      rw [h.inc v hv]
      apply ih
      rw [pushAll_eq]
      intro y hy
      rcases List.mem_append.mp hy with hy | hy
      · exact hst y (List.mem_cons_of_mem _ hy)
      · obtain ⟨u, hu, rfl⟩ := List.mem_map.mp hy
        obtain ⟨e, he, hsrc⟩ := ((mem_news _ _ _).mp hu).1
        have he' := (mem_incoming hs.ends).mp ((srt.perm _).subset he)
        exact h.closed v hv u ⟨e, he'.1, hsrc, he'.2⟩

theorem SameOn.findAll (h : SameOn U g g') (hs : Sound g) (hs' : Sound g') {start : Nat}
    (hU : U start) :
    ∃ order, g.graph.findAllUpstream srt start = .ok order ∧
      g'.graph.findAllUpstream srt start = .ok order ∧ ∀ i ∈ order, U i := by
  obtain ⟨hl, hl'⟩ := h.live start hU
  obtain ⟨order, d, e, hi, _⟩ := findAll_spec srt hs.ends (contains_lt_bound hl) (fun _ _ => True)
    trivial (fun _ _ _ _ _ _ _ => trivial)
  obtain ⟨order', d', e', _, _⟩ := findAll_spec srt hs'.ends (contains_lt_bound hl')
    (fun _ _ => True) trivial (fun _ _ _ _ _ _ _ => trivial)
  have hup : ∀ i, Upstream g.graph start i → U i := by
    intro i hi
    induction hi with
    | refl => exact hU
    | step _ hf ih => exact h.closed _ ih _ hf
  have e1 := e
  have e1' := e'
  unfold SGraph.findAllUpstream Search.new at e1 e1'
  rw [if_pos (contains_lt_bound hl)] at e1
  rw [if_pos (contains_lt_bound hl')] at e1'
  simp only [bind, Except.bind] at e1 e1'
  have a := allLoop_more srt _ _ _ _ _ (g'.graph.slots.length + 2) e1
  have b := allLoop_more srt _ _ _ _ _ (g.graph.slots.length + 2) e1'
  rw [h.allLoop hs _ _ _ (by simp [hU]), Nat.add_comm] at b
  rw [a] at b
  cases b
  exact ⟨order, e, e', fun i hi' => hup i ((hi.final_mem i).mp hi')⟩

end

/-- What a caller of `execute` sees: the status, the output stream and the cache. -/
def seen (r : ExecuteStatus × Graph N S × C) : ExecuteStatus × S × C := (r.1, r.2.1.output, r.2.2)

theorem SameOn.execute {U : Nat → Prop} {g g' : Graph N S} {srt : EdgeSort} (h : SameOn U g g')
    (hs : Sound g) (hs' : Sound g') (sem : NodeSem N S C Fr) {id start : Nat}
    (hat : At g id start) (hat' : At g' id start) (hU : U start) (fuel : Nat) (frames : List Fr)
    (c : C) : (g'.execute sem srt fuel id frames c).map seen =
      (g.execute sem srt fuel id frames c).map seen := by
  unfold Graph.execute
  rw [find_at.mpr hat, find_at.mpr hat']
  obtain ⟨order, e, e', ho⟩ := h.findAll (srt := srt) hs hs' hU
  simp only [e, e', bind, Except.bind]
  have := SameOn.frameLoop (srt := srt) sem fuel order ho frames g g' c h hs hs'
  revert this
  generalize Graph.frameLoop sem srt fuel order frames g c = r
  generalize Graph.frameLoop sem srt fuel order frames g' c = r'
  intro this
  cases r <;> cases r' <;> simp only [ResRel] at this ⊢
  · rw [this]
  · rename_i x y
    obtain ⟨e1, g1, c1⟩ := x
    obtain ⟨e2, g2, c2⟩ := y
    obtain ⟨a, b, c, _⟩ := this
    simp only at a b c
    subst a c
    cases e2 <;> simp [Except.map, seen, b.out]

/-! ### edits away from the executed node -/

theorem filter_eraseP {α : Type} {p q : α → Bool} (h : ∀ x, q x = true → p x = false) :
    ∀ l : List α, (l.eraseP q).filter p = l.filter p := by
  intro l
  induction l with
  | nil => rfl
  | cons x xs ih =>
    by_cases hq : q x = true
    · rw [List.eraseP_cons_of_pos hq, List.filter_cons_of_neg (by rw [h x hq]; decide)]
    · rw [List.eraseP_cons_of_neg hq]
      by_cases hp : p x = true
      · rw [List.filter_cons_of_pos hp, List.filter_cons_of_pos hp, ih]
      · rw [List.filter_cons_of_neg hp, List.filter_cons_of_neg hp, ih]

theorem filter_removeEdges {d v : Nat} (hv : v ≠ d) : ∀ (es : List Edge) (s : SGraph × GraphState),
    (∀ e ∈ es, e.dst = d) →
    (Graph.removeEdges es s).1.edges.filter (fun e => e.dst == v) =
      s.1.edges.filter fun e => e.dst == v := by
  intro es
  induction es with
  | nil => intro s _; rfl
  | cons e es ih =>
    intro s h
    have hes := fun x hx => h x (List.mem_cons_of_mem _ hx)
    unfold Graph.removeEdges
    split
    · rw [ih _ hes]
      refine filter_eraseP ?_ _
      intro x hx
      simp only [Bool.and_eq_true, beq_iff_eq] at hx
      have := h e List.mem_cons_self
      simp only [beq_eq_false_iff_ne]
      omega
    · exact ih _ hes

theorem filter_setWeight {a b w v : Nat} (hv : v ≠ b) : ∀ es : List Edge,
    (SGraph.setWeight a b w es).filter (fun e => e.dst == v) = es.filter fun e => e.dst == v := by
  intro es
  induction es with
  | nil => rfl
  | cons e es ih =>
    unfold SGraph.setWeight
    split
    · rename_i h
      simp only [Bool.and_eq_true, beq_iff_eq] at h
      have : ¬ e.dst = v := by omega
      simp [this]
    · rw [List.filter_cons, List.filter_cons, ih]

theorem filter_updateEdge {sg sg' : SGraph} {a b w v : Nat} (hv : v ≠ b)
    (h : sg.updateEdge a b w = .ok sg') :
    sg'.edges.filter (fun e => e.dst == v) = sg.edges.filter fun e => e.dst == v := by
  unfold SGraph.updateEdge at h
  split at h
  · cases h; exact filter_setWeight hv _
  · split at h
    · cases h
      exact List.filter_cons_of_neg (by simpa using Ne.symm hv)
    · cases h

theorem filter_disconnect {g : Graph N S} {d w b v : Nat} (hd : g.find d = some b) (hv : v ≠ b) :
    (g.disconnectInput d w).graph.edges.filter (fun e => e.dst == v) =
      g.graph.edges.filter fun e => e.dst == v := by
  unfold Graph.disconnectInput
  rw [hd]
  dsimp only
  rw [filter_removeEdges hv _ (g.graph, g.state)]
  intro e he
  have := List.takeWhile_subset _ he
  unfold SGraph.incoming at this
  split at this
  · simpa using (List.mem_filter.mp this).2
  · cases this

/-- Agreement upstream of `start`, from agreement of the edges into the nodes there. -/
theorem sameOn_of {g g' : Graph N S} {r : Bool} (hi : Inv g r) {start : Nat}
    (hl : g.graph.contains start = true)
    (hlive : ∀ v, Upstream g.graph start v → g'.graph.contains v = true)
    (hedges : ∀ v, Upstream g.graph start v → g'.graph.edges.filter (fun e => e.dst == v) =
      g.graph.edges.filter fun e => e.dst == v)
    (hnode : ∀ v : Nat, Upstream g.graph start v → g'.nodes[v]? = g.nodes[v]?)
    (hout : g'.output = g.output) :
    SameOn (Upstream g.graph start) g g' ∧
      ∀ v, Upstream g'.graph start v ↔ Upstream g.graph start v := by
  refine ⟨⟨fun v hv u hu => hv.step hu, fun v hv => ⟨hi.sound.upstream_live hl hv, hlive v hv⟩,
    ?_, hnode, hout⟩, ?_⟩
  · intro v hv
    unfold SGraph.incoming
    rw [hlive v hv, hi.sound.upstream_live hl hv, if_pos rfl, if_pos rfl, hedges v hv]
  · have key : ∀ v u, Upstream g.graph start v → (Feeds g'.graph u v ↔ Feeds g.graph u v) := by
      intro v u hv
      have h1 := hedges v hv
      have : ∀ sg : SGraph, Feeds sg u v ↔ ∃ e ∈ sg.edges.filter (fun e => e.dst == v), e.src = u := by
        intro sg
        constructor
        · rintro ⟨e, he, a, b⟩; exact ⟨e, List.mem_filter.mpr ⟨he, by simpa using b⟩, a⟩
        · rintro ⟨e, he, a⟩
          have := List.mem_filter.mp he
          exact ⟨e, this.1, a, by simpa using this.2⟩
      rw [this, this, h1]
    intro v
    constructor
    · intro h
      induction h with
      | refl => exact .refl
      | step _ hf ih => exact ih.step ((key _ _ ih).mp hf)
    · intro h
      induction h with
      | refl => exact .refl
      | step hc hf ih => exact ih.step ((key _ _ hc).mpr hf)

theorem GraphSpec.FarEdit.same {sem : NodeSem N S C Fr} {g g' : Graph N S} {r : Bool} {start : Nat}
    (h : FarEdit sem start g g') (hi : Inv g r) (hl : g.graph.contains start = true) :
    (∃ r', Inv g' r') ∧ g'.graph.contains start = true ∧
      (∀ id, At g id start → At g' id start) ∧
      SameOn (Upstream g.graph start) g g' ∧
      ∀ v, Upstream g'.graph start v ↔ Upstream g.graph start v := by
  have up := fun v hv => hi.sound.upstream_live (v := v) hl hv
  cases h with
  | add n ha =>
    obtain ⟨_, _, rfl⟩ := addNode_cases hi ha
    have hc : ∀ v, g.graph.contains v = true →
        ({ g.graph with slots := g.graph.slots ++ [some (sem.id n)] } : SGraph).contains v = true := by
      intro v hv
      obtain ⟨w, e⟩ := contains_iff.mp hv
      exact contains_iff.mpr ⟨w, by rw [List.getElem?_append_left (contains_lt hv)]; exact e⟩
    refine ⟨⟨r, hi.add ha⟩, hc _ hl, ?_, sameOn_of hi hl (fun v hv => hc v (up v hv))
      (fun _ _ => rfl) (fun v hv => ?_) rfl⟩
    · intro id ⟨h1, h2⟩
      have := (List.getElem?_eq_some_iff.mp h1).1
      refine ⟨by rw [List.getElem?_append_left this]; exact h1, fun j hj => ?_⟩
      rw [List.getElem?_append_left (by omega)]
      exact h2 j hj
    · exact List.getElem?_append_left (by
        have := contains_lt (up v hv); have := hi.slots_len; omega)
  | remove id i hat hn =>
    refine ⟨⟨_, hi.remove id⟩, ?_⟩
    rcases removeNode_cases (g := g) (id := id) with ⟨_, h2, _⟩ | ⟨k, hf, hcont, _, h2⟩
    · rw [h2]
      exact ⟨hl, fun _ h => h, sameOn_of hi hl up (fun _ _ => rfl) (fun _ _ => rfl) rfl⟩
    · rw [find_at.mpr hat] at hf
      cases hf
      rw [h2]
      have hc : ∀ v, Upstream g.graph start v → (SGraph.mk
          (g.graph.slots.set i none) (i :: g.graph.free)
          (g.graph.edges.filter fun e => e.src != i && e.dst != i)).contains v = true := fun v hv =>
        contains_setNone.mpr ⟨up v hv, fun e => hn (e ▸ hv)⟩
      refine ⟨hc _ .refl, fun _ h => h, sameOn_of hi hl hc ?_ (fun _ _ => rfl) rfl⟩
      intro v hv
      dsimp only
      rw [List.filter_filter]
      refine List.filter_congr fun e he => ?_
      by_cases hev : e.dst = v
      · have h1 : e.src ≠ i := fun h1 => hn (h1 ▸ hv.step ⟨e, he, rfl, hev⟩)
        have h3 : e.dst ≠ i := fun h1 => hn (h1 ▸ hev ▸ hv)
        simp [h1, h3]
      · simp [hev]
  | connect s d w b hc hat hn =>
    refine ⟨⟨r, hi.connect hc⟩, ?_⟩
    rcases connect_cases hc with ⟨_, rfl⟩ | ⟨a, b', sg, _, hb, e, rfl⟩
    · exact ⟨hl, fun _ h => h, sameOn_of hi hl up (fun _ _ => rfl) (fun _ _ => rfl) rfl⟩
    · rw [find_at.mpr hat] at hb
      cases hb
      have hd := hi.disconnect d w
      obtain ⟨s1, _⟩ := updateEdge_spec hd.pairs hd.ends e
      obtain ⟨e1, e2, e3, _⟩ := disconnect_same g d w
      have hcont : ∀ v, sg.contains v = g.graph.contains v := by
        intro v; rw [← (disconnect_shrunk g d w).contains v]; unfold SGraph.contains; rw [s1]
      refine ⟨(hcont _).trans hl, fun id h => ?_, sameOn_of hi hl
        (fun v hv => (hcont v).trans (up v hv)) (fun v hv => ?_) (fun v _ => by dsimp only; rw [e2])
        e3⟩
      · unfold At at h ⊢; dsimp only; rw [e1]; exact h
      · have hvb : v ≠ b := fun e => hn (e ▸ hv)
        exact (filter_updateEdge hvb e).trans (filter_disconnect (find_at.mpr hat) hvb)
  | disconnect d w b hat hn =>
    obtain ⟨e1, e2, e3, _⟩ := disconnect_same g d w
    have hcont := (disconnect_shrunk g d w).contains
    refine ⟨⟨r, hi.disconnect d w⟩, (hcont _).trans hl, fun id h => ?_, sameOn_of hi hl
      (fun v hv => (hcont v).trans (up v hv)) (fun v hv => ?_) (fun v _ => by rw [e2]) e3⟩
    · unfold At at h ⊢; rw [e1]; exact h
    · exact filter_disconnect (find_at.mpr hat) fun e => hn (e ▸ hv)
  | setAttr id i f hs hat hn =>
    rcases setAttr_cases hs with ⟨_, rfl⟩ | ⟨k, n, hf, hk, rfl⟩
    · exact ⟨⟨r, hi⟩, hl, fun _ h => h,
        sameOn_of hi hl up (fun _ _ => rfl) (fun _ _ => rfl) rfl⟩
    · rw [find_at.mpr hat] at hf
      cases hf
      refine ⟨⟨r, hi.transfer rfl (by simp) rfl⟩, hl, fun _ h => h,
        sameOn_of hi hl up (fun _ _ => rfl) (fun v hv => ?_) rfl⟩
      exact List.getElem?_set_ne fun (e : i = v) => hn (e ▸ hv)

end OCG
