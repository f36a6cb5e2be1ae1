import Verif.Proofs.Locality
/-
Executions of related graphs with related node semantics are related.
-/

namespace OCG

variable {N S C N' S' C' Fr : Type}

/-- Related nodes hash and validate alike, and compute related results. -/
structure Matching (sem : NodeSem N S C Fr) (sem' : NodeSem N' S' C' Fr) (RN : N → N' → Prop)
    (RS : S → S' → Prop) (RC : C → C' → Prop) : Prop where
  hash : ∀ n n', RN n n' → ∀ fr hs, sem.hash n fr hs = sem'.hash n' fr hs
  validate : ∀ n n', RN n n' → ∀ ns ns', List.Forall₂ RN ns ns' → ∀ mode h,
    sem.validate n mode h ns = sem'.validate n' mode h ns'
  compute : ∀ n n', RN n n' → ∀ ins ins', List.Forall₂ RS ins ins' → ∀ prev prev', RS prev prev' →
    ∀ c c', RC c c' → ∀ fr mode,
    ResRel (fun r r' => RN r.1 r'.1 ∧ r.2.1 = r'.2.1 ∧ RS r.2.2.1 r'.2.2.1 ∧ RC r.2.2.2 r'.2.2.2)
      (sem.compute n fr mode ins prev c) (sem'.compute n' fr mode ins' prev' c')

/-- The same graph with related nodes and outputs. -/
structure GraphRel (RN : N → N' → Prop) (RS : S → S' → Prop) (g : Graph N S) (g' : Graph N' S') :
    Prop where
  nodes : List.Forall₂ RN g.nodes g'.nodes
  ids : g.ids = g'.ids
  graph : g.graph = g'.graph
  output : RS g.output g'.output
  state : g.state = g'.state
  status : g.status = g'.status

variable {sem : NodeSem N S C Fr} {sem' : NodeSem N' S' C' Fr} {RN : N → N' → Prop}
  {RS : S → S' → Prop} {RC : C → C' → Prop}

theorem forall₂_get {α β : Type} {R : α → β → Prop} : ∀ {l : List α} {l' : List β},
    List.Forall₂ R l l' → ∀ i : Nat, (l[i]? = none ∧ l'[i]? = none) ∨
      ∃ a b, l[i]? = some a ∧ l'[i]? = some b ∧ R a b := by
  intro l l' h
  induction h with
  | nil => intro i; exact .inl ⟨rfl, rfl⟩
  | cons hab _ ih =>
    intro i
    cases i with
    | zero => exact .inr ⟨_, _, rfl, rfl, hab⟩
    | succ i => simpa using ih i

theorem forall₂_set {α β : Type} {R : α → β → Prop} {a : α} {b : β} (hab : R a b) :
    ∀ {l : List α} {l' : List β}, List.Forall₂ R l l' → ∀ i : Nat,
      List.Forall₂ R (l.set i a) (l'.set i b) := by
  intro l l' h
  induction h with
  | nil => intro i; exact .nil
  | cons h1 h2 ih =>
    intro i
    cases i with
    | zero => exact .cons hab h2
    | succ i => exact .cons h1 (ih i)

theorem hashPhase_related (hm : Matching sem sem' RN RS RC) (srt : EdgeSort) {g : Graph N S}
    {g' : Graph N' S'} (hg : GraphRel RN RS g g') (fr : Fr) :
    ∀ (l : List Nat) (m : Graph.IdxMap Nat),
      Graph.hashPhase sem srt g fr l m = Graph.hashPhase sem' srt g' fr l m := by
  intro l
  induction l with
  | nil => intro m; rfl
  | cons i is ih =>
    intro m
    unfold Graph.hashPhase
    rcases forall₂_get hg.nodes i with ⟨e1, e2⟩ | ⟨a, b, e1, e2, hab⟩
    · rw [e1, e2]
    · rw [e1, e2, hg.graph]
      dsimp only
      simp only [hm.hash a b hab, ih]

theorem nodesAt_related {g : Graph N S} {g' : Graph N' S'} (hg : GraphRel RN RS g g') :
    ∀ l : List Nat, ResRel (List.Forall₂ RN) (g.nodesAt l) (g'.nodesAt l) := by
  intro l
  induction l with
  | nil => exact .nil
  | cons i is ih =>
    unfold Graph.nodesAt
    rcases forall₂_get hg.nodes i with ⟨e1, e2⟩ | ⟨a, b, e1, e2, hab⟩
    · rw [e1, e2]; rfl
    · rw [e1, e2]
      exact ResRel.bind ih fun _ _ h => .cons hab h

theorem validateLoop_related (hm : Matching sem sem' RN RS RC) (srt : EdgeSort) {g : Graph N S}
    {g' : Graph N' S'} (hg : GraphRel RN RS g g') (hashes : Graph.IdxMap Nat) :
    ∀ (fuel : Nat) (stack validated : List (Nat × Mode)),
      Graph.validateLoop sem srt g hashes fuel stack validated =
        Graph.validateLoop sem' srt g' hashes fuel stack validated := by
  intro fuel
  induction fuel with
  | zero => intro _ _; rfl
  | succ fuel ih =>
    intro stack validated
    cases stack with
    | nil => rfl
    | cons x stack =>
      obtain ⟨i, mode⟩ := x
      unfold Graph.validateLoop
      rw [hg.graph]
      cases g'.graph.findDirectUpstream srt i with
      | error e => rfl
      | ok ups =>
        simp only [bind, Except.bind]
        have hn := nodesAt_related hg ups
        cases h1 : g.nodesAt ups <;> cases h2 : g'.nodesAt ups <;> rw [h1, h2] at hn <;>
          simp only [ResRel] at hn
        · rw [hn]
        · dsimp only
          rcases forall₂_get hg.nodes i with ⟨e1, e2⟩ | ⟨a, b, e1, e2, hab⟩
          · rw [e1, e2]
          · rw [e1, e2]
            dsimp only
            cases hashes i with
            | none => rfl
            | some h =>
              dsimp only
              rw [hm.validate a b hab _ _ hn mode h]
              cases sem'.validate b mode h _ with
              | error e => rfl
              | ok modes => exact ih _ _

/-- Related maps. -/
def MapRel (RS : S → S' → Prop) (m : Graph.IdxMap S) (m' : Graph.IdxMap S') : Prop :=
  ∀ i, (m i = none ∧ m' i = none) ∨ ∃ a b, m i = some a ∧ m' i = some b ∧ RS a b

theorem lookupAll_related {m : Graph.IdxMap S} {m' : Graph.IdxMap S'} (h : MapRel RS m m') :
    ∀ l : List Nat, ResRel (List.Forall₂ RS) (Graph.lookupAll m l) (Graph.lookupAll m' l) := by
  intro l
  induction l with
  | nil => exact .nil
  | cons i is ih =>
    unfold Graph.lookupAll
    rcases h i with ⟨e1, e2⟩ | ⟨a, b, e1, e2, hab⟩
    · rw [e1, e2]; rfl
    · rw [e1, e2]
      exact ResRel.bind ih fun _ _ h => .cons hab h

/-- Related results of a frame. -/
def FrameRel (RN : N → N' → Prop) (RS : S → S' → Prop) (RC : C → C' → Prop)
    (r : Graph.FrameResult N S C) (r' : Graph.FrameResult N' S' C') : Prop :=
  r.1 = r'.1 ∧ GraphRel RN RS r.2.1 r'.2.1 ∧ RC r.2.2 r'.2.2

theorem computePhase_related (hm : Matching sem sem' RN RS RC) (srt : EdgeSort) (fr : Fr) :
    ∀ (l : List (Nat × Mode)) (g : Graph N S) (g' : Graph N' S') (c : C) (c' : C')
      (m : Graph.IdxMap S) (m' : Graph.IdxMap S'), GraphRel RN RS g g' → RC c c' → MapRel RS m m' →
      ResRel (FrameRel RN RS RC) (Graph.computePhase sem srt fr l g c m)
        (Graph.computePhase sem' srt fr l g' c' m') := by
  intro l
  induction l with
  | nil => intro g g' c c' m m' hg hc _; exact ⟨rfl, hg, hc⟩
  | cons x l ih =>
    obtain ⟨i, mode⟩ := x
    intro g g' c c' m m' hg hc hmap
    unfold Graph.computePhase
    rw [hg.graph]
    refine ResRel.bind (ResRel.of_eq rfl) ?_
    rintro ups _ rfl
    refine ResRel.bind (lookupAll_related hmap ups) fun ins ins' hins => ?_
    rcases forall₂_get hg.nodes i with ⟨e1, e2⟩ | ⟨a, b, e1, e2, hab⟩
    · rw [e1, e2]; rfl
    · rw [e1, e2]
      refine ResRel.bind (hm.compute a b hab ins ins' hins _ _ hg.output c c' hc fr mode) ?_
      rintro ⟨n1, st, out, c1⟩ ⟨n2, st', out', c2⟩ ⟨hn, hst, ho, hc1⟩
      dsimp only at hn hst ho hc1
      subst hst
      have hg1 : GraphRel RN RS
          { g with nodes := g.nodes.set i n1, output := out, graph := g'.graph }
          { g' with nodes := g'.nodes.set i n2, output := out' } :=
        ⟨forall₂_set hn hg.nodes i, hg.ids, rfl, ho, hg.state, hg.status⟩
      dsimp only
      cases Graph.statusError st with
      | some e => exact ⟨rfl, hg1, hc1⟩
      | none =>
        refine ih _ _ c1 c2 _ _ hg1 hc1 ?_
        intro j
        unfold Graph.IdxMap.insert
        by_cases hj : j = i
        · exact .inr ⟨out, out', by simp [hj], by simp [hj], ho⟩
        · simp only [hj, if_false]
          exact hmap j

theorem executeFrame_related (hm : Matching sem sem' RN RS RC) (srt : EdgeSort) (fuel : Nat)
    {g : Graph N S} {g' : Graph N' S'} (hg : GraphRel RN RS g g') (order : List Nat) (fr : Fr)
    {c : C} {c' : C'} (hc : RC c c') :
    ResRel (FrameRel RN RS RC) (g.executeFrame sem srt fuel order fr c)
      (g'.executeFrame sem' srt fuel order fr c') := by
  unfold Graph.executeFrame
  refine ResRel.bind (ResRel.of_eq (hashPhase_related hm srt hg fr _ _)) ?_
  rintro hashes _ rfl
  cases order with
  | nil => rfl
  | cons start rest =>
    refine ResRel.bind (ResRel.of_eq (validateLoop_related hm srt hg hashes fuel _ _)) ?_
    rintro v _ rfl
    exact computePhase_related hm srt fr _ g g' c c' _ _ hg hc fun i => .inl ⟨rfl, rfl⟩

theorem frameLoop_related (hm : Matching sem sem' RN RS RC) (srt : EdgeSort) (fuel : Nat)
    (order : List Nat) : ∀ (frames : List Fr) (g : Graph N S) (g' : Graph N' S') (c : C) (c' : C'),
    GraphRel RN RS g g' → RC c c' →
      ResRel (FrameRel RN RS RC) (Graph.frameLoop sem srt fuel order frames g c)
        (Graph.frameLoop sem' srt fuel order frames g' c') := by
  intro frames
  induction frames with
  | nil => intro g g' c c' hg hc; exact ⟨rfl, hg, hc⟩
  | cons f fs ih =>
    intro g g' c c' hg hc
    unfold Graph.frameLoop
    refine ResRel.bind (executeFrame_related hm srt fuel hg order f hc) ?_
    rintro ⟨e, g1, c1⟩ ⟨e', g2, c2⟩ ⟨h1, h2, h3⟩
    dsimp only at h1 h2 h3
    subst h1
    cases e with
    | some e => exact ⟨rfl, h2, h3⟩
    | none => exact ih g1 g2 c1 c2 h2 h3

/-- Executions of related graphs are related. -/
theorem execute_related (hm : Matching sem sem' RN RS RC) (srt : EdgeSort) (fuel : Nat)
    {g : Graph N S} {g' : Graph N' S'} (hg : GraphRel RN RS g g') (id : Nat) (frames : List Fr)
    {c : C} {c' : C'} (hc : RC c c') :
    ResRel (fun r r' => r.1 = r'.1 ∧ GraphRel RN RS r.2.1 r'.2.1 ∧ RC r.2.2 r'.2.2)
      (Graph.execute sem srt fuel g id frames c) (Graph.execute sem' srt fuel g' id frames c') := by
  unfold Graph.execute Graph.find
  rw [hg.ids]
  cases Graph.position id g'.ids 0 with
  | none => exact ⟨rfl, ⟨hg.nodes, rfl, hg.graph, hg.output, hg.state, rfl⟩, hc⟩
  | some start =>
    dsimp only
    rw [hg.graph]
    refine ResRel.bind (ResRel.of_eq rfl) ?_
    rintro order _ rfl
    refine ResRel.bind (frameLoop_related hm srt fuel order frames g g' c c' hg hc) ?_
    rintro ⟨e, g1, c1⟩ ⟨e', g2, c2⟩ ⟨h1, h2, h3⟩
    dsimp only at h1 h2 h3
    subst h1
    cases e with
    | some e => exact ⟨rfl, ⟨h2.nodes, h2.ids, h2.graph, h2.output, h2.state, rfl⟩, h3⟩
    | none => exact ⟨rfl, ⟨h2.nodes, h2.ids, h2.graph, h2.output, rfl, rfl⟩, h3⟩

theorem ResRel.self {α : Type} {P : α → Prop} {x : Res α} (h : ∀ a, x = .ok a → P a) :
    ResRel (fun a b => a = b ∧ P a) x x := by
  cases x with
  | ok a => exact ⟨rfl, h a rfl⟩
  | error e => rfl

theorem forall₂_self {α : Type} {P : α → Prop} : ∀ {l : List α}, (∀ a ∈ l, P a) →
    List.Forall₂ (fun a b => a = b ∧ P a) l l := by
  intro l
  induction l with
  | nil => intro _; exact .nil
  | cons a l ih =>
    intro h
    exact .cons ⟨rfl, h a List.mem_cons_self⟩ (ih fun b hb => h b (List.mem_cons_of_mem _ hb))

theorem forall₂_self_inv {α : Type} {P : α → Prop} : ∀ {l l' : List α},
    List.Forall₂ (fun a b => a = b ∧ P a) l l' → l = l' ∧ ∀ a ∈ l, P a := by
  intro l l' h
  induction h with
  | nil => exact ⟨rfl, fun a h => by cases h⟩
  | cons hab _ ih =>
    obtain ⟨rfl, hp⟩ := hab
    refine ⟨by rw [ih.1], fun a ha => ?_⟩
    rcases List.mem_cons.mp ha with rfl | ha
    · exact hp
    · exact ih.2 a ha

/-- What every computation keeps, every execution keeps, whether it succeeds or stops early. -/
theorem execute_keeps {PN : N → Prop} {PS : S → Prop} {PC : C → Prop}
    (hk : ∀ n fr m ins prev c n' st out c', PN n → (∀ s ∈ ins, PS s) → PS prev → PC c →
      sem.compute n fr m ins prev c = .ok (n', st, out, c') → PN n' ∧ PS out ∧ PC c')
    (srt : EdgeSort) (fuel : Nat) {g g' : Graph N S} (hn : ∀ n ∈ g.nodes, PN n)
    (ho : PS g.output) (id : Nat) (frames : List Fr) {c c' : C} (hc : PC c)
    {status : ExecuteStatus} (h : Graph.execute sem srt fuel g id frames c = .ok (status, g', c')) :
    (∀ n ∈ g'.nodes, PN n) ∧ PS g'.output ∧ PC c' := by
  have hm : Matching sem sem (fun a b => a = b ∧ PN a) (fun a b => a = b ∧ PS a)
      (fun a b => a = b ∧ PC a) := by
    refine ⟨?_, ?_, ?_⟩
    · rintro n _ ⟨rfl, -⟩ fr hs; rfl
    · rintro n _ ⟨rfl, -⟩ ns ns' h mode k
      rw [(forall₂_self_inv h).1]
    · rintro n _ ⟨rfl, h1⟩ ins ins' hins prev _ ⟨rfl, h2⟩ c _ ⟨rfl, h3⟩ fr mode
      obtain ⟨rfl, hi⟩ := forall₂_self_inv hins
      cases e : sem.compute n fr mode ins prev c with
      | error e => rfl
      | ok r =>
        obtain ⟨n', st, out, c'⟩ := r
        obtain ⟨k1, k2, k3⟩ := hk _ _ _ _ _ _ _ _ _ _ h1 hi h2 h3 e
        exact ⟨⟨rfl, k1⟩, rfl, ⟨rfl, k2⟩, rfl, k3⟩
  have := execute_related hm srt fuel (g := g) (g' := g)
    ⟨forall₂_self hn, rfl, rfl, ⟨rfl, ho⟩, rfl, rfl⟩ id frames (c := c) (c' := c) ⟨rfl, hc⟩
  rw [h] at this
  obtain ⟨-, hg, -, h3⟩ := this
  exact ⟨(forall₂_self_inv hg.nodes).2, hg.output.2, h3⟩

end OCG
