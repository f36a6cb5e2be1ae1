import Verif.Proofs.Relate
/-
Executions of two graphs with the same connections, when what is related depends on the position.
-/

namespace OCG

open GraphSpec

variable {N S C N' S' C' Fr : Type}

/-- The lists are related one by one, as the relation says for the positions. -/
inductive RelList (RS : Nat → S → S' → Prop) : List Nat → List S → List S' → Prop
  | nil : RelList RS [] [] []
  | cons {i is a as b bs} : RS i a b → RelList RS is as bs → RelList RS (i :: is) (a :: as) (b :: bs)

/-- The two graphs have the connections `sg`, and related nodes at every position. -/
structure GraphsAt (RN : Nat → N → N' → Prop) (L : Nat) (sg : SGraph) (g : Graph N S)
    (g' : Graph N' S') : Prop where
  size : g.nodes.length = L
  left : g.graph = sg
  right : g'.graph = sg
  ids : g.ids = g'.ids
  nodes : ∀ k : Nat, (g.nodes[k]? = none ∧ g'.nodes[k]? = none) ∨
    ∃ n n', g.nodes[k]? = some n ∧ g'.nodes[k]? = some n' ∧ RN k n n'

/-- Related nodes ask the same of their inputs. -/
def AsksAt (sem : NodeSem N S C Fr) (sem' : NodeSem N' S' C' Fr) (RN : Nat → N → N' → Prop) :
    Prop :=
  ∀ i n n' mode h h' ns ns', RN i n n' → ns.length = ns'.length →
    sem.validate n mode h ns = sem'.validate n' mode h' ns'

/-- Requested computations that return on one side do so on the other, with related results. -/
def StepsAt (sem : NodeSem N S C Fr) (sem' : NodeSem N' S' C' Fr) (srt : EdgeSort) (sg : SGraph)
    (Req : Nat → Mode → Prop) (fr : Fr) (RN : Nat → N → N' → Prop) (RS : Nat → S → S' → Prop)
    (RC : C → C' → Prop) (RO : S → S' → Prop) : Prop :=
  ∀ i m n n' ps ins ins' prev prev' c c', Req i m → RN i n n' →
    sg.findDirectUpstream srt i = .ok ps → RelList RS ps ins ins' → RC c c' →
    ∀ n1 st out c1, sem.compute n fr m ins prev c = .ok (n1, st, out, c1) →
    ∃ n1' out' c1', sem'.compute n' fr m ins' prev' c' = .ok (n1', st, out', c1') ∧
      RN i n1 n1' ∧ RS i out out' ∧ RC c1 c1' ∧ (Graph.statusError st ≠ none → RO out out')

variable {sem : NodeSem N S C Fr} {sem' : NodeSem N' S' C' Fr} {RN : Nat → N → N' → Prop}
  {RS : Nat → S → S' → Prop} {RC : C → C' → Prop} {RO : S → S' → Prop} {srt : EdgeSort}
  {sg : SGraph} {L : Nat}

/-- Maps with the same positions. -/
def SameKeys {α β : Type} (m : Graph.IdxMap α) (m' : Graph.IdxMap β) : Prop :=
  ∀ k, (m k = none ↔ m' k = none)

theorem SameKeys.insert {α β : Type} {m : Graph.IdxMap α} {m' : Graph.IdxMap β}
    (h : SameKeys m m') (i : Nat) (a : α) (b : β) : SameKeys (m.insert i a) (m'.insert i b) := by
  intro k
  unfold Graph.IdxMap.insert
  by_cases hk : k = i <;> simp [hk, h k]

theorem lookupAll_keys {α β : Type} {m : Graph.IdxMap α} {m' : Graph.IdxMap β}
    (h : SameKeys m m') : ∀ (l : List Nat) {xs : List α}, Graph.lookupAll m l = .ok xs →
    ∃ ys, Graph.lookupAll m' l = .ok ys := by
  intro l
  induction l with
  | nil => intro xs _; exact ⟨[], rfl⟩
  | cons i l ih =>
    intro xs e
    unfold Graph.lookupAll at e ⊢
    cases hm : m i with
    | none => rw [hm] at e; cases e
    | some a =>
      cases hm' : m' i with
      | none => rw [(h i).mpr hm'] at hm; cases hm
      | some b =>
        rw [hm] at e
        obtain ⟨ys, e1, e⟩ := Res.bind_ok.mp e
        obtain ⟨zs, e2⟩ := ih e1
        exact ⟨b :: zs, Res.bind_ok.mpr ⟨zs, e2, rfl⟩⟩

theorem hashPhase_at {g : Graph N S} {g' : Graph N' S'} (hg : GraphsAt RN L sg g g') (fr : Fr) :
    ∀ (l : List Nat) (m m' : Graph.IdxMap Nat) r, SameKeys m m' →
      Graph.hashPhase sem srt g fr l m = .ok r →
      ∃ r', Graph.hashPhase sem' srt g' fr l m' = .ok r' ∧ SameKeys r r' := by
  intro l
  induction l with
  | nil => intro m m' r h e; cases e; exact ⟨m', rfl, h⟩
  | cons i l ih =>
    intro m m' r h e
    unfold Graph.hashPhase at e ⊢
    rcases hg.nodes i with ⟨e1, e2⟩ | ⟨n, n', e1, e2, hn⟩
    · rw [e1] at e; cases e
    · rw [e1] at e
      rw [e2]
      obtain ⟨ps, f1, e⟩ := Res.bind_ok.mp e
      obtain ⟨hs, f2, e⟩ := Res.bind_ok.mp e
      obtain ⟨hs', f3⟩ := lookupAll_keys h _ f2
      obtain ⟨r', f4, f5⟩ := ih _ (m'.insert i (sem'.hash n' fr hs')) r (h.insert i _ _) e
      rw [hg.left] at f1
      exact ⟨r', Res.bind_ok.mpr ⟨ps, by rw [hg.right]; exact f1,
        Res.bind_ok.mpr ⟨hs', f3, f4⟩⟩, f5⟩

theorem nodesAt_at {g : Graph N S} {g' : Graph N' S'} (hg : GraphsAt RN L sg g g') :
    ∀ (l : List Nat) {ns : List N}, g.nodesAt l = .ok ns →
      ∃ ns', g'.nodesAt l = .ok ns' ∧ ns.length = ns'.length := by
  intro l
  induction l with
  | nil => intro ns e; cases e; exact ⟨[], rfl, rfl⟩
  | cons i l ih =>
    intro ns e
    unfold Graph.nodesAt at e ⊢
    rcases hg.nodes i with ⟨e1, e2⟩ | ⟨n, n', e1, e2, hn⟩
    · rw [e1] at e; cases e
    · rw [e1] at e
      rw [e2]
      obtain ⟨ms, f1, e⟩ := Res.bind_ok.mp e
      cases e
      obtain ⟨ms', f2, f3⟩ := ih f1
      exact ⟨_, Res.bind_ok.mpr ⟨ms', f2, rfl⟩, by simp [f3]⟩

theorem validateLoop_at (hv : AsksAt sem sem' RN) {g : Graph N S} {g' : Graph N' S'}
    (hg : GraphsAt RN L sg g g') {hashes hashes' : Graph.IdxMap Nat} (hh : SameKeys hashes hashes') :
    ∀ (fuel : Nat) (stack validated : List (Nat × Mode)) r,
      Graph.validateLoop sem srt g hashes fuel stack validated = .ok r →
      Graph.validateLoop sem' srt g' hashes' fuel stack validated = .ok r := by
  intro fuel
  induction fuel with
  | zero => intro _ _ r e; cases e
  | succ fuel ih =>
    intro stack validated r e
    cases stack with
    | nil => exact e
    | cons x stack =>
      obtain ⟨i, mode⟩ := x
      unfold Graph.validateLoop at e ⊢
      obtain ⟨ups, f1, e⟩ := Res.bind_ok.mp e
      obtain ⟨ns, f2, e⟩ := Res.bind_ok.mp e
      obtain ⟨ns', f3, f4⟩ := nodesAt_at hg _ f2
      rw [hg.left] at f1
      refine Res.bind_ok.mpr ⟨ups, by rw [hg.right]; exact f1, Res.bind_ok.mpr ⟨ns', f3, ?_⟩⟩
      rcases hg.nodes i with ⟨e1, e2⟩ | ⟨n, n', e1, e2, hn⟩
      · rw [e1] at e; cases e
      · rw [e1] at e
        rw [e2]
        dsimp only at e ⊢
        cases hm : hashes i with
        | none => rw [hm] at e; cases e
        | some a =>
          cases hm' : hashes' i with
          | none => rw [(hh i).mpr hm'] at hm; cases hm
          | some b =>
            rw [hm] at e
            dsimp only at e ⊢
            obtain ⟨modes, f5, e⟩ := Res.bind_ok.mp e
            rw [hv i n n' mode a b ns ns' hn f4] at f5
            exact Res.bind_ok.mpr ⟨modes, f5, ih _ _ r e⟩

/-- Related streams at every position that has one. -/
def MapAt (RS : Nat → S → S' → Prop) (m : Graph.IdxMap S) (m' : Graph.IdxMap S') : Prop :=
  ∀ i, (m i = none ∧ m' i = none) ∨ ∃ a b, m i = some a ∧ m' i = some b ∧ RS i a b

theorem lookupAll_at {m : Graph.IdxMap S} {m' : Graph.IdxMap S'} (h : MapAt RS m m') :
    ∀ (l : List Nat) {xs : List S}, Graph.lookupAll m l = .ok xs →
    ∃ ys, Graph.lookupAll m' l = .ok ys ∧ RelList RS l xs ys := by
  intro l
  induction l with
  | nil => intro xs e; cases e; exact ⟨[], rfl, .nil⟩
  | cons i l ih =>
    intro xs e
    unfold Graph.lookupAll at e ⊢
    rcases h i with ⟨e1, e2⟩ | ⟨a, b, e1, e2, hab⟩
    · rw [e1] at e; cases e
    · rw [e1] at e
      rw [e2]
      obtain ⟨ys, f1, e⟩ := Res.bind_ok.mp e
      cases e
      obtain ⟨zs, f2, f3⟩ := ih f1
      exact ⟨b :: zs, Res.bind_ok.mpr ⟨zs, f2, rfl⟩, .cons hab f3⟩

theorem GraphsAt.set {g : Graph N S} {g' : Graph N' S'} (hg : GraphsAt RN L sg g g') {i : Nat} {n n'}
    (hn : RN i n n') (out : S) (out' : S') :
    GraphsAt RN L sg { g with nodes := g.nodes.set i n, output := out }
      { g' with nodes := g'.nodes.set i n', output := out' } := by
  refine ⟨by simp [hg.size], hg.left, hg.right, hg.ids, fun k => ?_⟩
  dsimp only
  rcases hg.nodes k with ⟨e1, e2⟩ | ⟨a, b, e1, e2, hab⟩
  · left
    rw [List.getElem?_eq_none_iff] at e1 e2 ⊢
    rw [List.getElem?_eq_none_iff]
    simp only [List.length_set]
    exact ⟨e1, e2⟩
  · right
    by_cases hik : i = k
    · subst hik
      exact ⟨n, n', by simp [(List.getElem?_eq_some_iff.mp e1).1],
        by simp [(List.getElem?_eq_some_iff.mp e2).1], hn⟩
    · exact ⟨a, b, (List.getElem?_set_ne hik).trans e1, (List.getElem?_set_ne hik).trans e2, hab⟩

theorem computePhase_at {Req : Nat → Mode → Prop} {fr : Fr}
    (hst : StepsAt sem sem' srt sg Req fr RN RS RC RO) :
    ∀ (l : List (Nat × Mode)) (g : Graph N S) (g' : Graph N' S') (c : C) (c' : C')
      (m : Graph.IdxMap S) (m' : Graph.IdxMap S'), (∀ x ∈ l, Req x.1 x.2) → GraphsAt RN L sg g g' →
      RC c c' → MapAt RS m m' → ∀ e g1 c1,
      Graph.computePhase sem srt fr l g c m = .ok (e, g1, c1) →
      ∃ g1' c1', Graph.computePhase sem' srt fr l g' c' m' = .ok (e, g1', c1') ∧
        GraphsAt RN L sg g1 g1' ∧ RC c1 c1' ∧ (e ≠ none → RO g1.output g1'.output) ∧
        (e = none → ∀ x, l.getLast? = some x → RS x.1 g1.output g1'.output) := by
  intro l
  induction l with
  | nil =>
    intro g g' c c' m m' _ hg hc _ e g1 c1 h
    cases h
    exact ⟨g', c', rfl, hg, hc, fun h => absurd rfl h, fun _ x hx => by cases hx⟩
  | cons x l ih =>
    obtain ⟨i, mode⟩ := x
    intro g g' c c' m m' hreq hg hc hm e g1 c1 h
    unfold Graph.computePhase at h ⊢
    obtain ⟨ps, f1, h⟩ := Res.bind_ok.mp h
    obtain ⟨ins, f2, h⟩ := Res.bind_ok.mp h
    rw [hg.left] at f1
    obtain ⟨ins', f3, f4⟩ := lookupAll_at hm _ f2
    rcases hg.nodes i with ⟨e1, e2⟩ | ⟨n, n', e1, e2, hn⟩
    · rw [e1] at h; cases h
    · rw [e1] at h
      dsimp only at h
      obtain ⟨⟨n1, st, out, c2⟩, f5, h⟩ := Res.bind_ok.mp h
      obtain ⟨n1', out', c2', f6, k1, k2, k3, k4⟩ := hst i mode n n' ps ins ins' g.output g'.output
        c c' (hreq _ List.mem_cons_self) hn f1 f4 hc n1 st out c2 f5
      have hg' := hg.set k1 out out'
      have hre : ∀ r, (match Graph.statusError st with
            | some e => Except.ok (some e, { g' with nodes := g'.nodes.set i n1', output := out' }, c2')
            | none => Graph.computePhase sem' srt fr l
                { g' with nodes := g'.nodes.set i n1', output := out' } c2' (m'.insert i out')) =
              .ok r →
          (do
            let parents ← g'.graph.findDirectUpstream srt i
            let inputs ← Graph.lookupAll m' parents
            match g'.nodes[i]? with
            | none => Except.error Panic.index
            | some n => do
              let (n', st, out, c') ← sem'.compute n fr mode inputs g'.output c'
              let g' := { g' with nodes := g'.nodes.set i n', output := out }
              match Graph.statusError st with
              | some e => .ok (some e, g', c')
              | none => Graph.computePhase sem' srt fr l g' c' (m'.insert i out)) = .ok r := by
        intro r hr
        refine Res.bind_ok.mpr ⟨ps, by rw [hg.right]; exact f1, Res.bind_ok.mpr ⟨ins', f3, ?_⟩⟩
        rw [e2]
        exact Res.bind_ok.mpr ⟨_, f6, hr⟩
      dsimp only at h
      cases hse : Graph.statusError st with
      | some er =>
        rw [hse] at h hre k4
        cases h
        exact ⟨_, _, hre _ rfl, hg', k3, fun _ => k4 (by simp), fun h => by cases h⟩
      | none =>
        rw [hse] at h hre
        dsimp only at h
        obtain ⟨g1', c1', j1, j2, j3, j4, j5⟩ := ih _ _ c2 c2' (m.insert i out) (m'.insert i out')
          (fun x hx => hreq x (List.mem_cons_of_mem _ hx)) hg' k3 (by
            intro k
            unfold Graph.IdxMap.insert
            by_cases hk : k = i
            · subst hk
              exact .inr ⟨out, out', by simp, by simp, k2⟩
            · simp only [hk, if_false]
              exact hm k) e g1 c1 h
        refine ⟨g1', c1', hre _ j1, j2, j3, j4, fun he x hx => ?_⟩
        cases l with
        | nil =>
          simp only [List.getLast?_singleton, Option.some.injEq] at hx
          subst hx
          cases h
          cases j1
          exact k2
        | cons y ys =>
          rw [List.getLast?_cons_cons] at hx
          exact j5 he x hx

variable {Req : Nat → Mode → Prop}

theorem executeFrame_at (hv : AsksAt sem sem' RN) {fr : Fr}
    (hst : StepsAt sem sem' srt sg Req fr RN RS RC RO) {start : Nat}
    (hreq : ∀ g g', GraphsAt RN L sg (S := S) (S' := S') g g' → ∀ i m,
      Requested sem srt g start i m → Req i m) (rest : List Nat) (fuel : Nat)
    {g : Graph N S} {g' : Graph N' S'} (hg : GraphsAt RN L sg g g') {c : C} {c' : C'} (hc : RC c c')
    {e : Option ErrorCode} {g1 : Graph N S} {c1 : C}
    (h : g.executeFrame sem srt fuel (start :: rest) fr c = .ok (e, g1, c1)) :
    ∃ g1' c1', g'.executeFrame sem' srt fuel (start :: rest) fr c' = .ok (e, g1', c1') ∧
      GraphsAt RN L sg g1 g1' ∧ RC c1 c1' ∧ (e ≠ none → RO g1.output g1'.output) ∧
      (e = none → RS start g1.output g1'.output) := by
  unfold Graph.executeFrame at h ⊢
  obtain ⟨hashes, f1, h⟩ := Res.bind_ok.mp h
  obtain ⟨hashes', f2, f3⟩ := hashPhase_at (sem' := sem') hg fr _ _ (fun _ => none) _
    (fun k => Iff.rfl) f1
  obtain ⟨v, f4, h⟩ := Res.bind_ok.mp h
  have f5 := validateLoop_at hv hg f3 fuel _ _ _ f4
  obtain ⟨hpre, hr⟩ := validate_requested (start := start) fuel _ _ _
    (fun x hx => by rw [List.mem_singleton.mp hx]; exact .start)
    (fun x hx => by rw [List.mem_singleton.mp hx]; exact .start) f4
  have hlast : v.reverse.getLast? = some (start, modeAll) := by
    obtain ⟨t, ht⟩ := hpre
    rw [← ht]
    simp
  obtain ⟨g1', c1', k1, k2, k3, k4, k5⟩ := computePhase_at hst v.reverse g g' c c' (fun _ => none)
    (fun _ => none) (fun x hx => hreq g g' hg _ _ (hr x (List.mem_reverse.mp hx))) hg hc
    (fun i => .inl ⟨rfl, rfl⟩) e g1 c1 h
  exact ⟨g1', c1', Res.bind_ok.mpr ⟨hashes', f2, Res.bind_ok.mpr ⟨v, f5, k1⟩⟩, k2, k3, k4,
    fun he => k5 he _ hlast⟩

theorem frameLoop_at (hv : AsksAt sem sem' RN) {start : Nat}
    (hreq : ∀ g g', GraphsAt RN L sg (S := S) (S' := S') g g' → ∀ i m,
      Requested sem srt g start i m → Req i m) (rest : List Nat) (fuel : Nat)
    (hro : ∀ s s', RS start s s' → RO s s') :
    ∀ (frames : List Fr), (∀ fr ∈ frames, StepsAt sem sem' srt sg Req fr RN RS RC RO) →
    ∀ (g : Graph N S) (g' : Graph N' S') (c : C) (c' : C'), GraphsAt RN L sg g g' → RC c c' →
    ∀ e g1 c1, Graph.frameLoop sem srt fuel (start :: rest) frames g c = .ok (e, g1, c1) →
    ∃ g1' c1', Graph.frameLoop sem' srt fuel (start :: rest) frames g' c' = .ok (e, g1', c1') ∧
      GraphsAt RN L sg g1 g1' ∧ RC c1 c1' ∧ (frames ≠ [] → RO g1.output g1'.output) := by
  intro frames
  induction frames with
  | nil =>
    intro _ g g' c c' hg hc e g1 c1 h
    cases h
    exact ⟨g', c', rfl, hg, hc, fun h => absurd rfl h⟩
  | cons f fs ih =>
    intro hst g g' c c' hg hc e g1 c1 h
    unfold Graph.frameLoop at h ⊢
    obtain ⟨⟨e2, g2, c2⟩, f1, h⟩ := Res.bind_ok.mp h
    obtain ⟨g2', c2', k1, k2, k3, k4, k5⟩ := executeFrame_at hv (hst f List.mem_cons_self) hreq rest
      fuel hg hc f1
    dsimp only at h
    cases e2 with
    | some er =>
      cases h
      exact ⟨g2', c2', Res.bind_ok.mpr ⟨_, k1, rfl⟩, k2, k3, fun _ => k4 (by simp)⟩
    | none =>
      obtain ⟨g1', c1', j1, j2, j3, j4⟩ := ih (fun fr h => hst fr (List.mem_cons_of_mem _ h)) g2 g2'
        c2 c2' k2 k3 e g1 c1 h
      refine ⟨g1', c1', Res.bind_ok.mpr ⟨_, k1, j1⟩, j2, j3, fun _ => ?_⟩
      cases fs with
      | nil =>
        cases h
        cases j1
        exact hro _ _ (k5 rfl)
      | cons y ys => exact j4 (by simp)

/-- If every requested computation of the one graph has its counterpart in the other, then so has
every execution. -/
theorem execute_at (hv : AsksAt sem sem' RN) {id start : Nat}
    (hreq : ∀ g g', GraphsAt RN L sg (S := S) (S' := S') g g' → ∀ i m,
      Requested sem srt g start i m → Req i m) (fuel : Nat)
    (hro : ∀ s s', RS start s s' → RO s s') {frames : List Fr} (hne : frames ≠ [])
    (hst : ∀ fr ∈ frames, StepsAt sem sem' srt sg Req fr RN RS RC RO)
    {g : Graph N S} {g' : Graph N' S'} (hid : At g id start) {rest : List Nat}
    (ho : sg.findAllUpstream srt start = .ok (start :: rest))
    {c : C} {c' : C'} (hg : GraphsAt RN L sg g g') (hc : RC c c') {st : ExecuteStatus}
    {g1 : Graph N S} {c1 : C} (h : g.execute sem srt fuel id frames c = .ok (st, g1, c1)) :
    ∃ g1' c1', g'.execute sem' srt fuel id frames c' = .ok (st, g1', c1') ∧
      GraphsAt RN L sg g1 g1' ∧ RC c1 c1' ∧ RO g1.output g1'.output := by
  have hfind : g.find id = some start := find_at.mpr hid
  have hfind' : g'.find id = some start := by
    unfold Graph.find at hfind ⊢
    rw [← hg.ids]
    exact hfind
  unfold Graph.execute at h ⊢
  rw [hfind] at h
  rw [hfind']
  dsimp only at h ⊢
  obtain ⟨order, f1, h⟩ := Res.bind_ok.mp h
  rw [hg.left, ho] at f1
  cases f1
  obtain ⟨⟨e, g2, c2⟩, f2, h⟩ := Res.bind_ok.mp h
  obtain ⟨g2', c2', k1, k2, k3, k4⟩ := frameLoop_at hv hreq rest fuel hro frames hst g g' c c' hg hc
    e g2 c2 f2
  dsimp only at h
  cases e with
  | some er =>
    cases h
    exact ⟨_, _, Res.bind_ok.mpr ⟨_, by rw [hg.right]; exact ho, Res.bind_ok.mpr ⟨_, k1, rfl⟩⟩,
      ⟨k2.size, k2.left, k2.right, k2.ids, k2.nodes⟩, k3, k4 hne⟩
  | none =>
    cases h
    exact ⟨_, _, Res.bind_ok.mpr ⟨_, by rw [hg.right]; exact ho, Res.bind_ok.mpr ⟨_, k1, rfl⟩⟩,
      ⟨k2.size, k2.left, k2.right, k2.ids, k2.nodes⟩, k3, k4 hne⟩

end OCG
