import Verif.Proofs.ExecRule
/-
Executions with nodes that panic, compared with executions in which the same nodes fail instead.
-/

namespace OCG

open GraphSpec

variable {N S C Fr : Type}

/-- The same nodes, failing where they would panic. -/
def tame (sem : NodeSem N S C Fr) : NodeSem N S C Fr where
  id := sem.id
  status := sem.status
  hash := sem.hash
  validate n mode h ns := match sem.validate n mode h ns with
    | .ok modes => .ok modes
    | .error _ => .ok (ns.map fun _ => 0)
  compute n fr m ins prev c := match sem.compute n fr m ins prev c with
    | .ok r => .ok r
    | .error _ => .ok (n, .error, prev, c)

/-- A node satisfying `P` panics with `e`, asked what it needs or computing. -/
def NodePanics (sem : NodeSem N S C Fr) (P : N → Prop) (e : Panic) : Prop :=
  ∃ n, P n ∧ ((∃ mode h ns, sem.validate n mode h ns = .error e) ∨
    ∃ fr m ins prev c, sem.compute n fr m ins prev c = .error e)

theorem hashPhase_tame {sem : NodeSem N S C Fr} {srt : EdgeSort} {g : Graph N S} {fr : Fr} :
    ∀ (l : List Nat) (m : Graph.IdxMap Nat),
    Graph.hashPhase (tame sem) srt g fr l m = Graph.hashPhase sem srt g fr l m := by
  intro l
  induction l with
  | nil => intro m; rfl
  | cons i is ih =>
    intro m
    unfold Graph.hashPhase
    cases g.nodes[i]? with
    | none => rfl
    | some n => simp only [ih]; rfl

theorem validateLoop_tame {sem : NodeSem N S C Fr} {srt : EdgeSort} {g : Graph N S}
    {P : N → Prop} (hP : ∀ n ∈ g.nodes, P n) {hashes : Graph.IdxMap Nat} :
    ∀ (fuel : Nat) (stack validated : List (Nat × Mode)),
    Graph.validateLoop sem srt g hashes fuel stack validated =
        Graph.validateLoop (tame sem) srt g hashes fuel stack validated ∨
      ∃ e, Graph.validateLoop sem srt g hashes fuel stack validated = .error e ∧
        NodePanics sem P e := by
  intro fuel
  induction fuel with
  | zero => intro _ _; exact .inl rfl
  | succ fuel ih =>
    intro stack validated
    cases stack with
    | nil => exact .inl rfl
    | cons x stack =>
      obtain ⟨i, mode⟩ := x
      unfold Graph.validateLoop
      cases g.graph.findDirectUpstream srt i with
      | error e => exact .inl rfl
      | ok ups =>
        simp only [bind, Except.bind]
        cases g.nodesAt ups with
        | error e => exact .inl rfl
        | ok ns =>
          dsimp only
          cases hn : g.nodes[i]? with
          | none => exact .inl rfl
          | some n =>
            dsimp only
            cases hashes i with
            | none => exact .inl rfl
            | some h =>
              dsimp only
              cases hv : sem.validate n mode h ns with
              | error e => exact .inr ⟨e, rfl, n, hP n (List.mem_of_getElem? hn), .inl ⟨_, _, _, hv⟩⟩
              | ok modes =>
                have : (tame sem).validate n mode h ns = .ok modes := by
                  simp only [tame, hv]
                simp only [this]
                exact ih _ _

theorem computePhase_tame {sem : NodeSem N S C Fr} {srt : EdgeSort} {fr : Fr} {P : N → Prop}
    (hk : ∀ n fr m ins prev c n' st out c', P n →
      sem.compute n fr m ins prev c = .ok (n', st, out, c') → P n') :
    ∀ (l : List (Nat × Mode)) (g : Graph N S) (c : C) (streams : Graph.IdxMap S),
    (∀ n ∈ g.nodes, P n) →
    (Graph.computePhase sem srt fr l g c streams =
        Graph.computePhase (tame sem) srt fr l g c streams ∧
      ∀ e g' c', Graph.computePhase sem srt fr l g c streams = .ok (e, g', c') →
        ∀ n ∈ g'.nodes, P n) ∨
      ∃ e, Graph.computePhase sem srt fr l g c streams = .error e ∧ NodePanics sem P e := by
  intro l
  induction l with
  | nil => intro g c s hP; exact .inl ⟨rfl, fun e g' c' h => by cases h; exact hP⟩
  | cons x l ih =>
    obtain ⟨i, mode⟩ := x
    intro g c streams hP
    unfold Graph.computePhase
    cases g.graph.findDirectUpstream srt i with
    | error e => exact .inl ⟨rfl, fun e g' c' h => by cases h⟩
    | ok ups =>
      simp only [bind, Except.bind]
      cases Graph.lookupAll streams ups with
      | error e => exact .inl ⟨rfl, fun e g' c' h => by cases h⟩
      | ok vals =>
        dsimp only
        cases hn : g.nodes[i]? with
        | none => exact .inl ⟨rfl, fun e g' c' h => by cases h⟩
        | some n =>
          dsimp only
          have hPn := hP n (List.mem_of_getElem? hn)
          cases hc : sem.compute n fr mode vals g.output c with
          | error e => exact .inr ⟨e, rfl, n, hPn, .inr ⟨_, _, _, _, _, hc⟩⟩
          | ok r =>
            obtain ⟨n', st, out, c1⟩ := r
            have : (tame sem).compute n fr mode vals g.output c = .ok (n', st, out, c1) := by
              simp only [tame, hc]
            simp only [this]
            have hP' : ∀ m ∈ g.nodes.set i n', P m := by
              intro m hm
              rcases List.mem_or_eq_of_mem_set hm with h | h
              · exact hP m h
              · rw [h]; exact hk _ _ _ _ _ _ _ _ _ _ hPn hc
            cases Graph.statusError st with
            | some er => exact .inl ⟨rfl, fun e g' c' h => by cases h; exact hP'⟩
            | none => exact ih _ _ _ hP'

theorem executeFrame_tame {sem : NodeSem N S C Fr} {srt : EdgeSort} {P : N → Prop}
    (hk : ∀ n fr m ins prev c n' st out c', P n →
      sem.compute n fr m ins prev c = .ok (n', st, out, c') → P n')
    (fuel : Nat) (order : List Nat) (fr : Fr) (g : Graph N S) (c : C) (hP : ∀ n ∈ g.nodes, P n) :
    (g.executeFrame sem srt fuel order fr c = g.executeFrame (tame sem) srt fuel order fr c ∧
      ∀ e g' c', g.executeFrame sem srt fuel order fr c = .ok (e, g', c') → ∀ n ∈ g'.nodes, P n) ∨
      ∃ e, g.executeFrame sem srt fuel order fr c = .error e ∧ NodePanics sem P e := by
  unfold Graph.executeFrame
  rw [hashPhase_tame]
  cases Graph.hashPhase sem srt g fr order.reverse (fun _ => none) with
  | error e => exact .inl ⟨rfl, fun e g' c' h => by cases h⟩
  | ok hashes =>
    simp only [bind, Except.bind]
    cases order with
    | nil => exact .inl ⟨rfl, fun e g' c' h => by cases h⟩
    | cons o os =>
      dsimp only
      rcases validateLoop_tame (sem := sem) (srt := srt) hP (hashes := hashes) fuel
        [(o, modeAll)] [(o, modeAll)] with h | ⟨e, h, hp⟩
      · rw [← h]
        cases Graph.validateLoop sem srt g hashes fuel [(o, modeAll)] [(o, modeAll)] with
        | error e => exact .inl ⟨rfl, fun e g' c' h => by cases h⟩
        | ok v => exact computePhase_tame hk _ _ _ _ hP
      · right
        exact ⟨e, by rw [h], hp⟩

theorem frameLoop_tame {sem : NodeSem N S C Fr} {srt : EdgeSort} {P : N → Prop}
    (hk : ∀ n fr m ins prev c n' st out c', P n →
      sem.compute n fr m ins prev c = .ok (n', st, out, c') → P n')
    (fuel : Nat) (order : List Nat) : ∀ (frames : List Fr) (g : Graph N S) (c : C),
    (∀ n ∈ g.nodes, P n) →
    Graph.frameLoop sem srt fuel order frames g c =
        Graph.frameLoop (tame sem) srt fuel order frames g c ∨
      ∃ e, Graph.frameLoop sem srt fuel order frames g c = .error e ∧ NodePanics sem P e := by
  intro frames
  induction frames with
  | nil => intro g c _; exact .inl rfl
  | cons f fs ih =>
    intro g c hP
    unfold Graph.frameLoop
    rcases executeFrame_tame hk fuel order f g c hP with ⟨h, hP'⟩ | ⟨e, h, hp⟩
    · rw [← h]
      cases he : g.executeFrame sem srt fuel order f c with
      | error e => exact .inl rfl
      | ok r =>
        obtain ⟨e, g1, c1⟩ := r
        simp only [bind, Except.bind]
        cases e with
        | some e => exact .inl rfl
        | none => exact ih _ _ (hP' _ _ _ he)
    · right
      exact ⟨e, by rw [h]; rfl, hp⟩

/-- An execution is the execution of the tame nodes, unless a node panics. -/
theorem execute_tame {sem : NodeSem N S C Fr} {srt : EdgeSort} {P : N → Prop}
    (hk : ∀ n fr m ins prev c n' st out c', P n →
      sem.compute n fr m ins prev c = .ok (n', st, out, c') → P n')
    (fuel : Nat) (id : Nat) (frames : List Fr) (g : Graph N S) (c : C)
    (hP : ∀ n ∈ g.nodes, P n) :
    g.execute sem srt fuel id frames c = g.execute (tame sem) srt fuel id frames c ∨
      ∃ e, g.execute sem srt fuel id frames c = .error e ∧ NodePanics sem P e := by
  unfold Graph.execute
  cases g.find id with
  | none => exact .inl rfl
  | some start =>
    dsimp only
    cases g.graph.findAllUpstream srt start with
    | error e => exact .inl rfl
    | ok order =>
      simp only [bind, Except.bind]
      rcases frameLoop_tame hk fuel order frames g c hP with h | ⟨e, h, hp⟩
      · rw [h]; exact .inl rfl
      · exact .inr ⟨e, by rw [h], hp⟩

theorem tame_validates {sem : NodeSem N S C Fr}
    (hl : ∀ n mode h ns modes, sem.validate n mode h ns = .ok modes → modes.length = ns.length) :
    ValidateTotal (tame sem) := by
  intro n mode h ns
  cases hv : sem.validate n mode h ns with
  | ok modes => exact ⟨modes, by simp only [tame, hv], hl _ _ _ _ _ hv⟩
  | error e => exact ⟨ns.map fun _ => 0, by simp only [tame, hv], by simp⟩

end OCG
