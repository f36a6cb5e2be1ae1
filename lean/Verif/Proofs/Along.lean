import Verif.Model.Graph
/-
A rule for two executions of one graph that differ in the world only: a property of the world that
is inherited backwards from the end of the first execution allows the second one to keep up.
-/

namespace OCG

variable {N S C Fr : Type}

/-- One computation: an invariant `Q` is kept, `P` is inherited backwards, and where it holds, a
computation in a world related by `Sim` gives the same. -/
def Along (sem : NodeSem N S C Fr) (Q P : C → Prop) (Sim : C → C → Prop) : Prop :=
  ∀ n f m ins prev c n' st out c1, sem.compute n f m ins prev c = .ok (n', st, out, c1) → Q c →
    Q c1 ∧ (P c1 → P c ∧ ∀ v, Sim c v →
      ∃ v1, sem.compute n f m ins prev v = .ok (n', st, out, v1) ∧ Sim c1 v1)

variable {sem : NodeSem N S C Fr} {Q P : C → Prop} {Sim : C → C → Prop}

theorem computePhase_along (h : Along sem Q P Sim) (srt : EdgeSort) (f : Fr) :
    ∀ (l : List (Nat × Mode)) (g : Graph N S) (c : C) (m : Graph.IdxMap S) (er : Option ErrorCode)
    (g' : Graph N S) (c' : C), Graph.computePhase sem srt f l g c m = .ok (er, g', c') → Q c →
    Q c' ∧ (P c' → P c ∧ ∀ v, Sim c v →
      ∃ v', Graph.computePhase sem srt f l g v m = .ok (er, g', v') ∧ Sim c' v') := by
  intro l
  induction l with
  | nil =>
    intro g c m er g' c' e hq
    cases e
    exact ⟨hq, fun hp => ⟨hp, fun v hv => ⟨v, rfl, hv⟩⟩⟩
  | cons a l ih =>
    obtain ⟨i, mode⟩ := a
    intro g c m er g' c' e hq
    unfold Graph.computePhase at e ⊢
    obtain ⟨ps, h1, e⟩ := Res.bind_ok.mp e
    obtain ⟨ins, h2, e⟩ := Res.bind_ok.mp e
    simp only [h1, h2, bind, Except.bind]
    cases hn : g.nodes[i]? with
    | none => rw [hn] at e; cases e
    | some n =>
      rw [hn] at e
      dsimp only at e ⊢
      obtain ⟨⟨n', st, out, c1⟩, h3, e⟩ := Res.bind_ok.mp e
      dsimp only at e
      obtain ⟨k1, k2⟩ := h _ _ _ _ _ _ _ _ _ _ h3 hq
      cases her : Graph.statusError st with
      | some x =>
        rw [her] at e
        cases e
        refine ⟨k1, fun hp => ⟨(k2 hp).1, fun v hv => ?_⟩⟩
        obtain ⟨v1, e1, hs⟩ := (k2 hp).2 v hv
        rw [e1]
        dsimp only
        rw [her]
        exact ⟨v1, rfl, hs⟩
      | none =>
        rw [her] at e
        dsimp only at e
        obtain ⟨j1, j2⟩ := ih _ _ _ _ _ _ e k1
        refine ⟨j1, fun hp => ?_⟩
        obtain ⟨i1, i2⟩ := j2 hp
        refine ⟨(k2 i1).1, fun v hv => ?_⟩
        obtain ⟨v1, e1, hs⟩ := (k2 i1).2 v hv
        obtain ⟨v2, e2, hs2⟩ := i2 v1 hs
        rw [e1]
        dsimp only
        rw [her]
        exact ⟨v2, e2, hs2⟩

theorem frameLoop_along (h : Along sem Q P Sim) (srt : EdgeSort) (fuel : Nat) (order : List Nat) :
    ∀ (fs : List Fr) (g : Graph N S) (c : C) (er : Option ErrorCode) (g' : Graph N S) (c' : C),
    Graph.frameLoop sem srt fuel order fs g c = .ok (er, g', c') → Q c →
    Q c' ∧ (P c' → P c ∧ ∀ v, Sim c v →
      ∃ v', Graph.frameLoop sem srt fuel order fs g v = .ok (er, g', v') ∧ Sim c' v') := by
  intro fs
  induction fs with
  | nil =>
    intro g c er g' c' e hq
    cases e
    exact ⟨hq, fun hp => ⟨hp, fun v hv => ⟨v, rfl, hv⟩⟩⟩
  | cons f fs ih =>
    intro g c er g' c' e hq
    unfold Graph.frameLoop at e ⊢
    obtain ⟨⟨x, g1, c1⟩, h1, e⟩ := Res.bind_ok.mp e
    dsimp only at e
    have hstep : Q c1 ∧ (P c1 → P c ∧ ∀ v, Sim c v →
        ∃ v', Graph.executeFrame sem srt fuel g order f v = .ok (x, g1, v') ∧ Sim c1 v') := by
      unfold Graph.executeFrame at h1 ⊢
      obtain ⟨hs, h2, h1⟩ := Res.bind_ok.mp h1
      rw [h2]
      cases order with
      | nil => cases h1
      | cons o os =>
        dsimp only at h1
        obtain ⟨vl, h3, h1⟩ := Res.bind_ok.mp h1
        simp only [bind, Except.bind]
        rw [h3]
        exact computePhase_along h srt f _ _ _ _ _ _ _ h1 hq
    obtain ⟨k1, k2⟩ := hstep
    cases x with
    | some x =>
      cases e
      refine ⟨k1, fun hp => ⟨(k2 hp).1, fun v hv => ?_⟩⟩
      obtain ⟨v1, e1, hs⟩ := (k2 hp).2 v hv
      simp only [e1, bind, Except.bind]
      exact ⟨v1, rfl, hs⟩
    | none =>
      obtain ⟨j1, j2⟩ := ih _ _ _ _ _ e k1
      refine ⟨j1, fun hp => ?_⟩
      obtain ⟨i1, i2⟩ := j2 hp
      refine ⟨(k2 i1).1, fun v hv => ?_⟩
      obtain ⟨v1, e1, hs⟩ := (k2 i1).2 v hv
      obtain ⟨v2, e2, hs2⟩ := i2 v1 hs
      simp only [e1, bind, Except.bind]
      exact ⟨v2, e2, hs2⟩

/-- The rule for whole executions. -/
theorem execute_along (h : Along sem Q P Sim) (srt : EdgeSort) (fuel : Nat) {g g' : Graph N S}
    {id : Nat} {frames : List Fr} {c c' : C} {status : ExecuteStatus}
    (e : Graph.execute sem srt fuel g id frames c = .ok (status, g', c')) (hq : Q c) :
    Q c' ∧ (P c' → P c ∧ ∀ v, Sim c v →
      ∃ v', Graph.execute sem srt fuel g id frames v = .ok (status, g', v') ∧ Sim c' v') := by
  unfold Graph.execute at e ⊢
  cases hf : g.find id with
  | none =>
    rw [hf] at e
    cases e
    exact ⟨hq, fun hp => ⟨hp, fun v hv => ⟨v, rfl, hv⟩⟩⟩
  | some start =>
    rw [hf] at e
    dsimp only at e ⊢
    obtain ⟨order, h1, e⟩ := Res.bind_ok.mp e
    obtain ⟨⟨x, g1, c1⟩, h2, e⟩ := Res.bind_ok.mp e
    obtain ⟨k1, k2⟩ := frameLoop_along h srt fuel order frames g c x g1 c1 h2 hq
    have hc : c1 = c' := by cases x <;> cases e <;> rfl
    subst hc
    refine ⟨k1, fun hp => ⟨(k2 hp).1, fun v hv => ?_⟩⟩
    obtain ⟨v1, e1, hs⟩ := (k2 hp).2 v hv
    simp only [h1, e1, bind, Except.bind]
    cases x with
    | some y => cases e; exact ⟨v1, rfl, hs⟩
    | none => cases e; exact ⟨v1, rfl, hs⟩

end OCG
