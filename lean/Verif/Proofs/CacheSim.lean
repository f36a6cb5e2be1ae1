import Verif.Proofs.CacheRun
/-
Executions with a cache that holds only results of earlier computations, compared with executions
without cache.
-/

namespace OCG.CacheSpec

open HashSpec ComputeSpec

set_option linter.unusedSimpArgs false

variable {F H : Type} [FloatLike F] [HalfLike F H] [FloatConst F] [FloatBits F]

/-- Everything the computation starts from was itself computed. -/
def Ready (p : Profile) (lib : NodeLib F H) (K : Call F H → Prop) (c : Call F H) : Prop :=
  (∀ s ∈ c.inputs, Produced p lib K s) ∧ Produced p lib K c.prev

/-- The entry is the picture of some computation with that hash. -/
def Entry (p : Profile) (lib : NodeLib F H) (K : Call F H → Prop) (key : Nat) (i : Image F H) :
    Prop :=
  ∃ c st out, K c ∧ Ready p lib K c ∧ Caches lib c ∧ c.key lib = key ∧ Gives p lib c st out ∧
    Shows c.node.attrs.nodeType i out

/-- The cached computations are determined by their hashes. -/
def Faithful (p : Profile) (lib : NodeLib F H) (K : Call F H → Prop) : Prop :=
  ∀ c c', K c → K c' → Ready p lib K c → Ready p lib K c' → Caches lib c → Caches lib c' →
    c.key lib = c'.key lib → c.node.attrs.nodeType = c'.node.attrs.nodeType ∧
      ∀ st out, Gives p lib c st out → Gives p lib c' st out

/-- A world with cache beside one without. -/
structure Beside (p : Profile) (lib : NodeLib F H) (K : Call F H → Prop) (w v : World F H) :
    Prop where
  good : w.cache.Good (Entry p lib K)
  off : IsOff v
  writes : w.writes = v.writes

theorem plain_gives {p : Profile} {lib : NodeLib F H} {c : Call F H} (h : Plain p lib c)
    {w w' : World F H} {st : NodeStatus} {out : Stream F H}
    (e : c.run p lib w = .ok (st, out, w')) :
    ∃ jobs, (∀ v, c.run p lib v = .ok (st, out, ⟨v.cache, v.writes ++ jobs⟩)) ∧
      w' = ⟨w.cache, w.writes ++ jobs⟩ := by
  rcases h with ⟨e', h⟩ | ⟨st', out', jobs, h⟩
  · rw [h] at e; cases e
  · rw [h] at e
    simp only [Except.ok.injEq, Prod.mk.injEq] at e
    obtain ⟨rfl, rfl, rfl⟩ := e
    exact ⟨jobs, h, rfl⟩

/-- One computation with and without cache. -/
theorem run_beside {p : Profile} {lib : NodeLib F H} {K : Call F H → Prop}
    (hK : Faithful p lib K) (c : Call F H) (hc : K c) (hr : Ready p lib K c)
    (hset : Caches lib c → Settled c)
    (hre : c.node.attrs.nodeType = .resampleImage → ∀ out, ¬ Gives p lib c .error out)
    {w v w' : World F H} (hw : Beside p lib K w v) {st : NodeStatus} {out : Stream F H}
    (e : c.run p lib w = .ok (st, out, w')) :
    Gives p lib c st out ∧ ∃ v', c.run p lib v = .ok (st, out, v') ∧ Beside p lib K w' v' := by
  rcases run_shape p lib c with h | ⟨X, u, hit, make, fin, h⟩
  · obtain ⟨jobs, h1, rfl⟩ := plain_gives h e
    refine ⟨⟨_, h1 _⟩, _, h1 v, hw.good, ⟨hw.off.empty, hw.off.capacity⟩, ?_⟩
    dsimp only
    rw [hw.writes]
  · have e0 := e
    rw [h.run] at e
    obtain ⟨⟨w1, i, x⟩, e1, e⟩ := Res.bind_ok.mp e
    simp only [Except.ok.injEq, Prod.mk.injEq] at e
    obtain ⟨hst, hout, rfl⟩ := e
    have hentry : u = true → ∀ i x, make = .ok (i, x) → Entry p lib K (c.key lib) i := by
      intro hu i x hm
      exact ⟨c, (fin i x).1, (fin i x).2, hc, hr, h.caches hu, rfl,
        h.gives.mpr ⟨i, x, hm, rfl⟩, h.shows i x hm⟩
    obtain ⟨g1, g2, g3⟩ := lookup_good hw.good hentry e1
    obtain ⟨i', x', hm, hfin⟩ : ∃ i' x', make = .ok (i', x') ∧ fin i' x' = (st, out) := by
      rcases g3 with hm | ⟨hu, ⟨c0, st0, out0, k1, k2, k3, k4, k5, k6⟩, rfl⟩
      · exact ⟨i, x, hm, Prod.ext hst hout⟩
      · obtain ⟨t1, t2⟩ := hK c0 c k1 hc k2 hr k3 (h.caches hu) k4
        obtain ⟨i', x', hm, hfin⟩ := h.gives.mp (t2 _ _ k5)
        refine ⟨i', x', hm, ?_⟩
        rw [← h.settle (hset (h.caches hu)) hre i i' x' hm (by rw [← t1, hfin]; exact k6)]
        exact Prod.ext hst hout
    refine ⟨h.gives.mpr ⟨i', x', hm, hfin⟩, ?_⟩
    obtain ⟨v', a1, a2, a3⟩ := lookup_off_mpr (p := p) (u := u) (key := c.key lib) (hit := hit)
      hw.off hm
    refine ⟨v', ?_, g1, a2, by rw [g2, a3, hw.writes]⟩
    rw [h.run, a1]
    dsimp only [bind, Except.bind]
    rw [hfin]

/-! ### The graph -/

theorem logged_hashPhase (p : Profile) (lib : NodeLib F H) (srt : EdgeSort)
    (g : Graph (Node F) (Stream F H)) (frame : F) : ∀ (l : List Nat) (m : Graph.IdxMap Nat),
    Graph.hashPhase (logged p lib) srt g frame l m =
      Graph.hashPhase (nodeSem p lib) srt g frame l m := by
  intro l
  induction l with
  | nil => intro m; rfl
  | cons i l ih =>
    intro m
    unfold Graph.hashPhase
    simp only [ih]
    rfl

theorem logged_validateLoop (p : Profile) (lib : NodeLib F H) (srt : EdgeSort)
    (g : Graph (Node F) (Stream F H)) (hashes : Graph.IdxMap Nat) :
    ∀ (fuel : Nat) (stack v : List (Nat × Mode)),
    Graph.validateLoop (logged p lib) srt g hashes fuel stack v =
      Graph.validateLoop (nodeSem p lib) srt g hashes fuel stack v := by
  intro fuel
  induction fuel with
  | zero => intro stack v; rfl
  | succ fuel ih =>
    intro stack v
    cases stack with
    | nil => rfl
    | cons x stack =>
      obtain ⟨i, mode⟩ := x
      unfold Graph.validateLoop
      simp only [ih]
      rfl

/-- What is recorded stays recorded. -/
theorem logged_computePhase_sub (p : Profile) (lib : NodeLib F H) (srt : EdgeSort) (frame : F) :
    ∀ (l : List (Nat × Mode)) (g : Graph (Node F) (Stream F H)) (w : World F H)
    (log : List (Call F H)) (m : Graph.IdxMap (Stream F H)) (er : Option ErrorCode)
    (g' : Graph (Node F) (Stream F H)) (w' : World F H) (log' : List (Call F H)),
    Graph.computePhase (logged p lib) srt frame l g (w, log) m = .ok (er, g', (w', log')) →
    ∀ c ∈ log, c ∈ log' := by
  intro l
  induction l with
  | nil =>
    intro g w log m er g' w' log' h
    cases h
    exact fun _ h => h
  | cons a l ih =>
    obtain ⟨i, mode⟩ := a
    intro g w log m er g' w' log' h
    unfold Graph.computePhase at h
    obtain ⟨ps, h1, h⟩ := Res.bind_ok.mp h
    obtain ⟨ins, h2, h⟩ := Res.bind_ok.mp h
    cases hn : g.nodes[i]? with
    | none => rw [hn] at h; cases h
    | some n =>
      rw [hn] at h
      dsimp only at h
      obtain ⟨⟨n', st, out, w1, log1⟩, h3, h⟩ := Res.bind_ok.mp h
      have hl : log1 = log ++ [⟨n, frame, mode, ins, g.output⟩] := by
        unfold logged at h3
        dsimp only at h3
        cases hq : (nodeSem p lib).compute n frame mode ins g.output w with
        | error e => rw [hq] at h3; cases h3
        | ok y =>
          rw [hq] at h3
          simp only [Except.map, Except.ok.injEq, Prod.mk.injEq] at h3
          exact h3.2.2.2.2.symm
      dsimp only at h
      split at h
      · cases h
        rw [hl]
        exact fun c hc => List.mem_append_left _ hc
      · intro c hc
        exact ih _ _ _ _ _ _ _ _ h c (by rw [hl]; exact List.mem_append_left _ hc)

theorem lookupAll_mem {α : Type} {P : α → Prop} {m : Graph.IdxMap α}
    (hm : ∀ i s, m i = some s → P s) : ∀ (l : List Nat) (vs : List α),
    Graph.lookupAll m l = .ok vs → ∀ s ∈ vs, P s := by
  intro l
  induction l with
  | nil => intro vs e; cases e; simp
  | cons i l ih =>
    intro vs e
    unfold Graph.lookupAll at e
    cases hi : m i with
    | none => rw [hi] at e; cases e
    | some v =>
      rw [hi] at e
      obtain ⟨ws, e1, e⟩ := Res.bind_ok.mp e
      cases e
      intro s hs
      rcases List.mem_cons.mp hs with rfl | hs
      · exact hm _ _ hi
      · exact ih _ e1 s hs

/-- What is needed of the computations. -/
structure Sound (p : Profile) (lib : NodeLib F H) (K : Call F H → Prop) : Prop where
  faithful : Faithful p lib K
  settled : ∀ c, K c → Caches lib c → Settled c
  resampled : ∀ c, K c → c.node.attrs.nodeType = .resampleImage → ∀ out,
    ¬ Gives p lib c .error out

theorem computePhase_beside {p : Profile} {lib : NodeLib F H} {K : Call F H → Prop}
    (hK : Sound p lib K) (srt : EdgeSort) (frame : F) :
    ∀ (l : List (Nat × Mode)) (g : Graph (Node F) (Stream F H)) (w v : World F H)
    (log : List (Call F H)) (m : Graph.IdxMap (Stream F H)) (er : Option ErrorCode)
    (g' : Graph (Node F) (Stream F H)) (w' : World F H) (log' : List (Call F H)),
    Beside p lib K w v → Produced p lib K g.output →
    (∀ i s, m i = some s → Produced p lib K s) →
    Graph.computePhase (logged p lib) srt frame l g (w, log) m = .ok (er, g', (w', log')) →
    (∀ c ∈ log', K c) →
    ∃ v', Graph.computePhase (nodeSem p lib) srt frame l g v m = .ok (er, g', v') ∧
      Beside p lib K w' v' ∧ Produced p lib K g'.output := by
  intro l
  induction l with
  | nil =>
    intro g w v log m er g' w' log' hb ho hm h _
    cases h
    exact ⟨v, rfl, hb, ho⟩
  | cons a l ih =>
    obtain ⟨i, mode⟩ := a
    intro g w v log m er g' w' log' hb ho hm h hlog
    have h0 := h
    unfold Graph.computePhase at h ⊢
    obtain ⟨ps, h1, h⟩ := Res.bind_ok.mp h
    obtain ⟨ins, h2, h⟩ := Res.bind_ok.mp h
    simp only [h1, h2, bind, Except.bind]
    cases hn : g.nodes[i]? with
    | none => rw [hn] at h; cases h
    | some n =>
      rw [hn] at h
      dsimp only at h ⊢
      obtain ⟨⟨n', st, out, w1, log1⟩, h3, h⟩ := Res.bind_ok.mp h
      obtain ⟨hl, hrun, hn'⟩ : log1 = log ++ [⟨n, frame, mode, ins, g.output⟩] ∧
          Call.run p lib ⟨n, frame, mode, ins, g.output⟩ w = .ok (st, out, w1) ∧
          n' = { n with status := st } := by
        unfold logged at h3
        dsimp only at h3
        cases hq : (nodeSem p lib).compute n frame mode ins g.output w with
        | error e => rw [hq] at h3; cases h3
        | ok y =>
          rw [hq] at h3
          simp only [Except.map, Except.ok.injEq, Prod.mk.injEq] at h3
          unfold nodeSem at hq
          dsimp only at hq
          obtain ⟨⟨a1, a2, a3⟩, q1, hq⟩ := Res.bind_ok.mp hq
          simp only [Except.ok.injEq] at hq
          rw [← hq] at h3
          obtain ⟨rfl, rfl, rfl, rfl, rfl⟩ := h3
          exact ⟨rfl, q1, rfl⟩
      dsimp only at h
      have hcall : K ⟨n, frame, mode, ins, g.output⟩ := by
        apply hlog
        have hmem : (⟨n, frame, mode, ins, g.output⟩ : Call F H) ∈ log1 := by
          rw [hl]
          exact List.mem_append_right _ (List.mem_singleton.mpr rfl)
        split at h
        · cases h
          exact hmem
        · exact logged_computePhase_sub p lib srt frame _ _ _ _ _ _ _ _ _ h _ hmem
      have hready : Ready p lib K ⟨n, frame, mode, ins, g.output⟩ :=
        ⟨lookupAll_mem hm _ _ h2, ho⟩
      obtain ⟨hg, v1, e1, hb1⟩ := run_beside hK.faithful _ hcall hready (hK.settled _ hcall)
        (hK.resampled _ hcall) hb hrun
      have hout : Produced p lib K out := .step _ _ _ hcall hready.1 hready.2 hg
      have hcomp : (nodeSem p lib).compute n frame mode ins g.output v = .ok (n', st, out, v1) := by
        unfold nodeSem
        dsimp only
        unfold Call.run at e1
        dsimp only at e1
        rw [e1, hn']
        rfl
      rw [hcomp]
      dsimp only
      cases her : Graph.statusError st with
      | some e =>
        rw [her] at h
        cases h
        exact ⟨_, rfl, hb1, hout⟩
      | none =>
        rw [her] at h
        dsimp only at h ⊢
        refine ih _ _ v1 _ _ _ _ _ _ hb1 hout ?_ h hlog
        intro j s hj
        unfold Graph.IdxMap.insert at hj
        split at hj
        · simp only [Option.some.injEq] at hj
          rw [← hj]
          exact hout
        · exact hm j s hj

theorem logged_executeFrame_sub (p : Profile) (lib : NodeLib F H) (srt : EdgeSort) (fuel : Nat)
    (g : Graph (Node F) (Stream F H)) (order : List Nat) (frame : F) (w : World F H)
    (log : List (Call F H)) (er : Option ErrorCode) (g' : Graph (Node F) (Stream F H))
    (w' : World F H) (log' : List (Call F H))
    (h : Graph.executeFrame (logged p lib) srt fuel g order frame (w, log) =
      .ok (er, g', (w', log'))) : ∀ c ∈ log, c ∈ log' := by
  unfold Graph.executeFrame at h
  obtain ⟨hs, h2, h⟩ := Res.bind_ok.mp h
  cases order with
  | nil => cases h
  | cons o os =>
    dsimp only at h
    obtain ⟨vl, h3, h⟩ := Res.bind_ok.mp h
    exact logged_computePhase_sub p lib srt frame _ _ _ _ _ _ _ _ _ h

theorem logged_frameLoop_sub (p : Profile) (lib : NodeLib F H) (srt : EdgeSort) (fuel : Nat)
    (order : List Nat) : ∀ (fs : List F) (g : Graph (Node F) (Stream F H)) (w : World F H)
    (log : List (Call F H)) (er : Option ErrorCode) (g' : Graph (Node F) (Stream F H))
    (w' : World F H) (log' : List (Call F H)),
    Graph.frameLoop (logged p lib) srt fuel order fs g (w, log) = .ok (er, g', (w', log')) →
    ∀ c ∈ log, c ∈ log' := by
  intro fs
  induction fs with
  | nil =>
    intro g w log er g' w' log' h
    cases h
    exact fun _ h => h
  | cons f fs ih =>
    intro g w log er g' w' log' h
    unfold Graph.frameLoop at h
    obtain ⟨⟨e, g1, w1, log1⟩, h1, h⟩ := Res.bind_ok.mp h
    have hs := logged_executeFrame_sub p lib srt fuel g order f w log e g1 w1 log1 h1
    dsimp only at h
    cases e with
    | some er => cases h; exact hs
    | none => exact fun c hc => ih _ _ _ _ _ _ _ h c (hs c hc)

theorem frameLoop_beside {p : Profile} {lib : NodeLib F H} {K : Call F H → Prop}
    (hK : Sound p lib K) (srt : EdgeSort) (fuel : Nat) (order : List Nat) :
    ∀ (fs : List F) (g : Graph (Node F) (Stream F H)) (w v : World F H)
    (log : List (Call F H)) (er : Option ErrorCode)
    (g' : Graph (Node F) (Stream F H)) (w' : World F H) (log' : List (Call F H)),
    Beside p lib K w v → Produced p lib K g.output →
    Graph.frameLoop (logged p lib) srt fuel order fs g (w, log) = .ok (er, g', (w', log')) →
    (∀ c ∈ log', K c) →
    ∃ v', Graph.frameLoop (nodeSem p lib) srt fuel order fs g v = .ok (er, g', v') ∧
      Beside p lib K w' v' ∧ Produced p lib K g'.output := by
  intro fs
  induction fs with
  | nil =>
    intro g w v log er g' w' log' hb ho h _
    cases h
    exact ⟨v, rfl, hb, ho⟩
  | cons f fs ih =>
    intro g w v log er g' w' log' hb ho h hlog
    unfold Graph.frameLoop at h ⊢
    obtain ⟨⟨e, g1, w1, log1⟩, h1, h⟩ := Res.bind_ok.mp h
    dsimp only at h
    have hlog1 : ∀ c ∈ log1, K c := by
      intro c hc
      cases e with
      | some er => cases h; exact hlog c hc
      | none => exact hlog c (logged_frameLoop_sub p lib srt fuel order _ _ _ _ _ _ _ _ h c hc)
    obtain ⟨v1, e1, hb1, ho1⟩ : ∃ v', Graph.executeFrame (nodeSem p lib) srt fuel g order f v =
        .ok (e, g1, v') ∧ Beside p lib K w1 v' ∧ Produced p lib K g1.output := by
      unfold Graph.executeFrame at h1 ⊢
      obtain ⟨hs, h2, h1⟩ := Res.bind_ok.mp h1
      rw [logged_hashPhase] at h2
      rw [h2]
      cases order with
      | nil => cases h1
      | cons o os =>
        dsimp only at h1
        obtain ⟨vl, h3, h1⟩ := Res.bind_ok.mp h1
        rw [logged_validateLoop] at h3
        simp only [bind, Except.bind]
        rw [h3]
        exact computePhase_beside hK srt f _ _ _ _ _ _ _ _ _ _ hb ho (by simp) h1 hlog1
    simp only [e1, bind, Except.bind]
    cases e with
    | some er =>
      cases h
      exact ⟨v1, rfl, hb1, ho1⟩
    | none => exact ih _ _ _ _ _ _ _ _ hb1 ho1 h hlog

/-- A whole execution with and without cache. -/
theorem execute_beside {p : Profile} {lib : NodeLib F H} {K : Call F H → Prop}
    (hK : Sound p lib K) (srt : EdgeSort) (fuel : Nat) (g g' : Graph (Node F) (Stream F H))
    (id : Nat) (frames : List F) (w v w' : World F H) (log : List (Call F H))
    (status : ExecuteStatus) (hb : Beside p lib K w v) (ho : Produced p lib K g.output)
    (h : Graph.execute (logged p lib) srt fuel g id frames (w, []) = .ok (status, g', (w', log)))
    (hlog : ∀ c ∈ log, K c) :
    ∃ v', Graph.execute (nodeSem p lib) srt fuel g id frames v = .ok (status, g', v') ∧
      Beside p lib K w' v' ∧ Produced p lib K g'.output := by
  unfold Graph.execute at h ⊢
  cases hf : g.find id with
  | none =>
    rw [hf] at h
    cases h
    exact ⟨v, rfl, hb, ho⟩
  | some start =>
    rw [hf] at h
    dsimp only at h ⊢
    obtain ⟨order, h1, h⟩ := Res.bind_ok.mp h
    obtain ⟨⟨e, g1, w1, log1⟩, h2, h⟩ := Res.bind_ok.mp h
    have hl : log1 = log ∧ w1 = w' := by
      cases e with
      | some er => cases h; exact ⟨rfl, rfl⟩
      | none => cases h; exact ⟨rfl, rfl⟩
    obtain ⟨v1, e1, hb1, ho1⟩ := frameLoop_beside hK srt fuel order frames g w v [] e g1 w1 log1 hb
      ho h2 (by rw [hl.1]; exact hlog)
    rw [hl.2] at hb1
    simp only [h1, e1, bind, Except.bind]
    cases e with
    | some er => cases h; exact ⟨v1, rfl, hb1, ho1⟩
    | none => cases h; exact ⟨v1, rfl, hb1, ho1⟩

/-- The cache of every history holds only results of computations. -/
theorem history_good {p : Profile} {lib : NodeLib F H} {K : Call F H → Prop}
    (hK : Sound p lib K) (srt : EdgeSort) {w : World F H} (h : History p lib srt K w) :
    w.cache.Good (Entry p lib K) := by
  induction h with
  | start c l => exact Cache.good_empty _ rfl
  | capacity w n c _ e ih => exact ih.setCapacity e
  | execute w w' fuel g g' id frames status log _ ho e hlog ih =>
    obtain ⟨v', -, hb, -⟩ := execute_beside hK srt fuel g g' id frames w
      ⟨.withCapacity 0, w.writes⟩ w' log status ⟨ih, ⟨rfl, rfl⟩, rfl⟩ ho e hlog
    exact hb.good

end OCG.CacheSpec
