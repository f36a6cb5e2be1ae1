import Verif.Spec.Recall
import Verif.Proofs.CacheSim
import Verif.Proofs.CacheHist
import Verif.Proofs.Relate
/-
Executions whose results are all in the cache.
-/

namespace OCG.RecallSpec

open CacheSpec

variable {F H : Type} [FloatLike F] [HalfLike F H] [FloatConst F] [FloatBits F]

section
variable {V : Type}

theorem get_find (c : Cache V) (k : Nat) : (c.get k).2 = Cache.find c.lru k := by
  unfold Cache.get
  split
  · rename_i v h; exact h.symm
  · rename_i h; exact h.symm

theorem find_touched {l : List (Nat × V)} {k : Nat} {v : V} (h : Cache.find l k = some v) (j : Nat) :
    Cache.find (Cache.eraseKey l k ++ [(k, v)]) j = Cache.find l j := by
  have := Cache.find_mapInsert l k j v
  rw [Cache.mapInsert] at this
  rw [this]
  split
  · rename_i hj; rw [hj, h]
  · rfl

/-- The cache only grew, if nothing was dropped. -/
structure Grows (c c' : Cache V) : Prop where
  capacity : c'.capacity = c.capacity
  evictions : c.evictions ≤ c'.evictions
  holds : c'.evictions = c.evictions → Holds c c'

theorem Grows.refl (c : Cache V) : Grows c c := ⟨rfl, le_rfl, fun _ _ _ h => h⟩

theorem Grows.trans {a b c : Cache V} (h : Grows a b) (h' : Grows b c) : Grows a c := by
  refine ⟨h'.capacity.trans h.capacity, h.evictions.trans h'.evictions, fun e k v hk => ?_⟩
  have h1 := h.evictions
  have h2 := h'.evictions
  exact h'.holds (by omega) k v (h.holds (by omega) k v hk)

theorem OnlyHits.refl (c : Cache V) : OnlyHits c c := ⟨fun _ => rfl, rfl, rfl, rfl, rfl, rfl⟩

theorem OnlyHits.trans {a b c : Cache V} (h : OnlyHits a b) (h' : OnlyHits b c) : OnlyHits a c :=
  ⟨fun k => (h'.found k).trans (h.found k), h'.used.trans h.used, h'.capacity.trans h.capacity,
    h'.misses.trans h.misses, h'.inserts.trans h.inserts, h'.evictions.trans h.evictions⟩

theorem grows_get (c : Cache V) (k : Nat) : Grows c (c.get k).1 := by
  refine ⟨?_, ?_, ?_⟩
  · unfold Cache.get; split <;> rfl
  · unfold Cache.get; split <;> exact le_rfl
  · intro _ j v hj
    rw [get_find] at hj ⊢
    unfold Cache.get
    split
    · rename_i x hx
      dsimp only
      rw [find_touched hx]
      exact hj
    · exact hj

theorem grows_insert {size : V → Nat} {p : Profile} {c c' : Cache V} {k : Nat} {v : V}
    (hn : Cache.find c.lru k = none) (e : Cache.insert size p c k v = .ok c') :
    Grows c c' ∧ (c.capacity ≠ 0 → Cache.find c'.lru k = some v) := by
  by_cases hc : c.capacity = 0
  · simp only [Cache.insert, hc, if_true, Except.ok.injEq] at e
    subst e
    exact ⟨Grows.refl _, fun h => absurd hc h⟩
  · obtain ⟨d, h1, h2, h3, h4⟩ := Cache.insert_shape c c' k v hc e
    have hev : c'.evictions = d.evictions := h4.2.2.2
    have hle := h1.suffix.length_le
    have hsum := h1.evictions
    refine ⟨⟨h3, by omega, fun he j x hj => ?_⟩, fun _ => ?_⟩
    · have : d.lru = c.lru := h1.suffix.eq_of_length (by omega)
      rw [get_find] at hj ⊢
      rw [h2, this, Cache.find_mapInsert]
      split
      · rename_i hjk
        rw [hjk, hn] at hj
        cases hj
      · exact hj
    · rw [h2, Cache.find_mapInsert, if_pos rfl]

end

section
variable {X : Type} {p : Profile} {key : Nat} {hit : X} {make : Res (Image F H × X)}

omit [FloatLike F] [HalfLike F H] [FloatConst F] [FloatBits F] in
/-- After a lookup, the image is in the cache. -/
theorem lookup_grows {u : Bool} {w w' : World F H} {i : Image F H} {x : X}
    (e : lookup p u w key hit make = .ok (w', i, x)) :
    Grows w.cache w'.cache ∧ w'.writes = w.writes ∧
      (make = .ok (i, x) ∨ (u = true ∧ x = hit)) ∧
      (u = true → w.cache.capacity ≠ 0 → (w'.cache.get key).2 = some i) := by
  unfold lookup at e
  cases u with
  | false =>
    rw [if_neg (by simp)] at e
    obtain ⟨⟨i', x'⟩, e1, e⟩ := Res.bind_ok.mp e
    simp only [Except.ok.injEq, Prod.mk.injEq] at e
    obtain ⟨rfl, rfl, rfl⟩ := e
    exact ⟨Grows.refl _, rfl, .inl e1, by rintro ⟨⟩⟩
  | true =>
    have hgr := grows_get w.cache key
    have hgf := get_find w.cache key
    rw [if_pos rfl] at e
    split at e
    · rename_i c image hg
      rw [hg] at hgr hgf
      simp only [Except.ok.injEq, Prod.mk.injEq] at e
      obtain ⟨rfl, rfl, rfl⟩ := e
      refine ⟨hgr, rfl, .inr ⟨rfl, rfl⟩, fun _ _ => ?_⟩
      have : (w.cache.get key).2 = some image := by rw [hg]
      refine hgr.holds ?_ _ _ this
      have : c = (w.cache.get key).1 := by rw [hg]
      rw [this]
      unfold Cache.get
      split <;> rfl
    · rename_i c hg
      rw [hg] at hgr hgf
      obtain ⟨⟨i', x'⟩, e1, e⟩ := Res.bind_ok.mp e
      obtain ⟨c', e2, e⟩ := Res.bind_ok.mp e
      simp only [Except.ok.injEq, Prod.mk.injEq] at e
      obtain ⟨rfl, rfl, rfl⟩ := e
      have hl : c.lru = w.cache.lru := by
        have : c = (w.cache.get key).1 := by rw [hg]
        rw [this]
        unfold Cache.get
        rw [← hgf]
      obtain ⟨k1, k2⟩ := grows_insert (by rw [hl]; exact hgf.symm) e2
      refine ⟨hgr.trans k1, rfl, .inl e1, fun _ hc => ?_⟩
      rw [get_find]
      exact k2 (by rw [hgr.capacity]; exact hc)

omit [FloatLike F] [HalfLike F H] [FloatConst F] [FloatBits F] in
/-- An image in the cache is taken from there, whatever computing it would give. -/
theorem lookup_held {v : World F H} {i : Image F H} (h : (v.cache.get key).2 = some i) :
    ∃ v', lookup p true v key hit make = .ok (v', i, hit) ∧ OnlyHits v.cache v'.cache ∧
      v'.writes = v.writes := by
  unfold lookup
  rw [if_pos rfl]
  rw [get_find] at h
  unfold Cache.get
  rw [h]
  refine ⟨_, rfl, ⟨fun k => ?_, rfl, rfl, rfl, rfl, rfl⟩, rfl⟩
  rw [get_find, get_find]
  exact find_touched h k

end

theorem call_key {lib lib' : NodeLib F H} (ho : OtherFiles lib lib') (c : Call F H) :
    c.key lib' = c.key lib := by
  unfold Call.key
  rw [ho.hash, ho.shell]

/-- Nodes other than those that read do not look into files. -/
theorem run_unread {p : Profile} {lib lib' : NodeLib F H} (ho : OtherFiles lib lib') (c : Call F H)
    (h : c.node.attrs.nodeType ≠ .readImage) (w : World F H) :
    c.run p lib' w = c.run p lib w := by
  obtain ⟨hash, shell, kind, bk, lens, ⟨h1, h2, h3, h4, h5, h6, h7, h8, h9⟩⟩ := lib
  obtain ⟨hash', shell', kind', bk', lens', ⟨h1', h2', h3', h4', h5', h6', h7', h8', h9'⟩⟩ := lib'
  obtain ⟨a1, a2, a3, a4, a5, a6, a7, a8, a9⟩ := ho
  dsimp only at a1 a2 a3 a4 a5 a6 a7 a8 a9
  subst a1 a2 a3 a4 a5 a6 a7 a8 a9
  obtain ⟨⟨id, st, attrs⟩, frame, mode, inputs, prev⟩ := c
  cases attrs
  case readImage a => exact absurd rfl h
  all_goals rfl

/-- A reading node that does not use a file. -/
theorem run_read {p : Profile} {lib lib' : NodeLib F H} (ho : OtherFiles lib lib') (c : Call F H)
    (h : c.node.attrs.nodeType = .readImage) :
    (∀ w, c.run p lib' w = c.run p lib w) ∨
    ∃ make make' fin,
      Looks p lib c Unit (decide (c.node.getI32 "use_cache" ≠ 0)) () make fin ∧
      Looks p lib' c Unit (decide (c.node.getI32 "use_cache" ≠ 0)) () make' fin := by
  obtain ⟨⟨id, st, attrs⟩, frame, mode, inputs, prev⟩ := c
  cases attrs
  case readImage a =>
    by_cases hm : mode &&& modePixel = modePixel
    · by_cases he : a.enable = 0
      · exact .inl fun w => by
          simp only [Call.run, Node.run, ReadImageAttrs.compute, if_pos hm, if_pos he]
      · cases hk : lib.pathKind (Path.expandString lib.shell a.filePath (frameNum frame)) with
        | missing =>
          have hk' := hk
          rw [← ho.pathKind, ← ho.shell] at hk'
          exact .inl fun w => by
            simp only [Call.run, Node.run, ReadImageAttrs.compute, if_pos hm, if_neg he, hk, hk']
        | other =>
          have hk' := hk
          rw [← ho.pathKind, ← ho.shell] at hk'
          by_cases h1 : a.enable = 1
          · exact .inl fun w => by
              simp only [Call.run, Node.run, ReadImageAttrs.compute, if_pos hm, if_neg he, hk, hk',
                h1, ne_eq, not_true_eq_false, if_false]
          · exact .inl fun w => by
              have hh : (⟨id, st, .readImage a⟩ : Node F).hash lib'.hash lib'.shell frame
                  (inputs.map (·.hash)) = (⟨id, st, .readImage a⟩ : Node F).hash lib.hash lib.shell
                  frame (inputs.map (·.hash)) := by rw [ho.hash, ho.shell]
              simp only [Call.run, Node.run, ReadImageAttrs.compute, if_pos hm, if_neg he, hk, hk',
                h1, ne_eq, not_false_eq_true, if_true, hh]
        | file =>
          have hk' := hk
          rw [← ho.pathKind, ← ho.shell] at hk'
          have k1 := looks_read p lib id st a frame mode inputs prev hm he hk
          have k2 := looks_read p lib' id st a frame mode inputs prev hm he hk'
          rw [call_key ho] at k2
          simp only [attr_eval]
          exact .inr ⟨_, _, _, k1, k2⟩
    · exact .inl fun w => by
        simp only [Call.run, Node.run, ReadImageAttrs.compute, if_neg hm]
  all_goals cases h

/-- The computation, done in a cache with its result, gives the same. -/
def RunAgain (p : Profile) (lib' : NodeLib F H) (c : Call F H) (w w' v : World F H)
    (st : NodeStatus) (out : Stream F H) : Prop :=
  Grows w.cache w'.cache ∧
    (Holds w'.cache v.cache → ∃ v' jobs, c.run p lib' v = .ok (st, out, v') ∧
      OnlyHits v.cache v'.cache ∧ w'.writes = w.writes ++ jobs ∧ v'.writes = v.writes ++ jobs)

/-- One computation and the same computation later, with its result in the cache. -/
theorem run_recalled {p : Profile} {lib lib' : NodeLib F H} (ho : OtherFiles lib lib') (c : Call F H)
    (hr : Repeatable p lib c) {w w' v : World F H} (hc : w.cache.capacity ≠ 0) {st : NodeStatus}
    {out : Stream F H} (e : c.run p lib w = .ok (st, out, w')) :
    RunAgain p lib' c w w' v st out := by
  have plain : Plain p lib c → (∀ w, c.run p lib' w = c.run p lib w) → RunAgain p lib' c w w' v st out := by
    intro h hs
    obtain ⟨jobs, h1, rfl⟩ := plain_gives h e
    exact ⟨Grows.refl _, fun _ => ⟨_, jobs, (hs v).trans (h1 v), OnlyHits.refl _, rfl, rfl⟩⟩
  have looks : ∀ {X : Type} {u : Bool} {hit : X} {make make' : Res (Image F H × X)}
      {fin : Image F H → X → NodeStatus × Stream F H}, Looks p lib c X u hit make fin →
      (∀ w, c.run p lib' w = (lookup p u w (c.key lib) hit make' >>= fun r =>
        .ok ((fin r.2.1 r.2.2).1, (fin r.2.1 r.2.2).2, r.1))) →
      (u = false → make' = make) → RunAgain p lib' c w w' v st out := by
    intro X u hit make make' fin h hrun hmk
    rw [h.run] at e
    obtain ⟨⟨w1, i, x⟩, e1, e⟩ := Res.bind_ok.mp e
    simp only [Except.ok.injEq, Prod.mk.injEq] at e
    obtain ⟨hst, hout, rfl⟩ := e
    obtain ⟨g1, g2, g3, g4⟩ := lookup_grows e1
    refine ⟨g1, fun hv => ?_⟩
    cases u with
    | false =>
      rcases g3 with hm | ⟨hu, -⟩
      · refine ⟨v, [], ?_, OnlyHits.refl _, by simp [g2], by simp⟩
        rw [hrun, hmk rfl, hm]
        simp only [lookup, Bool.false_eq_true, if_false, bind, Except.bind]
        rw [hst, hout]
      · cases hu
    | true =>
      obtain ⟨v', k1, k2, k3⟩ := lookup_held (p := p) (hit := hit) (make := make')
        (hv _ _ (g4 rfl hc))
      refine ⟨v', [], ?_, k2, by simp [g2], by simp [k3]⟩
      rw [hrun, k1]
      dsimp only [bind, Except.bind]
      have hfin : fin i hit = fin i x := by
        rcases g3 with hm | ⟨-, rfl⟩
        · exact h.settle (hr.settled (h.caches rfl)) hr.resampled i i x hm (h.shows i x hm)
        · rfl
      rw [hfin, hst, hout]
  have same : (∀ w, c.run p lib' w = c.run p lib w) → RunAgain p lib' c w w' v st out := fun hs => by
    rcases run_shape p lib c with h | ⟨X, u, hit, make, fin, h⟩
    · exact plain h hs
    · exact looks h (fun w => by rw [hs, h.run]) fun _ => rfl
  by_cases ht : c.node.attrs.nodeType = .readImage
  · rcases run_read (p := p) ho c ht with h1 | ⟨make, make', fin, h1, h2⟩
    · exact same h1
    · refine looks h1 (make' := make') (fun w => ?_) fun hu => ?_
      · rw [h2.run, call_key ho]
      · exact absurd (hr.files ht) (of_decide_eq_false hu)
  · exact same (run_unread ho c ht)

/-! ### The graph -/

theorem other_hashPhase (p : Profile) {lib lib' : NodeLib F H} (ho : OtherFiles lib lib')
    (srt : EdgeSort) (g : Graph (Node F) (Stream F H)) (frame : F) :
    ∀ (l : List Nat) (m : Graph.IdxMap Nat),
    Graph.hashPhase (nodeSem p lib') srt g frame l m =
      Graph.hashPhase (nodeSem p lib) srt g frame l m := by
  have hh : (nodeSem p lib').hash = (nodeSem p lib).hash := by
    unfold nodeSem
    dsimp only
    rw [ho.hash, ho.shell]
  intro l
  induction l with
  | nil => intro m; rfl
  | cons i l ih =>
    intro m
    unfold Graph.hashPhase
    simp only [ih, hh]

theorem other_validateLoop (p : Profile) (lib lib' : NodeLib F H) (srt : EdgeSort)
    (g : Graph (Node F) (Stream F H)) (hashes : Graph.IdxMap Nat) :
    ∀ (fuel : Nat) (stack v : List (Nat × Mode)),
    Graph.validateLoop (nodeSem p lib') srt g hashes fuel stack v =
      Graph.validateLoop (nodeSem p lib) srt g hashes fuel stack v := by
  intro fuel
  induction fuel with
  | zero => intro stack v; rfl
  | succ fuel ih =>
    intro stack v
    cases stack with
    | nil => rfl
    | cons x stack =>
      obtain ⟨i, mode⟩ := x
      unfold Graph.validateLoop
      simp only [ih]
      rfl

theorem logged_compute {p : Profile} {lib : NodeLib F H} {n n' : Node F} {frame : F} {mode : Mode}
    {ins : List (Stream F H)} {prev out : Stream F H} {w w' : World F H} {log log' : List (Call F H)}
    {st : NodeStatus}
    (h : (logged p lib).compute n frame mode ins prev (w, log) = .ok (n', st, out, (w', log'))) :
    log' = log ++ [⟨n, frame, mode, ins, prev⟩] ∧
      Call.run p lib ⟨n, frame, mode, ins, prev⟩ w = .ok (st, out, w') ∧
      n' = { n with status := st } := by
  unfold logged at h
  dsimp only at h
  cases hq : (nodeSem p lib).compute n frame mode ins prev w with
  | error e => rw [hq] at h; cases h
  | ok y =>
    rw [hq] at h
    simp only [Except.map, Except.ok.injEq, Prod.mk.injEq] at h
    unfold nodeSem at hq
    dsimp only at hq
    obtain ⟨⟨a1, a2, a3⟩, q1, hq⟩ := Res.bind_ok.mp hq
    simp only [Except.ok.injEq] at hq
    rw [← hq] at h
    obtain ⟨rfl, rfl, rfl, rfl, rfl⟩ := h
    exact ⟨rfl, q1, rfl⟩

/-- The same for a part of an execution that ends in a cache `w'`, of which nothing is
dropped: in a world that holds everything, the same part gives the same. -/
def PartAgain (w w' v v' : World F H) : Prop :=
  OnlyHits v.cache v'.cache ∧
    ∃ jobs, w'.writes = w.writes ++ jobs ∧ v'.writes = v.writes ++ jobs

omit [FloatLike F] [HalfLike F H] [FloatConst F] [FloatBits F] in
theorem PartAgain.trans {w1 w2 w3 v1 v2 v3 : World F H} (h : PartAgain w1 w2 v1 v2)
    (h' : PartAgain w2 w3 v2 v3) : PartAgain w1 w3 v1 v3 := by
  obtain ⟨a, jobs, b, c⟩ := h
  obtain ⟨a', jobs', b', c'⟩ := h'
  exact ⟨a.trans a', jobs ++ jobs', by rw [b', b, List.append_assoc],
    by rw [c', c, List.append_assoc]⟩

omit [FloatLike F] [HalfLike F H] [FloatConst F] [FloatBits F] in
theorem PartAgain.refl (w v : World F H) : PartAgain w w v v :=
  ⟨OnlyHits.refl _, [], by simp, by simp⟩

theorem Holds.after {V : Type} {a b c : Cache V} (h : Holds a b) (hb : OnlyHits b c) : Holds a c :=
  fun k v hk => by rw [hb.found]; exact h k v hk

theorem Holds.before {V : Type} {a b c : Cache V} (h : Holds b c) (ha : Holds a b) : Holds a c :=
  fun k v hk => h k v (ha k v hk)

theorem computePhase_again {p : Profile} {lib lib' : NodeLib F H} (ho : OtherFiles lib lib')
    (srt : EdgeSort) (frame : F) :
    ∀ (l : List (Nat × Mode)) (g : Graph (Node F) (Stream F H)) (w : World F H)
    (log : List (Call F H)) (m : Graph.IdxMap (Stream F H)) (er : Option ErrorCode)
    (g' : Graph (Node F) (Stream F H)) (w' : World F H) (log' : List (Call F H)),
    w.cache.capacity ≠ 0 →
    Graph.computePhase (logged p lib) srt frame l g (w, log) m = .ok (er, g', (w', log')) →
    (∀ c ∈ log', Repeatable p lib c) →
    Grows w.cache w'.cache ∧ (w'.cache.evictions = w.cache.evictions →
      ∀ v : World F H, Holds w'.cache v.cache →
      ∃ v', Graph.computePhase (nodeSem p lib') srt frame l g v m = .ok (er, g', v') ∧
        PartAgain w w' v v') := by
  intro l
  induction l with
  | nil =>
    intro g w log m er g' w' log' _ h _
    cases h
    exact ⟨Grows.refl _, fun _ v _ => ⟨v, rfl, PartAgain.refl _ _⟩⟩
  | cons a l ih =>
    obtain ⟨i, mode⟩ := a
    intro g w log m er g' w' log' hcap h hlog
    unfold Graph.computePhase at h ⊢
    obtain ⟨ps, h1, h⟩ := Res.bind_ok.mp h
    obtain ⟨ins, h2, h⟩ := Res.bind_ok.mp h
    simp only [h1, h2, bind, Except.bind]
    cases hn : g.nodes[i]? with
    | none => rw [hn] at h; cases h
    | some n =>
      rw [hn] at h
      dsimp only at h ⊢
      obtain ⟨⟨n', st, out, w1, log1⟩, h3, h⟩ := Res.bind_ok.mp h
      obtain ⟨hl, hrun, hn'⟩ := logged_compute h3
      dsimp only at h
      have hcall : Repeatable p lib ⟨n, frame, mode, ins, g.output⟩ := by
        apply hlog
        have hmem : (⟨n, frame, mode, ins, g.output⟩ : Call F H) ∈ log1 := by
          rw [hl]
          exact List.mem_append_right _ (List.mem_singleton.mpr rfl)
        split at h
        · cases h
          exact hmem
        · exact logged_computePhase_sub p lib srt frame _ _ _ _ _ _ _ _ _ h _ hmem
      have hstep := fun v => run_recalled ho _ hcall (v := v) hcap hrun
      have hcomp : ∀ v v1, Call.run p lib' ⟨n, frame, mode, ins, g.output⟩ v = .ok (st, out, v1) →
          (nodeSem p lib').compute n frame mode ins g.output v = .ok (n', st, out, v1) := by
        intro v v1 e1
        unfold nodeSem
        dsimp only
        unfold Call.run at e1
        dsimp only at e1
        rw [e1, hn']
        rfl
      cases her : Graph.statusError st with
      | some e =>
        rw [her] at h
        cases h
        refine ⟨(hstep w).1, fun _ v hv => ?_⟩
        obtain ⟨v1, jobs, e1, k1, k2, k3⟩ := (hstep v).2 hv
        rw [hcomp v v1 e1]
        dsimp only
        rw [her]
        exact ⟨_, rfl, k1, jobs, k2, k3⟩
      | none =>
        rw [her] at h
        dsimp only at h
        obtain ⟨j1, j2⟩ := ih _ _ _ _ _ _ _ _ (by rw [(hstep w).1.capacity]; exact hcap) h hlog
        refine ⟨(hstep w).1.trans j1, fun hev v hv => ?_⟩
        have hg1 := (hstep w).1.evictions
        have hg2 := j1.evictions
        have hev2 : w'.cache.evictions = w1.cache.evictions := by omega
        obtain ⟨v1, jobs, e1, k1, k2, k3⟩ := (hstep v).2 (hv.before (j1.holds hev2))
        obtain ⟨v', e2, k4⟩ := j2 hev2 v1 (hv.after k1)
        rw [hcomp v v1 e1]
        dsimp only
        rw [her]
        exact ⟨v', e2, PartAgain.trans ⟨k1, jobs, k2, k3⟩ k4⟩

theorem frameLoop_again {p : Profile} {lib lib' : NodeLib F H} (ho : OtherFiles lib lib')
    (srt : EdgeSort) (fuel : Nat) (order : List Nat) :
    ∀ (fs : List F) (g : Graph (Node F) (Stream F H)) (w : World F H)
    (log : List (Call F H)) (er : Option ErrorCode)
    (g' : Graph (Node F) (Stream F H)) (w' : World F H) (log' : List (Call F H)),
    w.cache.capacity ≠ 0 →
    Graph.frameLoop (logged p lib) srt fuel order fs g (w, log) = .ok (er, g', (w', log')) →
    (∀ c ∈ log', Repeatable p lib c) →
    Grows w.cache w'.cache ∧ (w'.cache.evictions = w.cache.evictions →
      ∀ v : World F H, Holds w'.cache v.cache →
      ∃ v', Graph.frameLoop (nodeSem p lib') srt fuel order fs g v = .ok (er, g', v') ∧
        PartAgain w w' v v') := by
  intro fs
  induction fs with
  | nil =>
    intro g w log er g' w' log' _ h _
    cases h
    exact ⟨Grows.refl _, fun _ v _ => ⟨v, rfl, PartAgain.refl _ _⟩⟩
  | cons f fs ih =>
    intro g w log er g' w' log' hcap h hlog
    unfold Graph.frameLoop at h ⊢
    obtain ⟨⟨e, g1, w1, log1⟩, h1, h⟩ := Res.bind_ok.mp h
    dsimp only at h
    have hlog1 : ∀ c ∈ log1, Repeatable p lib c := by
      intro c hc
      cases e with
      | some er => cases h; exact hlog c hc
      | none => exact hlog c (logged_frameLoop_sub p lib srt fuel order _ _ _ _ _ _ _ _ h c hc)
    have hstep : Grows w.cache w1.cache ∧ (w1.cache.evictions = w.cache.evictions →
        ∀ v : World F H, Holds w1.cache v.cache →
        ∃ v', Graph.executeFrame (nodeSem p lib') srt fuel g order f v = .ok (e, g1, v') ∧
          PartAgain w w1 v v') := by
      unfold Graph.executeFrame at h1 ⊢
      obtain ⟨hs, h2, h1⟩ := Res.bind_ok.mp h1
      rw [logged_hashPhase, ← other_hashPhase p ho] at h2
      rw [h2]
      cases order with
      | nil => cases h1
      | cons o os =>
        dsimp only at h1
        obtain ⟨vl, h3, h1⟩ := Res.bind_ok.mp h1
        rw [logged_validateLoop, ← other_validateLoop p lib lib'] at h3
        simp only [bind, Except.bind]
        rw [h3]
        exact computePhase_again ho srt f _ _ _ _ _ _ _ _ _ hcap h1 hlog1
    cases e with
    | some er =>
      cases h
      refine ⟨hstep.1, fun hev v hv => ?_⟩
      obtain ⟨v1, e1, k1⟩ := hstep.2 hev v hv
      simp only [e1, bind, Except.bind]
      exact ⟨v1, rfl, k1⟩
    | none =>
      obtain ⟨j1, j2⟩ := ih _ _ _ _ _ _ _ (by rw [hstep.1.capacity]; exact hcap) h hlog
      refine ⟨hstep.1.trans j1, fun hev v hv => ?_⟩
      have hg1 := hstep.1.evictions
      have hg2 := j1.evictions
      have hev2 : w'.cache.evictions = w1.cache.evictions := by omega
      obtain ⟨v1, e1, k1⟩ := hstep.2 (by omega) v (hv.before (j1.holds hev2))
      obtain ⟨v', e2, k2⟩ := j2 hev2 v1 (hv.after k1.1)
      simp only [e1, bind, Except.bind]
      exact ⟨v', e2, k1.trans k2⟩

/-- A whole execution, and the same execution with all results in the cache. -/
theorem execute_again {p : Profile} {lib lib' : NodeLib F H} (ho : OtherFiles lib lib')
    (srt : EdgeSort) (fuel : Nat) (g g' : Graph (Node F) (Stream F H))
    (id : Nat) (frames : List F) (w w' : World F H) (log : List (Call F H))
    (status : ExecuteStatus) (hcap : w.cache.capacity ≠ 0)
    (h : Graph.execute (logged p lib) srt fuel g id frames (w, []) = .ok (status, g', (w', log)))
    (hlog : ∀ c ∈ log, Repeatable p lib c) :
    Grows w.cache w'.cache ∧ (w'.cache.evictions = w.cache.evictions →
      ∀ v : World F H, Holds w'.cache v.cache →
      ∃ v', Graph.execute (nodeSem p lib') srt fuel g id frames v = .ok (status, g', v') ∧
        PartAgain w w' v v') := by
  unfold Graph.execute at h ⊢
  cases hf : g.find id with
  | none =>
    rw [hf] at h
    cases h
    exact ⟨Grows.refl _, fun _ v _ => ⟨v, rfl, PartAgain.refl _ _⟩⟩
  | some start =>
    rw [hf] at h
    dsimp only at h ⊢
    obtain ⟨order, h1, h⟩ := Res.bind_ok.mp h
    obtain ⟨⟨e, g1, w1, log1⟩, h2, h⟩ := Res.bind_ok.mp h
    have hl : log1 = log ∧ w1 = w' := by
      cases e with
      | some er => cases h; exact ⟨rfl, rfl⟩
      | none => cases h; exact ⟨rfl, rfl⟩
    obtain ⟨rfl, rfl⟩ := hl
    obtain ⟨j1, j2⟩ := frameLoop_again ho srt fuel order frames g w [] e g1 w1 log1 hcap h2 hlog
    refine ⟨j1, fun hev v hv => ?_⟩
    obtain ⟨v', e1, k1⟩ := j2 hev v hv
    simp only [h1, e1, bind, Except.bind]
    cases e with
    | some er => cases h; exact ⟨v', rfl, k1⟩
    | none => cases h; exact ⟨v', rfl, k1⟩

theorem run_grows (p : Profile) (lib : NodeLib F H) (c : Call F H) {w w' : World F H}
    {st : NodeStatus} {out : Stream F H} (e : c.run p lib w = .ok (st, out, w')) :
    Grows w.cache w'.cache := by
  rcases run_shape p lib c with h | ⟨X, u, hit, make, fin, h⟩
  · obtain ⟨jobs, -, rfl⟩ := plain_gives h e
    exact Grows.refl _
  · rw [h.run] at e
    obtain ⟨⟨w1, i, x⟩, e1, e⟩ := Res.bind_ok.mp e
    cases e
    exact (lookup_grows e1).1

/-- Executing only adds to the cache, unless something is dropped. -/
theorem execute_grows (p : Profile) (lib : NodeLib F H) (srt : EdgeSort) (fuel : Nat)
    (g g' : Graph (Node F) (Stream F H)) (id : Nat) (frames : List F) (w w' : World F H)
    (status : ExecuteStatus)
    (h : Graph.execute (nodeSem p lib) srt fuel g id frames w = .ok (status, g', w')) :
    Grows w.cache w'.cache := by
  refine (execute_keeps (PN := fun _ => True) (PS := fun _ => True)
    (PC := fun v => Grows w.cache v.cache) ?_ srt fuel (fun _ _ => trivial) trivial id frames
    (Grows.refl _) h).2.2
  intro n fr m ins prev c n' st out c' _ _ _ hc hk
  refine ⟨trivial, trivial, hc.trans ?_⟩
  unfold nodeSem at hk
  dsimp only at hk
  obtain ⟨⟨a1, a2, a3⟩, q1, hk⟩ := Res.bind_ok.mp hk
  cases hk
  exact run_grows p lib ⟨n, fr, m, ins, prev⟩ q1

theorem later_grows {p : Profile} {srt : EdgeSort} {w v : World F H} (h : Later p srt w v) :
    Grows w.cache v.cache := by
  induction h with
  | refl => exact Grows.refl _
  | step lib _ e ih => exact ih.trans (execute_grows p lib srt _ _ _ _ _ _ _ _ e)

end OCG.RecallSpec
