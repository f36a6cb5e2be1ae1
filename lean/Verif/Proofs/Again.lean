import Verif.Proofs.Relate
/-
Executions that do not look at the output left by earlier ones.
-/

namespace OCG

open GraphSpec

variable {N S C Fr : Type}

theorem hashPhase_output (sem : NodeSem N S C Fr) (srt : EdgeSort) (g : Graph N S) (frame : Fr)
    (x : S) : ∀ (l : List Nat) (m : Graph.IdxMap Nat),
    Graph.hashPhase sem srt { g with output := x } frame l m =
      Graph.hashPhase sem srt g frame l m := by
  intro l
  induction l with
  | nil => intro m; rfl
  | cons i l ih =>
    intro m
    unfold Graph.hashPhase
    simp only [ih]

theorem nodesAt_output (g : Graph N S) (x : S) : ∀ (l : List Nat),
    Graph.nodesAt { g with output := x } l = g.nodesAt l := by
  intro l
  induction l with
  | nil => rfl
  | cons i l ih => unfold Graph.nodesAt; simp only [ih]

theorem validateLoop_output (sem : NodeSem N S C Fr) (srt : EdgeSort) (g : Graph N S)
    (hashes : Graph.IdxMap Nat) (x : S) :
    ∀ (fuel : Nat) (stack v : List (Nat × Mode)),
    Graph.validateLoop sem srt { g with output := x } hashes fuel stack v =
      Graph.validateLoop sem srt g hashes fuel stack v := by
  intro fuel
  induction fuel with
  | zero => intro stack v; rfl
  | succ fuel ih =>
    intro stack v
    cases stack with
    | nil => rfl
    | cons x stack =>
      obtain ⟨i, mode⟩ := x
      unfold Graph.validateLoop
      simp only [ih, nodesAt_output]

/-- The output left by earlier executions reaches only the first computation, which has no
inputs. -/
theorem computePhase_output (sem : NodeSem N S C Fr) (srt : EdgeSort) (frame : Fr)
    {l : List (Nat × Mode)} (hl : l ≠ []) (g : Graph N S) (x : S) (c : C)
    (h : ∀ i mode n, (i, mode) ∈ l → g.nodes[i]? = some n →
      g.graph.findDirectUpstream srt i = .ok [] →
      sem.compute n frame mode [] x c = sem.compute n frame mode [] g.output c) :
    Graph.computePhase sem srt frame l { g with output := x } c (fun _ => none) =
      Graph.computePhase sem srt frame l g c (fun _ => none) := by
  cases l with
  | nil => exact absurd rfl hl
  | cons y l =>
    obtain ⟨i, mode⟩ := y
    unfold Graph.computePhase
    dsimp only
    cases hd : g.graph.findDirectUpstream srt i with
    | error e => rfl
    | ok ps =>
      cases ps with
      | cons a ps => rfl
      | nil =>
        simp only [bind, Except.bind, Graph.lookupAll]
        cases hn : g.nodes[i]? with
        | none => rfl
        | some n =>
          dsimp only
          rw [h i mode n List.mem_cons_self hn hd]

theorem execute_output (sem : NodeSem N S C Fr) (srt : EdgeSort) (fuel : Nat) (g : Graph N S)
    {id start : Nat} (hid : At g id start) (frame : Fr) (frames : List Fr) (x : S) (c : C)
    {order : List Nat} (ho : g.graph.findAllUpstream srt start = .ok (start :: order))
    (h : ∀ i mode n, Requested sem srt g start i mode → g.nodes[i]? = some n →
      g.graph.findDirectUpstream srt i = .ok [] →
      sem.compute n frame mode [] x c = sem.compute n frame mode [] g.output c) :
    Graph.execute sem srt fuel { g with output := x } id (frame :: frames) c =
      Graph.execute sem srt fuel g id (frame :: frames) c := by
  have hf : Graph.executeFrame sem srt fuel { g with output := x } (start :: order) frame c =
      Graph.executeFrame sem srt fuel g (start :: order) frame c := by
    unfold Graph.executeFrame
    rw [hashPhase_output]
    cases Graph.hashPhase sem srt g frame (start :: order).reverse (fun _ => none) with
    | error p => rfl
    | ok hashes =>
      simp only [bind, Except.bind]
      rw [validateLoop_output]
      cases hv : Graph.validateLoop sem srt g hashes fuel [(start, modeAll)] [(start, modeAll)] with
      | error p => rfl
      | ok v =>
        dsimp only
        have hstart : ∀ y ∈ [(start, modeAll)], Requested sem srt g start y.1 y.2 := by
          intro y hy
          rw [List.mem_singleton.mp hy]
          exact .start
        obtain ⟨hpre, hr⟩ := validate_requested (start := start) fuel _ _ _ hstart hstart hv
        refine computePhase_output sem srt frame ?_ g x c fun i mode n hm => ?_
        · intro hnil
          rw [List.reverse_eq_nil_iff] at hnil
          rw [hnil] at hpre
          exact absurd (List.prefix_nil.mp hpre) (by simp)
        · exact h i mode n (hr _ (List.mem_reverse.mp hm))
  have hfind : g.find id = some start := find_at.mpr hid
  have hfind' : ({ g with output := x } : Graph N S).find id = some start := hfind
  unfold Graph.execute
  rw [hfind, hfind']
  dsimp only
  rw [ho]
  simp only [bind, Except.bind]
  unfold Graph.frameLoop
  rw [hf]

/-! ### executing keeps settings -/

theorem computePhase_keys {K : Type} {key : N → K} {sem : NodeSem N S C Fr}
    (hk : ∀ n fr m ins prev c n' st out c',
      sem.compute n fr m ins prev c = .ok (n', st, out, c') → key n' = key n)
    (srt : EdgeSort) (frame : Fr) :
    ∀ (l : List (Nat × Mode)) (g : Graph N S) (c : C) (m : Graph.IdxMap S) e g' c',
      Graph.computePhase sem srt frame l g c m = .ok (e, g', c') →
      g'.nodes.map key = g.nodes.map key := by
  intro l
  induction l with
  | nil => intro g c m e g' c' h; cases h; rfl
  | cons x rest ih =>
    intro g c m e g' c' h
    obtain ⟨i, mode⟩ := x
    unfold Graph.computePhase at h
    obtain ⟨ps, _, h⟩ := Res.bind_ok.mp h
    obtain ⟨ins, _, h⟩ := Res.bind_ok.mp h
    split at h
    · cases h
    · rename_i n hn
      obtain ⟨⟨n', st, out, c1⟩, hc, h⟩ := Res.bind_ok.mp h
      have hset : (g.nodes.set i n').map key = g.nodes.map key := by
        rw [List.map_set, hk _ _ _ _ _ _ _ _ _ _ hc]
        apply List.ext_getElem?
        intro j
        rw [List.getElem?_set]
        split
        · rename_i hij
          subst hij
          have := List.getElem?_eq_some_iff.mp hn
          obtain ⟨hlt, -⟩ := this
          rw [List.getElem?_map, hn, if_pos (by simpa using hlt)]
          rfl
        · rfl
      dsimp only at h
      split at h
      · cases h; exact hset
      · exact (ih _ _ _ _ _ _ h).trans hset

theorem execute_keys {K : Type} {key : N → K} {sem : NodeSem N S C Fr}
    (hk : ∀ n fr m ins prev c n' st out c',
      sem.compute n fr m ins prev c = .ok (n', st, out, c') → key n' = key n)
    (srt : EdgeSort) (fuel : Nat) (g : Graph N S) (id : Nat) (frames : List Fr) (c : C)
    (st : ExecuteStatus) (g' : Graph N S) (c' : C)
    (h : g.execute sem srt fuel id frames c = .ok (st, g', c')) :
    g'.nodes.map key = g.nodes.map key := by
  have hframe : ∀ (order : List Nat) (frame : Fr) (g : Graph N S) (c : C) e g' c',
      g.executeFrame sem srt fuel order frame c = .ok (e, g', c') →
      g'.nodes.map key = g.nodes.map key := by
    intro order frame g c e g' c' h
    unfold Graph.executeFrame at h
    obtain ⟨hs, _, h⟩ := Res.bind_ok.mp h
    split at h
    · cases h
    · obtain ⟨v, _, h⟩ := Res.bind_ok.mp h
      exact computePhase_keys hk srt frame _ _ _ _ _ _ _ h
  have hloop : ∀ (order : List Nat) (fs : List Fr) (g : Graph N S) (c : C) e g' c',
      Graph.frameLoop sem srt fuel order fs g c = .ok (e, g', c') →
      g'.nodes.map key = g.nodes.map key := by
    intro order fs
    induction fs with
    | nil => intro g c e g' c' h; cases h; rfl
    | cons f fs ih =>
      intro g c e g' c' h
      unfold Graph.frameLoop at h
      obtain ⟨⟨e1, g1, c1⟩, h1, h⟩ := Res.bind_ok.mp h
      have s1 := hframe _ _ _ _ _ _ _ h1
      dsimp only at h
      split at h
      · cases h; exact s1
      · exact (ih _ _ _ _ _ h).trans s1
  unfold Graph.execute at h
  split at h
  · cases h; rfl
  · obtain ⟨o, _, h⟩ := Res.bind_ok.mp h
    obtain ⟨⟨e, g1, c1⟩, h1, h⟩ := Res.bind_ok.mp h
    have s := hloop _ _ _ _ _ _ _ h1
    dsimp only at h
    split at h <;> (cases h; exact s)

end OCG
