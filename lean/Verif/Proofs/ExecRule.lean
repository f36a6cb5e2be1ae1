import Verif.Proofs.Execute
import Verif.Proofs.Locality
/-
A rule for executions: if every requested computation succeeds and keeps an invariant, so does the
execution.
-/

namespace OCG

open GraphSpec

variable {N S C Fr : Type}

/-- Nodes related by `R` ask the same of their inputs. -/
def AsksAlike (sem : NodeSem N S C Fr) (R : N → N → Prop) : Prop :=
  ∀ n n' mode h ns ns', R n n' → List.Forall₂ R ns ns' →
    sem.validate n mode h ns = sem.validate n' mode h ns'

/-- The graph has the nodes of `g0`, up to `R`, and its connections. -/
structure Alike (R : N → N → Prop) (g0 g : Graph N S) : Prop where
  graph : g.graph = g0.graph
  nodes : ∀ (k : Nat) n0, g0.nodes[k]? = some n0 → ∃ n, g.nodes[k]? = some n ∧ R n0 n

/-- Every computation requested by an execution of `start`, on inputs that satisfy the
invariant, succeeds and keeps the invariant. -/
def Steps (sem : NodeSem N S C Fr) (srt : EdgeSort) (g0 : Graph N S) (start : Nat) (fr : Fr)
    (R : N → N → Prop) (Good : C → Prop) (Sh : Nat → S → Prop) : Prop :=
  ∀ i m n0 n vals prev c, Requested sem srt g0 start i m → g0.nodes[i]? = some n0 → R n0 n →
    List.Forall₂ Sh (parents srt g0.graph i) vals → Good c →
    ∃ n' st out c', sem.compute n fr m vals prev c = .ok (n', st, out, c') ∧ ¬ Fails st ∧
      R n0 n' ∧ Sh i out ∧ Good c'

/-- The last computation of an execution. -/
def LastCall (sem : NodeSem N S C Fr) (srt : EdgeSort) (g0 : Graph N S) (fr : Fr)
    (R : N → N → Prop) (Good : C → Prop) (Sh : Nat → S → Prop) (i : Nat) (m : Mode) (out : S)
    (c' : C) : Prop :=
  ∃ n0 n vals prev c n' st, g0.nodes[i]? = some n0 ∧ R n0 n ∧
    List.Forall₂ Sh (parents srt g0.graph i) vals ∧ Good c ∧
    sem.compute n fr m vals prev c = .ok (n', st, out, c') ∧ Sh i out

theorem forall₂_lookup {α : Type} {m : Graph.IdxMap α} {P : Nat → α → Prop}
    (h : ∀ k v, m k = some v → P k v) : ∀ {l : List Nat} {vs : List α},
    l.map m = vs.map some → List.Forall₂ P l vs := by
  intro l
  induction l with
  | nil => intro vs e; cases vs with | nil => exact .nil | cons a b => simp at e
  | cons a l ih =>
    intro vs e
    cases vs with
    | nil => simp at e
    | cons b vs =>
      simp only [List.map_cons, List.cons.injEq] at e
      exact .cons (h a b e.1) (ih e.2)

theorem computePhase_rule {sem : NodeSem N S C Fr} {srt : EdgeSort} {g0 : Graph N S}
    (hg : Sound g0) {start : Nat} {fr : Fr} {R : N → N → Prop} {Good : C → Prop}
    {Sh : Nat → S → Prop} (hst : Steps sem srt g0 start fr R Good Sh) :
    ∀ (l : List (Nat × Mode)) (g : Graph N S) (c : C) (streams : Graph.IdxMap S),
    (∀ x ∈ l, g0.graph.contains x.1 = true) → (∀ x ∈ l, Requested sem srt g0 start x.1 x.2) →
    Alike R g0 g → Ready (parents srt g0.graph) (l.map (·.1)) (fun k => streams k ≠ none) →
    (∀ k v, streams k = some v → Sh k v) → Good c →
    ∃ g' c', Graph.computePhase sem srt fr l g c streams = .ok (none, g', c') ∧
      Alike R g0 g' ∧ Good c' ∧
      ∀ x, l.getLast? = some x → LastCall sem srt g0 fr R Good Sh x.1 x.2 g'.output c' := by
  intro l
  induction l with
  | nil =>
    intro g c streams _ _ ha _ _ hc
    exact ⟨g, c, rfl, ha, hc, fun x hx => by cases hx⟩
  | cons x l ih =>
    obtain ⟨i, mode⟩ := x
    intro g c streams hl hreq ha hr hsh hc
    have hi := hl (i, mode) List.mem_cons_self
    rw [List.map_cons] at hr
    obtain ⟨vs, hvs, _⟩ := lookupAll_ok hr.1
    have hF := forall₂_lookup hsh (lookupAll_inv hvs)
    have hlt := hg.live i hi
    have hn0 : g0.nodes[i]? = some g0.nodes[i] := List.getElem?_eq_getElem hlt
    obtain ⟨n, hn, hR⟩ := ha.nodes i _ hn0
    obtain ⟨n', st, out, c1, hcomp, hok, hR', hsh', hc1⟩ :=
      hst i mode _ n vs g.output c (hreq _ List.mem_cons_self) hn0 hR hF hc
    have hse : Graph.statusError st = none := by
      revert hok
      unfold Fails
      cases st <;> simp [Graph.statusError]
    have ha' : Alike R g0 { g with nodes := g.nodes.set i n', output := out } := by
      refine ⟨ha.graph, fun k n1 hk => ?_⟩
      by_cases hik : i = k
      · subst hik
        rw [hn0] at hk
        cases hk
        exact ⟨n', by simp [(List.getElem?_eq_some_iff.mp hn).1], hR'⟩
      · obtain ⟨n2, e2, r2⟩ := ha.nodes k n1 hk
        exact ⟨n2, (List.getElem?_set_ne hik).trans e2, r2⟩
    obtain ⟨g', c', e, a1, a2, a3⟩ := ih _ c1 (streams.insert i out)
      (fun y hy => hl y (List.mem_cons_of_mem _ hy))
      (fun y hy => hreq y (List.mem_cons_of_mem _ hy)) ha'
      (hr.2.congr fun k => by
        unfold Graph.IdxMap.insert
        by_cases hk : k = i <;> simp [hk])
      (fun k v hk => by
        unfold Graph.IdxMap.insert at hk
        split at hk
        · rename_i hki
          cases hk
          rw [hki]
          exact hsh'
        · exact hsh k v hk) hc1
    refine ⟨g', c', ?_, a1, a2, ?_⟩
    · unfold Graph.computePhase
      have hd : g.graph.findDirectUpstream srt i = .ok (parents srt g0.graph i) := by
        rw [ha.graph]; exact hg.direct srt hi
      simp only [hd, bind, Except.bind, hvs, hn, hcomp, hse]
      exact e
    · intro x hx
      cases l with
      | nil =>
        simp only [List.getLast?_singleton, Option.some.injEq] at hx
        subst hx
        cases e
        exact ⟨_, n, vs, g.output, c, n', st, hn0, hR, hF, hc, hcomp, hsh'⟩
      | cons z zs =>
        rw [List.getLast?_cons_cons] at hx
        exact a3 x hx

/-- Graphs with related nodes make the same requests. -/
theorem requested_alike {sem : NodeSem N S C Fr} {srt : EdgeSort} {R : N → N → Prop}
    (hk : AsksAlike sem R) {g0 g : Graph N S} (hg : Sound g0) (ha : Alike R g0 g) {start : Nat}
    (hs : g0.graph.contains start = true) {i : Nat} {m : Mode}
    (h : Requested sem srt g start i m) :
    Requested sem srt g0 start i m ∧ Upstream g0.graph start i := by
  induction h with
  | start => exact ⟨.start, .refl⟩
  | @input i m n h ins ns modes j m' _ hn hins hns hv hz ih =>
    have hli := hg.upstream_live hs ih.2
    rw [ha.graph, hg.direct srt hli] at hins
    cases hins
    obtain ⟨ns0, _, _, hns0⟩ := nodesAt_ok (g := g0) (l := parents srt g0.graph i)
      (fun j hj => hg.live j (hg.feeds_live ((hg.mem_parents srt).mp hj).1))
    have hlt := hg.live i hli
    have hn0 : g0.nodes[i]? = some g0.nodes[i] := List.getElem?_eq_getElem hlt
    have hF : ∀ (l : List Nat) (ns0 ns : List N), l.map (g0.nodes[·]?) = ns0.map some →
        l.map (g.nodes[·]?) = ns.map some → List.Forall₂ R ns0 ns := by
      intro l
      induction l with
      | nil =>
        intro a b ea eb
        cases a <;> cases b <;> simp at ea eb
        exact .nil
      | cons k l ihl =>
        intro a b ea eb
        cases a with
        | nil => simp at ea
        | cons x a =>
          cases b with
          | nil => simp at eb
          | cons y b =>
            simp only [List.map_cons, List.cons.injEq] at ea eb
            obtain ⟨y', e', r'⟩ := ha.nodes k x ea.1
            rw [eb.1] at e'
            cases e'
            exact .cons r' (ihl a b ea.2 eb.2)
    obtain ⟨n', e', r'⟩ := ha.nodes i _ hn0
    rw [hn] at e'
    cases e'
    rw [← hk _ _ _ _ _ _ r' (hF _ _ _ hns0 hns)] at hv
    refine ⟨.input ih.1 hn0 (hg.direct srt hli) hns0 hv hz, ?_⟩
    exact .step ih.2 ((hg.mem_parents srt).mp (List.of_mem_zip hz).1).1

theorem Alike.sound {R : N → N → Prop} {g0 g : Graph N S} (ha : Alike R g0 g) (hg : Sound g0) :
    Sound g := by
  refine ⟨by rw [ha.graph]; exact hg.ends, fun i hi => ?_⟩
  rw [ha.graph] at hi
  obtain ⟨n, e, _⟩ := ha.nodes i _ (List.getElem?_eq_getElem (hg.live i hi))
  exact (List.getElem?_eq_some_iff.mp e).1

theorem frameLoop_rule {sem : NodeSem N S C Fr} {srt : EdgeSort} {g0 : Graph N S}
    (hg : Sound g0) {start : Nat} (hs : g0.graph.contains start = true) {R : N → N → Prop}
    (hk : AsksAlike sem R)
    (hv : ∀ i, Upstream g0.graph start i → ∀ n0 n, g0.nodes[i]? = some n0 → R n0 n →
      ValidatesAt sem n)
    {Good : C → Prop} {Sh : Fr → Nat → S → Prop} {order d : List Nat}
    (ho : SInv g0.graph start order ⟨[], d⟩) (ht : Topo g0.graph order) (fuel : Nat)
    (hfuel : (order.length + 1) ^ order.length < fuel) :
    ∀ (frames : List Fr), (∀ fr ∈ frames, Steps sem srt g0 start fr R Good (Sh fr)) →
    ∀ (g : Graph N S) (c : C), Alike R g0 g → Good c →
    ∃ g' c', Graph.frameLoop sem srt fuel order frames g c = .ok (none, g', c') ∧
      Alike R g0 g' ∧ Good c' ∧
      ∀ fr, frames.getLast? = some fr →
        LastCall sem srt g0 fr R Good (Sh fr) start modeAll g'.output c' := by
  intro frames
  induction frames with
  | nil => intro _ g c ha hc; exact ⟨g, c, rfl, ha, hc, fun fr h => by cases h⟩
  | cons f fs ih =>
    intro hst g c ha hc
    have hsd := ha.sound hg
    have hgr := ha.graph
    obtain ⟨sched, e, hl, _, hr, hashes, hvl⟩ := schedule_ok (sem := sem) srt hsd
      (by rw [hgr]; exact hs)
      (fun i hi n hn => by
        have hu := (ho.final_mem i).mp hi
        have hlt := hg.live i (hg.upstream_live hs hu)
        have hn0 : g0.nodes[i]? = some g0.nodes[i] := List.getElem?_eq_getElem hlt
        obtain ⟨n', e', r'⟩ := ha.nodes i _ hn0
        rw [hn] at e'
        cases e'
        exact hv i hu _ _ hn0 r')
      (by rw [hgr]; exact ho) (by rw [hgr]; exact ht) f fuel hfuel c
    obtain ⟨hpre, hreq⟩ := validate_requested (start := start) fuel _ _ _
      (fun x hx => by rw [List.mem_singleton.mp hx]; exact .start)
      (fun x hx => by rw [List.mem_singleton.mp hx]; exact .start) hvl
    have hlast : sched.getLast? = some (start, modeAll) := by
      obtain ⟨t, ht⟩ := hpre
      have := congrArg List.reverse ht
      rw [List.reverse_reverse] at this
      rw [← this]
      simp
    obtain ⟨g1, c1, e1, a1, hc1, hl1⟩ := computePhase_rule hg (hst f List.mem_cons_self) sched g c
      (fun _ => none) (fun x hx => by rw [← hgr]; exact hl x hx)
      (fun x hx => (requested_alike hk hg ha hs (hreq x (List.mem_reverse.mpr hx))).1) ha
      (by rw [← hgr]; exact hr.congr (by simp)) (fun k v h => by cases h) hc
    obtain ⟨g2, c2, e2, a2, hc2, hl2⟩ := ih (fun fr h => hst fr (List.mem_cons_of_mem _ h)) g1 c1
      a1 hc1
    refine ⟨g2, c2, ?_, a2, hc2, ?_⟩
    · unfold Graph.frameLoop
      rw [e, e1]
      exact e2
    · intro fr hfr
      cases fs with
      | nil =>
        simp only [List.getLast?_singleton, Option.some.injEq] at hfr
        subst hfr
        cases e2
        exact hl1 _ hlast
      | cons z zs =>
        rw [List.getLast?_cons_cons] at hfr
        exact hl2 fr hfr

/-! ### fuel -/

theorem validateLoop_more {sem : NodeSem N S C Fr} {srt : EdgeSort} {g : Graph N S}
    {hashes : Graph.IdxMap Nat} : ∀ (fuel : Nat) (stack validated final : List (Nat × Mode)),
    Graph.validateLoop sem srt g hashes fuel stack validated = .ok final →
    ∀ k, fuel ≤ k → Graph.validateLoop sem srt g hashes k stack validated = .ok final := by
  intro fuel
  induction fuel with
  | zero => intro s v f h; cases h
  | succ fuel ih =>
    intro stack validated final h k hk
    obtain ⟨k, rfl⟩ : ∃ j, k = j + 1 := ⟨k - 1, by omega⟩
    cases stack with
    | nil => exact h
    | cons x stack =>
      obtain ⟨i, mode⟩ := x
      unfold Graph.validateLoop at h ⊢
      obtain ⟨ups, h1, h⟩ := Res.bind_ok.mp h
      obtain ⟨ns, h2, h⟩ := Res.bind_ok.mp h
      simp only [h1, h2, bind, Except.bind]
      split at h
      · cases h
      · rename_i n hn
        split at h
        · cases h
        · rename_i hh hhi
          obtain ⟨modes, h3, h⟩ := Res.bind_ok.mp h
          simp only [hn, hhi, h3]
          exact ih _ _ _ h k (by omega)

theorem executeFrame_more {sem : NodeSem N S C Fr} {srt : EdgeSort} {g : Graph N S}
    {order : List Nat} {frame : Fr} {c : C} {fuel : Nat} {r : Graph.FrameResult N S C}
    (h : g.executeFrame sem srt fuel order frame c = .ok r) {k : Nat} (hk : fuel ≤ k) :
    g.executeFrame sem srt k order frame c = .ok r := by
  unfold Graph.executeFrame at h ⊢
  obtain ⟨hashes, h1, h⟩ := Res.bind_ok.mp h
  simp only [h1, bind, Except.bind]
  cases order with
  | nil => cases h
  | cons o os =>
    dsimp only at h ⊢
    obtain ⟨v, h2, h⟩ := Res.bind_ok.mp h
    simp only [validateLoop_more _ _ _ _ h2 k hk]
    exact h

theorem frameLoop_more {sem : NodeSem N S C Fr} {srt : EdgeSort} {order : List Nat} {fuel k : Nat}
    (hk : fuel ≤ k) : ∀ (frames : List Fr) (g : Graph N S) (c : C) r,
    Graph.frameLoop sem srt fuel order frames g c = .ok r →
    Graph.frameLoop sem srt k order frames g c = .ok r := by
  intro frames
  induction frames with
  | nil => intro g c r h; exact h
  | cons f fs ih =>
    intro g c r h
    unfold Graph.frameLoop at h ⊢
    obtain ⟨⟨e, g1, c1⟩, h1, h⟩ := Res.bind_ok.mp h
    simp only [executeFrame_more h1 hk, bind, Except.bind]
    dsimp only at h
    cases e with
    | some e => exact h
    | none => exact ih _ _ _ h

/-- An execution that returns gives the same with more iterations allowed. -/
theorem execute_more {sem : NodeSem N S C Fr} {srt : EdgeSort} {g : Graph N S} {id : Nat}
    {frames : List Fr} {c : C} {fuel k : Nat} (hk : fuel ≤ k)
    {r : ExecuteStatus × Graph N S × C}
    (h : g.execute sem srt fuel id frames c = .ok r) :
    g.execute sem srt k id frames c = .ok r := by
  unfold Graph.execute at h ⊢
  cases hf : g.find id with
  | none => rw [hf] at h; exact h
  | some start =>
    rw [hf] at h
    dsimp only at h ⊢
    obtain ⟨order, h1, h⟩ := Res.bind_ok.mp h
    obtain ⟨⟨e, g1, c1⟩, h2, h⟩ := Res.bind_ok.mp h
    simp only [h1, frameLoop_more hk _ _ _ _ h2, bind, Except.bind]
    exact h

/-- An execution of some frames that returns meets every node before its inputs. -/
theorem execute_topo {sem : NodeSem N S C Fr} {srt : EdgeSort} {g : Graph N S} (hg : Sound g)
    {id start : Nat} (hid : At g id start) (hs : g.graph.contains start = true)
    {frames : List Fr} (hne : frames ≠ []) {c : C} {fuel : Nat}
    {r : ExecuteStatus × Graph N S × C} (h : g.execute sem srt fuel id frames c = .ok r)
    {order d : List Nat} (e : g.graph.findAllUpstream srt start = .ok order)
    (hi : SInv g.graph start order ⟨[], d⟩) : Topo g.graph order := by
  by_contra hnt
  have hmem := hi.final_mem
  have hclosed : ∀ v ∈ order, ∀ u, Feeds g.graph u v → u ∈ order :=
    fun v hv u hf => (hmem u).mpr (.step ((hmem v).mp hv) hf)
  cases frames with
  | nil => exact hne rfl
  | cons f fs =>
    have hh := (hashPhase_spec sem srt hg f order.reverse (fun _ => none)
      (fun i hio => hg.upstream_live hs ((hmem i).mp (List.mem_reverse.mp hio)))).2 (by
        intro hr
        exact hnt ((topo_ready hg srt hi.final_nodup hclosed).mp (hr.congr (by simp))))
    unfold Graph.execute at h
    rw [find_at.mpr hid] at h
    dsimp only at h
    unfold Graph.frameLoop Graph.executeFrame at h
    simp only [e, hh, bind, Except.bind] at h
    cases h

end OCG
