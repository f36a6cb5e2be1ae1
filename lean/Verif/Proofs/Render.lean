import Verif.Proofs.ExecRule
/-
A rule for executions in which the node that is executed does something that no other node does.
-/

namespace OCG

open GraphSpec

variable {N S C Fr : Type}

/-- As `Steps`, where the invariant of the state is `Before` until the executed node is computed and
`After` from then on. -/
structure StepsTo (sem : NodeSem N S C Fr) (srt : EdgeSort) (g0 : Graph N S) (start : Nat) (fr : Fr)
    (R : N → N → Prop) (Before After : C → Prop) (Sh : Nat → S → Prop) : Prop where
  others : ∀ i m n0 n vals prev c, i ≠ start → Requested sem srt g0 start i m →
    g0.nodes[i]? = some n0 → R n0 n → List.Forall₂ Sh (parents srt g0.graph i) vals → Before c →
    ∃ n' st out c', sem.compute n fr m vals prev c = .ok (n', st, out, c') ∧ ¬ Fails st ∧
      R n0 n' ∧ Sh i out ∧ Before c'
  last : ∀ n0 n vals prev c, g0.nodes[start]? = some n0 → R n0 n →
    List.Forall₂ Sh (parents srt g0.graph start) vals → Before c →
    ∃ n' st out c', sem.compute n fr modeAll vals prev c = .ok (n', st, out, c') ∧ ¬ Fails st ∧
      R n0 n' ∧ Sh start out ∧ After c'

theorem computePhase_to {sem : NodeSem N S C Fr} {srt : EdgeSort} {g0 : Graph N S}
    (hg : Sound g0) {start : Nat} {fr : Fr} {R : N → N → Prop} {Before After : C → Prop}
    {Sh : Nat → S → Prop} (hst : StepsTo sem srt g0 start fr R Before After Sh) :
    ∀ (l : List (Nat × Mode)) (g : Graph N S) (c : C) (streams : Graph.IdxMap S),
    (∀ x ∈ l, x.1 ≠ start) →
    (∀ x ∈ l ++ [(start, modeAll)], g0.graph.contains x.1 = true) →
    (∀ x ∈ l, Requested sem srt g0 start x.1 x.2) → Alike R g0 g →
    Ready (parents srt g0.graph) ((l ++ [(start, modeAll)]).map (·.1)) (fun k => streams k ≠ none) →
    (∀ k v, streams k = some v → Sh k v) → Before c →
    ∃ g' c', Graph.computePhase sem srt fr (l ++ [(start, modeAll)]) g c streams =
      .ok (none, g', c') ∧ Alike R g0 g' ∧ After c' ∧ Sh start g'.output := by
  have step : ∀ {g : Graph N S} {i : Nat} {n' : N} {out : S} {n : N},
      g0.graph.contains i = true → Alike R g0 g → g.nodes[i]? = some n →
      (∀ n0, g0.nodes[i]? = some n0 → R n0 n') →
      Alike R g0 { g with nodes := g.nodes.set i n', output := out } := by
    intro g i n' out n hi ha hn hR'
    refine ⟨ha.graph, fun k n1 hk => ?_⟩
    by_cases hik : i = k
    · subst hik
      exact ⟨n', by simp [(List.getElem?_eq_some_iff.mp hn).1], hR' _ hk⟩
    · obtain ⟨n2, e2, r2⟩ := ha.nodes k n1 hk
      exact ⟨n2, (List.getElem?_set_ne hik).trans e2, r2⟩
  have ok : ∀ {st : NodeStatus}, ¬ Fails st → Graph.statusError st = none := by
    intro st
    unfold Fails
    cases st <;> simp [Graph.statusError]
  intro l
  induction l with
  | nil =>
    intro g c streams _ hl _ ha hr hsh hc
    have hi := hl (start, modeAll) (by simp)
    simp only [List.nil_append, List.map_cons, List.map_nil] at hr ⊢
    obtain ⟨vs, hvs, _⟩ := lookupAll_ok hr.1
    have hF := forall₂_lookup hsh (lookupAll_inv hvs)
    have hlt := hg.live start hi
    have hn0 : g0.nodes[start]? = some g0.nodes[start] := List.getElem?_eq_getElem hlt
    obtain ⟨n, hn, hR⟩ := ha.nodes start _ hn0
    obtain ⟨n', st, out, c1, hcomp, hok, hR', hsh', hc1⟩ := hst.last _ n vs g.output c hn0 hR hF hc
    refine ⟨{ g with nodes := g.nodes.set start n', output := out }, c1, ?_,
      step hi ha hn (fun n1 h => by rw [hn0] at h; cases h; exact hR'), hc1, hsh'⟩
    unfold Graph.computePhase
    have hd : g.graph.findDirectUpstream srt start = .ok (parents srt g0.graph start) := by
      rw [ha.graph]; exact hg.direct srt hi
    simp only [hd, bind, Except.bind, hvs, hn, hcomp, ok hok]
    rfl
  | cons x l ih =>
    obtain ⟨i, mode⟩ := x
    intro g c streams hne hl hreq ha hr hsh hc
    have hi := hl (i, mode) List.mem_cons_self
    rw [List.cons_append, List.map_cons] at hr
    obtain ⟨vs, hvs, _⟩ := lookupAll_ok hr.1
    have hF := forall₂_lookup hsh (lookupAll_inv hvs)
    have hlt := hg.live i hi
    have hn0 : g0.nodes[i]? = some g0.nodes[i] := List.getElem?_eq_getElem hlt
    obtain ⟨n, hn, hR⟩ := ha.nodes i _ hn0
    obtain ⟨n', st, out, c1, hcomp, hok, hR', hsh', hc1⟩ :=
      hst.others i mode _ n vs g.output c (hne _ List.mem_cons_self) (hreq _ List.mem_cons_self)
        hn0 hR hF hc
    obtain ⟨g', c', e, a1, a2, a3⟩ := ih _ c1 (streams.insert i out)
      (fun y hy => hne y (List.mem_cons_of_mem _ hy))
      (fun y hy => hl y (List.mem_cons_of_mem _ hy))
      (fun y hy => hreq y (List.mem_cons_of_mem _ hy))
      (step (out := out) hi ha hn (fun n1 h => by rw [hn0] at h; cases h; exact hR'))
      (hr.2.congr fun k => by
        unfold Graph.IdxMap.insert
        by_cases hk : k = i <;> simp [hk])
      (fun k v hk => by
        unfold Graph.IdxMap.insert at hk
        split at hk
        · rename_i hki
          cases hk
          rw [hki]
          exact hsh'
        · exact hsh k v hk) hc1
    refine ⟨g', c', ?_, a1, a2, a3⟩
    rw [List.cons_append]
    unfold Graph.computePhase
    have hd : g.graph.findDirectUpstream srt i = .ok (parents srt g0.graph i) := by
      rw [ha.graph]; exact hg.direct srt hi
    simp only [hd, bind, Except.bind, hvs, hn, hcomp, ok hok]
    exact e

/-- What is added to the schedule is used by a node upstream of the start. -/
theorem validate_used {sem : NodeSem N S C Fr} {srt : EdgeSort} {g : Graph N S} {start : Nat}
    {hashes : Graph.IdxMap Nat} : ∀ (fuel : Nat) (stack validated final : List (Nat × Mode)),
    (∀ x ∈ stack, Upstream g.graph start x.1) →
    (∀ v ins, Upstream g.graph start v → g.graph.findDirectUpstream srt v = .ok ins →
      ∀ u ∈ ins, Feeds g.graph u v ∧ u ≠ v) →
    Graph.validateLoop sem srt g hashes fuel stack validated = .ok final →
    ∃ more, final = validated ++ more ∧
      ∀ x ∈ more, ∃ v, Upstream g.graph start v ∧ Feeds g.graph x.1 v ∧ x.1 ≠ v := by
  intro fuel
  induction fuel with
  | zero => intro s v f _ _ h; cases h
  | succ fuel ih =>
    intro stack validated final hs hp h
    cases stack with
    | nil => cases h; exact ⟨[], by simp, by simp⟩
    | cons x stack =>
      obtain ⟨i, mode⟩ := x
      unfold Graph.validateLoop at h
      obtain ⟨ups, h1, h⟩ := Res.bind_ok.mp h
      obtain ⟨ns, h2, h⟩ := Res.bind_ok.mp h
      split at h
      · cases h
      · split at h
        · cases h
        · obtain ⟨modes, h3, h⟩ := Res.bind_ok.mp h
          have hi := hs (i, mode) List.mem_cons_self
          have hnew : ∀ y ∈ ups.zip modes, Feeds g.graph y.1 i ∧ y.1 ≠ i := fun y hy =>
            hp i ups hi h1 y.1 (List.of_mem_zip hy).1
          obtain ⟨more, e, hm⟩ := ih _ _ _ (fun y hy => by
            rcases List.mem_append.mp hy with hy | hy
            · exact .step hi (hnew y (List.mem_reverse.mp hy)).1
            · exact hs y (List.mem_cons_of_mem _ hy)) hp h
          refine ⟨ups.zip modes ++ more, by rw [e, List.append_assoc], fun y hy => ?_⟩
          rcases List.mem_append.mp hy with hy | hy
          · exact ⟨i, hi, hnew y hy⟩
          · exact hm y hy

theorem frame_to {sem : NodeSem N S C Fr} {srt : EdgeSort} {g0 : Graph N S}
    (hg : Sound g0) {start : Nat} (hs : g0.graph.contains start = true) {R : N → N → Prop}
    (hk : AsksAlike sem R)
    (hv : ∀ i, Upstream g0.graph start i → ∀ n0 n, g0.nodes[i]? = some n0 → R n0 n →
      ValidatesAt sem n)
    {Before After : C → Prop} {Sh : Nat → S → Prop} {order d : List Nat}
    (ho : SInv g0.graph start order ⟨[], d⟩) (ht : Topo g0.graph order) (fuel : Nat)
    (hfuel : (order.length + 1) ^ order.length < fuel) {f : Fr}
    (hst : StepsTo sem srt g0 start f R Before After Sh) (g : Graph N S) (c : C)
    (ha : Alike R g0 g) (hc : Before c) :
    ∃ g' c', g.executeFrame sem srt fuel order f c = .ok (none, g', c') ∧
      Alike R g0 g' ∧ After c' ∧ Sh start g'.output := by
  have hsd := ha.sound hg
  have hgr := ha.graph
  obtain ⟨sched, e, hl, _, hr, hashes, hvl⟩ := schedule_ok (sem := sem) srt hsd
    (by rw [hgr]; exact hs)
    (fun i hi n hn => by
      have hu := (ho.final_mem i).mp hi
      have hlt := hg.live i (hg.upstream_live hs hu)
      have hn0 : g0.nodes[i]? = some g0.nodes[i] := List.getElem?_eq_getElem hlt
      obtain ⟨n', e', r'⟩ := ha.nodes i _ hn0
      rw [hn] at e'
      cases e'
      exact hv i hu _ _ hn0 r')
    (by rw [hgr]; exact ho) (by rw [hgr]; exact ht) f fuel hfuel c
  obtain ⟨-, hreq⟩ := validate_requested (start := start) fuel _ _ _
    (fun x hx => by rw [List.mem_singleton.mp hx]; exact .start)
    (fun x hx => by rw [List.mem_singleton.mp hx]; exact .start) hvl
  obtain ⟨more, e2, hm⟩ := validate_used (start := start) fuel _ _ _
    (fun x hx => by rw [List.mem_singleton.mp hx]; exact .refl)
    (fun v ins hu hins u hm => by
      rw [hsd.direct srt (hsd.upstream_live (by rw [hgr]; exact hs) hu)] at hins
      cases hins
      exact (hsd.mem_parents srt).mp hm) hvl
  have hsched : sched = more.reverse ++ [(start, modeAll)] := by
    have := congrArg List.reverse e2
    simpa using this
  have hidx : order.idxOf start = 0 := by
    have := ho.final_head
    cases order with
    | nil => cases this
    | cons o os =>
      simp only [List.head?_cons, Option.some.injEq] at this
      rw [this]
      simp
  subst hsched
  rw [e]
  refine computePhase_to hg hst more.reverse g c (fun _ => none) ?_
    (fun x hx => by rw [← hgr]; exact hl x hx)
    (fun x hx => (requested_alike hk hg ha hs (hreq x (by
      rw [List.mem_reverse]; exact List.mem_append_left _ hx))).1) ha
    (by rw [← hgr]; exact hr.congr (by simp)) (fun k v h => by cases h) hc
  intro x hx he
  obtain ⟨v, hu, hf, hne⟩ := hm x (List.mem_reverse.mp hx)
  rw [hgr] at hu hf
  have := ht v ((ho.final_mem v).mpr hu) x.1 hf hne
  rw [he, hidx] at this
  omega

end OCG
