import Verif.Proofs.ExecRule
/-
A rule for executions in which nodes may fail but not panic.
-/

namespace OCG

open GraphSpec

variable {N S C Fr : Type}

/-- Every computation of a node upstream of `start`, on inputs and a former output that satisfy
the invariant, returns and keeps the invariant; only nodes satisfying `May` fail. -/
def SafeSteps (sem : NodeSem N S C Fr) (srt : EdgeSort) (g0 : Graph N S) (start : Nat) (fr : Fr)
    (R : N → N → Prop) (May : N → Prop) (Good : C → Prop) (Sh : S → Prop) : Prop :=
  ∀ i m n0 n vals prev c, Upstream g0.graph start i → g0.nodes[i]? = some n0 → R n0 n →
    vals.length = (parents srt g0.graph i).length → (∀ v ∈ vals, Sh v) → Sh prev → Good c →
    ∃ n' st out c', sem.compute n fr m vals prev c = .ok (n', st, out, c') ∧
      R n0 n' ∧ Sh out ∧ Good c' ∧ (Fails st → May n0)

/-- A node upstream of `start` may fail. -/
def MayFail (g : Graph N S) (start : Nat) (May : N → Prop) : Prop :=
  ∃ i n, Upstream g.graph start i ∧ g.nodes[i]? = some n ∧ May n

theorem computePhase_safe {sem : NodeSem N S C Fr} {srt : EdgeSort} {g0 : Graph N S}
    (hg : Sound g0) {start : Nat} {fr : Fr} {R : N → N → Prop} {May : N → Prop}
    {Good : C → Prop} {Sh : S → Prop} (hst : SafeSteps sem srt g0 start fr R May Good Sh) :
    ∀ (l : List (Nat × Mode)) (g : Graph N S) (c : C) (streams : Graph.IdxMap S),
    (∀ x ∈ l, g0.graph.contains x.1 = true) → (∀ x ∈ l, Upstream g0.graph start x.1) →
    Alike R g0 g → Ready (parents srt g0.graph) (l.map (·.1)) (fun k => streams k ≠ none) →
    (∀ k v, streams k = some v → Sh v) → Sh g.output → Good c →
    ∃ e g' c', Graph.computePhase sem srt fr l g c streams = .ok (e, g', c') ∧
      Alike R g0 g' ∧ Good c' ∧ Sh g'.output ∧ (e = none ∨ MayFail g0 start May) := by
  intro l
  induction l with
  | nil =>
    intro g c streams _ _ ha _ _ ho hc
    exact ⟨none, g, c, rfl, ha, hc, ho, .inl rfl⟩
  | cons x l ih =>
    obtain ⟨i, mode⟩ := x
    intro g c streams hl hreq ha hr hsh ho hc
    have hi := hl (i, mode) List.mem_cons_self
    rw [List.map_cons] at hr
    obtain ⟨vs, hvs, _⟩ := lookupAll_ok hr.1
    have hF := forall₂_lookup (P := fun _ v => Sh v) hsh (lookupAll_inv hvs)
    have hin : ∀ v ∈ vs, Sh v := by
      intro v hv
      have := List.forall₂_iff_get.mp hF
      obtain ⟨k, hk, rfl⟩ := List.getElem_of_mem hv
      exact this.2 k (by rw [this.1]; exact hk) hk
    have hlt := hg.live i hi
    have hn0 : g0.nodes[i]? = some g0.nodes[i] := List.getElem?_eq_getElem hlt
    obtain ⟨n, hn, hR⟩ := ha.nodes i _ hn0
    obtain ⟨n', st, out, c1, hcomp, hR', hsh', hc1, hmay⟩ :=
      hst i mode _ n vs g.output c (hreq _ List.mem_cons_self) hn0 hR hF.length_eq.symm hin ho hc
    have ha' : Alike R g0 { g with nodes := g.nodes.set i n', output := out } := by
      refine ⟨ha.graph, fun k n1 hk => ?_⟩
      by_cases hik : i = k
      · subst hik
        rw [hn0] at hk
        cases hk
        exact ⟨n', by simp [(List.getElem?_eq_some_iff.mp hn).1], hR'⟩
      · obtain ⟨n2, e2, r2⟩ := ha.nodes k n1 hk
        exact ⟨n2, (List.getElem?_set_ne hik).trans e2, r2⟩
    unfold Graph.computePhase
    have hd : g.graph.findDirectUpstream srt i = .ok (parents srt g0.graph i) := by
      rw [ha.graph]; exact hg.direct srt hi
    simp only [hd, bind, Except.bind, hvs, hn, hcomp]
    cases hse : Graph.statusError st with
    | some er =>
      refine ⟨_, _, _, rfl, ha', hc1, hsh', .inr ⟨i, _, hreq _ List.mem_cons_self, hn0, hmay ?_⟩⟩
      revert hse
      unfold Fails
      cases st <;> simp [Graph.statusError]
    | none =>
      exact ih _ c1 (streams.insert i out)
        (fun y hy => hl y (List.mem_cons_of_mem _ hy))
        (fun y hy => hreq y (List.mem_cons_of_mem _ hy)) ha'
        (hr.2.congr fun k => by
          unfold Graph.IdxMap.insert
          by_cases hk : k = i <;> simp [hk])
        (fun k v hk => by
          unfold Graph.IdxMap.insert at hk
          split at hk
          · cases hk; exact hsh'
          · exact hsh k v hk) hsh' hc1

theorem frameLoop_safe {sem : NodeSem N S C Fr} {srt : EdgeSort} {g0 : Graph N S}
    (hg : Sound g0) {start : Nat} (hs : g0.graph.contains start = true) {R : N → N → Prop}
    (hv : ∀ i, Upstream g0.graph start i → ∀ n0 n, g0.nodes[i]? = some n0 → R n0 n →
      ValidatesAt sem n)
    {May : N → Prop} {Good : C → Prop} {Sh : S → Prop} {order d : List Nat}
    (ho : SInv g0.graph start order ⟨[], d⟩) (ht : Topo g0.graph order) (fuel : Nat)
    (hfuel : (order.length + 1) ^ order.length < fuel) :
    ∀ (frames : List Fr), (∀ fr ∈ frames, SafeSteps sem srt g0 start fr R May Good Sh) →
    ∀ (g : Graph N S) (c : C), Alike R g0 g → Sh g.output → Good c →
    ∃ e g' c', Graph.frameLoop sem srt fuel order frames g c = .ok (e, g', c') ∧
      Alike R g0 g' ∧ Good c' ∧ Sh g'.output ∧ (e = none ∨ MayFail g0 start May) := by
  intro frames
  induction frames with
  | nil => intro _ g c ha hso hc; exact ⟨none, g, c, rfl, ha, hc, hso, .inl rfl⟩
  | cons f fs ih =>
    intro hst g c ha hso hc
    have hsd := ha.sound hg
    have hgr := ha.graph
    obtain ⟨sched, e, hl, hup, hr, -, -⟩ := schedule_ok (sem := sem) srt hsd
      (by rw [hgr]; exact hs)
      (fun i hi n hn => by
        have hu := (ho.final_mem i).mp hi
        have hlt := hg.live i (hg.upstream_live hs hu)
        have hn0 : g0.nodes[i]? = some g0.nodes[i] := List.getElem?_eq_getElem hlt
        obtain ⟨n', e', r'⟩ := ha.nodes i _ hn0
        rw [hn] at e'
        cases e'
        exact hv i hu _ _ hn0 r')
      (by rw [hgr]; exact ho) (by rw [hgr]; exact ht) f fuel hfuel c
    obtain ⟨er, g1, c1, e1, a1, hc1, ho1, hm1⟩ := computePhase_safe hg (hst f List.mem_cons_self) sched
      g c (fun _ => none) (fun x hx => by rw [← hgr]; exact hl x hx)
      (fun x hx => by rw [← hgr]; exact (hup x.1).mp (List.mem_map_of_mem hx)) ha
      (by rw [← hgr]; exact hr.congr (by simp)) (fun k v h => by cases h) hso hc
    unfold Graph.frameLoop
    simp only [e, e1, bind, Except.bind]
    cases er with
    | some er => exact ⟨_, _, _, rfl, a1, hc1, ho1, hm1⟩
    | none => exact ih (fun fr h => hst fr (List.mem_cons_of_mem _ h)) g1 c1 a1 ho1 hc1

/-- An execution whose computations are all safe returns and keeps the invariants. -/
theorem execute_safe {sem : NodeSem N S C Fr} {srt : EdgeSort} {g : Graph N S}
    (hg : Sound g) {id start : Nat} (hid : At g id start) (hs : g.graph.contains start = true)
    {R : N → N → Prop} (hrefl : ∀ n, R n n)
    (hv : ∀ i, Upstream g.graph start i → ∀ n0 n, g.nodes[i]? = some n0 → R n0 n →
      ValidatesAt sem n)
    {May : N → Prop} {Good : C → Prop} {Sh : S → Prop} {order d : List Nat}
    (he : g.graph.findAllUpstream srt start = .ok order)
    (ho : SInv g.graph start order ⟨[], d⟩) (ht : Topo g.graph order) {fuel : Nat}
    (hfuel : (order.length + 1) ^ order.length < fuel) {frames : List Fr}
    (hst : ∀ fr ∈ frames, SafeSteps sem srt g start fr R May Good Sh) {c : C} (hso : Sh g.output)
    (hc : Good c) :
    ∃ st g' c', g.execute sem srt fuel id frames c = .ok (st, g', c') ∧
      Alike R g g' ∧ Good c' ∧ Sh g'.output ∧ (st = .success ∨ MayFail g start May) := by
  obtain ⟨er, g', c', e, a1, a2, a3, a4⟩ := frameLoop_safe hg hs hv ho ht fuel hfuel frames hst g c
    ⟨rfl, fun k n h => ⟨n, h, hrefl n⟩⟩ hso hc
  unfold Graph.execute
  rw [find_at.mpr hid]
  dsimp only
  simp only [he, e, bind, Except.bind]
  cases er with
  | some er => exact ⟨_, _, _, rfl, ⟨a1.graph, a1.nodes⟩, a2, a3, .inr (a4.resolve_left (by simp))⟩
  | none => exact ⟨_, _, _, rfl, ⟨a1.graph, a1.nodes⟩, a2, a3, .inl rfl⟩

end OCG
