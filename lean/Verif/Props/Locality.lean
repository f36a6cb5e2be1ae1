import Verif.Proofs.Locality
import Verif.Props.CacheRun
/-
What an execution leaves alone (C84) and what it does not depend on (C85).
-/

namespace OCG.Props

open GraphSpec

variable {N S C Fr : Type}

/-! ### C84 -/

/-- Computing keeps `R` between the old and the new nodes, and changes only the nodes of `U`. -/
structure Kept (U : Nat → Prop) (R : N → N → Prop) (g g' : Graph N S) : Prop where
  same : ∀ i : Nat, ¬ U i → g'.nodes[i]? = g.nodes[i]?
  rel : ∀ (i : Nat) (n : N), g.nodes[i]? = some n → ∃ n', g'.nodes[i]? = some n' ∧ R n n'

theorem kept_computePhase {U : Nat → Prop} {R : N → N → Prop} (hr : ∀ n, R n n)
    (ht : ∀ a b c, R a b → R b c → R a c) {sem : NodeSem N S C Fr}
    (hc : ∀ n fr m ins out c n' st o c', sem.compute n fr m ins out c = .ok (n', st, o, c') → R n n')
    (srt : EdgeSort) (frame : Fr) :
    ∀ (l : List (Nat × Mode)) (g : Graph N S) (c : C) (m : Graph.IdxMap S) e g' c',
      (∀ x ∈ l, U x.1) →
      Graph.computePhase sem srt frame l g c m = .ok (e, g', c') → Kept U R g g' := by
  intro l
  induction l with
  | nil =>
    intro g c m e g' c' _ h
    cases h
    exact ⟨fun _ _ => rfl, fun i n h => ⟨n, h, hr n⟩⟩
  | cons x rest ih =>
    intro g c m e g' c' hl h
    obtain ⟨i, mode⟩ := x
    unfold Graph.computePhase at h
    obtain ⟨ps, _, h⟩ := Res.bind_ok.mp h
    obtain ⟨ins, _, h⟩ := Res.bind_ok.mp h
    split at h
    · cases h
    · rename_i n hn
      obtain ⟨⟨n', st, out, c1⟩, h1, h⟩ := Res.bind_ok.mp h
      have hlt := (List.getElem?_eq_some_iff.mp hn).1
      have hR := hc _ _ _ _ _ _ _ _ _ _ h1
      have hstep : Kept U R g { g with nodes := g.nodes.set i n', output := out } := by
        refine ⟨fun j hj => ?_, fun j k hk => ?_⟩
        · exact List.getElem?_set_ne fun (e : i = j) => hj (e ▸ hl (i, mode) List.mem_cons_self)
        · by_cases hij : i = j
          · subst hij
            rw [hn] at hk
            cases hk
            exact ⟨n', by simp [hlt], hR⟩
          · exact ⟨k, (List.getElem?_set_ne hij).trans hk, hr k⟩
      dsimp only at h
      split at h
      · cases h
        exact hstep
      · have := ih _ _ _ _ _ _ (fun y hy => hl y (List.mem_cons_of_mem _ hy)) h
        refine ⟨fun j hj => (this.same j hj).trans (hstep.same j hj), fun j k hk => ?_⟩
        obtain ⟨k1, e1, r1⟩ := hstep.rel j k hk
        obtain ⟨k2, e2, r2⟩ := this.rel j k1 e1
        exact ⟨k2, e2, ht _ _ _ r1 r2⟩

theorem kept_execute {R : N → N → Prop} (hr : ∀ n, R n n) (ht : ∀ a b c, R a b → R b c → R a c)
    {sem : NodeSem N S C Fr}
    (hc : ∀ n fr m ins out c n' st o c', sem.compute n fr m ins out c = .ok (n', st, o, c') → R n n')
    {srt : EdgeSort} {g g' : Graph N S} {r : Bool} (h : Inv g r) {id start : Nat}
    (hid : At g id start) (hs : g.graph.contains start = true) {fuel : Nat} {frames : List Fr}
    {c c' : C} {st : ExecuteStatus}
    (he : g.execute sem srt fuel id frames c = .ok (st, g', c')) :
    Kept (Upstream g.graph start) R g g' := by
  unfold Graph.execute at he
  rw [find_at.mpr hid] at he
  dsimp only at he
  obtain ⟨order, ho, he⟩ := Res.bind_ok.mp he
  obtain ⟨⟨e, g1, c1⟩, hf, he⟩ := Res.bind_ok.mp he
  obtain ⟨order', d, e', hi, _⟩ := findAll_spec srt h.ends (contains_lt_bound hs)
    (fun _ _ => True) trivial (fun _ _ _ _ _ _ _ => trivial)
  rw [ho] at e'
  cases e'
  have hin := fun i => (hi.final_mem i).mp
  have key : ∀ (fs : List Fr) (g1 : Graph N S) (c : C) e g2 c2,
      g1.graph = g.graph → Sound g1 → Graph.frameLoop sem srt fuel order fs g1 c = .ok (e, g2, c2) →
      Kept (Upstream g.graph start) R g1 g2 := by
    intro fs
    induction fs with
    | nil =>
      intro g1 c e g2 c2 _ _ h
      cases h
      exact ⟨fun _ _ => rfl, fun i n h => ⟨n, h, hr n⟩⟩
    | cons f fs ih =>
      intro g1 c e g2 c2 hgr hsd h
      unfold Graph.frameLoop at h
      obtain ⟨⟨e3, g3, c3⟩, h3, h⟩ := Res.bind_ok.mp h
      have hsame := executeFrame_same _ _ _ _ _ _ _ _ _ _ h3
      have hk : Kept (Upstream g.graph start) R g1 g3 := by
        unfold Graph.executeFrame at h3
        obtain ⟨hashes, _, h3⟩ := Res.bind_ok.mp h3
        cases order with
        | nil => cases h3
        | cons s0 rest =>
          dsimp only at h3
          obtain ⟨validated, hv, h3⟩ := Res.bind_ok.mp h3
          have hst : Upstream g1.graph start s0 := by
            rw [hgr]; exact hin s0 List.mem_cons_self
          have hsame1 : SameOn (Upstream g1.graph start) g1 g1 :=
            ⟨fun v hv u hu => hv.step hu,
              fun v hv => ⟨hsd.upstream_live (by rw [hgr]; exact hs) hv,
                hsd.upstream_live (by rw [hgr]; exact hs) hv⟩,
              fun _ _ => rfl, fun _ _ => rfl, rfl⟩
          have hreq := validate_requested (start := s0) _ _ _ _
            (fun x hx => by rw [List.mem_singleton.mp hx]; exact .start)
            (fun x hx => by rw [List.mem_singleton.mp hx]; exact .start) hv
          refine kept_computePhase hr ht hc srt f _ _ _ _ _ _ _ ?_ h3
          intro x hx
          rw [← hgr]
          exact requested_in hsame1 hsd hst (hreq.2 x (List.mem_reverse.mp hx))
      dsimp only at h
      split at h
      · cases h; exact hk
      · have hsd3 : Sound g3 := ⟨by rw [hsame.2.2.1]; exact hsd.ends,
          by rw [hsame.2.2.1, hsame.2.1]; exact hsd.live⟩
        have := ih _ _ _ _ _ (hsame.2.2.1.trans hgr) hsd3 h
        refine ⟨fun j hj => (this.same j hj).trans (hk.same j hj), fun j k hkk => ?_⟩
        obtain ⟨k1, e1, r1⟩ := hk.rel j k hkk
        obtain ⟨k2, e2, r2⟩ := this.rel j k1 e1
        exact ⟨k2, e2, ht _ _ _ r1 r2⟩
  have hk := key _ _ _ _ _ _ rfl h.sound hf
  dsimp only at he
  split at he <;> cases he
  · exact ⟨hk.same, hk.rel⟩
  · exact ⟨hk.same, hk.rel⟩

section
variable {F H : Type} [FloatLike F] [HalfLike F H] [FloatConst F] [FloatBits F]

theorem nodeSem_keeps (p : Profile) (lib : NodeLib F H) :
    ∀ (n : Node F) fr m ins out c n' st o c',
      (nodeSem p lib).compute n fr m ins out c = .ok (n', st, o, c') →
      n.id = n'.id ∧ n.attrs = n'.attrs := by
  intro n fr m ins out c n' st o c' h
  obtain ⟨⟨a, b, d⟩, _, h⟩ := Res.bind_ok.mp h
  cases h
  exact ⟨rfl, rfl⟩

/-- C84: executing a node changes no identifier, no connection and no attribute: whatever the
outcome, every query of a node that does not look at the stored node status gives the same
answer as before, for every node; and for nodes that are not upstream of the executed node the
stored status is the same as well. -/
theorem C84_execution_changes_no_input (p : Profile) (lib : NodeLib F H) (srt : EdgeSort)
    {g g' : Graph (Node F) (Stream F H)} {r : Bool} (h : Reach (nodeSem p lib) srt r g)
    {id start : Nat} (hid : At g id start) (hs : g.graph.contains start = true) {fuel : Nat}
    {frames : List F} {w w' : World F H} {st : ExecuteStatus}
    (he : g.execute (nodeSem p lib) srt fuel id frames w = .ok (st, g', w')) :
    g'.ids = g.ids ∧ (∀ a b slot, Conn g' a b slot ↔ Conn g a b slot) ∧
    (∀ {α : Type} (other : Nat) (dflt : α) (f : Node F → α),
      (∀ i s s' a, f ⟨i, s, a⟩ = f ⟨i, s', a⟩) → g'.query other dflt f = g.query other dflt f) ∧
    ∀ {α : Type} (other i : Nat) (dflt : α) (f : Node F → α), At g other i →
      ¬ Upstream g.graph start i → g'.query other dflt f = g.query other dflt f := by
  obtain ⟨h1, h2, h3, _⟩ := execute_same _ _ _ _ _ _ _ _ _ _ he
  have hk := kept_execute (R := fun n n' : Node F => n.id = n'.id ∧ n.attrs = n'.attrs)
    (fun _ => ⟨rfl, rfl⟩) (fun _ _ _ a b => ⟨a.1.trans b.1, a.2.trans b.2⟩)
    (nodeSem_keeps p lib) h.inv hid hs he
  have hfind : ∀ k, g'.find k = g.find k := fun k => by unfold Graph.find; rw [h1]
  refine ⟨h1, fun a b slot => by unfold Conn; rw [h3], ?_, ?_⟩
  · intro α other dflt f hf
    unfold Graph.query
    rw [hfind]
    cases g.find other with
    | none => rfl
    | some i =>
      dsimp only
      cases hn : g.nodes[i]? with
      | none =>
        have : g'.nodes[i]? = none := by
          rw [List.getElem?_eq_none_iff] at hn ⊢; omega
        rw [this]
      | some n =>
        obtain ⟨n', e', r1, r2⟩ := hk.rel i n hn
        rw [e']
        obtain ⟨a, b, c⟩ := n
        obtain ⟨a', b', c'⟩ := n'
        cases r1
        cases r2
        dsimp only
        rw [hf a b' b c]
  · intro α other i dflt f hat hn
    unfold Graph.query
    rw [hfind, find_at.mpr hat]
    dsimp only
    rw [hk.same i hn]

attribute [local instance] finFloat finBits finHalf finPi

theorem readCrop_reach : Reach (nodeSem .debug twoFiles) insSort false readCrop :=
  .connect 1 2 0 (.add ⟨2, .uninitialized, .cropImage pixelCrop⟩
    (.add ⟨1, .uninitialized, .readImage readAttrs⟩ (.new .new) rfl) rfl) rfl

/-- Executing the reading node stores its status, and leaves the cropping node alone. -/
example : ∃ g' w', Reach (nodeSem .debug twoFiles) insSort false readCrop ∧ At readCrop 1 0 ∧
    readCrop.graph.contains 0 = true ∧
    readCrop.execute (nodeSem .debug twoFiles) insSort 20 1 [1] blankWorld =
      .ok (.success, g', w') ∧ At readCrop 2 1 ∧ ¬ Upstream readCrop.graph 0 1 ∧
    (g'.nodes.map (·.status)) = [.valid, .uninitialized] := by
  refine ⟨_, _, readCrop_reach, ⟨rfl, by intro j hj; omega⟩, rfl, rfl, ⟨rfl, ?_⟩, ?_, rfl⟩
  · intro j hj
    have : j = 0 := by omega
    subst this; decide
  · intro h
    have key : ∀ v, Upstream readCrop.graph 0 v → v = 0 := by
      intro v hv
      induction hv with
      | refl => rfl
      | step _ hf ih =>
        subst ih
        obtain ⟨e, he, _, h2⟩ := hf
        simp only [readCrop, List.mem_singleton] at he
        subst he
        cases h2
    cases key 1 h

end

/-! ### C85 -/

/-- C85: edits that touch neither the executed node nor anything upstream of it do not change
what executing it gives: the same panic, or the same status, the same output stream and the
same cache and files.  For any nodes. -/
theorem C85_far_edits (sem : NodeSem N S C Fr) (srt : EdgeSort) {g g' : Graph N S} {r : Bool}
    (h : Reach sem srt r g) {id start : Nat} (hid : At g id start)
    (hs : g.graph.contains start = true) (hfar : FarEdits sem start g g') (fuel : Nat)
    (frames : List Fr) (c : C) :
    (g'.execute sem srt fuel id frames c).map (fun r => (r.1, r.2.1.output, r.2.2)) =
      (g.execute sem srt fuel id frames c).map (fun r => (r.1, r.2.1.output, r.2.2)) := by
  have hi := h.inv
  clear h
  revert hid hs
  revert r
  induction hfar with
  | none g => intros; rfl
  | more he _ ih =>
    intro r hi hid hs
    obtain ⟨⟨r', hi'⟩, hl', hat', hsame, _⟩ := he.same hi hs
    have e1 := SameOn.execute (srt := srt) hsame hi.sound hi'.sound sem hid (hat' id hid) .refl fuel
      frames c
    exact (ih hi' (hat' id hid) hl').trans e1

theorem sumTwo_far (v : Nat) (h : Upstream sumTwo.graph 3 v) : v = 3 ∨ v = 0 ∨ v = 1 := by
  induction h with
  | refl => exact .inl rfl
  | step _ hf ih =>
    obtain ⟨e, he, rfl, h2⟩ := hf
    simp only [sumTwo, List.mem_cons, List.not_mem_nil, or_false] at he
    rcases he with rfl | rfl
    · exact .inr (.inr rfl)
    · exact .inr (.inl rfl)

/-- Changing node 3, feeding the executed node into it, and adding a node. -/
example (srt : EdgeSort) : ∃ g', Reach sumSem srt false sumTwo ∧ At sumTwo 4 3 ∧
    sumTwo.graph.contains 3 = true ∧ FarEdits sumSem 3 sumTwo g' ∧
    g'.nodes = [1, 2, 30, 4, 5] ∧ ⟨3, 2, 0⟩ ∈ g'.graph.edges ∧
    ∃ h w, sumTwo.execute sumSem insSort 20 4 [()] () = .ok (.success, h, w) ∧ h.output = 8 := by
  have at2 : ∀ g : Graph Nat Nat, g.ids = [1, 2, 3, 4] → At g 3 2 := by
    intro g h
    unfold At
    rw [h]
    refine ⟨rfl, ?_⟩
    intro j hj
    rcases j with _ | _ | j <;> first | decide | omega
  have no2 : ¬ Upstream sumTwo.graph 3 2 := fun h => by
    rcases sumTwo_far 2 h with h | h | h <;> cases h
  refine ⟨_, sumTwo_reach srt, ⟨rfl, ?_⟩, rfl,
    .more (.setAttr 3 2 (fun n => n * 10) rfl (at2 _ rfl) no2)
      (.more (.connect 4 3 0 2 rfl (at2 _ rfl) no2) (.more (.add 5 rfl) (.none _))),
    rfl, by decide, _, _, rfl, rfl⟩
  intro j hj
  rcases j with _ | _ | _ | j <;> first | decide | omega

end OCG.Props
