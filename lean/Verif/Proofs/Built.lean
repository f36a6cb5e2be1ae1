import Verif.Proofs.ExecRule
import Verif.Proofs.Rename
/-
Executions whose computations depend on the node and its inputs only.
-/

namespace OCG

open GraphSpec

variable {N S C Fr : Type}

/-- What a requested computation gives, if it returns, is a function of the node and its inputs. -/
def PureAt (sem : NodeSem N S C Fr) (srt : EdgeSort) (g0 : Graph N S) (start : Nat) (fr : Fr)
    (R : N → N → Prop) (Good : C → Prop) (f : N → List S → Option (NodeStatus × S)) : Prop :=
  ∀ i m n0 n vals prev c n' st out c', Requested sem srt g0 start i m → g0.nodes[i]? = some n0 →
    R n0 n → Good c → sem.compute n fr m vals prev c = .ok (n', st, out, c') →
    f n0 vals = some (st, out) ∧ R n0 n' ∧ Good c'

/-- The values are those of the function. -/
def Vals (f : N → List S → Option (NodeStatus × S)) (srt : EdgeSort) (g0 : Graph N S)
    (streams : Graph.IdxMap S) : Prop :=
  ∀ k v, streams k = some v → ∃ n vals st, g0.nodes[k]? = some n ∧
    (parents srt g0.graph k).map streams = vals.map some ∧ f n vals = some (st, v) ∧ ¬ Fails st

/-- The node at `k` fails on the values. -/
def FailsOn (f : N → List S → Option (NodeStatus × S)) (srt : EdgeSort) (g0 : Graph N S)
    (start : Nat) (streams : Graph.IdxMap S) : Prop :=
  ∃ n vals st v, ∃ k : Nat, Upstream g0.graph start k ∧ g0.nodes[k]? = some n ∧
    (parents srt g0.graph k).map streams = vals.map some ∧ f n vals = some (st, v) ∧ Fails st

theorem map_more {m m' : Graph.IdxMap S} (h : ∀ k v, m k = some v → m' k = some v) :
    ∀ (ins : List Nat) (vals : List S), ins.map m = vals.map some → ins.map m' = vals.map some := by
  intro ins
  induction ins with
  | nil => intro vals h; exact h
  | cons a as ih =>
    intro vals e
    cases vals with
    | nil => simp at e
    | cons b bs =>
      simp only [List.map_cons, List.cons.injEq] at e ⊢
      exact ⟨h a b e.1, ih bs e.2⟩

theorem map_some_inj {l l' : List S} (h : l.map some = l'.map some) : l = l' :=
  List.map_injective_iff.mpr (Option.some_injective S) h

theorem fails_of_status (st : NodeStatus) : Graph.statusError st = none ↔ ¬ Fails st := by
  unfold Fails
  cases st <;> simp [Graph.statusError]

theorem computePhase_vals {sem : NodeSem N S C Fr} {srt : EdgeSort} {g0 : Graph N S}
    (hg : Sound g0) {start : Nat} (hs : g0.graph.contains start = true) {fr : Fr}
    {R : N → N → Prop} {Good : C → Prop} {f : N → List S → Option (NodeStatus × S)}
    (hp : PureAt sem srt g0 start fr R Good f) :
    ∀ (l : List (Nat × Mode)) (g : Graph N S) (c : C) (streams : Graph.IdxMap S) e g' c',
    (∀ x ∈ l, Requested sem srt g0 start x.1 x.2 ∧ Upstream g0.graph start x.1) →
    Alike R g0 g → Good c → Vals f srt g0 streams →
    Graph.computePhase sem srt fr l g c streams = .ok (e, g', c') →
    Alike R g0 g' ∧ Good c' ∧ ∃ streams', Vals f srt g0 streams' ∧
      (∀ k v, streams k = some v → streams' k = some v) ∧
      (e = none → ∀ x, l.getLast? = some x → streams' x.1 = some g'.output) ∧
      (e ≠ none → FailsOn f srt g0 start streams') := by
  intro l
  induction l with
  | nil =>
    intro g c streams e g' c' _ ha hc hv h
    cases h
    exact ⟨ha, hc, streams, hv, fun _ _ h => h, fun _ => nofun, fun h => absurd rfl h⟩
  | cons x l ih =>
    obtain ⟨i, mode⟩ := x
    intro g c streams e g' c' hreq ha hc hv h
    obtain ⟨hri, hui⟩ := hreq (i, mode) List.mem_cons_self
    dsimp only at hri hui
    have hi := hg.upstream_live hs hui
    unfold Graph.computePhase at h
    rw [ha.graph, hg.direct srt hi] at h
    obtain ⟨_, h1, h⟩ := Res.bind_ok.mp h
    cases h1
    obtain ⟨vals, h2, h⟩ := Res.bind_ok.mp h
    have hlook := lookupAll_inv h2
    have hlt := hg.live i hi
    have hn0 : g0.nodes[i]? = some g0.nodes[i] := List.getElem?_eq_getElem hlt
    obtain ⟨n, hn, hR⟩ := ha.nodes i _ hn0
    rw [hn] at h
    obtain ⟨⟨n', st, out, c1⟩, h3, h⟩ := Res.bind_ok.mp h
    dsimp only at h
    obtain ⟨hf, hR', hc1⟩ := hp i mode _ n vals _ c n' st out c1 hri hn0 hR hc h3
    have ha' : Alike R g0 { g with nodes := g.nodes.set i n', output := out } := by
      refine ⟨ha.graph, fun k n1 hk => ?_⟩
      by_cases hik : i = k
      · subst hik
        rw [hn0] at hk
        cases hk
        exact ⟨n', by simp [(List.getElem?_eq_some_iff.mp hn).1], hR'⟩
      · obtain ⟨n2, e2, r2⟩ := ha.nodes k n1 hk
        exact ⟨n2, (List.getElem?_set_ne hik).trans e2, r2⟩
    split at h
    · rename_i er her
      cases h
      refine ⟨⟨ha.graph ▸ rfl, ha'.nodes⟩, hc1, streams, hv, fun _ _ h => h, nofun, fun _ => ?_⟩
      refine ⟨_, vals, st, out, i, hui, hn0, hlook, hf, ?_⟩
      by_contra hnf
      rw [(fails_of_status st).mpr hnf] at her
      cases her
    · rename_i her
      have hmono : ∀ k v, streams k = some v → (streams.insert i out) k = some v := by
        intro k v hk
        unfold Graph.IdxMap.insert
        split
        · rename_i hki
          subst hki
          obtain ⟨n1, vals1, st1, a1, a2, a3, -⟩ := hv k v hk
          rw [hlook] at a2
          have := map_some_inj a2
          subst this
          rw [hn0] at a1
          cases a1
          rw [hf] at a3
          cases a3
          rfl
        · exact hk
      have hv' : Vals f srt g0 (streams.insert i out) := by
        intro k v hk
        by_cases hki : k = i
        · subst hki
          have : v = out := by
            unfold Graph.IdxMap.insert at hk
            rw [if_pos rfl] at hk
            exact (Option.some.inj hk).symm
          subst this
          exact ⟨_, vals, st, hn0, map_more hmono _ _ hlook, hf, (fails_of_status st).mp her⟩
        · have hk' : streams k = some v := by
            unfold Graph.IdxMap.insert at hk
            rw [if_neg hki] at hk
            exact hk
          obtain ⟨n1, vals1, st1, a1, a2, a3, a4⟩ := hv k v hk'
          exact ⟨n1, vals1, st1, a1, map_more hmono _ _ a2, a3, a4⟩
      rw [← ha.graph] at h
      obtain ⟨r1, r2, streams', r3, r4, r5, r6⟩ := ih _ _ _ _ _ _
        (fun y hy => hreq y (List.mem_cons_of_mem _ hy)) ha' hc1 hv' h
      refine ⟨r1, r2, streams', r3, fun k v hk => r4 k v (hmono k v hk), ?_, r6⟩
      intro hen x hx
      cases l with
      | nil =>
        simp only [List.getLast?_singleton, Option.some.injEq] at hx
        subst hx
        cases h
        exact r4 i out (by unfold Graph.IdxMap.insert; rw [if_pos rfl])
      | cons z zs =>
        rw [List.getLast?_cons_cons] at hx
        exact r5 hen x hx

theorem frameLoop_vals {sem : NodeSem N S C Fr} {srt : EdgeSort} {g0 : Graph N S}
    (hg : Sound g0) {start : Nat} (hs : g0.graph.contains start = true) {R : N → N → Prop}
    (hk : AsksAlike sem R) {Good : C → Prop} {f : Fr → N → List S → Option (NodeStatus × S)}
    {order : List Nat} (ho : order.head? = some start) (fuel : Nat) :
    ∀ (frames : List Fr), (∀ fr ∈ frames, PureAt sem srt g0 start fr R Good (f fr)) →
    ∀ (g : Graph N S) (c : C) e g' c', Alike R g0 g → Good c →
    Graph.frameLoop sem srt fuel order frames g c = .ok (e, g', c') →
    (e = none → (∀ fr ∈ frames, ∃ streams, Vals (f fr) srt g0 streams ∧ streams start ≠ none) ∧
      ∀ fr, frames.getLast? = some fr → ∃ streams, Vals (f fr) srt g0 streams ∧
        streams start = some g'.output) ∧
    (e ≠ none → ∃ fr ∈ frames, ∃ streams, Vals (f fr) srt g0 streams ∧
      FailsOn (f fr) srt g0 start streams) := by
  intro frames
  induction frames with
  | nil =>
    intro _ g c e g' c' _ _ h
    cases h
    exact ⟨fun _ => ⟨nofun, nofun⟩, fun h => absurd rfl h⟩
  | cons fr fs ih =>
    intro hp g c e g' c' ha hc h
    unfold Graph.frameLoop at h
    obtain ⟨⟨e1, g1, c1⟩, h1, h⟩ := Res.bind_ok.mp h
    dsimp only at h
    unfold Graph.executeFrame at h1
    obtain ⟨hashes, -, h1⟩ := Res.bind_ok.mp h1
    cases order with
    | nil => cases ho
    | cons o os =>
      simp only [List.head?_cons, Option.some.injEq] at ho
      subst ho
      dsimp only at h1
      obtain ⟨validated, hval, h1⟩ := Res.bind_ok.mp h1
      have hstart : ∀ x ∈ [(o, modeAll)], Requested sem srt g o x.1 x.2 := by
        intro x hx
        rw [List.mem_singleton] at hx
        subst hx
        exact .start
      obtain ⟨hpre, hreq⟩ := validate_requested fuel _ _ _ hstart hstart hval
      obtain ⟨r1, r2, streams, r3, -, r5, r6⟩ := computePhase_vals hg hs
        (hp fr List.mem_cons_self) validated.reverse g c (fun _ => none) e1 g1 c1
        (fun x hx => requested_alike hk hg ha hs (hreq x (List.mem_reverse.mp hx))) ha hc
        (fun k v hk => by cases hk) h1
      have hlast : validated.reverse.getLast? = some (o, modeAll) := by
        rw [List.getLast?_reverse]
        obtain ⟨t, ht⟩ := hpre
        rw [← ht]
        rfl
      cases e1 with
      | some e1 =>
        cases h
        exact ⟨nofun, fun _ => ⟨fr, List.mem_cons_self, streams, r3, r6 (by simp)⟩⟩
      | none =>
        have hout := r5 rfl _ hlast
        dsimp only at hout
        obtain ⟨k1, k2⟩ := ih (fun x hx => hp x (List.mem_cons_of_mem _ hx)) g1 c1 e g' c' r1 r2 h
        refine ⟨fun hen => ?_, fun hen => ?_⟩
        · obtain ⟨k3, k4⟩ := k1 hen
          refine ⟨fun x hx => ?_, fun x hx => ?_⟩
          · rcases List.mem_cons.mp hx with rfl | hx
            · exact ⟨streams, r3, by rw [hout]; simp⟩
            · exact k3 x hx
          · cases fs with
            | nil =>
              simp only [List.getLast?_singleton, Option.some.injEq] at hx
              subst hx
              cases h
              exact ⟨streams, r3, hout⟩
            | cons z zs =>
              rw [List.getLast?_cons_cons] at hx
              exact k4 x hx
        · obtain ⟨x, hx, rest⟩ := k2 hen
          exact ⟨x, List.mem_cons_of_mem _ hx, rest⟩

/-! ### lists of connections -/

/-- Two lists of connections in the order of their slots, with related members, are related. -/
theorem sorted_forall₂ {R : Edge → Edge → Prop} (hw : ∀ e f, R e f → e.weight = f.weight) :
    ∀ (es fs : List Edge), es.Pairwise (fun x y => x.weight < y.weight) →
    fs.Pairwise (fun x y => x.weight < y.weight) → (∀ e ∈ es, ∃ f ∈ fs, R e f) →
    (∀ f ∈ fs, ∃ e ∈ es, R e f) → List.Forall₂ R es fs := by
  intro es
  induction es with
  | nil =>
    intro fs _ _ _ h2
    cases fs with
    | nil => exact .nil
    | cons f fs => obtain ⟨e, he, -⟩ := h2 f List.mem_cons_self; cases he
  | cons e es ih =>
    intro fs p1 p2 h1 h2
    cases fs with
    | nil => obtain ⟨f, hf, -⟩ := h1 e List.mem_cons_self; cases hf
    | cons f fs =>
      obtain ⟨a1, a2⟩ := List.pairwise_cons.mp p1
      obtain ⟨b1, b2⟩ := List.pairwise_cons.mp p2
      obtain ⟨f', hf', r1⟩ := h1 e List.mem_cons_self
      obtain ⟨e', he', r2⟩ := h2 f List.mem_cons_self
      have w1 := hw _ _ r1
      have w2 := hw _ _ r2
      have hff : f' = f := by
        rcases List.mem_cons.mp hf' with h | h
        · exact h
        · exfalso
          have := b1 f' h
          rcases List.mem_cons.mp he' with h' | h'
          · subst h'; omega
          · have := a1 e' h'; omega
      subst hff
      refine .cons r1 (ih fs a2 b2 ?_ ?_)
      · intro x hx
        obtain ⟨y, hy, r⟩ := h1 x (List.mem_cons_of_mem _ hx)
        rcases List.mem_cons.mp hy with h | h
        · subst h
          have := a1 x hx
          have := hw _ _ r
          omega
        · exact ⟨y, h, r⟩
      · intro y hy
        obtain ⟨x, hx, r⟩ := h2 y (List.mem_cons_of_mem _ hy)
        rcases List.mem_cons.mp hx with h | h
        · subst h
          have := b1 y hy
          have := hw _ _ r
          omega
        · exact ⟨x, h, r⟩

end OCG
