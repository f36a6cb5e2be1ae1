import Verif.Spec.Idle
import Verif.Proofs.SameRun
import Verif.Props.Exchange
/-
Property C123: nodes that do nothing can be put in and taken out.
-/

namespace OCG.Props

open AgainSpec BuiltSpec ExchangeSpec GraphSpec CacheSpec ComputeSpec IdleSpec

section
variable {N S C Fr : Type}

/-- Nodes that are the same have related inputs, in order. -/
theorem sameAt_parents {sem sem' : NodeSem N S C Fr} {srt srt' : EdgeSort} {g g' : Graph N S}
    {r r' : Bool} (h : Reach sem srt r g) (h' : Reach sem' srt' r' g') (hu : UniqueSlots g)
    (hu' : UniqueSlots g') {Same : N → N → Prop} {ρ : Nat → Nat → Prop} {i j : Nat}
    (hij : SameAt Same ρ g g' i j) (hi : g.graph.contains i = true)
    (hj : g'.graph.contains j = true) :
    List.Forall₂ ρ (parents srt g.graph i) (parents srt' g'.graph j) := by
  obtain ⟨es, e1, e2, e3⟩ := C37_strict sem srt h hu hi
  obtain ⟨fs, f1, f2, f3⟩ := C37_strict sem' srt' h' hu' hj
  rw [h.inv.sound.direct srt hi] at e1
  rw [h'.inv.sound.direct srt' hj] at f1
  rw [Except.ok.inj e1, Except.ok.inj f1]
  have := sorted_forall₂ (R := fun e f => e.weight = f.weight ∧ ρ e.src f.src) (fun _ _ h => h.1)
    es fs e3 f3 (fun e he => by
      obtain ⟨k1, k2, k3⟩ := (e2 e).mp he
      obtain ⟨b, b1, b2, b3⟩ := hij.inputs _ _ k1 k3
      exact ⟨⟨b, j, e.weight⟩, (f2 _).mpr ⟨b2, rfl, b3⟩, rfl, b1⟩)
    (fun f hf => by
      obtain ⟨k1, k2, k3⟩ := (f2 f).mp hf
      obtain ⟨b, b1, b2, b3⟩ := hij.back _ _ k1 k3
      exact ⟨⟨b, i, f.weight⟩, (e2 _).mpr ⟨b2, rfl, b3⟩, rfl, b1⟩)
  exact forall₂_map (fun _ _ h => h.2) this

/-- A node that does nothing has one input. -/
theorem passes_parents {Off : N → Prop} {srt : EdgeSort} {g : Graph N S} (hg : Sound g) {i a : Nat}
    (hp : Passes Off g i a) : parents srt g.graph i = [a] := by
  obtain ⟨-, h1, h2, h3⟩ := hp
  have hmem : ∀ u, u ∈ parents srt g.graph i ↔ u = a := fun u =>
    ⟨fun k => h3 u ((hg.mem_parents srt).mp k).1, fun k =>
      (hg.mem_parents srt).mpr (k ▸ ⟨h1, h2⟩)⟩
  have hlen := few_parents hg srt (i := i) (fun b c hb hc => (h3 b hb).trans (h3 c hc).symm)
  generalize parents srt g.graph i = ps at hmem hlen
  rcases ps with _ | ⟨x, _ | ⟨y, ps⟩⟩
  · exact absurd ((hmem a).mpr rfl) (by simp)
  · rw [(hmem x).mp (by simp)]
  · simp at hlen

/-- What the function gives is computed. -/
def ComputedAt (sem : NodeSem N S C Fr) (srt : EdgeSort) (g0 : Graph N S) (start : Nat) (fr : Fr)
    (R : N → N → Prop) (Good : C → Prop) (f : N → List S → Option (NodeStatus × S)) : Prop :=
  ∀ i m n0 n vals prev c st out, Requested sem srt g0 start i m → g0.nodes[i]? = some n0 →
    R n0 n → Good c → f n0 vals = some (st, out) →
    ∃ n' c', sem.compute n fr m vals prev c = .ok (n', st, out, c') ∧ R n0 n' ∧ Good c'

/-- The nodes that do nothing, and what the others do. -/
structure PassesOn (Same : N → N → Prop) (Off : N → Prop)
    (f : Fr → N → List S → Option (NodeStatus × S)) (RS : S → S → Prop) : Prop where
  symm : ∀ s t, RS s t → RS t s
  trans : ∀ s t u, RS s t → RS t u → RS s u
  same : ∀ fr n n' vals vals' st s, Same n n' → List.Forall₂ RS vals vals' →
    f fr n vals = some (st, s) → ∃ s', f fr n' vals' = some (st, s') ∧ RS s s'
  off : ∀ fr n v, Off n → ∃ st s, f fr n [v] = some (st, s) ∧ RS s v ∧ ¬ Fails st

theorem idle_execution {sem : NodeSem N S C Fr} {srt srt' : EdgeSort} {g g' : Graph N S}
    {r r' : Bool} (h : Reach sem srt r g) (h' : Reach sem srt' r' g') (hu : UniqueSlots g)
    (hu' : UniqueSlots g') {R Same : N → N → Prop} {Off : N → Prop} (hk : AsksAlike sem R)
    (hR : ∀ n, R n n) {Good : C → Prop} {f : Fr → N → List S → Option (NodeStatus × S)}
    {RS : S → S → Prop} (hf : PassesOn Same Off f RS)
    {ρ : Nat → Nat → Prop} (hρ : SameButIdle Same Off Off ρ g g') {id id' start start' : Nat}
    (hid : At g id start) (hs : g.graph.contains start = true) (hid' : At g' id' start')
    (hs' : g'.graph.contains start' = true) (h0 : ρ start start') {frames : List Fr}
    (hne : frames ≠ []) (hp : ∀ fr ∈ frames, PureAt sem srt g start fr R Good (f fr))
    (hp' : ∀ fr ∈ frames, ComputedAt sem srt' g' start' fr R Good (f fr))
    (hv' : ∀ i, Upstream g'.graph start' i → ∀ n0 n, g'.nodes[i]? = some n0 → R n0 n →
      ValidatesAt sem n)
    {order' d' : List Nat} (ho' : g'.graph.findAllUpstream srt' start' = .ok order')
    (hi' : SInv g'.graph start' order' ⟨[], d'⟩) (ht' : Topo g'.graph order')
    {c c' : C} (hc : Good c) (hc' : Good c') {fuel fuel' : Nat}
    (hfuel : (order'.length + 1) ^ order'.length < fuel') {g1 : Graph N S} {c1 : C}
    (e : g.execute sem srt fuel id frames c = .ok (.success, g1, c1)) :
    ∃ g1' c1', g'.execute sem srt' fuel' id' frames c' = .ok (.success, g1', c1') ∧ Good c1' ∧
      RS g1.output g1'.output := by
  have hg : Sound g := h.inv.sound
  have hg' : Sound g' := h'.inv.sound
  obtain ⟨order, d, ho, hi⟩ := order_of_reach h hs
  have ht := execute_topo hg hid hs hne e ho hi
  -- how far down the inputs go
  have hrk : ∀ i a, Upstream g.graph start i → Feeds g.graph a i → a ≠ i →
      order.length - order.idxOf a < order.length - order.idxOf i := by
    intro i a hui hfe hne
    have k1 := ht i ((hi.final_mem i).mpr hui) a hfe hne
    have k2 := List.idxOf_lt_length_of_mem ((hi.final_mem a).mpr (.step hui hfe))
    omega
  -- an input of the one is related to something above the other
  have hstep : ∀ d i j a, order.length - order.idxOf i < d → ρ i j → Upstream g.graph start i →
      Feeds g'.graph a j → a ≠ j → ∃ k, ρ k a ∧ Upstream g.graph start k := by
    intro d
    induction d with
    | zero => intro i j a hd; omega
    | succ d ih =>
      intro i j a hd hij hui hfe hne
      rcases hρ i j hij with hsame | ⟨x, hpass, hxj⟩ | ⟨b, hpass, hib⟩
      · obtain ⟨e, he, rfl, rfl⟩ := hfe
        obtain ⟨k, k1, k2, k3⟩ := hsame.back e.src e.weight he hne
        exact ⟨k, k1, .step hui ⟨_, k2, rfl, rfl⟩⟩
      · obtain ⟨-, p1, p2, -⟩ := hpass
        have := hrk i x hui p1 p2
        exact ih x j a (by omega) hxj (.step hui p1) hfe hne
      · obtain ⟨-, p1, p2, p3⟩ := hpass
        rw [p3 a hfe]
        exact ⟨i, hib, hui⟩
  have hups : ∀ j, Upstream g'.graph start' j → ∃ i, ρ i j ∧ Upstream g.graph start i := by
    intro j huj
    induction huj with
    | refl => exact ⟨start, h0, .refl⟩
    | @step b a _ hfe ih =>
      obtain ⟨i, hib, hui⟩ := ih
      by_cases hab : a = b
      · rw [hab]; exact ⟨i, hib, hui⟩
      · exact hstep _ i b a (Nat.lt_succ_self _) hib hui hfe hab
  unfold Graph.execute at e ⊢
  rw [find_at.mpr hid] at e
  rw [find_at.mpr hid']
  dsimp only at e ⊢
  rw [ho] at e
  rw [ho']
  obtain ⟨_, hx, e⟩ := Res.bind_ok.mp e
  cases hx
  obtain ⟨⟨er, g2, c2⟩, l1, e⟩ := Res.bind_ok.mp e
  dsimp only at e
  obtain ⟨k1, -⟩ := frameLoop_vals hg hs hk hi.final_head fuel frames hp g c er g2 c2
    ⟨rfl, fun k n hn => ⟨n, hn, hR n⟩⟩ hc l1
  cases er with
  | some er => cases er <;> simp [Graph.errorStatus] at e
  | none =>
  obtain ⟨k4, k5⟩ := k1 rfl
  -- the values of related nodes
  let Sh : Fr → Nat → S → Prop := fun fr j s => ∀ streams, Vals (f fr) srt g streams → ∀ i v, ρ i j →
    Upstream g.graph start i → streams i = some v → RS v s
  have hin : ∀ fr (streams : Graph.IdxMap S), Vals (f fr) srt g streams → ∀ i j,
      SameAt Same ρ g g' i j → Upstream g.graph start i → Upstream g'.graph start' j →
      ∀ vals vals', (parents srt g.graph i).map streams = vals.map some →
      List.Forall₂ (Sh fr) (parents srt' g'.graph j) vals' → List.Forall₂ RS vals vals' := by
    intro fr streams hv i j hsame hui huj vals vals' hm hF
    have hpar := sameAt_parents h h' hu hu' hsame (hg.upstream_live hs hui)
      (hg'.upstream_live hs' huj)
    have hpu := fun u (k : u ∈ parents srt g.graph i) => ((hg.mem_parents srt).mp k).1
    generalize parents srt g.graph i = ps at hm hpar hpu
    generalize parents srt' g'.graph j = ps' at hF hpar
    clear hsame
    induction hpar generalizing vals vals' with
    | nil =>
      cases hF
      cases vals with
      | nil => exact .nil
      | cons _ _ => simp at hm
    | cons hab _ ih =>
      cases hF with
      | cons hx hxs =>
        cases vals with
        | nil => simp at hm
        | cons v vals =>
          simp only [List.map_cons, List.cons.injEq] at hm
          exact .cons (hx streams hv _ v hab (.step hui (hpu _ List.mem_cons_self)) hm.1)
            (ih _ _ hm.2 (fun u k => hpu u (List.mem_cons_of_mem _ k)) hxs)
  have hone : ∀ fr j b (vals' : List S), Passes Off g' j b →
      List.Forall₂ (Sh fr) (parents srt' g'.graph j) vals' → ∃ x, vals' = [x] ∧ Sh fr b x := by
    intro fr j b vals' hpass hF
    rw [passes_parents hg' hpass] at hF
    cases hF with
    | cons hx hxs => cases hxs; exact ⟨_, rfl, hx⟩
  have honeg : ∀ (streams : Graph.IdxMap S) i a (vals : List S), Passes Off g i a →
      (parents srt g.graph i).map streams = vals.map some → ∃ x, vals = [x] ∧ streams a = some x := by
    intro streams i a vals hpass hm
    rw [passes_parents hg hpass] at hm
    rcases vals with _ | ⟨v, _ | ⟨y, vals⟩⟩ <;>
      simp only [List.map_cons, List.map_nil, List.cons.injEq, and_true, reduceCtorEq,
        and_false] at hm
    exact ⟨v, rfl, hm⟩
  have hsteps : ∀ fr ∈ frames, Steps sem srt' g' start' fr R Good (Sh fr) := by
    intro fr hfr j m n0 n vals' prev c hreq hn0 hRn hF hgood
    have huj : Upstream g'.graph start' j :=
      (requested_alike hk hg' (g := g') ⟨rfl, fun k n hn => ⟨n, hn, hR n⟩⟩ hs' hreq).2
    obtain ⟨streams, hv, hdom⟩ := k4 fr hfr
    -- there is a value
    have hex : ∀ d i, order.length - order.idxOf i < d → ρ i j → Upstream g.graph start i →
        ∃ st s, f fr n0 vals' = some (st, s) ∧ ¬ Fails st := by
      intro d
      induction d with
      | zero => intro i hd; omega
      | succ d ih =>
        intro i hd hij hui
        rcases hρ i j hij with hsame | ⟨x, hpass, hxj⟩ | ⟨b, hpass, hib⟩
        · obtain ⟨w, hw⟩ := Option.ne_none_iff_exists'.mp (vals_dom hg hv hdom i hui)
          obtain ⟨n1, vals, st1, a1, a2, a3, a4⟩ := hv i w hw
          obtain ⟨m, m', c1, c2, c3⟩ := hsame.nodes
          rw [c1] at a1
          cases a1
          rw [c2] at hn0
          cases hn0
          obtain ⟨s', f1, f2⟩ := hf.same fr _ _ _ _ _ _ c3 (hin fr streams hv i j hsame hui huj _ _
            a2 hF) a3
          exact ⟨_, _, f1, a4⟩
        · obtain ⟨-, p1, p2, -⟩ := hpass
          have := hrk i x hui p1 p2
          exact ih x (by omega) hxj (.step hui p1)
        · obtain ⟨x, rfl, hx⟩ := hone fr j b vals' hpass hF
          obtain ⟨⟨m, c1, c2⟩, -⟩ := hpass
          rw [c1] at hn0
          cases hn0
          obtain ⟨st, s, k1, -, k2⟩ := hf.off fr _ x c2
          exact ⟨st, s, k1, k2⟩
    obtain ⟨i, hij, hui⟩ := hups j huj
    obtain ⟨st, out, hfo, hok⟩ := hex _ i (Nat.lt_succ_self _) hij hui
    obtain ⟨n', c', hcomp, hRn', hgood'⟩ := hp' fr hfr j m n0 n vals' prev c st out hreq hn0 hRn hgood
      hfo
    refine ⟨n', st, out, c', hcomp, hok, hRn', ?_, hgood'⟩
    clear hij hui i hv hdom streams
    intro streams hv i v hij hui hvi
    suffices hgo : ∀ d i v, order.length - order.idxOf i < d → ρ i j → Upstream g.graph start i →
        streams i = some v → RS v out from hgo _ i v (Nat.lt_succ_self _) hij hui hvi
    clear hij hui hvi i v
    intro d
    induction d with
    | zero => intro i v hd; omega
    | succ d ih =>
      intro i v hd hij hui hvi
      obtain ⟨n1, vals, st1, a1, a2, a3, -⟩ := hv i v hvi
      rcases hρ i j hij with hsame | ⟨x, hpass, hxj⟩ | ⟨b, hpass, hib⟩
      · obtain ⟨m, m', c1, c2, c3⟩ := hsame.nodes
        rw [c1] at a1
        cases a1
        rw [c2] at hn0
        cases hn0
        obtain ⟨s', f1, f2⟩ := hf.same fr _ _ _ _ _ _ c3 (hin fr streams hv i j hsame hui huj _ _
          a2 hF) a3
        rw [hfo] at f1
        cases f1
        exact f2
      · obtain ⟨y, rfl, hy⟩ := honeg streams i x vals hpass a2
        obtain ⟨⟨m, c1, c2⟩, p1, p2, -⟩ := hpass
        rw [c1] at a1
        cases a1
        have := hrk i x hui p1 p2
        obtain ⟨st2, s2, q1, q2, -⟩ := hf.off fr _ y c2
        rw [a3] at q1
        cases q1
        exact hf.trans _ _ _ q2 (ih x y (by omega) hxj (.step hui p1) hy)
      · obtain ⟨x, rfl, hx⟩ := hone fr j b vals' hpass hF
        obtain ⟨⟨m, c1, c2⟩, -⟩ := hpass
        rw [c1] at hn0
        cases hn0
        obtain ⟨st2, s2, q1, q2, -⟩ := hf.off fr _ x c2
        rw [hfo] at q1
        cases q1
        exact hf.trans _ _ _ (hx streams hv i v hib hui hvi) (hf.symm _ _ q2)
  obtain ⟨g1', c1', e1, -, hc1, hl⟩ := frameLoop_rule hg' hs' hk hv' (Sh := Sh) hi' ht' fuel' hfuel
    frames hsteps g' c' ⟨rfl, fun k n hn => ⟨n, hn, hR n⟩⟩ hc'
  refine ⟨{ g1' with state := .clean, status := .success }, c1', ?_, hc1, ?_⟩
  · simp only [e1, bind, Except.bind]
  · obtain ⟨fr, hlast⟩ := Option.ne_none_iff_exists'.mp (mt List.getLast?_eq_none_iff.mp hne)
    obtain ⟨streams, hv, ho1⟩ := k5 fr hlast
    obtain ⟨_, _, _, _, _, _, _, -, -, -, -, -, hsh⟩ := hl fr hlast
    simp only [Except.ok.injEq, Prod.mk.injEq] at e
    rw [← e.2.1]
    exact hsh streams hv start _ h0 .refl ho1

/-- C123: if the computations depend on the nodes and their inputs only, then nodes that do nothing
may be put in or left out: of two graphs that are the same but for those, if the one succeeds and the
other returns, the other succeeds too, with the same output (as far as `RS` says). -/
theorem C123_idle (sem : NodeSem N S C Fr) (srt srt' : EdgeSort) {g g' : Graph N S}
    {r r' : Bool} (h : Reach sem srt r g) (h' : Reach sem srt' r' g') (hu : UniqueSlots g)
    (hu' : UniqueSlots g') {R Same : N → N → Prop} {Off : N → Prop} (hk : AsksAlike sem R)
    (hR : ∀ n, R n n) {Good : C → Prop} {f : Fr → N → List S → Option (NodeStatus × S)}
    {RS : S → S → Prop} (hf : PassesOn Same Off f RS)
    {ρ : Nat → Nat → Prop} (hρ : SameButIdle Same Off Off ρ g g') {id id' start start' : Nat}
    (hid : At g id start) (hs : g.graph.contains start = true) (hid' : At g' id' start')
    (hs' : g'.graph.contains start' = true) (h0 : ρ start start') {frames : List Fr}
    (hne : frames ≠ []) (hp : ∀ fr ∈ frames, PureAt sem srt g start fr R Good (f fr))
    (hp' : ∀ fr ∈ frames, ComputedAt sem srt' g' start' fr R Good (f fr))
    (hv' : ∀ i, Upstream g'.graph start' i → ∀ n0 n, g'.nodes[i]? = some n0 → R n0 n →
      ValidatesAt sem n) {c c' : C} (hc : Good c)
    (hc' : Good c') {fuel fuel' : Nat} {st : ExecuteStatus} {g1 g1' : Graph N S} {c1 c1' : C}
    (e : g.execute sem srt fuel id frames c = .ok (.success, g1, c1))
    (e' : g'.execute sem srt' fuel' id' frames c' = .ok (st, g1', c1')) :
    st = .success ∧ RS g1.output g1'.output := by
  obtain ⟨order', d', ho', hi'⟩ := order_of_reach h' hs'
  have ht' := execute_topo h'.inv.sound hid' hs' hne e' ho' hi'
  obtain ⟨g2, c2, e2, -, k⟩ := idle_execution h h' hu hu' hk hR hf hρ hid hs hid' hs' h0 hne hp hp'
    hv' ho' hi' ht' hc hc' (fuel' := max fuel' ((order'.length + 1) ^ order'.length + 1)) (by omega) e
  rw [execute_more (Nat.le_max_left fuel' ((order'.length + 1) ^ order'.length + 1)) e'] at e2
  cases e2
  exact ⟨rfl, k⟩

/-- C123: if moreover the other graph is arranged in levels, it does return. -/
theorem C123_idle_leveled (sem : NodeSem N S C Fr) (srt srt' : EdgeSort) {g g' : Graph N S}
    {r r' : Bool} (h : Reach sem srt r g) (h' : Reach sem srt' r' g') (hu : UniqueSlots g)
    (hu' : UniqueSlots g') {R Same : N → N → Prop} {Off : N → Prop} (hk : AsksAlike sem R)
    (hR : ∀ n, R n n) {Good : C → Prop} {f : Fr → N → List S → Option (NodeStatus × S)}
    {RS : S → S → Prop} (hf : PassesOn Same Off f RS)
    {ρ : Nat → Nat → Prop} (hρ : SameButIdle Same Off Off ρ g g') {id id' start start' : Nat}
    (hid : At g id start) (hs : g.graph.contains start = true) (hid' : At g' id' start')
    (hs' : g'.graph.contains start' = true) (h0 : ρ start start') (hl : Leveled g'.graph start')
    {frames : List Fr} (hne : frames ≠ [])
    (hp : ∀ fr ∈ frames, PureAt sem srt g start fr R Good (f fr))
    (hp' : ∀ fr ∈ frames, ComputedAt sem srt' g' start' fr R Good (f fr))
    (hv' : ∀ i, Upstream g'.graph start' i → ∀ n0 n, g'.nodes[i]? = some n0 → R n0 n →
      ValidatesAt sem n) {c c' : C} (hc : Good c) (hc' : Good c') {fuel : Nat} {g1 : Graph N S}
    {c1 : C} (e : g.execute sem srt fuel id frames c = .ok (.success, g1, c1)) :
    ∃ enough, ∀ fuel', enough ≤ fuel' → ∃ g1' c1',
      g'.execute sem srt' fuel' id' frames c' = .ok (.success, g1', c1') ∧
      RS g1.output g1'.output := by
  obtain ⟨L, hL⟩ := hl
  obtain ⟨order', d', ho', hi', ht'⟩ := leveled_topo srt' h'.inv.ends (contains_lt_bound hs') L hL
  refine ⟨(order'.length + 1) ^ order'.length + 1, fun fuel' hf' => ?_⟩
  obtain ⟨g2, c2, e2, -, k⟩ := idle_execution h h' hu hu' hk hR hf hρ hid hs hid' hs' h0 hne hp hp'
    hv' ho' hi' ht' hc hc' (fuel' := fuel') (by omega) e
  exact ⟨g2, c2, e2, k⟩

end

/-! ### the nodes of the library -/

section
variable {F H : Type} [FloatLike F] [HalfLike F H] [FloatConst F] [FloatBits F]

/-- C123, for one node: a `Null` node, or a node that is switched off, is valid and gives its input,
except perhaps for the hash; it touches neither cache nor files. -/
theorem C123_node (p : Profile) (lib : NodeLib F H) (n : Node F) (hn : Idle n) (frame : F)
    (mode : Mode) (input : Stream F H) (rest : List (Stream F H)) (prev : Stream F H)
    (w : World F H) :
    ∃ out, n.run p lib frame mode (input :: rest) prev w = .ok (.valid, out, w) ∧
      SameImage out input := by
  rcases hn with hn | ⟨he, ht⟩
  · obtain ⟨id, st, attrs⟩ := n
    cases attrs <;> simp only [NodeAttrs.nodeType, reduceCtorEq] at hn
    exact ⟨input, rfl, .refl _⟩
  · exact C46_pass_through_partial p lib n frame mode input rest prev w he ht

theorem pureRun_same (p : Profile) (lib : NodeLib F H) (frame : F) (n n' : Node F)
    {vals vals' : List (Stream F H)} {st : NodeStatus} {s : Stream F H} (hn : SameSettings n n')
    (hv : List.Forall₂ SameImage vals vals') (e : pureRun p lib frame n vals = some (st, s)) :
    ∃ s', pureRun p lib frame n' vals' = some (st, s') ∧ SameImage s s' := by
  unfold pureRun at e ⊢
  cases hr : n.run p lib frame modeAll vals .new ⟨.withCapacity 0, []⟩ with
  | error x => rw [hr] at e; cases e
  | ok x =>
    obtain ⟨st1, out, w1⟩ := x
    rw [hr] at e
    cases e
    obtain ⟨out', w1', k1, k2, -⟩ := run_same p lib n n' hn frame modeAll hv (SameImage.refl .new)
      (w' := ⟨.withCapacity 0, []⟩) ⟨⟨rfl, rfl⟩, ⟨rfl, rfl⟩, rfl⟩ hr
    rw [k1]
    exact ⟨out', rfl, k2⟩

theorem makesPictures_pure {p : Profile} {lib : NodeLib F H} {srt : EdgeSort}
    {g : Graph (Node F) (Stream F H)} (hg : Sound g) {start : Nat}
    (hs : g.graph.contains start = true) {frame : F} (hp : MakesPictures lib g start frame) :
    PureAt (nodeSem p lib) srt g start frame SameNode (fun w : World F H => IsOff w)
      (pureRun p lib frame) := by
  refine nodes_pure hg hs (fun i n hu hn => ?_) hp.own
  obtain ⟨k1, k2⟩ := hp.inputs i n hu hn
  exact ⟨hp.leaves i n hu hn, fun ht => few_parents hg srt (k1 ht), two_parents hg srt k2⟩

theorem makesPictures_computed {p : Profile} {lib : NodeLib F H} {srt : EdgeSort}
    {g : Graph (Node F) (Stream F H)} (hg : Sound g) {start : Nat}
    (hs : g.graph.contains start = true) {frame : F} (hp : MakesPictures lib g start frame) :
    ComputedAt (nodeSem p lib) srt g start frame SameNode (fun w : World F H => IsOff w)
      (pureRun p lib frame) := by
  have hl : ∀ i n, Upstream g.graph start i → g.nodes[i]? = some n → LeavesPixels n ∧
      (n.attrs.nodeType ≠ .mergeImage → (parents srt g.graph i).length ≤ 1) ∧
      (parents srt g.graph i).length ≤ 2 := fun i n hu hn => by
    obtain ⟨k1, k2⟩ := hp.inputs i n hu hn
    exact ⟨hp.leaves i n hu hn, fun ht => few_parents hg srt (k1 ht), two_parents hg srt k2⟩
  intro i m n0 n vals prev w st out hr hn hR hw h
  obtain ⟨hu, hm⟩ := requested_pixels hg hs hl hr
  have hown := hp.own i n0 hu hn
  obtain ⟨id, s, attrs⟩ := n
  obtain ⟨id0, s0, attrs0⟩ := n0
  obtain ⟨e1, e2⟩ := hR
  dsimp only at e1 e2
  subst e1 e2
  have hrun : Node.run p lib (⟨id0, s, attrs0⟩ : Node F) frame m vals prev w =
      Node.run p lib ⟨id0, s0, attrs0⟩ frame modeAll vals .new w := by
    rw [← run_mode hm, ← ownPicture_run hown hm vals prev .new w]
    rfl
  have := run_offs p lib (⟨id0, s0, attrs0⟩ : Node F) frame modeAll vals .new
    (w := w) (w' := ⟨.withCapacity 0, []⟩) hw ⟨rfl, rfl⟩
  unfold pureRun at h
  rw [← hrun] at this
  revert this h
  cases Node.run p lib (⟨id0, s0, attrs0⟩ : Node F) frame modeAll vals .new
    ⟨.withCapacity 0, []⟩ with
  | error e => intro h; cases h
  | ok x =>
    obtain ⟨a, b, c⟩ := x
    intro h
    cases h
    cases hx : Node.run p lib (⟨id0, s, attrs0⟩ : Node F) frame m vals prev w with
    | error e => intro this; cases this
    | ok y =>
      obtain ⟨a1, b1, c1⟩ := y
      rintro ⟨k1, k2, k3, -, -⟩
      dsimp only at k1 k2
      subst k1 k2
      exact ⟨{ id := id0, status := a1, attrs := attrs0 }, c1,
        by simp only [nodeSem, hx, bind, Except.bind], ⟨rfl, rfl⟩, k3⟩

omit [FloatConst F] [FloatBits F] in
theorem leaves_validates {n : Node F} (h : LeavesPixels n) :
    ∀ (mode : Mode) (ins : List (Node F)), ∃ modes, n.validate mode ins = .ok modes ∧
      modes.length = ins.length := by
  intro mode ins
  have hf : (validateFirst mode ins).length = ins.length := by cases ins <;> simp [validateFirst]
  have hm : (validateMerge mode ins).length = ins.length := by
    rcases ins with _ | ⟨a, _ | ⟨b, l⟩⟩ <;> simp [validateMerge]
  obtain ⟨id, st, attrs⟩ := n
  cases attrs
  case viewer a =>
    have ho := h rfl
    simp only [attr_eval] at ho
    cases ins with
    | nil => exact ⟨[], rfl, rfl⟩
    | cons b l =>
      by_cases he : a.enable = 0
      · exact ⟨_, by simp only [Node.validate, ViewerAttrs.validate, he]; rfl, by simp⟩
      · rcases ho with ho | ho | ⟨hc, ho | ho⟩
        · exact absurd ho he
        · exact ⟨_, by simp only [Node.validate, ViewerAttrs.validate, if_neg he, ho]; rfl, by simp⟩
        · exact ⟨_, by simp only [Node.validate, ViewerAttrs.validate, if_neg he, ho, hc]; rfl,
            by simp⟩
        · exact ⟨_, by simp only [Node.validate, ViewerAttrs.validate, if_neg he, ho, hc]; rfl,
            by simp⟩
  case mergeImage a => exact ⟨_, rfl, hm⟩
  all_goals exact ⟨_, rfl, hf⟩

theorem makesPictures_validates {p : Profile} {lib : NodeLib F H}
    {g : Graph (Node F) (Stream F H)} {start : Nat} {frame : F}
    (hp : MakesPictures lib g start frame) : ∀ i, Upstream g.graph start i → ∀ n0 n,
      g.nodes[i]? = some n0 → SameNode n0 n → ValidatesAt (nodeSem p lib) n := by
  rintro i hui ⟨id0, s0, attrs0⟩ ⟨id, s, attrs⟩ hn ⟨e1, e2⟩
  dsimp only at e1 e2
  subst e1 e2
  intro mode hash ins
  exact leaves_validates (hp.leaves i _ hui hn) mode ins

/-- What the nodes of the library do with pictures. -/
theorem library_passes (p : Profile) (lib : NodeLib F H) :
    PassesOn SameSettings Idle (pureRun p lib) (fun s t : Stream F H => SameImage s t) := by
  refine ⟨fun _ _ h => h.symm, fun _ _ _ h k => h.trans k,
    fun fr n n' vals vals' st s hn hv e => pureRun_same p lib fr n n' hn hv e, fun fr n v hn => ?_⟩
  obtain ⟨out, k1, k2⟩ := C123_node p lib n hn fr modeAll v [] .new ⟨.withCapacity 0, []⟩
  refine ⟨.valid, out, ?_, k2, by simp [Fails]⟩
  unfold pureRun
  rw [k1]

/-- C123: of two graphs that make pictures and are the same but for nodes that do nothing, without a
cache, if one succeeds then so does the other (if it returns), and shows the same picture. -/
theorem C123_graph (p : Profile) (lib : NodeLib F H) (srt srt' : EdgeSort)
    {g g' : Graph (Node F) (Stream F H)} {r r' : Bool} (h : Reach (nodeSem p lib) srt r g)
    (h' : Reach (nodeSem p lib) srt' r' g') (hu : UniqueSlots g) (hu' : UniqueSlots g')
    {ρ : Nat → Nat → Prop} (hρ : SameButIdle SameSettings Idle Idle ρ g g')
    {id id' start start' : Nat} (hid : At g id start) (hs : g.graph.contains start = true)
    (hid' : At g' id' start') (hs' : g'.graph.contains start' = true) (h0 : ρ start start')
    {frames : List F} (hne : frames ≠ []) (hp : ∀ frame ∈ frames, MakesPictures lib g start frame)
    (hp' : ∀ frame ∈ frames, MakesPictures lib g' start' frame)
    {w w' : World F H} (hw : IsOff w) (hw' : IsOff w') {fuel fuel' : Nat} {st : ExecuteStatus}
    {g1 g1' : Graph (Node F) (Stream F H)} {w1 w1' : World F H}
    (e : g.execute (nodeSem p lib) srt fuel id frames w = .ok (.success, g1, w1))
    (e' : g'.execute (nodeSem p lib) srt' fuel' id' frames w' = .ok (st, g1', w1')) :
    st = .success ∧ SameImage g1.output g1'.output := by
  obtain ⟨fr, hfr⟩ := List.exists_mem_of_ne_nil frames hne
  exact C123_idle (nodeSem p lib) srt srt' h h' hu hu' (sameNode_asks p lib) (fun n => ⟨rfl, rfl⟩)
    (Good := fun w : World F H => IsOff w) (library_passes p lib) hρ hid hs
    hid' hs' h0 hne (fun fr hfr => makesPictures_pure h.inv.sound hs (hp fr hfr))
    (fun fr hfr => makesPictures_computed h'.inv.sound hs' (hp' fr hfr))
    (makesPictures_validates (hp' fr hfr)) hw hw' e e'

/-- C123: a graph arranged in levels does return. -/
theorem C123_graph_leveled (p : Profile) (lib : NodeLib F H) (srt srt' : EdgeSort)
    {g g' : Graph (Node F) (Stream F H)} {r r' : Bool} (h : Reach (nodeSem p lib) srt r g)
    (h' : Reach (nodeSem p lib) srt' r' g') (hu : UniqueSlots g) (hu' : UniqueSlots g')
    {ρ : Nat → Nat → Prop} (hρ : SameButIdle SameSettings Idle Idle ρ g g')
    {id id' start start' : Nat} (hid : At g id start) (hs : g.graph.contains start = true)
    (hid' : At g' id' start') (hs' : g'.graph.contains start' = true) (h0 : ρ start start')
    (hl : Leveled g'.graph start') {frames : List F} (hne : frames ≠ [])
    (hp : ∀ frame ∈ frames, MakesPictures lib g start frame)
    (hp' : ∀ frame ∈ frames, MakesPictures lib g' start' frame)
    {w w' : World F H} (hw : IsOff w) (hw' : IsOff w') {fuel : Nat}
    {g1 : Graph (Node F) (Stream F H)} {w1 : World F H}
    (e : g.execute (nodeSem p lib) srt fuel id frames w = .ok (.success, g1, w1)) :
    ∃ enough, ∀ fuel', enough ≤ fuel' → ∃ g1' w1',
      g'.execute (nodeSem p lib) srt' fuel' id' frames w' = .ok (.success, g1', w1') ∧
      SameImage g1.output g1'.output := by
  obtain ⟨fr, hfr⟩ := List.exists_mem_of_ne_nil frames hne
  exact C123_idle_leveled (nodeSem p lib) srt srt' h h' hu hu' (sameNode_asks p lib)
    (fun n => ⟨rfl, rfl⟩) (Good := fun w : World F H => IsOff w) (library_passes p lib) hρ hid hs
    hid' hs' h0 hl hne (fun fr hfr => makesPictures_pure h.inv.sound hs (hp fr hfr))
    (fun fr hfr => makesPictures_computed h'.inv.sound hs' (hp' fr hfr))
    (makesPictures_validates (hp' fr hfr)) hw hw' e

/-- C123: so it is with any cache, if no node uses it. -/
theorem C123_uncached (p : Profile) (lib : NodeLib F H) (srt srt' : EdgeSort)
    {g g' : Graph (Node F) (Stream F H)} {r r' : Bool} (h : Reach (nodeSem p lib) srt r g)
    (h' : Reach (nodeSem p lib) srt' r' g') (hu : UniqueSlots g) (hu' : UniqueSlots g')
    {ρ : Nat → Nat → Prop} (hρ : SameButIdle SameSettings Idle Idle ρ g g')
    {id id' start start' : Nat} (hid : At g id start) (hs : g.graph.contains start = true)
    (hid' : At g' id' start') (hs' : g'.graph.contains start' = true) (h0 : ρ start start')
    {frames : List F} (hne : frames ≠ []) (hp : ∀ frame ∈ frames, MakesPictures lib g start frame)
    (hp' : ∀ frame ∈ frames, MakesPictures lib g' start' frame)
    (hc : ∀ n ∈ g.nodes, n.getI32 "use_cache" = 0) (hc' : ∀ n ∈ g'.nodes, n.getI32 "use_cache" = 0)
    {w w' : World F H} {fuel fuel' : Nat} {st : ExecuteStatus}
    {g1 g1' : Graph (Node F) (Stream F H)} {w1 w1' : World F H}
    (e : g.execute (nodeSem p lib) srt fuel id frames w = .ok (.success, g1, w1))
    (e' : g'.execute (nodeSem p lib) srt' fuel' id' frames w' = .ok (st, g1', w1')) :
    st = .success ∧ SameImage g1.output g1'.output := by
  rw [C94_uncached p lib srt fuel g hc] at e
  rw [C94_uncached p lib srt' fuel' g' hc'] at e'
  cases x : g.execute (nodeSem p lib) srt fuel id frames ⟨.withCapacity 0, []⟩ with
  | error _ => rw [x] at e; cases e
  | ok a =>
    cases y : g'.execute (nodeSem p lib) srt' fuel' id' frames ⟨.withCapacity 0, []⟩ with
    | error _ => rw [y] at e'; cases e'
    | ok b =>
      obtain ⟨s2, g2, w2⟩ := a
      obtain ⟨s2', g2', w2'⟩ := b
      rw [x] at e
      rw [y] at e'
      simp only [Except.map, Except.ok.injEq, Prod.mk.injEq] at e e'
      obtain ⟨rfl, rfl, -⟩ := e
      obtain ⟨rfl, rfl, -⟩ := e'
      exact C123_graph p lib srt srt' h h' hu hu' hρ hid hs hid' hs' h0 hne hp hp' ⟨rfl, rfl⟩
        ⟨rfl, rfl⟩ x y

/-- C123: so it is with caches that were used in any regular way before. -/
theorem C123_cached (p : Profile) (lib : NodeLib F H) (srt srt' : EdgeSort)
    {K : Call F H → Prop} (hK : Regular p lib K)
    {g g' : Graph (Node F) (Stream F H)} {r r' : Bool} (h : Reach (nodeSem p lib) srt r g)
    (h' : Reach (nodeSem p lib) srt' r' g') (hu : UniqueSlots g) (hu' : UniqueSlots g')
    {ρ : Nat → Nat → Prop} (hρ : SameButIdle SameSettings Idle Idle ρ g g')
    {id id' start start' : Nat} (hid : At g id start) (hs : g.graph.contains start = true)
    (hid' : At g' id' start') (hs' : g'.graph.contains start' = true) (h0 : ρ start start')
    {frames : List F} (hne : frames ≠ []) (hp : ∀ frame ∈ frames, MakesPictures lib g start frame)
    (hp' : ∀ frame ∈ frames, MakesPictures lib g' start' frame)
    (hg : Produced p lib K g.output) (hg' : Produced p lib K g'.output)
    {w w' : World F H} (hw : History p lib srt K w) (hw' : History p lib srt' K w')
    {fuel fuel' : Nat} {st : ExecuteStatus} {g1 g1' : Graph (Node F) (Stream F H)}
    {w1 w1' : World F H} {log log' : List (Call F H)}
    (e : g.execute (logged p lib) srt fuel id frames (w, []) = .ok (.success, g1, (w1, log)))
    (e' : g'.execute (logged p lib) srt' fuel' id' frames (w', []) = .ok (st, g1', (w1', log')))
    (hlog : ∀ c ∈ log, K c) (hlog' : ∀ c ∈ log', K c) :
    st = .success ∧ SameImage g1.output g1'.output := by
  obtain ⟨v, a, -, -⟩ := C45_cached_equals_uncached_partial p lib srt K hK w
    ⟨.withCapacity 0, w.writes⟩ w1 hw ⟨rfl, rfl⟩ rfl fuel g g1 hg id frames .success log e hlog
  obtain ⟨v', a', -, -⟩ := C45_cached_equals_uncached_partial p lib srt' K hK w'
    ⟨.withCapacity 0, w'.writes⟩ w1' hw' ⟨rfl, rfl⟩ rfl fuel' g' g1' hg' id' frames st log' e' hlog'
  exact C123_graph p lib srt srt' h h' hu hu' hρ hid hs hid' hs' h0 hne hp hp' ⟨rfl, rfl⟩
    ⟨rfl, rfl⟩ a a'

/-- C123, for one node: where a node that does nothing is left out, and its only input is connected
to what it fed, the same picture is shown. -/
theorem C123_bypass (p : Profile) (lib : NodeLib F H) (srt srt' : EdgeSort)
    {g g' : Graph (Node F) (Stream F H)} {r r' : Bool} (h : Reach (nodeSem p lib) srt r g)
    (h' : Reach (nodeSem p lib) srt' r' g') (hu : UniqueSlots g) (hu' : UniqueSlots g') {k a : Nat}
    (hb : Bypassed SameSettings Idle g g' k a) {id id' start start' : Nat} (hid : At g id start)
    (hs : g.graph.contains start = true) (hid' : At g' id' start')
    (hs' : g'.graph.contains start' = true) (h0 : start' = if start = k then a else start)
    {frames : List F} (hne : frames ≠ []) (hp : ∀ frame ∈ frames, MakesPictures lib g start frame)
    (hp' : ∀ frame ∈ frames, MakesPictures lib g' start' frame)
    {w w' : World F H} (hw : IsOff w) (hw' : IsOff w') {fuel fuel' : Nat} {st : ExecuteStatus}
    {g1 g1' : Graph (Node F) (Stream F H)} {w1 w1' : World F H}
    (e : g.execute (nodeSem p lib) srt fuel id frames w = .ok (.success, g1, w1))
    (e' : g'.execute (nodeSem p lib) srt' fuel' id' frames w' = .ok (st, g1', w1')) :
    st = .success ∧ SameImage g1.output g1'.output := by
  have hg : Sound g := h.inv.sound
  obtain ⟨order, d, ho, hi⟩ := order_of_reach h hs
  have ht := execute_topo hg hid hs hne e ho hi
  obtain ⟨ha1, ha2, ha3⟩ := hb.input
  have hcyc : ∀ j, Upstream g.graph start j → j = k → ¬ Feeds g.graph k a := by
    rintro j huj rfl hf
    have k1 := ht j ((hi.final_mem j).mpr huj) a ha1 ha2
    have k2 := ht a ((hi.final_mem a).mpr (.step huj ha1)) j hf (Ne.symm ha2)
    omega
  refine C123_graph p lib srt srt' h h' hu hu'
    (ρ := fun i j => Upstream g.graph start i ∧ (i ≠ k ∧ j = i ∨ i = k ∧ j = a)) ?_ hid hs hid' hs'
    ?_ hne hp hp' hw hw' e e'
  · rintro i j ⟨hui, ⟨hik, rfl⟩ | ⟨rfl, rfl⟩⟩
    · left
      refine ⟨?_, ?_, ?_⟩
      · have hlt := hg.live j (hg.upstream_live hs hui)
        obtain ⟨n', k1, k2⟩ := hb.nodes j _ hik (List.getElem?_eq_getElem hlt)
        exact ⟨_, n', List.getElem?_eq_getElem hlt, k1, k2⟩
      · intro x slot hc hne
        have hux : Upstream g.graph start x := .step hui ⟨_, hc, rfl, rfl⟩
        by_cases hxk : x = k
        · subst hxk
          refine ⟨a, ⟨hux, .inr ⟨rfl, rfl⟩⟩, (hb.conns a j slot hik).mpr (.inr ⟨rfl, hc⟩), ?_⟩
          rintro rfl
          exact hcyc x hux rfl ⟨_, hc, rfl, rfl⟩
        · exact ⟨x, ⟨hux, .inl ⟨hxk, rfl⟩⟩, (hb.conns x j slot hik).mpr (.inl ⟨hxk, hc⟩), hne⟩
      · intro x slot hc hne
        rcases (hb.conns x j slot hik).mp hc with ⟨k1, k2⟩ | ⟨rfl, k2⟩
        · exact ⟨x, ⟨.step hui ⟨_, k2, rfl, rfl⟩, .inl ⟨k1, rfl⟩⟩, k2, hne⟩
        · exact ⟨k, ⟨.step hui ⟨_, k2, rfl, rfl⟩, .inr ⟨rfl, rfl⟩⟩, k2, Ne.symm hik⟩
    · right; left
      exact ⟨j, ⟨hb.left, ha1, ha2, ha3⟩, .step hui ha1, .inl ⟨ha2, rfl⟩⟩
  · refine ⟨.refl, ?_⟩
    subst h0
    split
    · exact .inr ⟨by assumption, rfl⟩
    · exact .inl ⟨by assumption, rfl⟩

end

section
attribute [local instance] finFloat finBits finHalf finPi

/-- Moving, switched off. -/
def moveOff : NodeAttrs (Fin 256) := .transform { TransformAttrs.new with enable := 0, translateX := 3 }

theorem readMoveOff_pictures (frame : Fin 256) :
    MakesPictures linearFiles (readTwoView redTwice moveOff) 3 frame := by
  refine ⟨?_, ?_, ?_⟩
  · intro i n hu hn
    have := readTwoView_upstream hu
    obtain rfl | rfl | rfl | rfl : i = 0 ∨ i = 1 ∨ i = 2 ∨ i = 3 := by omega
    all_goals cases hn
    · intro h; cases h
    · intro h; cases h
    · intro h; cases h
    · intro _; exact .inr (.inr ⟨rfl, .inr rfl⟩)
  · intro i n hu hn
    refine ⟨fun _ a b ha hb => ?_, fun a b c ha hb hc => ?_⟩
    · rw [readTwoView_feeds] at ha hb; omega
    · rw [readTwoView_feeds] at ha hb; omega
  · intro i n hu hn
    have := readTwoView_upstream hu
    obtain rfl | rfl | rfl | rfl : i = 0 ∨ i = 1 ∨ i = 2 ∨ i = 3 := by omega
    all_goals cases hn
    · refine ⟨nofun, ?_⟩
      intro a ha _
      cases ha
      intro h; cases h
    · exact ⟨nofun, fun a ha => by cases ha⟩
    · exact ⟨nofun, fun a ha => by cases ha⟩
    · exact ⟨fun _ => rfl, fun a ha => by cases ha⟩

theorem readGradeView_feeds {option : Int} {i j : Nat} :
    Feeds (readGradeView option).graph i j ↔ j = i + 1 ∧ i < 2 := by
  constructor
  · rintro ⟨e, he, rfl, rfl⟩
    simp only [readGradeView, List.mem_cons, List.not_mem_nil, or_false] at he
    rcases he with rfl | rfl <;> decide
  · rintro ⟨rfl, h⟩
    obtain rfl | rfl : i = 0 ∨ i = 1 := by omega
    · exact ⟨⟨0, 1, 0⟩, by simp [readGradeView], rfl, rfl⟩
    · exact ⟨⟨1, 2, 0⟩, by simp [readGradeView], rfl, rfl⟩

theorem readGradeView_pictures (frame : Fin 256) :
    MakesPictures linearFiles (readGradeView 2) 2 frame := by
  have hup : ∀ i, Upstream (readGradeView 2).graph 2 i → i < 3 := by
    intro i h
    induction h with
    | refl => decide
    | step _ hf ih => rw [readGradeView_feeds] at hf; omega
  refine ⟨?_, ?_, ?_⟩
  · intro i n hu hn
    have := hup i hu
    obtain rfl | rfl | rfl : i = 0 ∨ i = 1 ∨ i = 2 := by omega
    all_goals cases hn
    · intro h; cases h
    · intro h; cases h
    · intro _; exact .inr (.inr ⟨rfl, .inr rfl⟩)
  · intro i n hu hn
    refine ⟨fun _ a b ha hb => ?_, fun a b c ha hb hc => ?_⟩
    · rw [readGradeView_feeds] at ha hb; omega
    · rw [readGradeView_feeds] at ha hb; omega
  · intro i n hu hn
    have := hup i hu
    obtain rfl | rfl | rfl : i = 0 ∨ i = 1 ∨ i = 2 := by omega
    all_goals cases hn
    · refine ⟨nofun, ?_⟩
      intro a ha _
      cases ha
      intro h; cases h
    · exact ⟨nofun, fun a ha => by cases ha⟩
    · exact ⟨fun _ => rfl, fun a ha => by cases ha⟩

/-- Which nodes stand for which, when the third is left out. -/
def withoutThird (i j : Nat) : Prop := (i, j) ∈ [(0, 0), (1, 1), (2, 1), (3, 2)]

theorem readMoveOff_same : SameButIdle SameSettings Idle Idle withoutThird
    (readTwoView redTwice moveOff) (readGradeView 2) := by
  intro i j h
  simp only [withoutThird, List.mem_cons, Prod.mk.injEq, List.not_mem_nil, or_false] at h
  have hin : ∀ {x y s : Nat}, Conn (readTwoView redTwice moveOff) x y s ↔
      y = x + 1 ∧ x < 3 ∧ s = 0 := by
    intro x y s
    simp only [Conn, readTwoView, List.mem_cons, Edge.mk.injEq, List.not_mem_nil, or_false]
    omega
  have hin' : ∀ {x y s : Nat}, Conn (readGradeView 2) x y s ↔ y = x + 1 ∧ x < 2 ∧ s = 0 := by
    intro x y s
    simp only [Conn, readGradeView, List.mem_cons, Edge.mk.injEq, List.not_mem_nil, or_false]
    omega
  rcases h with ⟨rfl, rfl⟩ | ⟨rfl, rfl⟩ | ⟨rfl, rfl⟩ | ⟨rfl, rfl⟩
  · left
    refine ⟨⟨_, _, rfl, rfl, rfl⟩, fun a s h _ => ?_, fun b s h _ => ?_⟩
    · rw [hin] at h; omega
    · rw [hin'] at h; omega
  · left
    refine ⟨⟨_, _, rfl, rfl, rfl⟩, fun a s h _ => ⟨0, ?_⟩, fun b s h _ => ⟨0, ?_⟩⟩
    · rw [hin] at h; rw [hin']; simp [withoutThird]; omega
    · rw [hin'] at h; rw [hin]; simp [withoutThird]; omega
  · right; left
    refine ⟨1, ⟨⟨_, rfl, .inr ⟨rfl, by decide⟩⟩, readTwoView_feeds.mpr (by decide), by decide,
      fun b hb => ?_⟩, by unfold withoutThird; decide⟩
    rw [readTwoView_feeds] at hb
    omega
  · left
    refine ⟨⟨_, _, rfl, rfl, rfl⟩, fun a s h _ => ⟨1, ?_⟩, fun b s h _ => ⟨2, ?_⟩⟩
    · rw [hin] at h; rw [hin']; simp [withoutThird]; omega
    · rw [hin'] at h; rw [hin]; simp [withoutThird]; omega

theorem readGradeView_slots : UniqueSlots (readGradeView 2) := by
  intro a a' b s h1 h2
  simp only [Conn, readGradeView, List.mem_cons, Edge.mk.injEq, List.not_mem_nil, or_false] at h1 h2
  omega

/-- C123: a grade that is switched off passes its input on. -/
example (input : Stream (Fin 256) (Fin 256)) : ∃ out,
    Node.run .debug linearFiles ⟨2, .uninitialized, .grade { GradeAttrs.new with enable := 0, multiplyR := 2 }⟩
      1 modeAll [input] .new noCache = .ok (.valid, out, noCache) ∧ SameImage out input :=
  C123_node .debug linearFiles _ (.inr ⟨rfl, by decide⟩) 1 modeAll input [] .new noCache

/-- C123: reading, doubling and viewing shows the same with and without a move that is switched
off. -/
example : ∃ g1 w1 g2 w2,
    (readTwoView redTwice moveOff).execute (nodeSem .debug linearFiles) insSort 40 4 [1, 2] noCache =
      .ok (.success, g1, w1) ∧ numbersOf g1.output.pixelBlock = [2, 1, 1] ∧
    (readGradeView 2).execute (nodeSem .debug linearFiles) insSort 40 3 [1, 2] noCache =
      .ok (.success, g2, w2) ∧ SameImage g1.output g2.output := by
  obtain ⟨g1, w1, e, hn⟩ : ∃ g1 w1, (readTwoView redTwice moveOff).execute
      (nodeSem .debug linearFiles) insSort 40 4 [1, 2] noCache = .ok (.success, g1, w1) ∧
      numbersOf g1.output.pixelBlock = [2, 1, 1] := ⟨_, _, rfl, by decide +kernel⟩
  obtain ⟨st, g2, w2, e2⟩ : ∃ st g2 w2, (readGradeView 2).execute (nodeSem .debug linearFiles)
      insSort 40 3 [1, 2] noCache = .ok (st, g2, w2) := ⟨_, _, _, rfl⟩
  obtain ⟨rfl, h⟩ := C123_graph .debug linearFiles insSort insSort (readTwoView_reach _ _)
    (readGradeView_reach 2) (readTwoView_slots _ _) readGradeView_slots readMoveOff_same
    (start := 3) (start' := 2) ⟨rfl, by decide⟩ rfl ⟨rfl, by decide⟩ rfl
    (by unfold withoutThird; decide) (by simp) (fun fr _ => readMoveOff_pictures fr)
    (fun fr _ => readGradeView_pictures fr) ⟨rfl, rfl⟩ ⟨rfl, rfl⟩ e e2
  exact ⟨g1, w1, g2, w2, e, hn, e2, h⟩

example {w w' w1 w2 g1 g2 st} (e : (readTwoView redTwice moveOff).execute
      (nodeSem .debug linearFiles) insSort 40 4 [1, 2] w = .ok (.success, g1, w1))
    (e' : (readGradeView 2).execute (nodeSem .debug linearFiles) insSort 40 3 [1, 2] w' =
      .ok (st, g2, w2)) : st = .success ∧ SameImage g1.output g2.output :=
  C123_uncached .debug linearFiles insSort insSort (readTwoView_reach _ _)
    (readGradeView_reach 2) (readTwoView_slots _ _) readGradeView_slots readMoveOff_same
    (start := 3) (start' := 2) ⟨rfl, by decide⟩ rfl ⟨rfl, by decide⟩ rfl
    (by unfold withoutThird; decide) (by simp) (fun fr _ => readMoveOff_pictures fr)
    (fun fr _ => readGradeView_pictures fr) (by decide) (by decide) e e'

/-- The same nodes, where the viewer is connected to the grade. -/
def moveLeftOut : Graph (Node (Fin 256)) (Stream (Fin 256) (Fin 256)) :=
  { readTwoView redTwice moveOff with
    graph := ⟨[some 1, some 2, some 3, some 4], [], [⟨1, 3, 0⟩, ⟨1, 2, 0⟩, ⟨0, 1, 0⟩]⟩ }

theorem moveLeftOut_reach : Reach (nodeSem .debug linearFiles) insSort false moveLeftOut :=
  Reach.connect (g' := moveLeftOut) 2 4 0 (readTwoView_reach redTwice moveOff) rfl

theorem moveLeftOut_pictures (frame : Fin 256) : MakesPictures linearFiles moveLeftOut 3 frame := by
  have hfe : ∀ {i j : Nat}, Feeds moveLeftOut.graph i j → (i, j) ∈ [(1, 3), (1, 2), (0, 1)] := by
    rintro i j ⟨e, he, rfl, rfl⟩
    simp only [moveLeftOut, List.mem_cons, List.not_mem_nil, or_false] at he
    rcases he with rfl | rfl | rfl <;> decide
  have hup : ∀ i, Upstream moveLeftOut.graph 3 i → i < 4 := by
    intro i h
    induction h with
    | refl => decide
    | step _ hf ih =>
      have := hfe hf
      simp only [List.mem_cons, Prod.mk.injEq, List.not_mem_nil, or_false] at this
      omega
  refine ⟨?_, ?_, ?_⟩
  · intro i n hu hn
    have := hup i hu
    obtain rfl | rfl | rfl | rfl : i = 0 ∨ i = 1 ∨ i = 2 ∨ i = 3 := by omega
    all_goals cases hn
    · intro h; cases h
    · intro h; cases h
    · intro h; cases h
    · intro _; exact .inr (.inr ⟨rfl, .inr rfl⟩)
  · intro i n hu hn
    refine ⟨fun _ a b ha hb => ?_, fun a b c ha hb hc => ?_⟩
    · have h1 := hfe ha
      have h2 := hfe hb
      simp only [List.mem_cons, Prod.mk.injEq, List.not_mem_nil, or_false] at h1 h2
      omega
    · have h1 := hfe ha
      have h2 := hfe hb
      simp only [List.mem_cons, Prod.mk.injEq, List.not_mem_nil, or_false] at h1 h2
      omega
  · intro i n hu hn
    have := hup i hu
    obtain rfl | rfl | rfl | rfl : i = 0 ∨ i = 1 ∨ i = 2 ∨ i = 3 := by omega
    all_goals cases hn
    · refine ⟨nofun, ?_⟩
      intro a ha _
      cases ha
      intro h; cases h
    · exact ⟨nofun, fun a ha => by cases ha⟩
    · exact ⟨nofun, fun a ha => by cases ha⟩
    · exact ⟨fun _ => rfl, fun a ha => by cases ha⟩

theorem moveLeftOut_bypassed : Bypassed SameSettings Idle (readTwoView redTwice moveOff) moveLeftOut
    2 1 := by
  refine ⟨fun i n _ hn => ⟨n, hn, rfl⟩, ⟨_, rfl, .inr ⟨rfl, by decide⟩⟩,
    ⟨readTwoView_feeds.mpr (by decide), by decide, fun b hb => ?_⟩, ?_⟩
  · rw [readTwoView_feeds] at hb
    omega
  · intro x y s hy
    simp only [Conn, moveLeftOut, readTwoView, List.mem_cons, Edge.mk.injEq, List.not_mem_nil,
      or_false, true_and]
    constructor <;> intro h <;> omega

/-- C123: connecting the viewer to the grade, past the move that is switched off. -/
example {st g1 w1 g2 w2} (e : (readTwoView redTwice moveOff).execute (nodeSem .debug linearFiles)
      insSort 40 4 [1] noCache = .ok (.success, g1, w1))
    (e' : moveLeftOut.execute (nodeSem .debug linearFiles) insSort 40 4 [1] noCache =
      .ok (st, g2, w2)) : st = .success ∧ SameImage g1.output g2.output :=
  C123_bypass .debug linearFiles insSort insSort (readTwoView_reach _ _) moveLeftOut_reach
    (readTwoView_slots _ _)
    (fun a a' b s h1 h2 => by
      simp only [Conn, moveLeftOut, List.mem_cons, Edge.mk.injEq, List.not_mem_nil, or_false] at h1 h2
      omega)
    moveLeftOut_bypassed (start := 3) ⟨rfl, by decide⟩ rfl ⟨rfl, by decide⟩ rfl rfl (by simp)
    (fun fr _ => readMoveOff_pictures fr) (fun fr _ => moveLeftOut_pictures fr) ⟨rfl, rfl⟩ ⟨rfl, rfl⟩
    e e'

theorem idle_symm {N S : Type} {Same : N → N → Prop} (hs : ∀ n n', Same n n' → Same n' n)
    {Off : N → Prop} {ρ : Nat → Nat → Prop} {g g' : Graph N S} (h : SameButIdle Same Off Off ρ g g') :
    SameButIdle Same Off Off (fun i j => ρ j i) g' g := by
  intro i j hij
  rcases h j i hij with ⟨⟨n, n', k1, k2, k3⟩, k4, k5⟩ | k | k
  · exact .inl ⟨⟨n', n, k2, k1, hs _ _ k3⟩, k5, k4⟩
  · exact .inr (.inr k)
  · exact .inr (.inl k)

/-- C123: putting in a move that is switched off; the graph still executes, for it is arranged in
levels. -/
example : ∃ g1 enough, numbersOf (g1 : Graph (Node (Fin 256)) (Stream (Fin 256) (Fin 256))).output.pixelBlock
      = [2, 1, 1] ∧ ∀ fuel, enough ≤ fuel → ∃ g2 w2,
    (readTwoView redTwice moveOff).execute (nodeSem .debug linearFiles) insSort fuel 4 [1, 2] noCache =
      .ok (.success, g2, w2) ∧ SameImage g1.output g2.output := by
  obtain ⟨g1, w1, e, hn⟩ : ∃ g1 w1, (readGradeView 2).execute
      (nodeSem .debug linearFiles) insSort 40 3 [1, 2] noCache = .ok (.success, g1, w1) ∧
      numbersOf g1.output.pixelBlock = [2, 1, 1] := ⟨_, _, rfl, by decide +kernel⟩
  obtain ⟨enough, h⟩ := C123_graph_leveled .debug linearFiles insSort insSort (readGradeView_reach 2)
    (readTwoView_reach redTwice moveOff) readGradeView_slots (readTwoView_slots _ _)
    (idle_symm (fun _ _ h => h.symm) readMoveOff_same)
    (start := 2) (start' := 3) (id' := 4) ⟨rfl, by decide⟩ rfl ⟨rfl, by decide⟩ rfl
    (by unfold withoutThird; decide)
    ⟨fun i => 3 - i, fun u v hu hf _ => by
      rw [readTwoView_feeds] at hf
      show 3 - u = 3 - v + 1
      omega⟩ (by simp) (fun fr _ => readGradeView_pictures fr)
    (fun fr _ => readMoveOff_pictures fr) (w' := noCache) ⟨rfl, rfl⟩ ⟨rfl, rfl⟩ e
  exact ⟨g1, enough, hn, h⟩

/-- Reading and cropping, with a `Null` node between. -/
def readNullCrop : Graph (Node (Fin 256)) (Stream (Fin 256) (Fin 256)) :=
  ⟨[⟨1, .uninitialized, .readImage readAttrs⟩, ⟨2, .uninitialized, .cropImage pixelCrop⟩,
    ⟨3, .uninitialized, .null ⟨⟩⟩], [1, 2, 3],
    ⟨[some 1, some 2, some 3], [], [⟨2, 1, 0⟩, ⟨0, 2, 0⟩]⟩, .new, .dirty, .uninitialized⟩

theorem readNullCrop_reach : Reach (nodeSem .debug twoFiles) insSort false readNullCrop := by
  have h0 : Reach (nodeSem .debug twoFiles) insSort false _ := .new .new
  have h1 := Reach.add (g' := ⟨[⟨1, .uninitialized, .readImage readAttrs⟩], [1],
    ⟨[some 1], [], []⟩, .new, .dirty, .uninitialized⟩) _ h0 rfl
  have h2 := Reach.add (g' := ⟨[⟨1, .uninitialized, .readImage readAttrs⟩,
    ⟨2, .uninitialized, .cropImage pixelCrop⟩], [1, 2],
    ⟨[some 1, some 2], [], []⟩, .new, .dirty, .uninitialized⟩) _ h1 rfl
  have h3 := Reach.add (g' := ⟨[⟨1, .uninitialized, .readImage readAttrs⟩,
    ⟨2, .uninitialized, .cropImage pixelCrop⟩, ⟨3, .uninitialized, .null ⟨⟩⟩], [1, 2, 3],
    ⟨[some 1, some 2, some 3], [], []⟩, .new, .dirty, .uninitialized⟩) _ h2 rfl
  have h4 := Reach.connect (g' := ⟨[⟨1, .uninitialized, .readImage readAttrs⟩,
    ⟨2, .uninitialized, .cropImage pixelCrop⟩, ⟨3, .uninitialized, .null ⟨⟩⟩], [1, 2, 3],
    ⟨[some 1, some 2, some 3], [], [⟨0, 2, 0⟩]⟩, .new, .dirty, .uninitialized⟩) 1 3 0 h3 rfl
  exact Reach.connect (g' := readNullCrop) 3 2 0 h4 rfl

/-- The computations of reading and cropping, and `Null` nodes fed with what is read. -/
def ReadNullCrop (c : Call (Fin 256) (Fin 256)) : Prop :=
  ReadCrop c ∨ c.frame = 1 ∧ c.node.attrs = .null ⟨⟩ ∧ ∃ s, c.inputs = [s] ∧
    s.hash = (readNode 1 [97]).hash twoFiles.hash twoFiles.shell 1 []

theorem nullCall_items (c : Call (Fin 256) (Fin 256)) (h : c.frame = 1 ∧ c.node.attrs = .null ⟨⟩ ∧
    ∃ s, c.inputs = [s] ∧ s.hash = (readNode 1 [97]).hash twoFiles.hash twoFiles.shell 1 []) :
    c.node.hashItems twoFiles.shell c.frame (c.inputs.map (·.hash)) =
      (nodeOf (.null ⟨⟩)).hashItems twoFiles.shell 1
        [(readNode 1 [97]).hash twoFiles.hash twoFiles.shell 1 []] := by
  obtain ⟨⟨i, st, a⟩, frame, mode, inputs, prev⟩ := c
  obtain ⟨hf, ha, s, hi, hh⟩ := h
  dsimp only at hf ha hi
  subst hf ha hi
  simp only [List.map_cons, List.map_nil, hh]
  rfl

theorem readNullCrop_regular : Regular .debug twoFiles ReadNullCrop where
  range b := sipHash_lt b
  shell s t _ h := by cases h
  typed c h := by
    rcases h with h | ⟨hf, ha, -⟩
    · exact readCrop_regular.typed c h
    · obtain ⟨⟨i, st, a⟩, frame, mode, inputs, prev⟩ := c
      dsimp only at ha
      subst ha
      constructor
      · intro name
        rw [Node.getI32_eq]
        show InI32 0
        decide
      · intro name b hb
        rw [Node.getStr_eq] at hb
        cases hb
  collision c c' h h' e := by
    rcases h with h | h <;> rcases h' with h' | h'
    · exact readCrop_regular.collision c c' h h' e
    · have e' : twoFiles.hash (hashBytes _) = twoFiles.hash (hashBytes _) := e
      rw [readCrop_items c h, nullCall_items c' h'] at e'
      split at e' <;> exact absurd e' (by decide +kernel)
    · have e' : twoFiles.hash (hashBytes _) = twoFiles.hash (hashBytes _) := e
      rw [readCrop_items c' h', nullCall_items c h] at e'
      split at e' <;> exact absurd e' (by decide +kernel)
    · rw [nullCall_items c h, nullCall_items c' h']
  nonzero c h := by
    rcases h with h | h
    · exact readCrop_regular.nonzero c h
    · have e : c.key twoFiles = twoFiles.hash (hashBytes _) := rfl
      rw [nullCall_items c h] at e
      rw [e]
      decide +kernel
  files c h ht := by
    rcases h with h | ⟨hf, ha, -⟩
    · exact readCrop_regular.files c h ht
    · rw [ha] at ht
      rcases ht with ht | ht <;> cases ht
  lenses c c' h h' ht ht' := by
    rcases h with h | ⟨hf, ha, -⟩
    · rcases h' with h' | ⟨hf', ha', -⟩
      · exact readCrop_regular.lenses c c' h h' ht ht'
      · rw [ha'] at ht'
        cases ht'
    · rw [ha] at ht
      cases ht
  grades c h := by
    rcases h with h | ⟨hf, ha, -⟩
    · exact readCrop_regular.grades c h
    · intro ht
      rw [ha] at ht
      cases ht
  single c h ht := by
    rcases h with h | ⟨hf, ha, -⟩
    · exact readCrop_regular.single c h ht
    · rw [ha] at ht
      rcases ht with ht | ht <;> cases ht
  settled c h hc := by
    rcases h with h | ⟨hf, ha, -⟩
    · exact readCrop_regular.settled c h hc
    · obtain ⟨⟨i, st, a⟩, frame, mode, inputs, prev⟩ := c
      dsimp only at ha
      subst ha
      trivial
  resampled c h ht := by
    rcases h with h | ⟨hf, ha, -⟩
    · exact readCrop_regular.resampled c h ht
    · rw [ha] at ht
      cases ht

theorem readNullCrop_pictures : MakesPictures twoFiles readNullCrop 1 1 := by
  have hfeed : ∀ {a i}, Feeds readNullCrop.graph a i → a = 0 ∧ i = 2 ∨ a = 2 ∧ i = 1 := by
    rintro a i ⟨e, he, rfl, rfl⟩
    simp only [readNullCrop, List.mem_cons, List.not_mem_nil, or_false] at he
    rcases he with rfl | rfl <;> simp
  have hup : ∀ i, Upstream readNullCrop.graph 1 i → i < 3 := by
    intro i h
    induction h with
    | refl => decide
    | step _ hf _ => have := hfeed hf; omega
  refine ⟨?_, ?_, ?_⟩
  · intro i n hu hn
    have := hup i hu
    obtain rfl | rfl | rfl : i = 0 ∨ i = 1 ∨ i = 2 := by omega
    all_goals cases hn; intro h; cases h
  · intro i n hu hn
    refine ⟨fun _ a b ha hb => ?_, fun a b c ha hb hc => ?_⟩
    · have := hfeed ha; have := hfeed hb; omega
    · have := hfeed ha; have := hfeed hb; omega
  · intro i n hu hn
    have := hup i hu
    obtain rfl | rfl | rfl : i = 0 ∨ i = 1 ∨ i = 2 := by omega
    all_goals cases hn
    · refine ⟨nofun, ?_⟩
      intro a ha _
      cases ha
      intro h; cases h
    · exact ⟨nofun, fun a ha => by cases ha⟩
    · exact ⟨nofun, fun a ha => by cases ha⟩

/-- C123: with the cache that the graph without the `Null` node has filled, the graph with it finds
everything in the cache, and shows the same. -/
example : ∃ w g1 log g2 w2 log',
    readCrop.execute (logged .debug twoFiles) insSort 20 2 [1] (blankWorld, []) =
      .ok (.success, g1, (w, log)) ∧
    readNullCrop.execute (logged .debug twoFiles) insSort 20 2 [1] (w, []) =
      .ok (.success, g2, (w2, log')) ∧ w2.cache.hits = 2 ∧
    SameImage g1.output g2.output := by
  obtain ⟨g1, w1, log1, -, -, -, e1, l1, -⟩ := readCrop_twice
  have l1' : ∀ c ∈ log1, ReadNullCrop c := fun c hc => .inl (l1 c hc)
  have hist : History .debug twoFiles insSort ReadNullCrop w1 :=
    .execute _ _ _ _ _ _ _ _ _ (.start 1000 []) .new e1 l1'
  obtain ⟨w, w', g, st, lg, hw, e2, l2, hits⟩ : ∃ w w' g st lg,
      (∃ a b, readCrop.execute (logged .debug twoFiles) insSort 20 2 [1] (blankWorld, []) =
        .ok (.success, a, (w, b))) ∧
      readNullCrop.execute (logged .debug twoFiles) insSort 20 2 [1] (w, []) =
      .ok (st, g, (w', lg)) ∧ (∀ c ∈ lg, ReadNullCrop c) ∧ w'.cache.hits = 2 := by
    refine ⟨_, _, _, _, _, ⟨_, _, rfl⟩, rfl, ?_, ?_⟩
    · show ∀ c ∈ [_, _, _], ReadNullCrop c
      refine List.forall_mem_cons.mpr ⟨?_, List.forall_mem_cons.mpr ⟨?_,
        List.forall_mem_cons.mpr ⟨?_, by simp⟩⟩⟩
      · exact .inl ⟨rfl, .inl ⟨rfl, rfl⟩⟩
      · exact .inr ⟨rfl, rfl, _, rfl, rfl⟩
      · exact .inl ⟨rfl, .inr ⟨rfl, _, rfl, ⟨rfl, rfl⟩, rfl, rfl⟩⟩
    · decide +kernel
  obtain ⟨a, b, hw⟩ := hw
  rw [e1] at hw
  simp only [Except.ok.injEq, Prod.mk.injEq, true_and] at hw
  obtain ⟨rfl, rfl, rfl⟩ := hw
  have u1 : UniqueSlots readCrop := by
    intro a a' b s h1 h2
    simp only [Conn, readCrop, List.mem_cons, Edge.mk.injEq, List.not_mem_nil, or_false] at h1 h2
    omega
  have u2 : UniqueSlots readNullCrop := by
    intro a a' b s h1 h2
    simp only [Conn, readNullCrop, List.mem_cons, Edge.mk.injEq, List.not_mem_nil, or_false] at h1 h2
    omega
  have hin : ∀ {x y s : Nat}, Conn readCrop x y s ↔ x = 0 ∧ y = 1 ∧ s = 0 := by
    intro x y s
    simp only [Conn, readCrop, List.mem_cons, Edge.mk.injEq, List.not_mem_nil, or_false]
  have hin' : ∀ {x y s : Nat}, Conn readNullCrop x y s ↔
      x = 2 ∧ y = 1 ∧ s = 0 ∨ x = 0 ∧ y = 2 ∧ s = 0 := by
    intro x y s
    simp only [Conn, readNullCrop, List.mem_cons, Edge.mk.injEq, List.not_mem_nil, or_false]
  have hsh : SameButIdle SameSettings Idle Idle
      (fun i j => i = 0 ∧ j = 0 ∨ i = 1 ∧ j = 1 ∨ i = 0 ∧ j = 2) readCrop readNullCrop := by
    rintro i j (⟨rfl, rfl⟩ | ⟨rfl, rfl⟩ | ⟨rfl, rfl⟩)
    · refine .inl ⟨⟨_, _, rfl, rfl, rfl⟩, fun a s h _ => ?_, fun b s h _ => ?_⟩
      · rw [hin] at h; omega
      · rw [hin'] at h; omega
    · refine .inl ⟨⟨_, _, rfl, rfl, rfl⟩, fun a s h _ => ⟨2, ?_⟩, fun b s h _ => ⟨0, ?_⟩⟩
      · rw [hin] at h; rw [hin']; omega
      · rw [hin'] at h; rw [hin]; omega
    · refine .inr (.inr ⟨0, ⟨⟨_, rfl, .inl rfl⟩, ⟨_, hin'.mpr (.inr ⟨rfl, rfl, rfl⟩), rfl, rfl⟩,
        by decide, ?_⟩, .inl ⟨rfl, rfl⟩⟩)
      rintro b ⟨e, he, rfl, hd⟩
      have : Conn readNullCrop e.src e.dst e.weight := he
      rw [hin'] at this
      omega
  obtain ⟨rfl, h⟩ := C123_cached .debug twoFiles insSort insSort readNullCrop_regular readCrop_reach
    readNullCrop_reach u1 u2 hsh (start := 1) (start' := 1)
    ⟨rfl, by decide⟩ rfl ⟨rfl, by decide⟩ rfl (.inr (.inl ⟨rfl, rfl⟩)) (by simp)
    (fun fr hfr => by rw [List.mem_singleton.mp hfr]; exact readCrop_pictures)
    (fun fr hfr => by rw [List.mem_singleton.mp hfr]; exact readNullCrop_pictures)
    .new .new (.start 1000 []) hist e1 e2 l1' l2
  exact ⟨_, g1, _, g, w', lg, e1, e2, hits, h⟩

/-- C123 does not hold for merge: between reading and viewing, a merge that is switched off shows
the colour bars of a new stream instead of the file. -/
theorem C123_counterexample_merge :
    numbersAfter ((readTwoView redTwice (.mergeImage { MergeImageAttrs.new with enable := 0, useCache := 0 })).execute
      (nodeSem .debug linearFiles) insSort 40 4 [1] noCache) ≠
    numbersAfter ((readGradeView 2).execute (nodeSem .debug linearFiles) insSort 40 3 [1] noCache) := by
  decide +kernel

/-- A doubled file, multiplied with itself by way of two nodes that do nothing. -/
def squaredByNull : Graph (Node (Fin 256)) (Stream (Fin 256) (Fin 256)) :=
  ⟨[builtGrade 1, ⟨2, .uninitialized, .null ⟨⟩⟩, ⟨3, .uninitialized, .null ⟨⟩⟩, builtMerge 4,
    builtRead 5], [1, 2, 3, 4, 5],
    ⟨[some 1, some 2, some 3, some 4, some 5], [],
      [⟨2, 3, 1⟩, ⟨1, 3, 0⟩, ⟨0, 2, 0⟩, ⟨0, 1, 0⟩, ⟨4, 0, 0⟩]⟩, .new,
    .dirty, .uninitialized⟩

/-- C123 needs the other execution to return, and the inputs to stay apart: where one of two `Null`
nodes by which a picture enters a merge twice is left out, the picture is at two different depths, and
executing panics; where both are left out, connecting the picture to the second slot takes it from
the first. -/
theorem C123_counterexample_both :
    numbersAfter (squaredByNull.execute (nodeSem .debug linearFiles) insSort 40 4 [1] noCache) =
      [4, 1, 1] ∧
    ∃ g g', squaredByNull.connect 1 4 0 = .ok g ∧
      g.execute (nodeSem .debug linearFiles) insSort 40 4 [1] noCache = .error .missingParent ∧
      g.connect 1 4 1 = .ok g' ∧
      numbersAfter (g'.execute (nodeSem .debug linearFiles) insSort 40 4 [1] noCache) ≠ [4, 1, 1] :=
  ⟨by decide +kernel, _, _, rfl, rfl, rfl, by decide +kernel⟩

end

end OCG.Props
