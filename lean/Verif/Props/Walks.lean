import Verif.Proofs.Walks
import Verif.Props.Execute
import Verif.Props.RealNodes
import Verif.Props.PictureGraph
/-
How often nodes are computed (C88).
-/

namespace OCG.Props

open GraphSpec

section Walks

variable {N S C Fr : Type}

/-- The identifier of the node a way starts at. -/
def startName (sem : NodeSem N S C Fr) (g : Graph N S) (w : List Nat) : Option Nat :=
  w.head?.bind fun i : Nat => (g.nodes[i]?).map sem.id

/-- The graph has the connections of `g0`, and nodes of the same names. -/
def SameNames (sem : NodeSem N S C Fr) (g0 g : Graph N S) : Prop :=
  g.graph = g0.graph ∧ ∀ i : Nat, (g.nodes[i]?).map sem.id = (g0.nodes[i]?).map sem.id

theorem names_computePhase {sem : NodeSem N S C Fr} {srt : EdgeSort} {frame : Fr}
    (hid : ∀ n fr m ins prev c n' st out c',
      sem.compute n fr m ins prev c = .ok (n', st, out, c') → sem.id n = sem.id n')
    {g0 : Graph N S} :
    ∀ (l : List (Nat × Mode)) (g : Graph N S) (c : C) (log : List (Nat × NodeStatus))
    (m : Graph.IdxMap S) e g' c' log',
    Graph.computePhase (recording sem) srt frame l g (c, log) m = .ok (e, g', (c', log')) →
    SameNames sem g0 g →
    SameNames sem g0 g' ∧ ∃ new, log' = log ++ new ∧
      new.map (fun x => some x.1) <+: l.map (fun x => (g0.nodes[x.1]?).map sem.id) ∧
      (e = none →
        new.map (fun x => some x.1) = l.map (fun x => (g0.nodes[x.1]?).map sem.id)) := by
  intro l
  induction l with
  | nil =>
    intro g c log m e g' c' log' h hn
    cases h
    exact ⟨hn, [], by simp, by simp, by simp⟩
  | cons a l ih =>
    obtain ⟨i, mode⟩ := a
    intro g c log m e g' c' log' h hn
    unfold Graph.computePhase at h
    obtain ⟨ps, h1, h⟩ := Res.bind_ok.mp h
    obtain ⟨ins, h2, h⟩ := Res.bind_ok.mp h
    cases hni : g.nodes[i]? with
    | none => rw [hni] at h; cases h
    | some n =>
      rw [hni] at h
      dsimp only at h
      obtain ⟨⟨n', st, out, c1, log1⟩, h3, h⟩ := Res.bind_ok.mp h
      have h3' : sem.compute n frame mode ins g.output c = .ok (n', st, out, c1) ∧
          log1 = log ++ [(sem.id n, st)] := by
        unfold recording at h3
        dsimp only at h3
        cases hc : sem.compute n frame mode ins g.output c with
        | error x => rw [hc] at h3; cases h3
        | ok x => rw [hc] at h3; cases h3; exact ⟨rfl, rfl⟩
      obtain ⟨h4, rfl⟩ := h3'
      have hname : (g0.nodes[i]?).map sem.id = some (sem.id n) := by
        rw [← hn.2 i, hni]; rfl
      have hn' : SameNames sem g0 { g with nodes := g.nodes.set i n', output := out } := by
        refine ⟨hn.1, fun k => ?_⟩
        by_cases hik : i = k
        · subst hik
          rw [hname, hid _ _ _ _ _ _ _ _ _ _ h4]
          simp [(List.getElem?_eq_some_iff.mp hni).1]
        · rw [← hn.2 k]
          exact congrArg _ (List.getElem?_set_ne hik)
      dsimp only at h
      cases her : Graph.statusError st with
      | some er =>
        rw [her] at h
        cases h
        refine ⟨hn', [(sem.id n, st)], rfl, ?_, fun h => by cases h⟩
        rw [List.map_cons, List.map_cons, hname]
        exact ⟨_, rfl⟩
      | none =>
        rw [her] at h
        obtain ⟨a1, new, a2, a3, a4⟩ := ih _ _ _ _ _ _ _ _ h hn'
        refine ⟨a1, (sem.id n, st) :: new, by rw [a2]; simp, ?_, fun he => ?_⟩
        · rw [List.map_cons, List.map_cons, hname]
          exact (List.prefix_cons_inj _).mpr a3
        · rw [List.map_cons, List.map_cons, hname, a4 he]

/-- What the frames of an execution compute. -/
theorem walks_frameLoop {sem : NodeSem N S C Fr} {srt : EdgeSort}
    (hid : ∀ n fr m ins prev c n' st out c',
      sem.compute n fr m ins prev c = .ok (n', st, out, c') → sem.id n = sem.id n')
    (hlen : ∀ n m h ns modes, sem.validate n m h ns = .ok modes → modes.length = ns.length)
    {g0 : Graph N S} (hg0 : Sound g0) {start : Nat} (hs : g0.graph.contains start = true)
    {os : List Nat} {fuel : Nat} :
    ∀ (fs : List Fr) (g : Graph N S) (c : C) (log : List (Nat × NodeStatus)) e g' c' log',
    Graph.frameLoop (recording sem) srt fuel (start :: os) fs g (c, log) = .ok (e, g', (c', log')) →
    SameNames sem g0 g →
    ∃ (new : List (Nat × NodeStatus)) (runs : List (List (List Nat))), log' = log ++ new ∧
      runs.length ≤ fs.length ∧ (∀ ws ∈ runs, AllWalks g0.graph start ws) ∧
      new.map (fun x => some x.1) <+: runs.flatten.map (startName sem g0) ∧
      (e = none → runs.length = fs.length ∧
        new.map (fun x => some x.1) = runs.flatten.map (startName sem g0)) := by
  intro fs
  induction fs with
  | nil =>
    intro g c log e g' c' log' h hn
    cases h
    exact ⟨[], [], by simp, by simp, by simp, ⟨[], rfl⟩, by simp⟩
  | cons f fs ih =>
    intro g c log e g' c' log' h hn
    unfold Graph.frameLoop at h
    obtain ⟨⟨e1, g1, c1, log1⟩, h1, h⟩ := Res.bind_ok.mp h
    unfold Graph.executeFrame at h1
    obtain ⟨hashes, h2, h1⟩ := Res.bind_ok.mp h1
    dsimp only at h1
    obtain ⟨v, h3, h1⟩ := Res.bind_ok.mp h1
    rw [recording_validateLoop] at h3
    have hg : Sound g := by
      refine ⟨by rw [hn.1]; exact hg0.ends, fun i hi => ?_⟩
      rw [hn.1] at hi
      have hlt := hg0.live i hi
      have := hn.2 i
      rw [List.getElem?_eq_getElem hlt] at this
      by_contra hno
      rw [List.getElem?_eq_none (by omega)] at this
      cases this
    obtain ⟨new, w1, w2, w3⟩ := validate_walks (sem := sem) (srt := srt) (start := start) hg hlen (by rw [hn.1]; exact hs)
      fuel _ _ _ [[start]] h3 rfl (by simp [Walk.stay]) (by simp)
    have hone : ∀ w, Walk g.graph start w → [start] <:+ w := by
      intro w hw
      induction hw with
      | stay => exact List.suffix_refl _
      | up _ _ _ ih => exact ih.trans (List.suffix_cons _ _)
    have hall : AllWalks g0.graph start (([start] :: new).reverse) := by
      rw [← hn.1]
      refine ⟨(List.reverse_perm _).nodup_iff.mpr (List.nodup_cons.mpr ⟨fun hm => ?_, w2⟩), ?_⟩
      · obtain ⟨s, hs', -, -, h3⟩ := (w3 _).mp hm
        simp only [List.mem_singleton] at hs'
        exact h3 hs'
      · intro w
        rw [List.mem_reverse, List.mem_cons, w3]
        simp only [List.mem_singleton, exists_eq_left]
        constructor
        · rintro (rfl | h)
          · exact .stay
          · exact h.1
        · intro h
          by_cases hw : [start] = w
          · exact .inl hw.symm
          · exact .inr ⟨h, hone w h, hw⟩
    have hnames : v.reverse.map (fun x => (g0.nodes[x.1]?).map sem.id) =
        (([start] :: new).reverse).map (startName sem g0) := by
      have hh : v.map (·.1) = ([start] :: new).map walkHead := by rw [w1]; rfl
      rw [List.map_reverse, List.map_reverse]
      congr 1
      have h5 := congrArg (List.map fun i => (g0.nodes[i]?).map sem.id) hh
      rw [List.map_map, List.map_map] at h5
      refine h5.trans (List.map_congr_left fun w hw => ?_)
      have hw' : Walk g0.graph start w := (hall.2 w).mp (List.mem_reverse.mpr hw)
      cases hw' <;> rfl
    obtain ⟨hn1, n1, b1, b2, b3⟩ := names_computePhase hid _ _ _ _ _ _ _ _ _ h1 hn
    rw [hnames] at b2 b3
    dsimp only at h
    cases e1 with
    | some er =>
      cases h
      refine ⟨n1, [([start] :: new).reverse], b1, by simp, by simpa using hall, by simpa using b2,
        fun h => by cases h⟩
    | none =>
      obtain ⟨n2, runs, a1, a2, a3, a4, a5⟩ := ih _ _ _ _ _ _ _ h hn1
      refine ⟨n1 ++ n2, ([start] :: new).reverse :: runs, by rw [a1, b1]; simp, by simpa using a2,
        ?_, ?_, ?_⟩
      · intro ws hws
        rcases List.mem_cons.mp hws with rfl | hws
        · exact hall
        · exact a3 ws hws
      · rw [List.map_append, b3 rfl, List.flatten_cons, List.map_append]
        exact (List.prefix_append_right_inj _).mpr a4
      · intro he
        obtain ⟨h6, h7⟩ := a5 he
        refine ⟨by simp [h6], ?_⟩
        rw [List.map_append, b3 rfl, List.flatten_cons, List.map_append, h7]

/-- C88: in each frame an execution computes a node once for every way through the graph from
the node to the executed node, and it computes nothing else.  An execution that fails stops
in the middle of such a frame. -/
theorem C88_once_per_walk (sem : NodeSem N S C Fr) (srt : EdgeSort) {g : Graph N S} {r : Bool}
    (h : Reach sem srt r g) {id start : Nat} (hat : At g id start)
    (hs : g.graph.contains start = true)
    (hid : ∀ n fr m ins prev c n' st out c',
      sem.compute n fr m ins prev c = .ok (n', st, out, c') → sem.id n = sem.id n')
    (hlen : ∀ n m h ns modes, sem.validate n m h ns = .ok modes → modes.length = ns.length)
    {fuel : Nat} {frames : List Fr} {c c' : C} {st : ExecuteStatus} {g' : Graph N S}
    {log : List (Nat × NodeStatus)}
    (hx : g.execute (recording sem) srt fuel id frames (c, []) = .ok (st, g', (c', log))) :
    ∃ runs : List (List (List Nat)), runs.length ≤ frames.length ∧
      (∀ ws ∈ runs, AllWalks g.graph start ws) ∧
      log.map (fun x => some x.1) <+: runs.flatten.map (startName sem g) ∧
      (st = .success → runs.length = frames.length ∧
        log.map (fun x => some x.1) = runs.flatten.map (startName sem g)) := by
  unfold Graph.execute at hx
  rw [find_at.mpr hat] at hx
  dsimp only at hx
  obtain ⟨order, d, ho, hi⟩ := order_of_reach h hs
  rw [ho] at hx
  obtain ⟨_, e0, hx⟩ := Res.bind_ok.mp hx
  cases e0
  obtain ⟨⟨e, g1, c1, log1⟩, h2, hx⟩ := Res.bind_ok.mp hx
  obtain ⟨os, rfl⟩ : ∃ os, order = start :: os := by
    have hh := hi.head
    simp only [List.map_nil, List.append_nil] at hh
    cases order with
    | nil => cases hh
    | cons a os => cases hh; exact ⟨os, rfl⟩
  obtain ⟨new, runs, a1, a2, a3, a4, a5⟩ := walks_frameLoop hid hlen h.inv.sound hs _ _ _ _ _ _ _ _
    h2 ⟨rfl, fun _ => rfl⟩
  rw [List.nil_append] at a1
  subst a1
  cases e with
  | some er =>
    cases hx
    exact ⟨runs, a2, a3, a4, fun h => by cases er <;> cases h⟩
  | none =>
    cases hx
    exact ⟨runs, a2, a3, a4, fun _ => a5 rfl⟩

theorem countP_runs {α : Type} {P : List α → Prop} {ws : List α} (p : α → Bool)
    (h : ∀ x, P x → x.Perm ws) : ∀ (runs : List (List α)), (∀ x ∈ runs, P x) →
    runs.flatten.countP p = runs.length * ws.countP p := by
  intro runs
  induction runs with
  | nil => intro _; simp
  | cons x runs ih =>
    intro hr
    rw [List.flatten_cons, List.countP_append, ih fun y hy => hr y (List.mem_cons_of_mem _ hy),
      (h x (hr x List.mem_cons_self)).countP_eq, List.length_cons]
    ring

/-- C88: the number of times a node is computed: the number of frames times the number of ways
from the node to the executed node. -/
theorem C88_count (sem : NodeSem N S C Fr) (srt : EdgeSort) {g : Graph N S} {r : Bool}
    (h : Reach sem srt r g) {id start : Nat} (hat : At g id start)
    (hs : g.graph.contains start = true)
    (hid : ∀ n fr m ins prev c n' st out c',
      sem.compute n fr m ins prev c = .ok (n', st, out, c') → sem.id n = sem.id n')
    (hlen : ∀ n m h ns modes, sem.validate n m h ns = .ok modes → modes.length = ns.length)
    {fuel : Nat} {frames : List Fr} {c c' : C} {g' : Graph N S} {log : List (Nat × NodeStatus)}
    (hx : g.execute (recording sem) srt fuel id frames (c, []) = .ok (.success, g', (c', log)))
    {ws : List (List Nat)} (hws : AllWalks g.graph start ws) (k : Nat) :
    (log.map (·.1)).count k =
      frames.length * ws.countP (fun w => startName sem g w == some k) := by
  obtain ⟨runs, -, h2, -, h4⟩ := C88_once_per_walk sem srt h hat hs hid hlen hx
  obtain ⟨h5, h6⟩ := h4 rfl
  have h7 : (log.map (·.1)).count k = (log.map fun x => some x.1).count (some k) := by
    unfold List.count
    rw [List.countP_map, List.countP_map]
    congr 1
  rw [h7, h6, ← h5]
  unfold List.count
  rw [List.countP_map]
  exact countP_runs (P := AllWalks g.graph start) (ws := ws) _
    (fun x hx => (List.perm_ext_iff_of_nodup hx.1 hws.1).mpr fun w => by rw [hx.2, hws.2]) runs h2

theorem walk_upstream {sg : SGraph} {start : Nat} {i : Nat} {w : List Nat}
    (h : Walk sg start (i :: w)) : Upstream sg start i := by
  generalize hl : i :: w = l at h
  induction h generalizing i w with
  | stay => cases hl; exact .refl
  | up _ hf _ ih => cases hl; exact .step (ih rfl) hf

theorem upstream_walk {sg : SGraph} {start : Nat} {i : Nat} (h : Upstream sg start i) :
    ∃ w, Walk sg start (i :: w) := by
  induction h with
  | refl => exact ⟨[], .stay⟩
  | @step j i _ hf ih =>
    obtain ⟨w, hw⟩ := ih
    by_cases hij : i = j
    · subst hij; exact ⟨w, hw⟩
    · exact ⟨_, .up hw hf hij⟩

/-- Nodes that are used by one node only have one way to the executed node. -/
theorem walk_unique {sg : SGraph} {start : Nat}
    (hroot : ∀ j, Upstream sg start j → Feeds sg start j → start = j)
    (hone : ∀ i j j', Upstream sg start j → Upstream sg start j' → Feeds sg i j → i ≠ j →
      Feeds sg i j' → i ≠ j' → j = j') {w w' : List Nat} (h : Walk sg start w) :
    Walk sg start w' → w.head? = w'.head? → w = w' := by
  induction h generalizing w' with
  | stay =>
    intro h' he
    cases h' with
    | stay => rfl
    | up h' hf hij =>
      cases he
      exact absurd (hroot _ (walk_upstream h') hf) hij
  | @up i j w h hf hij ih =>
    intro h' he
    cases h' with
    | stay =>
      cases he
      exact absurd (hroot _ (walk_upstream h) hf) hij
    | up h' hf' hij' =>
      cases he
      have := hone _ _ _ (walk_upstream h) (walk_upstream h') hf hij hf' hij'
      subst this
      rw [ih h' rfl]

/-- C88 for graphs in which every node is used once: if no node upstream of the executed node is
used by two of them, and the names of these nodes differ, then every frame computes every one of
them exactly once.  Missing from the full claim: nodes that are used more than once, which are
computed again for each use (`C88_counterexample`). -/
theorem C88_once_partial (sem : NodeSem N S C Fr) (srt : EdgeSort) {g : Graph N S} {r : Bool}
    (h : Reach sem srt r g) {id start : Nat} (hat : At g id start)
    (hs : g.graph.contains start = true)
    (hid : ∀ n fr m ins prev c n' st out c',
      sem.compute n fr m ins prev c = .ok (n', st, out, c') → sem.id n = sem.id n')
    (hlen : ∀ n m h ns modes, sem.validate n m h ns = .ok modes → modes.length = ns.length)
    (hroot : ∀ j, Upstream g.graph start j → Feeds g.graph start j → start = j)
    (hone : ∀ i j j', Upstream g.graph start j → Upstream g.graph start j' →
      Feeds g.graph i j → i ≠ j → Feeds g.graph i j' → i ≠ j' → j = j')
    (hdiff : ∀ i j : Nat, Upstream g.graph start i → Upstream g.graph start j →
      (g.nodes[i]?).map sem.id = (g.nodes[j]?).map sem.id → i = j)
    {fuel : Nat} {frames : List Fr} {c c' : C} {g' : Graph N S} {log : List (Nat × NodeStatus)}
    (hx : g.execute (recording sem) srt fuel id frames (c, []) = .ok (.success, g', (c', log)))
    {i : Nat} {n : N} (hi : Upstream g.graph start i) (hn : g.nodes[i]? = some n) :
    (log.map (·.1)).count (sem.id n) = frames.length := by
  obtain ⟨runs, h1, h2, h3, h4⟩ := C88_once_per_walk sem srt h hat hs hid hlen hx
  cases hr : runs with
  | nil =>
    obtain ⟨h5, h6⟩ := h4 rfl
    rw [hr] at h5 h6
    simp only [List.flatten_nil, List.map_nil, List.map_eq_nil_iff] at h6
    rw [h6, ← h5]
    rfl
  | cons ws _ =>
    have hws : AllWalks g.graph start ws := h2 ws (by rw [hr]; exact List.mem_cons_self)
    rw [C88_count sem srt h hat hs hid hlen hx hws]
    obtain ⟨w, hw⟩ := upstream_walk hi
    have hp : ∀ v ∈ ws, (startName sem g v == some (sem.id n)) = (v == i :: w) := by
      intro v hv
      have hv' := (hws.2 v).mp hv
      have hiff : startName sem g v = some (sem.id n) ↔ v = i :: w := by
        constructor
        · intro he
          obtain ⟨j, t, rfl⟩ : ∃ j t, v = j :: t := by
            cases v with
            | nil => cases hv'
            | cons j t => exact ⟨j, t, rfl⟩
          have : (g.nodes[j]?).map sem.id = (g.nodes[i]?).map sem.id := by rw [hn]; exact he
          have := hdiff j i (walk_upstream hv') hi this
          exact walk_unique hroot hone hv' hw (by rw [this]; rfl)
        · rintro rfl
          simp [startName, hn]
      rw [Bool.eq_iff_iff, beq_iff_eq, beq_iff_eq, hiff]
    have hc : ws.countP (fun v => startName sem g v == some (sem.id n)) = 1 := by
      rw [List.countP_congr (q := (· == i :: w)) fun v hv => by rw [hp v hv]]
      exact List.count_eq_one_of_mem hws.1 ((hws.2 _).mpr hw)
    rw [hc, Nat.mul_one]

end Walks

/-! ### Ladders -/

/-- The nodes 0, …, n-1 with some connections. -/
def plain (n : Nat) (es : List Edge) : Graph Nat Unit :=
  ⟨List.range n, List.range n, ⟨(List.range n).map some, [], es⟩, (), .dirty, .uninitialized⟩

theorem plain_contains {n i : Nat} {es : List Edge} (h : i < n) :
    (plain n es).graph.contains i = true := by
  simp [plain, SGraph.contains, h]

theorem plain_at {n i : Nat} {es : List Edge} (h : i < n) : At (plain n es) i i := by
  refine ⟨by simp [plain, h], fun j hj => ?_⟩
  have : j < n := by omega
  simp only [plain, List.getElem?_range this]
  intro he
  cases he
  omega

theorem plain_add {srt : EdgeSort} {n : Nat} {es : List Edge}
    (h : Reach toySem srt false (plain n es)) : Reach toySem srt false (plain (n + 1) es) :=
  .add (i := n) n h (by
    simp [Graph.addNode, plain, SGraph.addNode, toySem, List.range_succ])

theorem plain_connect {srt : EdgeSort} {n : Nat} {es : List Edge} (a b w : Nat)
    (h : Reach toySem srt false (plain n es)) (ha : a < n) (hb : b < n)
    (hw : ∀ e ∈ es, e.dst = b → e.weight ≠ w) (hab : ∀ e ∈ es, e.dst = b → e.src ≠ a) :
    Reach toySem srt false (plain n (⟨a, b, w⟩ :: es)) :=
  .connect a b w h (by
    unfold Graph.connect
    rw [find_at.mpr (plain_at ha), find_at.mpr (plain_at hb)]
    have hd : (plain n es).disconnectInput b w = plain n es := by
      unfold Graph.disconnectInput
      rw [find_at.mpr (plain_at hb)]
      have : ((plain n es).graph.incoming b).takeWhile (fun e => e.weight == w) = [] := by
        rw [List.takeWhile_eq_nil_iff]
        intro hl
        have hm := List.getElem_mem hl
        have hin : ∀ e ∈ (plain n es).graph.incoming b, e.weight ≠ w := by
          unfold SGraph.incoming
          rw [if_pos (plain_contains hb)]
          intro e he
          have := List.mem_filter.mp he
          simp only [beq_iff_eq] at this
          exact hw _ this.1 this.2
        simpa using hin _ hm
      dsimp only
      rw [this]
      rfl
    have hno : (plain n es).graph.hasEdge a b = false := by
      unfold SGraph.hasEdge
      rw [plain_contains ha, Bool.true_and, List.any_eq_false]
      intro e he
      simp only [Bool.and_eq_true, beq_iff_eq, not_and]
      exact fun h1 h2 => hab e he h2 h1
    dsimp only
    rw [hd]
    unfold SGraph.updateEdge
    rw [hno, plain_contains ha, plain_contains hb]
    rfl)

/-- `k` diamonds in a row: node `3i` has the inputs `3i+1` and `3i+2`, which both have the
input `3i+3`. -/
def ladderEdges : Nat → List Edge
  | 0 => []
  | k + 1 => ⟨3 * k + 3, 3 * k + 2, 0⟩ :: ⟨3 * k + 3, 3 * k + 1, 0⟩ ::
      ⟨3 * k + 2, 3 * k, 1⟩ :: ⟨3 * k + 1, 3 * k, 0⟩ :: ladderEdges k

def ladder (k : Nat) : Graph Nat Unit := plain (3 * k + 1) (ladderEdges k)

theorem ladder_bound : ∀ {k : Nat} {e : Edge}, e ∈ ladderEdges k → e.dst < 3 * k := by
  intro k
  induction k with
  | zero => intro e h; cases h
  | succ k ih =>
    intro e h
    simp only [ladderEdges, List.mem_cons] at h
    rcases h with rfl | rfl | rfl | rfl | h
    all_goals first | (have := ih h; omega) | (dsimp only; omega)

theorem ladder_reach (srt : EdgeSort) : ∀ k, Reach toySem srt false (ladder k) := by
  intro k
  induction k with
  | zero => exact .add (i := 0) 0 (.new ()) rfl
  | succ k ih =>
    have hb : ∀ e ∈ ladderEdges k, e.dst < 3 * k := fun e he => ladder_bound he
    have h0 : Reach toySem srt false (plain (3 * (k + 1) + 1) (ladderEdges k)) :=
      plain_add (plain_add (plain_add ih))
    refine plain_connect _ _ _ (plain_connect _ _ _ (plain_connect _ _ _ (plain_connect _ _ _ h0
      (by omega) (by omega) ?_ ?_) (by omega) (by omega) ?_ ?_) (by omega) (by omega) ?_ ?_)
      (by omega) (by omega) ?_ ?_
    all_goals
      intro e he hd
      try simp only [List.mem_cons] at he
      first
        | (rcases he with rfl | rfl | rfl | he) | (rcases he with rfl | rfl | he)
        | (rcases he with rfl | he) | skip
      all_goals first
        | (have := hb _ he; omega)
        | (dsimp only at hd ⊢; omega)

theorem ladder_level : ∀ {k : Nat} {e : Edge}, e ∈ ladderEdges k →
    2 * (e.src / 3) + (e.src % 3 + 1) / 2 = 2 * (e.dst / 3) + (e.dst % 3 + 1) / 2 + 1 := by
  intro k
  induction k with
  | zero => intro e h; cases h
  | succ k ih =>
    intro e h
    simp only [ladderEdges, List.mem_cons] at h
    rcases h with rfl | rfl | rfl | rfl | h
    all_goals first | exact ih h | (dsimp only; omega)

/-- The way through a ladder that takes the given turns. -/
def turns : List Bool → List Nat
  | [] => [0]
  | b :: bs => (3 * bs.length + 3) :: (3 * bs.length + if b then 1 else 2) :: turns bs

theorem turns_head : ∀ bs, (turns bs).head? = some (3 * bs.length)
  | [] => rfl
  | b :: bs => by simp [turns]; omega

theorem turns_inj : ∀ {a b : List Bool}, turns a = turns b → a = b := by
  intro a
  induction a with
  | nil =>
    intro b h
    cases b with
    | nil => rfl
    | cons x b => simp [turns] at h
  | cons x a ih =>
    intro b h
    cases b with
    | nil => simp [turns] at h
    | cons y b =>
      simp only [turns, List.cons.injEq] at h
      obtain ⟨h1, h2, h3⟩ := h
      have := ih h3
      subst this
      cases x <;> cases y <;> simp at h2 ⊢

theorem turns_walk {k : Nat} : ∀ (bs : List Bool), bs.length ≤ k →
    Walk (ladder k).graph 0 (turns bs) := by
  have hmem : ∀ k i, i < k → ∀ e ∈ ([⟨3 * i + 3, 3 * i + 2, 0⟩, ⟨3 * i + 3, 3 * i + 1, 0⟩,
      ⟨3 * i + 2, 3 * i, 1⟩, ⟨3 * i + 1, 3 * i, 0⟩] : List Edge), e ∈ ladderEdges k := by
    intro k
    induction k with
    | zero => intro i hi; omega
    | succ k ih =>
      intro i hi e he
      by_cases hik : i = k
      · subst hik
        simp only [List.mem_cons, List.not_mem_nil, or_false] at he
        simp only [ladderEdges, List.mem_cons]
        rcases he with rfl | rfl | rfl | rfl <;> simp
      · simp only [ladderEdges, List.mem_cons]
        exact .inr (.inr (.inr (.inr (ih i (by omega) e he))))
  intro bs
  induction bs with
  | nil => intro _; exact .stay
  | cons b bs ih =>
    intro hl
    simp only [List.length_cons] at hl
    have hw := ih (by omega)
    have hh := turns_head bs
    obtain ⟨t, ht⟩ : ∃ t, turns bs = 3 * bs.length :: t := by
      cases hx : turns bs with
      | nil => rw [hx] at hh; cases hh
      | cons a t => rw [hx] at hh; cases hh; exact ⟨t, rfl⟩
    have hm := hmem k bs.length (by omega)
    unfold turns
    rw [ht] at hw ⊢
    cases b with
    | true =>
      refine .up (.up hw ⟨⟨3 * bs.length + 1, 3 * bs.length, 0⟩, hm _ (by simp), rfl, rfl⟩ (by simp))
        ⟨⟨3 * bs.length + 3, 3 * bs.length + 1, 0⟩, hm _ (by simp), rfl, rfl⟩ (by simp)
    | false =>
      refine .up (.up hw ⟨⟨3 * bs.length + 2, 3 * bs.length, 1⟩, hm _ (by simp), rfl, rfl⟩ (by simp))
        ⟨⟨3 * bs.length + 3, 3 * bs.length + 2, 0⟩, hm _ (by simp), rfl, rfl⟩ (by simp)

/-- All lists of `k` turns. -/
def allTurns : Nat → List (List Bool)
  | 0 => [[]]
  | k + 1 => (allTurns k).map (true :: ·) ++ (allTurns k).map (false :: ·)

theorem allTurns_length : ∀ k, (allTurns k).length = 2 ^ k
  | 0 => rfl
  | k + 1 => by simp [allTurns, allTurns_length k]; omega

theorem allTurns_mem : ∀ {k bs}, bs ∈ allTurns k → bs.length = k := by
  intro k
  induction k with
  | zero => intro bs h; simp [allTurns] at h; simp [h]
  | succ k ih =>
    intro bs h
    simp only [allTurns, List.mem_append, List.mem_map] at h
    rcases h with ⟨x, hx, rfl⟩ | ⟨x, hx, rfl⟩ <;> simp [ih hx]

theorem allTurns_nodup : ∀ k, (allTurns k).Nodup
  | 0 => by simp [allTurns]
  | k + 1 => by
    have h := allTurns_nodup k
    unfold allTurns
    rw [List.nodup_append]
    refine ⟨h.map (fun a b he => by simpa using he),
      h.map (fun a b he => by simpa using he), ?_⟩
    rintro a ha b hb rfl
    obtain ⟨x, _, rfl⟩ := List.mem_map.mp ha
    obtain ⟨y, _, hy⟩ := List.mem_map.mp hb
    cases hy

theorem toySem_names : ∀ (n : Nat) (fr : Unit) m ins prev c n' st out c',
    toySem.compute n fr m ins prev c = .ok (n', st, out, c') → toySem.id n = toySem.id n' := by
  intro n fr m ins prev c n' st out c' h
  cases h
  rfl

theorem toySem_lengths : ∀ (n : Nat) m h ns modes,
    toySem.validate n m h ns = .ok modes → modes.length = ns.length := by
  intro n m h ns modes e
  cases e
  simp

/-- C88 is false in general, and by more than any polynomial: for every `k` there is a graph of
`3k+1` nodes, without cycles and with all inputs of a node one level above it, whose execution
for one frame succeeds and computes one of the nodes at least `2^k` times. -/
theorem C88_counterexample (srt : EdgeSort) (k : Nat) :
    ∃ g : Graph Nat Unit, Reach toySem srt false g ∧ g.nodes.length = 3 * k + 1 ∧
      Leveled g.graph 0 ∧ ∃ fuel g' log,
        g.execute (recording toySem) srt fuel 0 [()] ((), []) = .ok (.success, g', ((), log)) ∧
        2 ^ k ≤ (log.map (·.1)).count (3 * k) := by
  have hreach := ladder_reach srt k
  have hat : At (ladder k) 0 0 := plain_at (by omega)
  have hs : (ladder k).graph.contains 0 = true := plain_contains (by omega)
  have hlev : Leveled (ladder k).graph 0 := by
    refine ⟨fun i => 2 * (i / 3) + (i % 3 + 1) / 2, ?_⟩
    rintro u v - ⟨e, he, rfl, rfl⟩ -
    exact ladder_level he
  refine ⟨ladder k, hreach, by simp [ladder, plain], hlev, ?_⟩
  obtain ⟨fuel, hf⟩ := C38_no_crash_partial toySem srt hreach toySem_total.1 toySem_total.2 hat hs
    hlev
  obtain ⟨⟨st, g', c'⟩, hx⟩ := hf fuel (Nat.le_refl _) [()] ()
  have hst : st = .success := by
    obtain ⟨-, _, _, -, -, -, hout⟩ := exec_outcome toySem srt hreach
      (f := fun _ _ _ _ => (.valid, ())) (good := fun _ => True)
      (by intro n fr m ins prev c n' st out c' _ h; cases h; exact ⟨rfl, rfl, trivial⟩) hat hs
      (fun _ _ _ _ _ _ _ => rfl) trivial hx
    rcases hout with h | ⟨-, n, m, ins, vals, k, -, -, -, -, h⟩
    · exact h.1
    · exact absurd rfl h.1
  subst hst
  have hk : ¬ Unknown (ladder k) 0 := by
    intro hu
    exact hu (List.mem_of_getElem? hat.1)
  obtain ⟨log, hlog, -⟩ := C41_success_iff_no_failure toySem srt _ 0 hk fuel _ _ _ _ _ hx
  refine ⟨fuel, g', log, hlog, ?_⟩
  obtain ⟨runs, -, h2, -, h4⟩ := C88_once_per_walk toySem srt hreach hat hs toySem_names
    toySem_lengths hlog
  obtain ⟨ws, rfl⟩ : ∃ ws, runs = [ws] := by
    have := (h4 rfl).1
    match runs, this with
    | [ws], _ => exact ⟨ws, rfl⟩
  have hws := h2 ws List.mem_cons_self
  rw [C88_count toySem srt hreach hat hs toySem_names toySem_lengths hlog hws, List.countP_eq_length_filter]
  have hsub : (allTurns k).map turns ⊆
      ws.filter (fun w => startName toySem (ladder k) w == some (3 * k)) := by
    intro w hw
    obtain ⟨bs, hbs, rfl⟩ := List.mem_map.mp hw
    have hl := allTurns_mem hbs
    refine List.mem_filter.mpr ⟨(hws.2 _).mpr (turns_walk bs (by omega)), ?_⟩
    rw [beq_iff_eq, startName, turns_head, hl]
    simp [ladder, plain, toySem]
  have hnd : ((allTurns k).map turns).Nodup :=
    (allTurns_nodup k).map fun a b he => turns_inj he
  have := (List.subperm_of_subset hnd hsub).length_le
  rw [List.length_map, allTurns_length] at this
  simpa using this

/-- One diamond, executed for two frames: the source (node 3) is computed twice per frame, once
for each of its two ways to the executed node. -/
example : Reach toySem insSort false (ladder 1) ∧ At (ladder 1) 0 0 ∧
    (ladder 1).graph.contains 0 = true ∧
    (∃ g', (ladder 1).execute (recording toySem) insSort 20 0 [(), ()] ((), []) =
      .ok (.success, g', ((), [(3, .valid), (3, .valid), (2, .valid), (1, .valid), (0, .valid),
        (3, .valid), (3, .valid), (2, .valid), (1, .valid), (0, .valid)]))) ∧
    AllWalks (ladder 1).graph 0 [[0], [1, 0], [2, 0], [3, 1, 0], [3, 2, 0]] := by
  refine ⟨ladder_reach insSort 1, plain_at (by omega), rfl, ⟨_, rfl⟩, by decide, ?_⟩
  have hf : ∀ i j, Feeds (ladder 1).graph i j →
      (i = 3 ∧ j = 2) ∨ (i = 3 ∧ j = 1) ∨ (i = 2 ∧ j = 0) ∨ (i = 1 ∧ j = 0) := by
    rintro i j ⟨e, he, rfl, rfl⟩
    simp only [ladder, plain, ladderEdges, List.mem_cons, List.not_mem_nil, or_false] at he
    rcases he with rfl | rfl | rfl | rfl <;> simp
  intro w
  constructor
  · intro hw
    simp only [List.mem_cons, List.not_mem_nil, or_false] at hw
    have f1 : Feeds (ladder 1).graph 1 0 := ⟨⟨1, 0, 0⟩, by decide, rfl, rfl⟩
    have f2 : Feeds (ladder 1).graph 2 0 := ⟨⟨2, 0, 1⟩, by decide, rfl, rfl⟩
    have f3 : Feeds (ladder 1).graph 3 1 := ⟨⟨3, 1, 0⟩, by decide, rfl, rfl⟩
    have f4 : Feeds (ladder 1).graph 3 2 := ⟨⟨3, 2, 0⟩, by decide, rfl, rfl⟩
    rcases hw with rfl | rfl | rfl | rfl | rfl
    · exact .stay
    · exact .up .stay f1 (by decide)
    · exact .up .stay f2 (by decide)
    · exact .up (.up .stay f1 (by decide)) f3 (by decide)
    · exact .up (.up .stay f2 (by decide)) f4 (by decide)
  · intro hw
    induction hw with
    | stay => simp
    | @up i j w _ h2 _ ih =>
      simp only [List.mem_cons, List.not_mem_nil, or_false, List.cons.injEq] at ih ⊢
      rcases hf i j h2 with ⟨rfl, rfl⟩ | ⟨rfl, rfl⟩ | ⟨rfl, rfl⟩ | ⟨rfl, rfl⟩ <;> simp_all

/-- Two sources and a node using both: everything is used once. -/
example : Reach toySem insSort false toyTwo ∧ At toyTwo 4 3 ∧ toyTwo.graph.contains 3 = true ∧
    (∀ j, Upstream toyTwo.graph 3 j → Feeds toyTwo.graph 3 j → 3 = j) ∧
    (∀ i j j', Upstream toyTwo.graph 3 j → Upstream toyTwo.graph 3 j' →
      Feeds toyTwo.graph i j → i ≠ j → Feeds toyTwo.graph i j' → i ≠ j' → j = j') ∧
    (∀ i j : Nat, Upstream toyTwo.graph 3 i → Upstream toyTwo.graph 3 j →
      (toyTwo.nodes[i]?).map toySem.id = (toyTwo.nodes[j]?).map toySem.id → i = j) ∧
    Upstream toyTwo.graph 3 1 ∧ toyTwo.nodes[1]? = some 2 ∧
    ∃ g', toyTwo.execute (recording toySem) insSort 20 4 [(), ()] ((), []) =
      .ok (.success, g', ((), [(2, .valid), (1, .valid), (4, .valid), (2, .valid), (1, .valid),
        (4, .valid)])) := by
  have hf : ∀ i j, Feeds toyTwo.graph i j → (i = 1 ∨ i = 0) ∧ j = 3 := by
    rintro i j ⟨e, he, rfl, rfl⟩
    simp only [toyTwo, toyGraph, List.mem_cons, List.not_mem_nil, or_false] at he
    rcases he with rfl | rfl <;> simp
  have hu : ∀ i, Upstream toyTwo.graph 3 i → i = 3 ∨ i = 1 ∨ i = 0 := by
    intro i hi
    cases hi with
    | refl => exact .inl rfl
    | step _ h => exact .inr (hf _ _ h).1
  refine ⟨toyTwo_reach _, ⟨rfl, ?_⟩, rfl, ?_, ?_, ?_, .step .refl ⟨⟨1, 3, 1⟩, by decide, rfl, rfl⟩,
    rfl, _, rfl⟩
  · intro j hj
    rcases j with _ | _ | _ | j <;> first | decide | omega
  · intro j _ h
    have := (hf _ _ h).1
    omega
  · intro i j j' _ _ h1 _ h2 _
    rw [(hf _ _ h1).2, (hf _ _ h2).2]
  · intro i j hi hj
    rcases hu i hi with rfl | rfl | rfl <;> rcases hu j hj with rfl | rfl | rfl <;> simp [toyTwo, toyGraph, toySem]

section Real

variable {F H : Type} [FloatLike F] [HalfLike F H] [FloatConst F] [FloatBits F]

/-- C88 for the nodes of the library. -/
theorem C88_real_nodes (p : Profile) (lib : NodeLib F H) (srt : EdgeSort)
    {g : Graph (Node F) (Stream F H)} {r : Bool} (h : Reach (nodeSem p lib) srt r g)
    {id start : Nat} (hat : At g id start) (hs : g.graph.contains start = true)
    {fuel : Nat} {frames : List F} {w w' : World F H} {g' : Graph (Node F) (Stream F H)}
    {log : List (Nat × NodeStatus)}
    (hx : g.execute (recording (nodeSem p lib)) srt fuel id frames (w, []) =
      .ok (.success, g', (w', log)))
    {ws : List (List Nat)} (hws : AllWalks g.graph start ws) (k : Nat) :
    (log.map (·.1)).count k =
      frames.length * ws.countP (fun w => startName (nodeSem p lib) g w == some k) :=
  C88_count _ srt h hat hs
    (fun _ _ _ _ _ _ _ _ _ _ e => (nodeSem_keeps p lib _ _ _ _ _ _ _ _ _ _ e).1)
    (nodeSem_lengths p lib) hx hws k

end Real

attribute [local instance] finFloat finBits finHalf finPi

example : Reach (nodeSem .debug linearFiles) insSort false readCropWrite ∧
    At readCropWrite 3 2 ∧ readCropWrite.graph.contains 2 = true ∧
    (∃ g' w' log, readCropWrite.execute (recording (nodeSem .debug linearFiles)) insSort 20 3 [1]
      (noCache, []) = .ok (.success, g', (w', log)) ∧ log.map (·.1) = [1, 2, 3]) ∧
    AllWalks readCropWrite.graph 2 [[2], [1, 2], [0, 1, 2]] := by
  refine ⟨readCropWrite_reach, readCropWrite_at, rfl, ⟨_, _, _, rfl, rfl⟩, by decide, ?_⟩
  have hf : ∀ i j, Feeds readCropWrite.graph i j → (i = 1 ∧ j = 2) ∨ (i = 0 ∧ j = 1) := by
    rintro i j ⟨e, he, rfl, rfl⟩
    change e ∈ ([⟨1, 2, 0⟩, ⟨0, 1, 0⟩] : List Edge) at he
    simp only [List.mem_cons, List.not_mem_nil, or_false] at he
    rcases he with rfl | rfl <;> simp
  intro w
  constructor
  · intro hw
    simp only [List.mem_cons, List.not_mem_nil, or_false] at hw
    have f1 : Feeds readCropWrite.graph 1 2 := ⟨⟨1, 2, 0⟩, by decide, rfl, rfl⟩
    have f2 : Feeds readCropWrite.graph 0 1 := ⟨⟨0, 1, 0⟩, by decide, rfl, rfl⟩
    rcases hw with rfl | rfl | rfl
    · exact .stay
    · exact .up .stay f1 (by decide)
    · exact .up (.up .stay f1 (by decide)) f2 (by decide)
  · intro hw
    induction hw with
    | stay => simp
    | @up i j w _ h2 _ ih =>
      simp only [List.mem_cons, List.not_mem_nil, or_false, List.cons.injEq] at ih ⊢
      rcases hf i j h2 with ⟨rfl, rfl⟩ | ⟨rfl, rfl⟩ <;> simp_all

end OCG.Props
