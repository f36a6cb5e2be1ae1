import Verif.Proofs.Graph
import Mathlib.Data.List.Perm.Subperm
/-
The breadth-first search.
-/

namespace OCG

open GraphSpec

/-! ### node bound -/

theorem boundFrom_le : ∀ (l : List (Option Nat)) (i b : Nat), b ≤ i →
    SGraph.boundFrom l i b ≤ i + l.length := by
  intro l
  induction l with
  | nil => intro i b h; simpa [SGraph.boundFrom] using h
  | cons x xs ih =>
    intro i b h
    cases x with
    | none =>
      have := ih (i + 1) b (by omega)
      simp only [SGraph.boundFrom, List.length_cons]
      omega
    | some w =>
      have := ih (i + 1) (i + 1) (by omega)
      simp only [SGraph.boundFrom, List.length_cons]
      omega

theorem le_boundFrom : ∀ (l : List (Option Nat)) (i b : Nat), b ≤ i →
    b ≤ SGraph.boundFrom l i b := by
  intro l
  induction l with
  | nil => intro i b _; exact Nat.le_refl _
  | cons x xs ih =>
    intro i b h
    cases x with
    | none => exact ih (i + 1) b (by omega)
    | some w =>
      have := ih (i + 1) (i + 1) (by omega)
      simp only [SGraph.boundFrom]
      omega

theorem lt_boundFrom : ∀ (l : List (Option Nat)) (i b : Nat), b ≤ i → ∀ k w,
    l[k]? = some (some w) → i + k < SGraph.boundFrom l i b := by
  intro l
  induction l with
  | nil => intro i b _ k w h; simp at h
  | cons x xs ih =>
    intro i b hb k w h
    cases k with
    | zero =>
      simp only [List.getElem?_cons_zero, Option.some.injEq] at h
      subst h
      have := le_boundFrom xs (i + 1) (i + 1) (by omega)
      simp only [SGraph.boundFrom]
      omega
    | succ k =>
      simp only [List.getElem?_cons_succ] at h
      cases x with
      | none =>
        have := ih (i + 1) b (by omega) k w h
        simp only [SGraph.boundFrom]
        omega
      | some v =>
        have := ih (i + 1) (i + 1) (by omega) k w h
        simp only [SGraph.boundFrom]
        omega

theorem nodeBound_le (sg : SGraph) : sg.nodeBound ≤ sg.slots.length := by
  have := boundFrom_le sg.slots 0 0 (Nat.le_refl _)
  unfold SGraph.nodeBound
  omega

theorem contains_lt_bound {sg : SGraph} {a : Nat} (h : sg.contains a = true) :
    a < sg.nodeBound := by
  obtain ⟨w, e⟩ := contains_iff.mp h
  have := lt_boundFrom sg.slots 0 0 (Nat.le_refl _) a w e
  unfold SGraph.nodeBound
  omega

/-! ### one step -/

/-- The sources that are pushed: those not discovered yet, once each. -/
def news : List Edge → List Nat → List Nat
  | [], _ => []
  | e :: es, d => if d.contains e.src then news es d else e.src :: news es (e.src :: d)

theorem pushAll_eq (depth : Nat) : ∀ (es : List Edge) (s : Search),
    Search.pushAll depth es s =
      ⟨s.stack ++ (news es s.discovered).map (fun u => (u, depth + 1)),
        (news es s.discovered).reverse ++ s.discovered⟩ := by
  intro es
  induction es with
  | nil => intro s; simp [Search.pushAll, news]
  | cons e es ih =>
    intro s
    unfold Search.pushAll news
    split
    · exact ih s
    · rw [ih]; simp

theorem mem_news : ∀ (es : List Edge) (d : List Nat) (u : Nat),
    u ∈ news es d ↔ (∃ e ∈ es, e.src = u) ∧ u ∉ d := by
  intro es
  induction es with
  | nil => intro d u; simp [news]
  | cons e es ih =>
    intro d u
    unfold news
    split
    · rename_i hc
      have hc : e.src ∈ d := by simpa using hc
      rw [ih]
      constructor
      · rintro ⟨⟨x, hx, hs⟩, hn⟩
        exact ⟨⟨x, List.mem_cons_of_mem _ hx, hs⟩, hn⟩
      · rintro ⟨⟨x, hx, hs⟩, hn⟩
        rcases List.mem_cons.mp hx with rfl | hx
        · exact absurd (hs ▸ hc) hn
        · exact ⟨⟨x, hx, hs⟩, hn⟩
    · rename_i hc
      have hc : e.src ∉ d := by simpa using hc
      rw [List.mem_cons, ih]
      constructor
      · rintro (rfl | ⟨⟨x, hx, hs⟩, hn⟩)
        · exact ⟨⟨e, List.mem_cons_self, rfl⟩, hc⟩
        · exact ⟨⟨x, List.mem_cons_of_mem _ hx, hs⟩, fun h => hn (List.mem_cons_of_mem _ h)⟩
      · rintro ⟨⟨x, hx, hs⟩, hn⟩
        by_cases hu : u = e.src
        · exact Or.inl hu
        · rcases List.mem_cons.mp hx with rfl | hx
          · exact absurd hs.symm hu
          · exact Or.inr ⟨⟨x, hx, hs⟩, by simp [hu, hn]⟩

theorem news_nodup : ∀ (es : List Edge) (d : List Nat), (news es d).Nodup := by
  intro es
  induction es with
  | nil => intro d; exact List.nodup_nil
  | cons e es ih =>
    intro d
    unfold news
    split
    · exact ih d
    · rw [List.nodup_cons]
      refine ⟨?_, ih _⟩
      rw [mem_news]
      exact fun h => h.2 List.mem_cons_self

/-- Without repeated sources, the pushed nodes are the undiscovered sources in order. -/
theorem news_filter : ∀ (es : List Edge) (d : List Nat), (es.map (·.src)).Nodup →
    news es d = (es.filter fun e => !d.contains e.src).map (·.src) := by
  intro es
  induction es with
  | nil => intro d _; rfl
  | cons e es ih =>
    intro d h
    rw [List.map_cons, List.nodup_cons] at h
    unfold news
    split
    · rename_i hc
      rw [List.filter_cons_of_neg (by simpa using hc)]
      exact ih d h.2
    · rename_i hc
      rw [List.filter_cons_of_pos (by simpa using hc), List.map_cons, ih _ h.2]
      congr 2
      apply List.filter_congr
      intro x hx
      have : x.src ≠ e.src := fun hh => h.1 (hh ▸ List.mem_map_of_mem hx)
      simp [this]

theorem mem_incoming {sg : SGraph} (hc : ∀ e ∈ sg.edges, sg.contains e.src = true ∧
    sg.contains e.dst = true) {v : Nat} {e : Edge} :
    e ∈ sg.incoming v ↔ e ∈ sg.edges ∧ e.dst = v := by
  unfold SGraph.incoming
  split
  · rw [List.mem_filter]; simp
  · rename_i hn
    constructor
    · intro h; cases h
    · rintro ⟨he, rfl⟩; exact absurd (hc e he).2 hn

/-! ### the whole search -/

/-- Invariant of the search: `acc` the nodes already visited. -/
structure SInv (sg : SGraph) (start : Nat) (acc : List Nat) (s : Search) : Prop where
  nodup : (acc ++ s.stack.map (·.1)).Nodup
  disc : ∀ u, u ∈ s.discovered ↔ u ∈ acc ++ s.stack.map (·.1)
  up : ∀ u ∈ s.discovered, Upstream sg start u
  closed : ∀ v ∈ acc, ∀ u, Feeds sg u v → u ∈ s.discovered
  head : (acc ++ s.stack.map (·.1)).head? = some start
  bound : ∀ u ∈ s.discovered, u < sg.slots.length

theorem SInv.step {sg : SGraph} (srt : EdgeSort)
    (hc : ∀ e ∈ sg.edges, sg.contains e.src = true ∧ sg.contains e.dst = true)
    {start : Nat} {acc : List Nat} {v depth : Nat} {rest : List (Nat × Nat)} {d : List Nat}
    (h : SInv sg start acc ⟨(v, depth) :: rest, d⟩) :
    SInv sg start (acc ++ [v])
      (Search.pushAll depth (srt.run (sg.incoming v)) ⟨rest, d⟩) := by
  have hm : ∀ u, u ∈ news (srt.run (sg.incoming v)) d ↔ Feeds sg u v ∧ u ∉ d := by
    intro u
    rw [mem_news]
    constructor
    · rintro ⟨⟨e, he, hs⟩, hn⟩
      have he := (srt.perm _).mem_iff.mp he
      rw [mem_incoming hc] at he
      exact ⟨⟨e, he.1, hs, he.2⟩, hn⟩
    · rintro ⟨⟨e, he, hs, hd⟩, hn⟩
      exact ⟨⟨e, (srt.perm _).mem_iff.mpr ((mem_incoming hc).mpr ⟨he, hd⟩), hs⟩, hn⟩
  have hvd : v ∈ d := (h.disc v).mpr (by simp)
  have hmap : (news (srt.run (sg.incoming v)) d).map
      ((fun x : Nat × Nat => x.1) ∘ fun u => (u, depth + 1)) =
      news (srt.run (sg.incoming v)) d := by
    rw [show ((fun x : Nat × Nat => x.1) ∘ fun u => (u, depth + 1)) = id from rfl, List.map_id]
  have hlist : acc ++ [v] ++ (rest ++ (news (srt.run (sg.incoming v)) d).map
        (fun u => (u, depth + 1))).map (fun x : Nat × Nat => x.1) =
      (acc ++ ((v, depth) :: rest).map (fun x : Nat × Nat => x.1)) ++
        news (srt.run (sg.incoming v)) d := by
    rw [List.map_append, List.map_map, hmap]
    simp
  rw [pushAll_eq]
  refine ⟨?_, ?_, ?_, ?_, ?_, ?_⟩
  · dsimp only
    rw [hlist, List.nodup_append]
    refine ⟨h.nodup, news_nodup _ _, ?_⟩
    intro a ha b hb hab
    subst hab
    exact ((hm a).mp hb).2 ((h.disc a).mpr ha)
  · intro u
    dsimp only
    rw [hlist, List.mem_append, List.mem_append, List.mem_reverse]
    have := h.disc u
    dsimp only at this
    rw [this]
    constructor
    · rintro (a | a)
      · exact Or.inr a
      · exact Or.inl a
    · rintro (a | a)
      · exact Or.inr a
      · exact Or.inl a
  · intro u hu
    dsimp only at hu
    rw [List.mem_append, List.mem_reverse] at hu
    rcases hu with hu | hu
    · exact .step (h.up v hvd) ((hm u).mp hu).1
    · exact h.up u hu
  · intro w hw u hf
    dsimp only
    rw [List.mem_append, List.mem_reverse]
    rw [List.mem_append, List.mem_singleton] at hw
    rcases hw with hw | rfl
    · exact Or.inr (h.closed w hw u hf)
    · by_cases hu : u ∈ d
      · exact Or.inr hu
      · exact Or.inl ((hm u).mpr ⟨hf, hu⟩)
  · dsimp only
    rw [hlist, List.head?_append, h.head]
    rfl
  · intro u hu
    dsimp only at hu
    rw [List.mem_append, List.mem_reverse] at hu
    rcases hu with hu | hu
    · obtain ⟨e, he, hs, _⟩ := ((hm u).mp hu).1
      rw [← hs]
      exact contains_lt (hc e he).1
    · exact h.bound u hu

theorem length_le_of_nodup_lt {l : List Nat} {n : Nat} (h : l.Nodup) (hb : ∀ u ∈ l, u < n) :
    l.length ≤ n := by
  have hsub : l ⊆ List.range n := fun u hu => List.mem_range.mpr (hb u hu)
  have := (List.subperm_of_subset h hsub).length_le
  simpa using this

/-- The search finishes; any extra property `P` preserved by the steps holds at the end. -/
theorem allLoop_ok {sg : SGraph} (srt : EdgeSort)
    (hc : ∀ e ∈ sg.edges, sg.contains e.src = true ∧ sg.contains e.dst = true)
    {start : Nat} (P : List Nat → Search → Prop)
    (hP : ∀ acc v depth rest d, SInv sg start acc ⟨(v, depth) :: rest, d⟩ →
      P acc ⟨(v, depth) :: rest, d⟩ →
      P (acc ++ [v]) (Search.pushAll depth (srt.run (sg.incoming v)) ⟨rest, d⟩)) :
    ∀ (fuel : Nat) (acc : List Nat) (s : Search), SInv sg start acc s → P acc s →
      sg.slots.length + 1 ≤ fuel + acc.length →
      ∃ order d, Search.allLoop srt sg fuel s acc = .ok order ∧ SInv sg start order ⟨[], d⟩ ∧
        P order ⟨[], d⟩ := by
  intro fuel
  induction fuel with
  | zero =>
    intro acc s h _ hf
    exfalso
    have h1 := length_le_of_nodup_lt h.nodup (fun u hu => h.bound u ((h.disc u).mpr hu))
    rw [List.length_append] at h1
    omega
  | succ fuel ih =>
    intro acc s h hp hf
    obtain ⟨stack, d⟩ := s
    cases stack with
    | nil => exact ⟨acc, d, rfl, h, hp⟩
    | cons x rest =>
      obtain ⟨v, depth⟩ := x
      exact ih _ _ (h.step srt hc) (hP acc v depth rest d h hp) (by simp; omega)

theorem sinv_start {sg : SGraph} {start : Nat} (h : start < sg.slots.length) :
    SInv sg start [] ⟨[(start, 0)], [start]⟩ :=
  ⟨by simp, by simp, by intro u hu; simp at hu; subst hu; exact .refl, by simp, by simp,
    by intro u hu; simp at hu; omega⟩

theorem findAll_spec {sg : SGraph} (srt : EdgeSort)
    (hc : ∀ e ∈ sg.edges, sg.contains e.src = true ∧ sg.contains e.dst = true)
    {start : Nat} (hb : start < sg.nodeBound) (P : List Nat → Search → Prop)
    (h0 : P [] ⟨[(start, 0)], [start]⟩)
    (hP : ∀ acc v depth rest d, SInv sg start acc ⟨(v, depth) :: rest, d⟩ →
      P acc ⟨(v, depth) :: rest, d⟩ →
      P (acc ++ [v]) (Search.pushAll depth (srt.run (sg.incoming v)) ⟨rest, d⟩)) :
    ∃ order d, sg.findAllUpstream srt start = .ok order ∧ SInv sg start order ⟨[], d⟩ ∧
      P order ⟨[], d⟩ := by
  have hlt : start < sg.slots.length := Nat.lt_of_lt_of_le hb (nodeBound_le sg)
  obtain ⟨order, d, e, h1, h2⟩ := allLoop_ok srt hc P hP (sg.slots.length + 2) []
    ⟨[(start, 0)], [start]⟩ (sinv_start hlt) h0 (by simp)
  refine ⟨order, d, ?_, h1, h2⟩
  unfold SGraph.findAllUpstream Search.new
  rw [if_pos hb]
  exact e

theorem SInv.final_mem {sg : SGraph} {start : Nat} {order d : List Nat}
    (h : SInv sg start order ⟨[], d⟩) (u : Nat) : u ∈ order ↔ Upstream sg start u := by
  have hd : ∀ u, u ∈ d ↔ u ∈ order := by
    intro u; have := h.disc u; simpa using this
  constructor
  · intro hu; exact h.up u ((hd u).mpr hu)
  · intro hu
    induction hu with
    | refl =>
      have := h.head
      simp only [List.map_nil, List.append_nil] at this
      exact List.mem_of_mem_head? this
    | step _ hf ih => exact (hd _).mp (h.closed _ ih _ hf)

theorem SInv.final_nodup {sg : SGraph} {start : Nat} {order d : List Nat}
    (h : SInv sg start order ⟨[], d⟩) : order.Nodup := by
  have := h.nodup; simpa using this

theorem SInv.final_head {sg : SGraph} {start : Nat} {order d : List Nat}
    (h : SInv sg start order ⟨[], d⟩) : order.head? = some start := by
  have := h.head; simpa using this

/-! ### direct inputs -/

theorem directLoop_ok {sg : SGraph} (srt : EdgeSort) : ∀ (d1 : List Nat) (fuel : Nat)
    (rest : List (Nat × Nat)) (d acc : List Nat), (∀ x ∈ rest, x.2 = 2) → d1.length < fuel →
    Search.directLoop srt sg fuel ⟨d1.map (fun u => (u, 1)) ++ rest, d⟩ acc = .ok (acc ++ d1) := by
  intro d1
  induction d1 with
  | nil =>
    intro fuel rest d acc hr hf
    cases fuel with
    | zero => simp at hf
    | succ fuel =>
      cases rest with
      | nil => simp [Search.directLoop, Search.next]
      | cons x xs =>
        obtain ⟨v, dep⟩ := x
        have : dep = 2 := hr (v, dep) List.mem_cons_self
        subst this
        simp [Search.directLoop, Search.next]
  | cons x xs ih =>
    intro fuel rest d acc hr hf
    cases fuel with
    | zero => simp at hf
    | succ fuel =>
      unfold Search.directLoop
      simp only [List.map_cons, List.cons_append, Search.next, pushAll_eq]
      rw [if_neg (by decide), if_neg (by decide), List.append_assoc, ih]
      · simp
      · intro y hy
        rcases List.mem_append.mp hy with hy | hy
        · exact hr y hy
        · obtain ⟨u, _, rfl⟩ := List.mem_map.mp hy
          rfl
      · simp at hf; omega

/-- `find_direct_upstream_nodes` gives the undiscovered sources of the sorted edges. -/
theorem findDirect_eq {sg : SGraph} (srt : EdgeSort)
    (hc : ∀ e ∈ sg.edges, sg.contains e.src = true ∧ sg.contains e.dst = true)
    {v : Nat} (hb : v < sg.nodeBound) :
    sg.findDirectUpstream srt v = .ok (news (srt.run (sg.incoming v)) [v]) := by
  unfold SGraph.findDirectUpstream Search.new
  rw [if_pos hb]
  simp only [bind, Except.bind]
  unfold Search.directLoop
  simp only [Search.next, pushAll_eq, List.nil_append, if_true]
  have := directLoop_ok (sg := sg) srt (news (srt.run (sg.incoming v)) [v]) (sg.slots.length + 1)
    [] ((news (srt.run (sg.incoming v)) [v]).reverse ++ [v]) [] (by simp) (by
      have := length_le_of_nodup_lt (news_nodup (srt.run (sg.incoming v)) [v])
        (n := sg.slots.length) (fun u hu => by
          obtain ⟨⟨e, he, hs⟩, _⟩ := (mem_news _ _ _).mp hu
          have he := (srt.perm _).mem_iff.mp he
          rw [mem_incoming hc] at he
          rw [← hs]
          exact contains_lt (hc e he.1).1)
      omega)
  rw [List.append_nil, List.nil_append] at this
  exact this

theorem mem_direct {sg : SGraph} (srt : EdgeSort)
    (hc : ∀ e ∈ sg.edges, sg.contains e.src = true ∧ sg.contains e.dst = true)
    {v u : Nat} : u ∈ news (srt.run (sg.incoming v)) [v] ↔ Feeds sg u v ∧ u ≠ v := by
  rw [mem_news]
  constructor
  · rintro ⟨⟨e, he, hs⟩, hn⟩
    have he := (srt.perm _).mem_iff.mp he
    rw [mem_incoming hc] at he
    exact ⟨⟨e, he.1, hs, he.2⟩, by simpa using hn⟩
  · rintro ⟨⟨e, he, hs, hd⟩, hn⟩
    exact ⟨⟨e, (srt.perm _).mem_iff.mpr ((mem_incoming hc).mpr ⟨he, hd⟩), hs⟩, by simpa using hn⟩

end OCG
