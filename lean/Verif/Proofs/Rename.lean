import Verif.Proofs.Relate
/-
Executions of two graphs that are the same up to the positions of their nodes.
-/

namespace OCG

open GraphSpec

variable {N S C N' S' C' Fr : Type}

/-- The two graphs have the same nodes and connections, where `ρ i j` says that the node at `i` in
the one is the node at `j` in the other. -/
structure Renamed (ρ : Nat → Nat → Prop) (RN : N → N' → Prop) (RS : S → S' → Prop)
    (srt srt' : EdgeSort) (g : Graph N S) (g' : Graph N' S') : Prop where
  live : ∀ i j, ρ i j → g.graph.contains i = true ∧ g'.graph.contains j = true
  parents : ∀ i j, ρ i j → List.Forall₂ ρ (parents srt g.graph i) (OCG.parents srt' g'.graph j)
  node : ∀ i j, ρ i j → ∃ n n', g.nodes[i]? = some n ∧ g'.nodes[j]? = some n' ∧ RN n n'
  one : ∀ i j k l, ρ i j → ρ k l → (i = k ↔ j = l)
  out : RS g.output g'.output

variable {sem : NodeSem N S C Fr} {sem' : NodeSem N' S' C' Fr} {RN : N → N' → Prop}
  {RS : S → S' → Prop} {RC : C → C' → Prop} {ρ : Nat → Nat → Prop} {srt srt' : EdgeSort}
  {g : Graph N S} {g' : Graph N' S'}

/-! ### the search -/

theorem news_sub : ∀ (es : List Edge) (d0 d : List Nat), (∀ u ∈ d0, u ∈ d) →
    news es d = (news es d0).filter fun u => !d.contains u := by
  intro es
  induction es with
  | nil => intro d0 d _; rfl
  | cons e es ih =>
    intro d0 d hd
    unfold news
    by_cases h0 : d0.contains e.src = true
    · have h1 : d.contains e.src = true := by
        rw [List.contains_iff_mem] at h0 ⊢; exact hd _ h0
      rw [if_pos h0, if_pos h1]
      exact ih d0 d hd
    · rw [if_neg h0]
      by_cases h1 : d.contains e.src = true
      · rw [if_pos h1, List.filter_cons_of_neg (by rw [h1]; decide)]
        refine ih _ _ fun u hu => ?_
        rcases List.mem_cons.mp hu with rfl | hu
        · exact List.contains_iff_mem.mp h1
        · exact hd u hu
      · rw [if_neg h1, List.filter_cons_of_pos (by simpa using h1)]
        congr 1
        rw [ih (e.src :: d0) (e.src :: d) (fun u hu => by
          rcases List.mem_cons.mp hu with rfl | hu
          · exact List.mem_cons_self
          · exact List.mem_cons_of_mem _ (hd u hu))]
        refine List.filter_congr fun u hu => ?_
        have := ((mem_news _ _ _).mp hu).2
        have hne : u ≠ e.src := fun h => this (h ▸ List.mem_cons_self)
        simp [List.contains_cons, hne]

theorem forall₂_contains (one : ∀ i j k l, ρ i j → ρ k l → (i = k ↔ j = l)) {u u' : Nat}
    (hu : ρ u u') : ∀ {d d' : List Nat}, List.Forall₂ ρ d d' → d.contains u = d'.contains u' := by
  intro d d' h
  induction h with
  | nil => rfl
  | cons h _ ih =>
    rw [List.contains_cons, List.contains_cons, ih]
    congr 1
    rw [Bool.eq_iff_iff, beq_iff_eq, beq_iff_eq]
    exact one _ _ _ _ hu h

theorem forall₂_fresh (one : ∀ i j k l, ρ i j → ρ k l → (i = k ↔ j = l)) {d d' : List Nat}
    (hd : List.Forall₂ ρ d d') : ∀ {l l' : List Nat}, List.Forall₂ ρ l l' →
    List.Forall₂ ρ (l.filter fun u => !d.contains u) (l'.filter fun u => !d'.contains u) := by
  intro l l' h
  induction h with
  | nil => exact .nil
  | cons h _ ih =>
    rw [List.filter_cons, List.filter_cons, forall₂_contains one h hd]
    split
    · exact .cons h ih
    · exact ih

theorem forall₂_append {α β : Type} {R : α → β → Prop} {a : List α} {b : List β} {c : List α}
    {d : List β} (h : List.Forall₂ R a b) (h' : List.Forall₂ R c d) :
    List.Forall₂ R (a ++ c) (b ++ d) := by
  induction h with
  | nil => exact h'
  | cons h _ ih => exact .cons h ih

theorem forall₂_reverse {α β : Type} {R : α → β → Prop} {a : List α} {b : List β}
    (h : List.Forall₂ R a b) : List.Forall₂ R a.reverse b.reverse := by
  induction h with
  | nil => exact .nil
  | cons h _ ih =>
    rw [List.reverse_cons, List.reverse_cons]
    exact forall₂_append ih (.cons h .nil)

theorem forall₂_map {α β γ δ : Type} {R : α → β → Prop} {Q : γ → δ → Prop} {f : α → γ} {k : β → δ}
    (hf : ∀ a b, R a b → Q (f a) (k b)) {a : List α} {b : List β} (h : List.Forall₂ R a b) :
    List.Forall₂ Q (a.map f) (b.map k) := by
  induction h with
  | nil => exact .nil
  | cons h _ ih => exact .cons (hf _ _ h) ih

theorem forall₂_zip {α β γ : Type} {R : α → β → Prop} {a : List α} {b : List β}
    (h : List.Forall₂ R a b) : ∀ l : List γ,
    List.Forall₂ (fun x y => R x.1 y.1 ∧ x.2 = y.2) (a.zip l) (b.zip l) := by
  induction h with
  | nil => intro l; exact .nil
  | cons h _ ih =>
    intro l
    cases l with
    | nil => exact .nil
    | cons c l => exact .cons ⟨h, rfl⟩ (ih l)

theorem Renamed.allLoop (h : Renamed ρ RN RS srt srt' g g') : ∀ (fuel : Nat) (s s' : Search)
    (acc acc' : List Nat), List.Forall₂ (fun x y => ρ x.1 y.1 ∧ x.2 = y.2) s.stack s'.stack →
    List.Forall₂ ρ s.discovered s'.discovered → (∀ x ∈ s.stack, x.1 ∈ s.discovered) →
    (∀ x ∈ s'.stack, x.1 ∈ s'.discovered) → List.Forall₂ ρ acc acc' →
    ResRel (List.Forall₂ ρ) (Search.allLoop srt g.graph fuel s acc)
      (Search.allLoop srt' g'.graph fuel s' acc') := by
  intro fuel
  induction fuel with
  | zero => intro s s' acc acc' _ _ _ _ _; rfl
  | succ fuel ih =>
    intro s s' acc acc' hst hd hin hin' hacc
    obtain ⟨stack, d⟩ := s
    obtain ⟨stack', d'⟩ := s'
    dsimp only at hst hd hin hin'
    cases hst with
    | nil => exact hacc
    | @cons x y rest rest' hxy hrest =>
      obtain ⟨v, depth⟩ := x
      obtain ⟨v', depth'⟩ := y
      obtain ⟨hv, hdep⟩ := hxy
      dsimp only at hv hdep
      subst hdep
      unfold Search.allLoop Search.next
      dsimp only
      rw [pushAll_eq, pushAll_eq]
      dsimp only
      have hn : List.Forall₂ ρ (news (srt.run (g.graph.incoming v)) d)
          (news (srt'.run (g'.graph.incoming v')) d') := by
        rw [news_sub _ [v] d (fun u hu => by
            rw [List.mem_singleton.mp hu]; exact hin (v, depth) List.mem_cons_self),
          news_sub _ [v'] d' (fun u hu => by
            rw [List.mem_singleton.mp hu]; exact hin' (v', depth) List.mem_cons_self)]
        exact forall₂_fresh h.one hd (h.parents v v' hv)
      refine ih _ _ _ _ ?_ ?_ ?_ ?_ (forall₂_append hacc (.cons hv .nil))
      · exact forall₂_append hrest (forall₂_map (fun a b hab => ⟨hab, rfl⟩) hn)
      · exact forall₂_append (forall₂_reverse hn) hd
      · intro x hx
        rcases List.mem_append.mp hx with hx | hx
        · exact List.mem_append_right _ (hin x (List.mem_cons_of_mem _ hx))
        · obtain ⟨u, hu, rfl⟩ := List.mem_map.mp hx
          exact List.mem_append_left _ (List.mem_reverse.mpr hu)
      · intro x hx
        rcases List.mem_append.mp hx with hx | hx
        · exact List.mem_append_right _ (hin' x (List.mem_cons_of_mem _ hx))
        · obtain ⟨u, hu, rfl⟩ := List.mem_map.mp hx
          exact List.mem_append_left _ (List.mem_reverse.mpr hu)

theorem Renamed.findAll (h : Renamed ρ RN RS srt srt' g g') (hs : Sound g) (hs' : Sound g')
    {start start' : Nat} (hρ : ρ start start') :
    ∃ order order', g.graph.findAllUpstream srt start = .ok order ∧
      g'.graph.findAllUpstream srt' start' = .ok order' ∧ List.Forall₂ ρ order order' := by
  obtain ⟨hl, hl'⟩ := h.live _ _ hρ
  obtain ⟨order, d, e, -, -⟩ := findAll_spec srt hs.ends (contains_lt_bound hl) (fun _ _ => True)
    trivial (fun _ _ _ _ _ _ _ => trivial)
  obtain ⟨order', d', e', -, -⟩ := findAll_spec srt' hs'.ends (contains_lt_bound hl')
    (fun _ _ => True) trivial (fun _ _ _ _ _ _ _ => trivial)
  refine ⟨order, order', e, e', ?_⟩
  unfold SGraph.findAllUpstream Search.new at e e'
  rw [if_pos (contains_lt_bound hl)] at e
  rw [if_pos (contains_lt_bound hl')] at e'
  simp only [bind, Except.bind] at e e'
  have a := allLoop_more srt _ _ _ _ _ (g'.graph.slots.length + 2) e
  have b := allLoop_more srt' _ _ _ _ _ (g.graph.slots.length + 2) e'
  rw [Nat.add_comm] at b
  have := h.allLoop (g.graph.slots.length + 2 + (g'.graph.slots.length + 2)) ⟨[(start, 0)], [start]⟩
    ⟨[(start', 0)], [start']⟩ [] [] (.cons ⟨hρ, rfl⟩ .nil) (.cons hρ .nil) (by simp) (by simp) .nil
  rw [a, b] at this
  exact this

/-! ### the phases -/

/-- Maps that agree along `ρ`. -/
def MapAlong {α β : Type} (ρ : Nat → Nat → Prop) (R : α → β → Prop) (m : Graph.IdxMap α)
    (m' : Graph.IdxMap β) : Prop :=
  ∀ i j, ρ i j → (m i = none ∧ m' j = none) ∨ ∃ a b, m i = some a ∧ m' j = some b ∧ R a b

theorem MapAlong.insert {α β : Type} {R : α → β → Prop} {m : Graph.IdxMap α} {m' : Graph.IdxMap β}
    (one : ∀ i j k l, ρ i j → ρ k l → (i = k ↔ j = l)) (h : MapAlong ρ R m m') {i j : Nat}
    (hij : ρ i j) {a : α} {b : β} (hab : R a b) :
    MapAlong ρ R (m.insert i a) (m'.insert j b) := by
  intro k l hkl
  unfold Graph.IdxMap.insert
  by_cases hk : k = i
  · have hl : l = j := (one _ _ _ _ hkl hij).mp hk
    exact .inr ⟨a, b, by simp [hk], by simp [hl], hab⟩
  · have hl : ¬ l = j := fun e => hk ((one _ _ _ _ hkl hij).mpr e)
    simp only [hk, hl, if_false]
    exact h k l hkl

theorem lookupAll_along {α β : Type} {R : α → β → Prop} {m : Graph.IdxMap α} {m' : Graph.IdxMap β}
    (h : MapAlong ρ R m m') {l l' : List Nat} (hl : List.Forall₂ ρ l l') :
    ResRel (List.Forall₂ R) (Graph.lookupAll m l) (Graph.lookupAll m' l') := by
  induction hl with
  | nil => exact .nil
  | @cons i j _ _ hij _ ih =>
    unfold Graph.lookupAll
    rcases h i j hij with ⟨e1, e2⟩ | ⟨a, b, e1, e2, hab⟩
    · rw [e1, e2]; rfl
    · rw [e1, e2]
      exact ResRel.bind ih fun _ _ h => .cons hab h

theorem forall₂_eq {α : Type} {l l' : List α} (h : List.Forall₂ (· = ·) l l') : l = l' := by
  induction h with
  | nil => rfl
  | cons h _ ih => rw [h, ih]

theorem Renamed.hashPhase (hm : Matching sem sem' RN RS RC) (h : Renamed ρ RN RS srt srt' g g')
    (hs : Sound g) (hs' : Sound g') (fr : Fr) {l l' : List Nat} (hl : List.Forall₂ ρ l l') :
    ∀ (m m' : Graph.IdxMap Nat), MapAlong ρ (· = ·) m m' →
      ResRel (MapAlong ρ (· = ·)) (Graph.hashPhase sem srt g fr l m)
        (Graph.hashPhase sem' srt' g' fr l' m') := by
  induction hl with
  | nil => intro m m' hmap; exact hmap
  | @cons i j is js hij _ ih =>
    intro m m' hmap
    unfold Graph.hashPhase
    obtain ⟨n, n', e1, e2, hn⟩ := h.node i j hij
    obtain ⟨l1, l2⟩ := h.live i j hij
    rw [e1, e2, hs.direct srt l1, hs'.direct srt' l2]
    dsimp only
    simp only [bind, Except.bind]
    have hk := lookupAll_along hmap (h.parents i j hij)
    cases h1 : Graph.lookupAll m (OCG.parents srt g.graph i) <;>
      cases h2 : Graph.lookupAll m' (OCG.parents srt' g'.graph j) <;> rw [h1, h2] at hk <;>
      simp only [ResRel] at hk
    · rw [hk]; rfl
    · have := forall₂_eq hk
      subst this
      dsimp only
      rw [hm.hash n n' hn]
      exact ih _ _ (hmap.insert h.one hij rfl)

theorem Renamed.nodesAt (h : Renamed ρ RN RS srt srt' g g') {l l' : List Nat}
    (hl : List.Forall₂ ρ l l') : ResRel (List.Forall₂ RN) (g.nodesAt l) (g'.nodesAt l') := by
  induction hl with
  | nil => exact .nil
  | @cons i j _ _ hij _ ih =>
    unfold Graph.nodesAt
    obtain ⟨n, n', e1, e2, hn⟩ := h.node i j hij
    rw [e1, e2]
    exact ResRel.bind ih fun _ _ h => .cons hn h

theorem Renamed.validateLoop (hm : Matching sem sem' RN RS RC)
    (h : Renamed ρ RN RS srt srt' g g') (hs : Sound g) (hs' : Sound g')
    {hashes hashes' : Graph.IdxMap Nat} (hh : MapAlong ρ (· = ·) hashes hashes') :
    ∀ (fuel : Nat) (stack validated stack' validated' : List (Nat × Mode)),
      List.Forall₂ (fun x y => ρ x.1 y.1 ∧ x.2 = y.2) stack stack' →
      List.Forall₂ (fun x y => ρ x.1 y.1 ∧ x.2 = y.2) validated validated' →
      ResRel (List.Forall₂ fun x y => ρ x.1 y.1 ∧ x.2 = y.2)
        (Graph.validateLoop sem srt g hashes fuel stack validated)
        (Graph.validateLoop sem' srt' g' hashes' fuel stack' validated') := by
  intro fuel
  induction fuel with
  | zero => intro _ _ _ _ _ _; rfl
  | succ fuel ih =>
    intro stack validated stack' validated' hst hv
    cases hst with
    | nil => exact hv
    | @cons x y rest rest' hxy hrest =>
      obtain ⟨i, mode⟩ := x
      obtain ⟨j, mode'⟩ := y
      obtain ⟨hij, hmo⟩ := hxy
      dsimp only at hij hmo
      subst hmo
      obtain ⟨n, n', e1, e2, hn⟩ := h.node i j hij
      obtain ⟨l1, l2⟩ := h.live i j hij
      unfold Graph.validateLoop
      rw [hs.direct srt l1, hs'.direct srt' l2]
      simp only [bind, Except.bind]
      have hk := h.nodesAt (h.parents i j hij)
      cases h1 : g.nodesAt (OCG.parents srt g.graph i) <;>
        cases h2 : g'.nodesAt (OCG.parents srt' g'.graph j) <;> rw [h1, h2] at hk <;>
        simp only [ResRel] at hk
      · rw [hk]; rfl
      · rw [e1, e2]
        dsimp only
        rcases hh i j hij with ⟨k1, k2⟩ | ⟨a, b, k1, k2, rfl⟩
        · rw [k1, k2]; rfl
        · rw [k1, k2]
          dsimp only
          rw [hm.validate n n' hn _ _ hk mode a]
          cases sem'.validate n' mode a _ with
          | error e => rfl
          | ok ms =>
            have hz := forall₂_zip (h.parents i j hij) ms
            exact ih _ _ _ _ (forall₂_append (forall₂_reverse hz) hrest) (forall₂_append hv hz)

/-- What is compared after computing. -/
def RenamedFrame (ρ : Nat → Nat → Prop) (RN : N → N' → Prop) (RS : S → S' → Prop)
    (RC : C → C' → Prop) (srt srt' : EdgeSort) (x : Graph.FrameResult N S C)
    (y : Graph.FrameResult N' S' C') : Prop :=
  x.1 = y.1 ∧ Renamed ρ RN RS srt srt' x.2.1 y.2.1 ∧ RC x.2.2 y.2.2 ∧ Sound x.2.1 ∧ Sound y.2.1

theorem Renamed.set (h : Renamed ρ RN RS srt srt' g g') (hs : Sound g) (hs' : Sound g') {i j : Nat}
    (hij : ρ i j) {n : N} {n' : N'} (hn : RN n n') {out : S} {out' : S'} (ho : RS out out') :
    Renamed ρ RN RS srt srt' { g with nodes := g.nodes.set i n, output := out }
      { g' with nodes := g'.nodes.set j n', output := out' } := by
  refine ⟨h.live, h.parents, ?_, h.one, ho⟩
  intro k l hkl
  have h1 := hs.live i (h.live i j hij).1
  have h2 := hs'.live j (h.live i j hij).2
  have := h.one _ _ _ _ hij hkl
  by_cases hk : i = k
  · have hl := this.mp hk
    exact ⟨n, n', by simp [List.getElem?_set, hk, hk ▸ h1], by simp [List.getElem?_set, hl, hl ▸ h2], hn⟩
  · have hl : ¬ j = l := fun e => hk (this.mpr e)
    obtain ⟨a, b, e1, e2, hab⟩ := h.node k l hkl
    exact ⟨a, b, by simpa [List.getElem?_set, hk] using e1,
      by simpa [List.getElem?_set, hl] using e2, hab⟩

theorem Renamed.computePhase (hm : Matching sem sem' RN RS RC) (fr : Fr)
    {l l' : List (Nat × Mode)} (hl : List.Forall₂ (fun x y => ρ x.1 y.1 ∧ x.2 = y.2) l l') :
    ∀ (g : Graph N S) (g' : Graph N' S') (c : C) (c' : C') (m : Graph.IdxMap S)
      (m' : Graph.IdxMap S'), Renamed ρ RN RS srt srt' g g' → Sound g → Sound g' → RC c c' →
      MapAlong ρ RS m m' →
      ResRel (RenamedFrame ρ RN RS RC srt srt') (Graph.computePhase sem srt fr l g c m)
        (Graph.computePhase sem' srt' fr l' g' c' m') := by
  induction hl with
  | nil => intro g g' c c' m m' h hs hs' hc _; exact ⟨rfl, h, hc, hs, hs'⟩
  | @cons x y l l' hxy _ ih =>
    intro g g' c c' m m' h hs hs' hc hmap
    obtain ⟨i, mode⟩ := x
    obtain ⟨j, mode'⟩ := y
    obtain ⟨hij, hmo⟩ := hxy
    dsimp only at hij hmo
    subst hmo
    obtain ⟨n, n', e1, e2, hn⟩ := h.node i j hij
    obtain ⟨l1, l2⟩ := h.live i j hij
    unfold Graph.computePhase
    rw [hs.direct srt l1, hs'.direct srt' l2]
    refine ResRel.bind (P := List.Forall₂ ρ) (h.parents i j hij) fun ps ps' hps => ?_
    refine ResRel.bind (lookupAll_along hmap hps) fun ins ins' hins => ?_
    rw [e1, e2]
    refine ResRel.bind (hm.compute n n' hn ins ins' hins _ _ h.out c c' hc fr mode) ?_
    rintro ⟨n1, st, out, c1⟩ ⟨n2, st', out', c2⟩ ⟨hn1, hst, ho, hc1⟩
    dsimp only at hn1 hst ho hc1
    subst hst
    have hset := h.set hs hs' hij hn1 ho
    have hb : Sound { g with nodes := g.nodes.set i n1, output := out } :=
      ⟨hs.ends, fun k hk => by simpa using hs.live k hk⟩
    have hb' : Sound { g' with nodes := g'.nodes.set j n2, output := out' } :=
      ⟨hs'.ends, fun k hk => by simpa using hs'.live k hk⟩
    dsimp only
    cases Graph.statusError st with
    | some e => exact ⟨rfl, hset, hc1, hb, hb'⟩
    | none => exact ih _ _ c1 c2 _ _ hset hb hb' hc1 (hmap.insert h.one hij ho)

theorem Renamed.executeFrame (hm : Matching sem sem' RN RS RC) (h : Renamed ρ RN RS srt srt' g g')
    (hs : Sound g) (hs' : Sound g') (fuel : Nat) {order order' : List Nat}
    (ho : List.Forall₂ ρ order order') (fr : Fr) {c : C} {c' : C'} (hc : RC c c') :
    ResRel (RenamedFrame ρ RN RS RC srt srt') (g.executeFrame sem srt fuel order fr c)
      (g'.executeFrame sem' srt' fuel order' fr c') := by
  unfold Graph.executeFrame
  refine ResRel.bind (h.hashPhase hm hs hs' fr (forall₂_reverse ho) _ _
    fun i j _ => .inl ⟨rfl, rfl⟩) fun hashes hashes' hh => ?_
  cases ho with
  | nil => rfl
  | @cons start start' rest rest' hst _ =>
    dsimp only
    have hone : List.Forall₂ (fun x y : Nat × Mode => ρ x.1 y.1 ∧ x.2 = y.2) [(start, modeAll)]
        [(start', modeAll)] := .cons ⟨hst, rfl⟩ .nil
    refine ResRel.bind (h.validateLoop hm hs hs' hh fuel _ _ _ _ hone hone) fun v v' hv => ?_
    exact Renamed.computePhase hm fr (forall₂_reverse hv) g g' c c' _ _ h hs hs' hc
      fun i j _ => .inl ⟨rfl, rfl⟩

theorem Renamed.frameLoop (hm : Matching sem sem' RN RS RC) (fuel : Nat) {order order' : List Nat}
    (ho : List.Forall₂ ρ order order') : ∀ (frames : List Fr) (g : Graph N S) (g' : Graph N' S')
    (c : C) (c' : C'), Renamed ρ RN RS srt srt' g g' → Sound g → Sound g' → RC c c' →
    ResRel (RenamedFrame ρ RN RS RC srt srt') (Graph.frameLoop sem srt fuel order frames g c)
      (Graph.frameLoop sem' srt' fuel order' frames g' c') := by
  intro frames
  induction frames with
  | nil => intro g g' c c' h hs hs' hc; exact ⟨rfl, h, hc, hs, hs'⟩
  | cons f fs ih =>
    intro g g' c c' h hs hs' hc
    unfold Graph.frameLoop
    refine ResRel.bind (h.executeFrame hm hs hs' fuel ho f hc) ?_
    rintro ⟨e, g1, c1⟩ ⟨e', g2, c2⟩ ⟨h1, h2, h3, h4, h5⟩
    dsimp only at h1 h2 h3 h4 h5
    subst h1
    cases e with
    | some e => exact ⟨rfl, h2, h3, h4, h5⟩
    | none => exact ih g1 g2 c1 c2 h2 h4 h5 h3

/-- Executing the two graphs gives the same status, related outputs and related caches. -/
theorem Renamed.execute (hm : Matching sem sem' RN RS RC) (h : Renamed ρ RN RS srt srt' g g')
    (hs : Sound g) (hs' : Sound g') {id id' start start' : Nat} (hat : At g id start)
    (hat' : At g' id' start') (hρ : ρ start start') (fuel : Nat) (frames : List Fr) {c : C} {c' : C'}
    (hc : RC c c') :
    ResRel (fun r r' => r.1 = r'.1 ∧ RS r.2.1.output r'.2.1.output ∧ RC r.2.2 r'.2.2)
      (g.execute sem srt fuel id frames c) (g'.execute sem' srt' fuel id' frames c') := by
  unfold Graph.execute
  rw [find_at.mpr hat, find_at.mpr hat']
  obtain ⟨order, order', e, e', ho⟩ := h.findAll hs hs' hρ
  simp only [e, e']
  refine ResRel.bind (P := List.Forall₂ ρ) ho fun o o' ho => ?_
  refine ResRel.bind (Renamed.frameLoop hm fuel ho frames g g' c c' h hs hs' hc) ?_
  rintro ⟨e, g1, c1⟩ ⟨e', g2, c2⟩ ⟨h1, h2, h3, -, -⟩
  dsimp only at h1 h2 h3
  subst h1
  cases e with
  | some e => exact ⟨rfl, h2.out, h3⟩
  | none => exact ⟨rfl, h2.out, h3⟩

end OCG
