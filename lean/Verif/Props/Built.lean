import Verif.Spec.Built
import Verif.Proofs.Built
import Verif.Props.Again
/-
Property C118: how a graph was built does not matter.
-/

namespace OCG.Props

open AgainSpec BuiltSpec GraphSpec CacheSpec

section
variable {N S C Fr : Type}

/-- Related nodes have related inputs, in order. -/
theorem shape_parents {sem sem' : NodeSem N S C Fr} {srt srt' : EdgeSort} {g g' : Graph N S}
    {r r' : Bool} (h : Reach sem srt r g) (h' : Reach sem' srt' r' g') (hu : UniqueSlots g)
    (hu' : UniqueSlots g') {Same : N → N → Prop} {ρ : Nat → Nat → Prop}
    (hρ : SameShape Same ρ g g') {i j : Nat} (hij : ρ i j) (hi : g.graph.contains i = true)
    (hj : g'.graph.contains j = true) :
    List.Forall₂ ρ (parents srt g.graph i) (parents srt' g'.graph j) := by
  obtain ⟨es, e1, e2, e3⟩ := C37_strict sem srt h hu hi
  obtain ⟨fs, f1, f2, f3⟩ := C37_strict sem' srt' h' hu' hj
  rw [h.inv.sound.direct srt hi] at e1
  rw [h'.inv.sound.direct srt' hj] at f1
  rw [Except.ok.inj e1, Except.ok.inj f1]
  have := sorted_forall₂ (R := fun e f => e.weight = f.weight ∧ ρ e.src f.src) (fun _ _ h => h.1)
    es fs e3 f3 (fun e he => by
      obtain ⟨k1, k2, k3⟩ := (e2 e).mp he
      obtain ⟨b, b1, b2, b3⟩ := hρ.inputs i j _ _ hij k1 k3
      exact ⟨⟨b, j, e.weight⟩, (f2 _).mpr ⟨b2, rfl, b3⟩, rfl, b1⟩)
    (fun f hf => by
      obtain ⟨k1, k2, k3⟩ := (f2 f).mp hf
      obtain ⟨b, b1, b2, b3⟩ := hρ.back i j _ _ hij k1 k3
      exact ⟨⟨b, i, f.weight⟩, (e2 _).mpr ⟨b2, rfl, b3⟩, rfl, b1⟩)
  exact forall₂_map (fun _ _ h => h.2) this

/-- A node above the one is related to a node above the other. -/
theorem shape_upstream {Same : N → N → Prop} {ρ : Nat → Nat → Prop} {g g' : Graph N S}
    (hρ : SameShape Same ρ g g') {start start' : Nat} (h0 : ρ start start') {j : Nat}
    (hj : Upstream g'.graph start' j) : ∃ i, ρ i j ∧ Upstream g.graph start i := by
  induction hj with
  | refl => exact ⟨start, h0, .refl⟩
  | @step b a _ hf ih =>
    obtain ⟨i, hi, hu⟩ := ih
    obtain ⟨e, he, rfl, rfl⟩ := hf
    by_cases hne : e.src = e.dst
    · rw [hne]; exact ⟨i, hi, hu⟩
    · obtain ⟨k, k1, k2, -⟩ := hρ.back i e.dst e.src e.weight hi he hne
      exact ⟨k, k1, .step hu ⟨_, k2, rfl, rfl⟩⟩

theorem shape_symm {Same : N → N → Prop} {ρ : Nat → Nat → Prop} {g g' : Graph N S}
    (hρ : SameShape Same ρ g g') :
    SameShape (fun a b => Same b a) (fun i j => ρ j i) g' g :=
  ⟨fun i j h => by
      obtain ⟨n, n', a, b, c⟩ := hρ.nodes j i h
      exact ⟨n', n, b, a, c⟩,
    fun i j a s h hc hne => hρ.back j i a s h hc hne,
    fun i j b s h hc hne => hρ.inputs j i b s h hc hne⟩

theorem shape_parents_upstream {sem sem' : NodeSem N S C Fr} {srt srt' : EdgeSort}
    {g g' : Graph N S} {r r' : Bool} (h : Reach sem srt r g) (h' : Reach sem' srt' r' g')
    (hu : UniqueSlots g) (hu' : UniqueSlots g') {Same : N → N → Prop} {ρ : Nat → Nat → Prop}
    (hρ : SameShape Same ρ g g') {start start' : Nat} {i j : Nat} (hij : ρ i j)
    (hs : g.graph.contains start = true) (hs' : g'.graph.contains start' = true)
    (hui : Upstream g.graph start i) (huj : Upstream g'.graph start' j) :
    List.Forall₂ (fun i j => ρ i j ∧ Upstream g.graph start i ∧ Upstream g'.graph start' j)
      (parents srt g.graph i) (parents srt' g'.graph j) := by
  have hg : Sound g := h.inv.sound
  have hg' : Sound g' := h'.inv.sound
  have k := shape_parents h h' hu hu' hρ hij (hg.upstream_live hs hui) (hg'.upstream_live hs' huj)
  have k1 := fun u (hu : u ∈ parents srt g.graph i) => ((hg.mem_parents srt).mp hu).1
  have k2 := fun u (hu : u ∈ parents srt' g'.graph j) => ((hg'.mem_parents srt').mp hu).1
  generalize parents srt g.graph i = ps at k k1 ⊢
  generalize parents srt' g'.graph j = ps' at k k2 ⊢
  induction k with
  | nil => exact .nil
  | cons hab _ ih =>
    exact .cons ⟨hab, .step hui (k1 _ List.mem_cons_self), .step huj (k2 _ List.mem_cons_self)⟩
      (ih (fun u hu => k1 u (List.mem_cons_of_mem _ hu))
        fun u hu => k2 u (List.mem_cons_of_mem _ hu))

/-- C118: two graphs with the same nodes and connections, at whatever positions, execute alike:
same status, same output, same effects, and the one panics as the other does. -/
theorem C118_positions (sem : NodeSem N S C Fr) (srt srt' : EdgeSort) {g g' : Graph N S}
    {r r' : Bool} (h : Reach sem srt r g) (h' : Reach sem srt' r' g') (hu : UniqueSlots g)
    (hu' : UniqueSlots g') {Same : N → N → Prop}
    (hm : Matching sem sem Same (fun s s' : S => s = s') (fun c c' : C => c = c'))
    {ρ : Nat → Nat → Prop} (hρ : SameShape Same ρ g g') (hone : OneToOne ρ)
    {id id' start start' : Nat} (hid : At g id start) (hs : g.graph.contains start = true)
    (hid' : At g' id' start') (hs' : g'.graph.contains start' = true) (h0 : ρ start start')
    (ho : g.output = g'.output) (fuel : Nat) (frames : List Fr) (c : C) :
    (g.execute sem srt fuel id frames c).map (fun r => (r.1, r.2.1.output, r.2.2)) =
      (g'.execute sem srt' fuel id' frames c).map (fun r => (r.1, r.2.1.output, r.2.2)) := by
  have hg : Sound g := h.inv.sound
  have hg' : Sound g' := h'.inv.sound
  have hren : Renamed (fun i j => ρ i j ∧ Upstream g.graph start i ∧ Upstream g'.graph start' j)
      Same (fun s s' : S => s = s') srt srt' g g' := by
    refine ⟨fun i j hij => ⟨hg.upstream_live hs hij.2.1, hg'.upstream_live hs' hij.2.2⟩, ?_,
      fun i j hij => hρ.nodes i j hij.1, fun i j k l hij hkl => hone i j k l hij.1 hkl.1, ho⟩
    intro i j ⟨hij, hui, huj⟩
    exact shape_parents_upstream h h' hu hu' hρ hij hs hs' hui huj
  have := hren.execute hm hg hg' hid hid' ⟨h0, .refl, .refl⟩ fuel frames (c := c) rfl
  cases e1 : g.execute sem srt fuel id frames c <;>
    cases e2 : g'.execute sem srt' fuel id' frames c <;> rw [e1, e2] at this <;>
    simp only [ResRel] at this
  · rw [this]
  · obtain ⟨k1, k2, k3⟩ := this
    simp only [Except.map, k1, k2, k3]

/-! ### copies -/

theorem vals_agree {ρ : Nat → Nat → Prop} {m m' : Graph.IdxMap S} {ps ps' : List Nat}
    (hp : List.Forall₂ ρ ps ps') : ∀ {vals vals' : List S}, ps.map m = vals.map some →
    ps'.map m' = vals'.map some →
    (∀ u ∈ ps, ∀ u', ρ u u' → ∀ v v', m u = some v → m' u' = some v' → v = v') → vals = vals' := by
  induction hp with
  | nil =>
    intro vals vals' h h' _
    cases vals <;> cases vals' <;> simp at h h' ⊢
  | cons hab _ ih =>
    intro vals vals' h h' hk
    cases vals with
    | nil => simp at h
    | cons v vals =>
      cases vals' with
      | nil => simp at h'
      | cons v' vals' =>
        simp only [List.map_cons, List.cons.injEq] at h h'
        rw [hk _ List.mem_cons_self _ hab v v' h.1 h'.1,
          ih h.2 h'.2 fun u hu => hk u (List.mem_cons_of_mem _ hu)]

theorem vals_dom {f : N → List S → Option (NodeStatus × S)} {srt : EdgeSort} {g : Graph N S}
    (hg : Sound g) {start : Nat} {streams : Graph.IdxMap S} (hv : Vals f srt g streams)
    (h0 : streams start ≠ none) : ∀ i, Upstream g.graph start i → streams i ≠ none := by
  intro i hu
  induction hu with
  | refl => exact h0
  | @step b a hb hfe ih =>
    by_cases hab : a = b
    · rw [hab]; exact ih
    · cases hsb : streams b with
      | none => exact absurd hsb ih
      | some vb =>
        obtain ⟨n, vals, st, -, a2, -⟩ := hv b vb hsb
        have hmem : a ∈ parents srt g.graph b := (hg.mem_parents srt).mpr ⟨hfe, hab⟩
        have := List.mem_map_of_mem (f := streams) hmem
        rw [a2] at this
        obtain ⟨w, -, e⟩ := List.mem_map.mp this
        rw [← e]
        simp

/-- Related nodes have the same values. -/
theorem vals_same {f : N → List S → Option (NodeStatus × S)} {srt srt' : EdgeSort}
    {g g' : Graph N S} (hg : Sound g) {start start' : Nat} {order : List Nat}
    (ht : Topo g.graph order) (hmem : ∀ i, i ∈ order ↔ Upstream g.graph start i)
    {ρ : Nat → Nat → Prop} {Same : N → N → Prop} (hρ : SameShape Same ρ g g')
    (hf : ∀ n n', Same n n' → f n = f n')
    (hpar : ∀ i j, ρ i j → Upstream g.graph start i → Upstream g'.graph start' j →
      List.Forall₂ ρ (parents srt g.graph i) (parents srt' g'.graph j))
    {streams streams' : Graph.IdxMap S} (hv : Vals f srt g streams) (hv' : Vals f srt' g' streams')
    (hg' : Sound g') :
    ∀ i, Upstream g.graph start i → ∀ j, ρ i j → Upstream g'.graph start' j →
      ∀ v v', streams i = some v → streams' j = some v' → v = v' := by
  refine topo_induction ht hmem fun i hui ih j hij huj v v' e e' => ?_
  obtain ⟨n, vals, st, a1, a2, a3, -⟩ := hv i v e
  obtain ⟨n', vals', st', b1, b2, b3, -⟩ := hv' j v' e'
  obtain ⟨m, m', c1, c2, c3⟩ := hρ.nodes i j hij
  rw [c1] at a1
  cases a1
  rw [c2] at b1
  cases b1
  have hp := hpar i j hij hui huj
  have hp' : List.Forall₂ (fun a b => ρ a b ∧ Upstream g'.graph start' b)
      (parents srt g.graph i) (parents srt' g'.graph j) := by
    have k2 := fun u (hu : u ∈ parents srt' g'.graph j) => ((hg'.mem_parents srt').mp hu).1
    generalize parents srt g.graph i = ps at hp ⊢
    generalize parents srt' g'.graph j = ps' at hp k2 ⊢
    induction hp with
    | nil => exact .nil
    | cons hab _ ihp =>
      exact .cons ⟨hab, .step huj (k2 _ List.mem_cons_self)⟩
        (ihp fun u hu => k2 u (List.mem_cons_of_mem _ hu))
  have : vals = vals' := by
    refine vals_agree hp' a2 b2 fun u hu u' huu => ?_
    obtain ⟨k1, k2⟩ := (hg.mem_parents srt).mp hu
    exact ih u k1 k2 u' huu.1 huu.2
  subst this
  rw [hf _ _ c3, b3] at a3
  cases a3
  rfl

/-- C118: if the computations depend on the nodes and their inputs only, then a node may be shared
or copied: of two graphs of the same shape, the one succeeds if the other does, with the same
output. -/
theorem C118_shared (sem : NodeSem N S C Fr) (srt srt' : EdgeSort) {g g' : Graph N S}
    {r r' : Bool} (h : Reach sem srt r g) (h' : Reach sem srt' r' g') (hu : UniqueSlots g)
    (hu' : UniqueSlots g') {R Same : N → N → Prop} (hk : AsksAlike sem R) (hR : ∀ n, R n n)
    {Good : C → Prop} {f : Fr → N → List S → Option (NodeStatus × S)}
    (hf : ∀ fr n n', Same n n' → f fr n = f fr n') {ρ : Nat → Nat → Prop}
    (hρ : SameShape Same ρ g g') {id id' start start' : Nat} (hid : At g id start)
    (hs : g.graph.contains start = true) (hid' : At g' id' start')
    (hs' : g'.graph.contains start' = true) (h0 : ρ start start') {frames : List Fr}
    (hne : frames ≠ []) (hp : ∀ fr ∈ frames, PureAt sem srt g start fr R Good (f fr))
    (hp' : ∀ fr ∈ frames, PureAt sem srt' g' start' fr R Good (f fr)) {c c' : C} (hc : Good c)
    (hc' : Good c') {fuel fuel' : Nat} {st : ExecuteStatus} {g1 g1' : Graph N S} {c1 c1' : C}
    (e : g.execute sem srt fuel id frames c = .ok (.success, g1, c1))
    (e' : g'.execute sem srt' fuel' id' frames c' = .ok (st, g1', c1')) :
    st = .success ∧ g1'.output = g1.output := by
  have hg : Sound g := h.inv.sound
  have hg' : Sound g' := h'.inv.sound
  obtain ⟨order, d, ho, hi⟩ := order_of_reach h hs
  obtain ⟨order', d', ho', hi'⟩ := order_of_reach h' hs'
  have ht := execute_topo hg hid hs hne e ho hi
  have hpar : ∀ i j, ρ i j → Upstream g.graph start i → Upstream g'.graph start' j →
      List.Forall₂ ρ (parents srt g.graph i) (parents srt' g'.graph j) := fun i j hij hui huj =>
    shape_parents h h' hu hu' hρ hij (hg.upstream_live hs hui) (hg'.upstream_live hs' huj)
  unfold Graph.execute at e e'
  rw [find_at.mpr hid] at e
  rw [find_at.mpr hid'] at e'
  dsimp only at e e'
  rw [ho] at e
  rw [ho'] at e'
  obtain ⟨_, hx, e⟩ := Res.bind_ok.mp e
  cases hx
  obtain ⟨_, hx, e'⟩ := Res.bind_ok.mp e'
  cases hx
  obtain ⟨⟨er, g2, c2⟩, l1, e⟩ := Res.bind_ok.mp e
  obtain ⟨⟨er', g2', c2'⟩, l2, e'⟩ := Res.bind_ok.mp e'
  dsimp only at e e'
  obtain ⟨k1, -⟩ := frameLoop_vals hg hs hk hi.final_head fuel frames hp g c er g2 c2
    ⟨rfl, fun k n hn => ⟨n, hn, hR n⟩⟩ hc l1
  obtain ⟨k2, k3⟩ := frameLoop_vals hg' hs' hk hi'.final_head fuel' frames hp' g' c' er' g2' c2'
    ⟨rfl, fun k n hn => ⟨n, hn, hR n⟩⟩ hc' l2
  cases er with
  | some er => cases er <;> simp [Graph.errorStatus] at e
  | none =>
    obtain ⟨k4, k5⟩ := k1 rfl
    cases er' with
    | some er' =>
      exfalso
      obtain ⟨fr, hfr, streams', hv', n', vals', st', v', j, huj, b1, b2, b3, b4⟩ := k3 (by simp)
      obtain ⟨streams, hv, hdom⟩ := k4 fr hfr
      obtain ⟨i, hij, hui⟩ := shape_upstream hρ h0 huj
      obtain ⟨v, hvi⟩ := Option.ne_none_iff_exists'.mp (vals_dom hg hv hdom i hui)
      obtain ⟨n, vals, st2, a1, a2, a3, a4⟩ := hv i v hvi
      have hsame := vals_same (start := start) (start' := start') hg ht hi.final_mem hρ (hf fr) hpar
        hv hv' hg'
      have : vals = vals' := by
        have hp1 := hpar i j hij hui huj
        have k2 := fun u (hu : u ∈ parents srt' g'.graph j) => ((hg'.mem_parents srt').mp hu).1
        have k6 := fun u (hu : u ∈ parents srt g.graph i) => ((hg.mem_parents srt).mp hu).1
        have hp2 : List.Forall₂ (fun a b => ρ a b ∧ Upstream g'.graph start' b)
            (parents srt g.graph i) (parents srt' g'.graph j) := by
          clear a2 b2 k6
          generalize parents srt g.graph i = ps at hp1 ⊢
          generalize parents srt' g'.graph j = ps' at hp1 k2 ⊢
          induction hp1 with
          | nil => exact .nil
          | cons hab _ ihp =>
            exact .cons ⟨hab, .step huj (k2 _ List.mem_cons_self)⟩
              (ihp fun u hu => k2 u (List.mem_cons_of_mem _ hu))
        exact vals_agree hp2 a2 b2 fun u hu u' huu =>
          hsame u (.step hui (k6 u hu)) u' huu.1 huu.2
      subst this
      obtain ⟨m, m', c1, c2, c3⟩ := hρ.nodes i j hij
      rw [c1] at a1
      cases a1
      rw [c2] at b1
      cases b1
      rw [hf fr _ _ c3, b3] at a3
      cases a3
      exact a4 b4
    | none =>
      simp only [Except.ok.injEq, Prod.mk.injEq] at e e'
      refine ⟨e'.1.symm, ?_⟩
      obtain ⟨fr, hlast⟩ := Option.ne_none_iff_exists'.mp (mt List.getLast?_eq_none_iff.mp hne)
      obtain ⟨streams, hv, ho1⟩ := k5 fr hlast
      obtain ⟨streams', hv', ho2⟩ := (k2 rfl).2 fr hlast
      have := vals_same (start := start) (start' := start') hg ht hi.final_mem hρ (hf fr) hpar
        hv hv' hg' start .refl start' h0 .refl _ _ ho1 ho2
      rw [← e.2.1, ← e'.2.1]
      exact this.symm

end

/-! ### the nodes of the library -/

section
variable {F H : Type} [FloatLike F] [HalfLike F H] [FloatConst F] [FloatBits F]

omit [HalfLike F H] [FloatConst F] [FloatBits F] in
/-- What a node asks of its inputs depends on its settings and their number. -/
theorem validate_settings {α : Type} {n n' : Node F} (h : n.attrs = n'.attrs) (m : Mode)
    {ns ns' : List α} (hl : ns.length = ns'.length) : n.validate m ns = n'.validate m ns' := by
  obtain ⟨id, st, attrs⟩ := n
  obtain ⟨id', st', attrs'⟩ := n'
  dsimp only at h
  subst h
  have hmap : ∀ (l l' : List α) (x : Mode), l.length = l'.length →
      l.map (fun _ => x) = l'.map fun _ => x := fun l l' x h => by simp [List.map_const', h]
  have hfirst : validateFirst m ns = validateFirst m ns' := by
    cases ns with
    | nil => cases ns' with
      | nil => rfl
      | cons _ _ => simp at hl
    | cons a l => cases ns' with
      | nil => simp at hl
      | cons b l' => simp only [validateFirst, hmap l l' _ (by simpa using hl)]
  have hmerge : validateMerge m ns = validateMerge m ns' := by
    rcases ns with _ | ⟨a, _ | ⟨b, l⟩⟩ <;> rcases ns' with _ | ⟨a', _ | ⟨b', l'⟩⟩ <;>
      first
      | rfl
      | (simp at hl; done)
      | simp only [validateMerge, hmap l l' _ (by simpa using hl)]
  cases attrs
  case viewer a =>
    show a.validate m ns = a.validate m ns'
    cases ns with
    | nil => cases ns' with
      | nil => rfl
      | cons _ _ => simp at hl
    | cons x l => cases ns' with
      | nil => simp at hl
      | cons y l' => simp only [ViewerAttrs.validate, hmap l l' _ (by simpa using hl)]
  case mergeImage a => exact congrArg Except.ok hmerge
  all_goals exact congrArg Except.ok hfirst

/-- Nodes with the same settings behave alike. -/
theorem settings_matching (p : Profile) (lib : NodeLib F H) :
    Matching (nodeSem p lib) (nodeSem p lib) SameSettings (fun s s' : Stream F H => s = s')
      (fun w w' : World F H => w = w') := by
  refine ⟨?_, ?_, ?_⟩
  · rintro ⟨id, st, attrs⟩ ⟨id', st', attrs'⟩ h fr hs
    simp only [SameSettings] at h
    subst h
    rfl
  · intro n n' h ns ns' hF mode k
    exact validate_settings h mode hF.length_eq
  · rintro ⟨id, st, attrs⟩ ⟨id', st', attrs'⟩ h ins ins' hF prev _ rfl w _ rfl fr m
    simp only [SameSettings] at h
    subst h
    have := forall₂_eq hF
    subst this
    simp only [nodeSem]
    have : Node.run p lib (⟨id, st, attrs⟩ : Node F) fr m ins prev w =
        Node.run p lib ⟨id', st', attrs⟩ fr m ins prev w := rfl
    rw [this]
    cases Node.run p lib (⟨id', st', attrs⟩ : Node F) fr m ins prev w with
    | error e => rfl
    | ok r => exact ⟨rfl, rfl, rfl, rfl⟩

/-- C118: the order in which nodes were added and connected, and their identifiers, do not matter:
graphs with the same nodes and connections give the same status, the same output, write the same
files in the same order and leave the same cache; and the one panics as the other does. -/
theorem C118_rebuilt (p : Profile) (lib : NodeLib F H) (srt srt' : EdgeSort)
    {g g' : Graph (Node F) (Stream F H)} {r r' : Bool} (h : Reach (nodeSem p lib) srt r g)
    (h' : Reach (nodeSem p lib) srt' r' g') (hu : UniqueSlots g) (hu' : UniqueSlots g')
    {ρ : Nat → Nat → Prop} (hρ : SameShape SameSettings ρ g g') (hone : OneToOne ρ)
    {id id' start start' : Nat} (hid : At g id start) (hs : g.graph.contains start = true)
    (hid' : At g' id' start') (hs' : g'.graph.contains start' = true) (h0 : ρ start start')
    (ho : g.output = g'.output) (fuel : Nat) (frames : List F) (w : World F H) :
    (g.execute (nodeSem p lib) srt fuel id frames w).map (fun r => (r.1, r.2.1.output, r.2.2)) =
      (g'.execute (nodeSem p lib) srt' fuel id' frames w).map
        (fun r => (r.1, r.2.1.output, r.2.2)) :=
  C118_positions (nodeSem p lib) srt srt' h h' hu hu' (settings_matching p lib) hρ hone hid hs hid'
    hs' h0 ho fuel frames w

/-- C118: graphs that show their files need not even have the same picture left from before. -/
theorem C118_rebuilt_shown (p : Profile) (lib : NodeLib F H) (srt srt' : EdgeSort)
    {g g' : Graph (Node F) (Stream F H)} {r r' : Bool} (h : Reach (nodeSem p lib) srt r g)
    (h' : Reach (nodeSem p lib) srt' r' g') (hu : UniqueSlots g) (hu' : UniqueSlots g')
    {ρ : Nat → Nat → Prop} (hρ : SameShape SameSettings ρ g g') (hone : OneToOne ρ)
    {id id' start start' : Nat} (hid : At g id start) (hs : g.graph.contains start = true)
    (hid' : At g' id' start') (hs' : g'.graph.contains start' = true) (h0 : ρ start start')
    {frame : F} (hp : ShowsFiles lib g start frame) (fuel : Nat) (frames : List F)
    (w : World F H) :
    (g.execute (nodeSem p lib) srt fuel id (frame :: frames) w).map
        (fun r => (r.1, r.2.1.output, r.2.2)) =
      (g'.execute (nodeSem p lib) srt' fuel id' (frame :: frames) w).map
        (fun r => (r.1, r.2.1.output, r.2.2)) := by
  have hg : Sound g := h.inv.sound
  have hg' : Sound g' := h'.inv.sound
  have hren : Renamed (fun i j => ρ i j ∧ Upstream g.graph start i ∧ Upstream g'.graph start' j)
      SameSettings (fun s s' : Stream F H => s = s') srt srt' { g with output := g'.output } g' := by
    refine ⟨fun i j hij => ⟨hg.upstream_live hs hij.2.1, hg'.upstream_live hs' hij.2.2⟩, ?_,
      fun i j hij => hρ.nodes i j hij.1, fun i j k l hij hkl => hone i j k l hij.1 hkl.1, rfl⟩
    intro i j ⟨hij, hui, huj⟩
    exact shape_parents_upstream h h' hu hu' hρ hij hs hs' hui huj
  have := hren.execute (settings_matching p lib) (id := id) ⟨hg.ends, hg.live⟩ hg' hid hid'
    ⟨h0, .refl, .refl⟩ fuel (frame :: frames) (c := w) rfl
  rw [C117_output p lib srt fuel h hid hs hp frames g'.output w] at this
  cases e1 : g.execute (nodeSem p lib) srt fuel id (frame :: frames) w <;>
    cases e2 : g'.execute (nodeSem p lib) srt' fuel id' (frame :: frames) w <;>
    rw [e1, e2] at this <;> simp only [ResRel] at this
  · rw [this]
  · obtain ⟨k1, k2, k3⟩ := this
    simp only [Except.map, k1, k2, k3]

/-- What a node gives without a cache, if it returns. -/
def pureRun (p : Profile) (lib : NodeLib F H) (frame : F) (n : Node F)
    (inputs : List (Stream F H)) : Option (NodeStatus × Stream F H) :=
  match n.run p lib frame modeAll inputs .new ⟨.withCapacity 0, []⟩ with
  | .ok (st, out, _) => some (st, out)
  | .error _ => none

/-- Requests for pixels are treated alike. -/
theorem run_mode {p : Profile} {lib : NodeLib F H} {frame : F} {n : Node F} {mode : Mode}
    (hm : mode &&& modePixel = modePixel) (inputs : List (Stream F H)) (prev : Stream F H)
    (w : World F H) :
    n.run p lib frame mode inputs prev w = n.run p lib frame modeAll inputs prev w := by
  obtain ⟨id, st, attrs⟩ := n
  cases attrs
  case readImage a =>
    have hall : modeAll &&& modePixel = modePixel := rfl
    simp only [Node.run, ReadImageAttrs.compute, hm, hall]
  all_goals rfl

/-- Pixels are asked of every node, if the nodes leave them and have no more inputs than they
use. -/
theorem requested_pixels {p : Profile} {lib : NodeLib F H} {srt : EdgeSort}
    {g : Graph (Node F) (Stream F H)} (hg : Sound g) {start : Nat}
    (hs : g.graph.contains start = true)
    (hl : ∀ i n, Upstream g.graph start i → g.nodes[i]? = some n → LeavesPixels n ∧
      (n.attrs.nodeType ≠ .mergeImage → (parents srt g.graph i).length ≤ 1) ∧
      (parents srt g.graph i).length ≤ 2) {i : Nat} {m : Mode}
    (h : Requested (nodeSem p lib) srt g start i m) :
    Upstream g.graph start i ∧ m &&& modePixel = modePixel := by
  induction h with
  | start => exact ⟨.refl, rfl⟩
  | @input i m n h ins ns modes j m' _ hn hins hns hv hz ih =>
    obtain ⟨hu, hm⟩ := ih
    rw [hg.direct srt (hg.upstream_live hs hu)] at hins
    cases hins
    refine ⟨.step hu ((hg.mem_parents srt).mp (List.of_mem_zip hz).1).1, ?_⟩
    have hlen : ns.length = (parents srt g.graph i).length := by
      have := congrArg List.length hns
      simpa using this.symm
    obtain ⟨k1, k2, k3⟩ := hl i n hu hn
    exact validate_pixels k1 hm (fun ht => by rw [hlen]; exact k2 ht) (by rw [hlen]; exact k3) hv m'
      (List.of_mem_zip hz).2

theorem nodes_pure {p : Profile} {lib : NodeLib F H} {srt : EdgeSort}
    {g : Graph (Node F) (Stream F H)} (hg : Sound g) {start : Nat}
    (hs : g.graph.contains start = true)
    (hl : ∀ i n, Upstream g.graph start i → g.nodes[i]? = some n → LeavesPixels n ∧
      (n.attrs.nodeType ≠ .mergeImage → (parents srt g.graph i).length ≤ 1) ∧
      (parents srt g.graph i).length ≤ 2) {frame : F}
    (ho : ∀ i n, Upstream g.graph start i → g.nodes[i]? = some n → OwnPicture lib frame n) :
    PureAt (nodeSem p lib) srt g start frame SameNode (fun w : World F H => IsOff w)
      (pureRun p lib frame) := by
  intro i m n0 n vals prev w n' st out w' hr hn hR hw h
  obtain ⟨hu, hm⟩ := requested_pixels hg hs hl hr
  have hown := ho i n0 hu hn
  simp only [nodeSem] at h
  obtain ⟨⟨st1, out1, w1⟩, h1, h⟩ := Res.bind_ok.mp h
  cases h
  obtain ⟨id, s, attrs⟩ := n
  obtain ⟨id0, s0, attrs0⟩ := n0
  obtain ⟨e1, e2⟩ := hR
  dsimp only at e1 e2
  subst e1 e2
  have hrun : Node.run p lib (⟨id0, s, attrs0⟩ : Node F) frame m vals prev w =
      Node.run p lib ⟨id0, s0, attrs0⟩ frame modeAll vals .new w := by
    rw [← run_mode hm, ← ownPicture_run hown hm vals prev .new w]
    rfl
  rw [hrun] at h1
  have := run_offs p lib (⟨id0, s0, attrs0⟩ : Node F) frame modeAll vals .new
    (w := w) (w' := ⟨.withCapacity 0, []⟩) hw ⟨rfl, rfl⟩
  rw [h1] at this
  unfold pureRun
  revert this
  cases Node.run p lib (⟨id0, s0, attrs0⟩ : Node F) frame modeAll vals .new
    ⟨.withCapacity 0, []⟩ with
  | error e => intro this; cases this
  | ok x =>
    obtain ⟨a, b, c⟩ := x
    rintro ⟨k1, k2, k3, -, -⟩
    dsimp only at k1 k2
    subst k1 k2
    exact ⟨rfl, ⟨rfl, rfl⟩, k3⟩

/-- C118: whether two nodes share an input or have copies of it does not matter: of two graphs that
make pictures and have the same shape, without a cache, if one succeeds then so does the other (if
it returns), and gives the same output. -/
theorem C118_copied (p : Profile) (lib : NodeLib F H) (srt srt' : EdgeSort)
    {g g' : Graph (Node F) (Stream F H)} {r r' : Bool} (h : Reach (nodeSem p lib) srt r g)
    (h' : Reach (nodeSem p lib) srt' r' g') (hu : UniqueSlots g) (hu' : UniqueSlots g')
    {ρ : Nat → Nat → Prop} (hρ : SameShape SameSettings ρ g g') {id id' start start' : Nat}
    (hid : At g id start) (hs : g.graph.contains start = true) (hid' : At g' id' start')
    (hs' : g'.graph.contains start' = true) (h0 : ρ start start') {frames : List F}
    (hne : frames ≠ []) (hp : ∀ frame ∈ frames, MakesPictures lib g start frame)
    {w w' : World F H} (hw : IsOff w) (hw' : IsOff w') {fuel fuel' : Nat} {st : ExecuteStatus}
    {g1 g1' : Graph (Node F) (Stream F H)} {w1 w1' : World F H}
    (e : g.execute (nodeSem p lib) srt fuel id frames w = .ok (.success, g1, w1))
    (e' : g'.execute (nodeSem p lib) srt' fuel' id' frames w' = .ok (st, g1', w1')) :
    st = .success ∧ g1'.output = g1.output := by
  have hg : Sound g := h.inv.sound
  have hg' : Sound g' := h'.inv.sound
  have hlen : ∀ (frame : F), MakesPictures lib g start frame → ∀ i n, Upstream g.graph start i →
      g.nodes[i]? = some n → LeavesPixels n ∧
      (n.attrs.nodeType ≠ .mergeImage → (parents srt g.graph i).length ≤ 1) ∧
      (parents srt g.graph i).length ≤ 2 := by
    intro frame hp i n hu hn
    obtain ⟨k1, k2⟩ := hp.inputs i n hu hn
    exact ⟨hp.leaves i n hu hn, fun ht => few_parents hg srt (k1 ht), two_parents hg srt k2⟩
  have hback : ∀ j n', Upstream g'.graph start' j → g'.nodes[j]? = some n' → ∃ i n,
      Upstream g.graph start i ∧ g.nodes[i]? = some n ∧ n.attrs = n'.attrs ∧
      (parents srt g.graph i).length = (parents srt' g'.graph j).length := by
    intro j n' huj hn'
    obtain ⟨i, hij, hui⟩ := shape_upstream hρ h0 huj
    obtain ⟨m, m', c1, c2, c3⟩ := hρ.nodes i j hij
    rw [hn'] at c2
    cases c2
    exact ⟨i, m, hui, c1, c3, (shape_parents h h' hu hu' hρ hij (hg.upstream_live hs hui)
      (hg'.upstream_live hs' huj)).length_eq⟩
  have hattr : ∀ (n n' : Node F), n.attrs = n'.attrs → ∀ k, n'.getI32 k = n.getI32 k := by
    rintro ⟨_, _, _⟩ ⟨_, _, _⟩ h k
    dsimp only at h
    subst h
    rfl
  refine C118_shared (nodeSem p lib) srt srt' h h' hu hu' (sameNode_asks p lib)
    (fun n => ⟨rfl, rfl⟩) (Good := fun w : World F H => IsOff w) (f := pureRun p lib) ?_ hρ hid hs
    hid' hs' h0 hne (fun fr hfr => nodes_pure hg hs (hlen fr (hp fr hfr)) (hp fr hfr).own)
    (fun fr hfr => nodes_pure hg' hs' ?_ ?_) hw hw' e e'
  · rintro fr ⟨id, s, attrs⟩ ⟨id', s', attrs'⟩ h
    simp only [SameSettings] at h
    subst h
    rfl
  · intro j n' huj hn'
    obtain ⟨i, n, hui, hn, ha, hl⟩ := hback j n' huj hn'
    obtain ⟨k1, k2, k3⟩ := hlen fr (hp fr hfr) i n hui hn
    rw [← hl, ← ha]
    refine ⟨fun ht => ?_, k2, k3⟩
    simp only [hattr n n' ha]
    exact k1 (ha ▸ ht)
  · intro j n' huj hn'
    obtain ⟨i, n, hui, hn, ha, hl⟩ := hback j n' huj hn'
    obtain ⟨k1, k2⟩ := (hp fr hfr).own i n hui hn
    unfold OwnPicture
    rw [← ha]
    refine ⟨fun ht => ?_, k2⟩
    rw [hattr n n' ha]
    exact k1 ht

/-- C118: so it is with any cache, if no node uses it. -/
theorem C118_copied_uncached (p : Profile) (lib : NodeLib F H) (srt srt' : EdgeSort)
    {g g' : Graph (Node F) (Stream F H)} {r r' : Bool} (h : Reach (nodeSem p lib) srt r g)
    (h' : Reach (nodeSem p lib) srt' r' g') (hu : UniqueSlots g) (hu' : UniqueSlots g')
    {ρ : Nat → Nat → Prop} (hρ : SameShape SameSettings ρ g g') {id id' start start' : Nat}
    (hid : At g id start) (hs : g.graph.contains start = true) (hid' : At g' id' start')
    (hs' : g'.graph.contains start' = true) (h0 : ρ start start') {frames : List F}
    (hne : frames ≠ []) (hp : ∀ frame ∈ frames, MakesPictures lib g start frame)
    (hc : ∀ n ∈ g.nodes, n.getI32 "use_cache" = 0) (hc' : ∀ n ∈ g'.nodes, n.getI32 "use_cache" = 0)
    {w w' : World F H} {fuel fuel' : Nat} {st : ExecuteStatus}
    {g1 g1' : Graph (Node F) (Stream F H)} {w1 w1' : World F H}
    (e : g.execute (nodeSem p lib) srt fuel id frames w = .ok (.success, g1, w1))
    (e' : g'.execute (nodeSem p lib) srt' fuel' id' frames w' = .ok (st, g1', w1')) :
    st = .success ∧ g1'.output = g1.output := by
  rw [C94_uncached p lib srt fuel g hc] at e
  rw [C94_uncached p lib srt' fuel' g' hc'] at e'
  cases x : g.execute (nodeSem p lib) srt fuel id frames ⟨.withCapacity 0, []⟩ with
  | error _ => rw [x] at e; cases e
  | ok a =>
    cases y : g'.execute (nodeSem p lib) srt' fuel' id' frames ⟨.withCapacity 0, []⟩ with
    | error _ => rw [y] at e'; cases e'
    | ok b =>
      obtain ⟨s2, g2, w2⟩ := a
      obtain ⟨s2', g2', w2'⟩ := b
      rw [x] at e
      rw [y] at e'
      simp only [Except.map, Except.ok.injEq, Prod.mk.injEq] at e e'
      obtain ⟨rfl, rfl, -⟩ := e
      obtain ⟨rfl, rfl, -⟩ := e'
      exact C118_copied p lib srt srt' h h' hu hu' hρ hid hs hid' hs' h0 hne hp ⟨rfl, rfl⟩
        ⟨rfl, rfl⟩ x y

/-- C118: so it is with caches that were used in any regular way before. -/
theorem C118_copied_cached (p : Profile) (lib : NodeLib F H) (srt srt' : EdgeSort)
    {K : Call F H → Prop} (hK : Regular p lib K)
    {g g' : Graph (Node F) (Stream F H)} {r r' : Bool} (h : Reach (nodeSem p lib) srt r g)
    (h' : Reach (nodeSem p lib) srt' r' g') (hu : UniqueSlots g) (hu' : UniqueSlots g')
    {ρ : Nat → Nat → Prop} (hρ : SameShape SameSettings ρ g g') {id id' start start' : Nat}
    (hid : At g id start) (hs : g.graph.contains start = true) (hid' : At g' id' start')
    (hs' : g'.graph.contains start' = true) (h0 : ρ start start') {frames : List F}
    (hne : frames ≠ []) (hp : ∀ frame ∈ frames, MakesPictures lib g start frame)
    (hg : Produced p lib K g.output) (hg' : Produced p lib K g'.output)
    {w w' : World F H} (hw : History p lib srt K w) (hw' : History p lib srt' K w')
    {fuel fuel' : Nat} {st : ExecuteStatus} {g1 g1' : Graph (Node F) (Stream F H)}
    {w1 w1' : World F H} {log log' : List (Call F H)}
    (e : g.execute (logged p lib) srt fuel id frames (w, []) = .ok (.success, g1, (w1, log)))
    (e' : g'.execute (logged p lib) srt' fuel' id' frames (w', []) = .ok (st, g1', (w1', log')))
    (hlog : ∀ c ∈ log, K c) (hlog' : ∀ c ∈ log', K c) :
    st = .success ∧ g1'.output = g1.output := by
  obtain ⟨v, a, -, -⟩ := C45_cached_equals_uncached_partial p lib srt K hK w
    ⟨.withCapacity 0, w.writes⟩ w1 hw ⟨rfl, rfl⟩ rfl fuel g g1 hg id frames .success log e hlog
  obtain ⟨v', a', -, -⟩ := C45_cached_equals_uncached_partial p lib srt' K hK w'
    ⟨.withCapacity 0, w'.writes⟩ w1' hw' ⟨rfl, rfl⟩ rfl fuel' g' g1' hg' id' frames st log' e' hlog'
  exact C118_copied p lib srt srt' h h' hu hu' hρ hid hs hid' hs' h0 hne hp ⟨rfl, rfl⟩ ⟨rfl, rfl⟩
    a a'

end

section
attribute [local instance] finFloat finBits finHalf finPi

/-- Reading a file. -/
def builtRead (id : Nat) : Node (Fin 256) :=
  ⟨id, .uninitialized, .readImage { readAttrs with useCache := 0 }⟩

/-- Doubling the red channel. -/
def builtGrade (id : Nat) : Node (Fin 256) :=
  ⟨id, .uninitialized, .grade { GradeAttrs.new with multiplyR := 2 }⟩

/-- Cropping to the first pixel. -/
def builtCrop (id : Nat) : Node (Fin 256) :=
  ⟨id, .uninitialized, .cropImage { pixelCrop with useCache := 0 }⟩

/-- Multiplying two pictures. -/
def builtMerge (id : Nat) : Node (Fin 256) :=
  ⟨id, .uninitialized, .mergeImage { MergeImageAttrs.new with enable := 1, mode := 2, useCache := 0 }⟩

/-- A file is read, doubled, and multiplied with a crop of the file. -/
def sharedRead : Graph (Node (Fin 256)) (Stream (Fin 256) (Fin 256)) :=
  ⟨[builtRead 1, builtGrade 2, builtCrop 3, builtMerge 4], [1, 2, 3, 4],
    ⟨[some 1, some 2, some 3, some 4], [], [⟨2, 3, 1⟩, ⟨1, 3, 0⟩, ⟨0, 2, 0⟩, ⟨0, 1, 0⟩]⟩, .new,
    .dirty, .uninitialized⟩

/-- The same, added and connected in another order and with other identifiers. -/
def otherOrder : Graph (Node (Fin 256)) (Stream (Fin 256) (Fin 256)) :=
  ⟨[builtMerge 14, builtRead 11, builtCrop 13, builtGrade 12], [14, 11, 13, 12],
    ⟨[some 14, some 11, some 13, some 12], [], [⟨1, 3, 0⟩, ⟨3, 0, 0⟩, ⟨1, 2, 0⟩, ⟨2, 0, 1⟩]⟩, .new,
    .dirty, .uninitialized⟩

/-- The same, with two nodes reading the file. -/
def readCopied : Graph (Node (Fin 256)) (Stream (Fin 256) (Fin 256)) :=
  ⟨[builtMerge 14, builtRead 11, builtCrop 13, builtGrade 12, builtRead 15],
    [14, 11, 13, 12, 15], ⟨[some 14, some 11, some 13, some 12, some 15], [],
    [⟨4, 3, 0⟩, ⟨3, 0, 0⟩, ⟨1, 2, 0⟩, ⟨2, 0, 1⟩]⟩, .new, .dirty, .uninitialized⟩

theorem sharedRead_reach : Reach (nodeSem .debug linearFiles) insSort false sharedRead := by
  have h0 : Reach (nodeSem .debug linearFiles) insSort false _ := .new .new
  have h1 := Reach.add (g' := ⟨[builtRead 1], [1], ⟨[some 1], [], []⟩, .new, .dirty, .uninitialized⟩) (builtRead 1) h0 rfl
  have h2 := Reach.add (g' := ⟨[builtRead 1, builtGrade 2], [1, 2], ⟨[some 1, some 2], [], []⟩, .new, .dirty, .uninitialized⟩) (builtGrade 2) h1 rfl
  have h3 := Reach.add (g' := ⟨[builtRead 1, builtGrade 2, builtCrop 3], [1, 2, 3], ⟨[some 1, some 2, some 3], [], []⟩, .new, .dirty, .uninitialized⟩) (builtCrop 3) h2 rfl
  have h4 := Reach.add (g' := ⟨[builtRead 1, builtGrade 2, builtCrop 3, builtMerge 4], [1, 2, 3, 4], ⟨[some 1, some 2, some 3, some 4], [], []⟩, .new, .dirty, .uninitialized⟩) (builtMerge 4) h3 rfl
  have h5 := Reach.connect (g' := ⟨[builtRead 1, builtGrade 2, builtCrop 3, builtMerge 4], [1, 2, 3, 4], ⟨[some 1, some 2, some 3, some 4], [], [⟨0, 1, 0⟩]⟩, .new, .dirty, .uninitialized⟩)
    1 2 0 h4 rfl
  have h6 := Reach.connect (g' := ⟨[builtRead 1, builtGrade 2, builtCrop 3, builtMerge 4], [1, 2, 3, 4], ⟨[some 1, some 2, some 3, some 4], [], [⟨0, 2, 0⟩, ⟨0, 1, 0⟩]⟩, .new, .dirty, .uninitialized⟩)
    1 3 0 h5 rfl
  have h7 := Reach.connect (g' := ⟨[builtRead 1, builtGrade 2, builtCrop 3, builtMerge 4], [1, 2, 3, 4], ⟨[some 1, some 2, some 3, some 4], [], [⟨1, 3, 0⟩, ⟨0, 2, 0⟩, ⟨0, 1, 0⟩]⟩, .new, .dirty, .uninitialized⟩)
    2 4 0 h6 rfl
  have h8 := Reach.connect (g' := ⟨[builtRead 1, builtGrade 2, builtCrop 3, builtMerge 4], [1, 2, 3, 4], ⟨[some 1, some 2, some 3, some 4], [], [⟨2, 3, 1⟩, ⟨1, 3, 0⟩, ⟨0, 2, 0⟩, ⟨0, 1, 0⟩]⟩, .new, .dirty, .uninitialized⟩)
    3 4 1 h7 rfl
  exact h8

theorem otherOrder_reach : Reach (nodeSem .debug linearFiles) insSort false otherOrder := by
  have h0 : Reach (nodeSem .debug linearFiles) insSort false _ := .new .new
  have h1 := Reach.add (g' := ⟨[builtMerge 14], [14], ⟨[some 14], [], []⟩, .new, .dirty, .uninitialized⟩) (builtMerge 14) h0 rfl
  have h2 := Reach.add (g' := ⟨[builtMerge 14, builtRead 11], [14, 11], ⟨[some 14, some 11], [], []⟩, .new, .dirty, .uninitialized⟩) (builtRead 11) h1 rfl
  have h3 := Reach.add (g' := ⟨[builtMerge 14, builtRead 11, builtCrop 13], [14, 11, 13], ⟨[some 14, some 11, some 13], [], []⟩, .new, .dirty, .uninitialized⟩) (builtCrop 13) h2 rfl
  have h4 := Reach.add (g' := ⟨[builtMerge 14, builtRead 11, builtCrop 13, builtGrade 12], [14, 11, 13, 12], ⟨[some 14, some 11, some 13, some 12], [], []⟩, .new, .dirty, .uninitialized⟩) (builtGrade 12) h3 rfl
  have h5 := Reach.connect (g' := ⟨[builtMerge 14, builtRead 11, builtCrop 13, builtGrade 12], [14, 11, 13, 12], ⟨[some 14, some 11, some 13, some 12], [], [⟨2, 0, 1⟩]⟩, .new, .dirty, .uninitialized⟩)
    13 14 1 h4 rfl
  have h6 := Reach.connect (g' := ⟨[builtMerge 14, builtRead 11, builtCrop 13, builtGrade 12], [14, 11, 13, 12], ⟨[some 14, some 11, some 13, some 12], [], [⟨1, 2, 0⟩, ⟨2, 0, 1⟩]⟩, .new, .dirty, .uninitialized⟩)
    11 13 0 h5 rfl
  have h7 := Reach.connect (g' := ⟨[builtMerge 14, builtRead 11, builtCrop 13, builtGrade 12], [14, 11, 13, 12], ⟨[some 14, some 11, some 13, some 12], [], [⟨3, 0, 0⟩, ⟨1, 2, 0⟩, ⟨2, 0, 1⟩]⟩, .new, .dirty, .uninitialized⟩)
    12 14 0 h6 rfl
  have h8 := Reach.connect (g' := ⟨[builtMerge 14, builtRead 11, builtCrop 13, builtGrade 12], [14, 11, 13, 12], ⟨[some 14, some 11, some 13, some 12], [], [⟨1, 3, 0⟩, ⟨3, 0, 0⟩, ⟨1, 2, 0⟩, ⟨2, 0, 1⟩]⟩, .new, .dirty, .uninitialized⟩)
    11 12 0 h7 rfl
  exact h8

theorem readCopied_reach : Reach (nodeSem .debug linearFiles) insSort false readCopied := by
  have h0 : Reach (nodeSem .debug linearFiles) insSort false _ := .new .new
  have h1 := Reach.add (g' := ⟨[builtMerge 14], [14], ⟨[some 14], [], []⟩, .new, .dirty, .uninitialized⟩) (builtMerge 14) h0 rfl
  have h2 := Reach.add (g' := ⟨[builtMerge 14, builtRead 11], [14, 11], ⟨[some 14, some 11], [], []⟩, .new, .dirty, .uninitialized⟩) (builtRead 11) h1 rfl
  have h3 := Reach.add (g' := ⟨[builtMerge 14, builtRead 11, builtCrop 13], [14, 11, 13], ⟨[some 14, some 11, some 13], [], []⟩, .new, .dirty, .uninitialized⟩) (builtCrop 13) h2 rfl
  have h4 := Reach.add (g' := ⟨[builtMerge 14, builtRead 11, builtCrop 13, builtGrade 12], [14, 11, 13, 12], ⟨[some 14, some 11, some 13, some 12], [], []⟩, .new, .dirty, .uninitialized⟩) (builtGrade 12) h3 rfl
  have h5 := Reach.add (g' := ⟨[builtMerge 14, builtRead 11, builtCrop 13, builtGrade 12, builtRead 15], [14, 11, 13, 12, 15], ⟨[some 14, some 11, some 13, some 12, some 15], [], []⟩, .new, .dirty, .uninitialized⟩) (builtRead 15) h4 rfl
  have h6 := Reach.connect (g' := ⟨[builtMerge 14, builtRead 11, builtCrop 13, builtGrade 12, builtRead 15], [14, 11, 13, 12, 15], ⟨[some 14, some 11, some 13, some 12, some 15], [], [⟨2, 0, 1⟩]⟩, .new, .dirty, .uninitialized⟩)
    13 14 1 h5 rfl
  have h7 := Reach.connect (g' := ⟨[builtMerge 14, builtRead 11, builtCrop 13, builtGrade 12, builtRead 15], [14, 11, 13, 12, 15], ⟨[some 14, some 11, some 13, some 12, some 15], [], [⟨1, 2, 0⟩, ⟨2, 0, 1⟩]⟩, .new, .dirty, .uninitialized⟩)
    11 13 0 h6 rfl
  have h8 := Reach.connect (g' := ⟨[builtMerge 14, builtRead 11, builtCrop 13, builtGrade 12, builtRead 15], [14, 11, 13, 12, 15], ⟨[some 14, some 11, some 13, some 12, some 15], [], [⟨3, 0, 0⟩, ⟨1, 2, 0⟩, ⟨2, 0, 1⟩]⟩, .new, .dirty, .uninitialized⟩)
    12 14 0 h7 rfl
  have h9 := Reach.connect (g' := ⟨[builtMerge 14, builtRead 11, builtCrop 13, builtGrade 12, builtRead 15], [14, 11, 13, 12, 15], ⟨[some 14, some 11, some 13, some 12, some 15], [], [⟨4, 3, 0⟩, ⟨3, 0, 0⟩, ⟨1, 2, 0⟩, ⟨2, 0, 1⟩]⟩, .new, .dirty, .uninitialized⟩)
    15 12 0 h8 rfl
  exact h9

theorem sharedRead_slots : UniqueSlots sharedRead := by
  intro a a' b s h1 h2
  simp only [Conn, sharedRead, List.mem_cons, Edge.mk.injEq, List.not_mem_nil, or_false] at h1 h2
  omega

theorem otherOrder_slots : UniqueSlots otherOrder := by
  intro a a' b s h1 h2
  simp only [Conn, otherOrder, List.mem_cons, Edge.mk.injEq, List.not_mem_nil, or_false] at h1 h2
  omega

theorem readCopied_slots : UniqueSlots readCopied := by
  intro a a' b s h1 h2
  simp only [Conn, readCopied, List.mem_cons, Edge.mk.injEq, List.not_mem_nil, or_false] at h1 h2
  omega

/-- Which nodes are the same. -/
def samePlaces (i j : Nat) : Prop := (i, j) ∈ [(0, 1), (1, 3), (2, 2), (3, 0)]

/-- Which nodes are the same, where one is copied. -/
def copiedPlaces (i j : Nat) : Prop := (i, j) ∈ [(0, 1), (0, 4), (1, 3), (2, 2), (3, 0)]

theorem samePlaces_start : samePlaces 3 0 := by unfold samePlaces; decide

theorem copiedPlaces_start : copiedPlaces 3 0 := by unfold copiedPlaces; decide

theorem otherOrder_shape : SameShape SameSettings samePlaces sharedRead otherOrder := by
  refine ⟨?_, ?_, ?_⟩
  · intro i j h
    simp only [samePlaces, List.mem_cons, Prod.mk.injEq, List.not_mem_nil, or_false] at h
    rcases h with ⟨rfl, rfl⟩ | ⟨rfl, rfl⟩ | ⟨rfl, rfl⟩ | ⟨rfl, rfl⟩ <;> exact ⟨_, _, rfl, rfl, rfl⟩
  · intro i j a s h hc _
    simp only [samePlaces, Conn, sharedRead, otherOrder, List.mem_cons, Prod.mk.injEq,
      Edge.mk.injEq, List.not_mem_nil, or_false] at h hc ⊢
    rcases hc with ⟨rfl, rfl, rfl⟩ | ⟨rfl, rfl, rfl⟩ | ⟨rfl, rfl, rfl⟩ | ⟨rfl, rfl, rfl⟩
    · exact ⟨2, by omega⟩
    · exact ⟨3, by omega⟩
    · exact ⟨1, by omega⟩
    · exact ⟨1, by omega⟩
  · intro i j b s h hc _
    simp only [samePlaces, Conn, sharedRead, otherOrder, List.mem_cons, Prod.mk.injEq,
      Edge.mk.injEq, List.not_mem_nil, or_false] at h hc ⊢
    rcases hc with ⟨rfl, rfl, rfl⟩ | ⟨rfl, rfl, rfl⟩ | ⟨rfl, rfl, rfl⟩ | ⟨rfl, rfl, rfl⟩
    · exact ⟨0, by omega⟩
    · exact ⟨1, by omega⟩
    · exact ⟨0, by omega⟩
    · exact ⟨2, by omega⟩

theorem readCopied_shape : SameShape SameSettings copiedPlaces sharedRead readCopied := by
  refine ⟨?_, ?_, ?_⟩
  · intro i j h
    simp only [copiedPlaces, List.mem_cons, Prod.mk.injEq, List.not_mem_nil, or_false] at h
    rcases h with ⟨rfl, rfl⟩ | ⟨rfl, rfl⟩ | ⟨rfl, rfl⟩ | ⟨rfl, rfl⟩ | ⟨rfl, rfl⟩ <;>
      exact ⟨_, _, rfl, rfl, rfl⟩
  · intro i j a s h hc _
    simp only [copiedPlaces, Conn, sharedRead, readCopied, List.mem_cons, Prod.mk.injEq,
      Edge.mk.injEq, List.not_mem_nil, or_false] at h hc ⊢
    rcases hc with ⟨rfl, rfl, rfl⟩ | ⟨rfl, rfl, rfl⟩ | ⟨rfl, rfl, rfl⟩ | ⟨rfl, rfl, rfl⟩
    · exact ⟨2, by omega⟩
    · exact ⟨3, by omega⟩
    · exact ⟨1, by omega⟩
    · exact ⟨4, by omega⟩
  · intro i j b s h hc _
    simp only [copiedPlaces, Conn, sharedRead, readCopied, List.mem_cons, Prod.mk.injEq,
      Edge.mk.injEq, List.not_mem_nil, or_false] at h hc ⊢
    rcases hc with ⟨rfl, rfl, rfl⟩ | ⟨rfl, rfl, rfl⟩ | ⟨rfl, rfl, rfl⟩ | ⟨rfl, rfl, rfl⟩
    · exact ⟨0, by omega⟩
    · exact ⟨1, by omega⟩
    · exact ⟨0, by omega⟩
    · exact ⟨2, by omega⟩

theorem sharedRead_upstream {i : Nat} (h : Upstream sharedRead.graph 3 i) : i < 4 := by
  induction h with
  | refl => decide
  | step _ hf _ =>
    obtain ⟨e, he, rfl, -⟩ := hf
    simp only [sharedRead, List.mem_cons, List.not_mem_nil, or_false] at he
    rcases he with rfl | rfl | rfl | rfl <;> decide

theorem sharedRead_pictures (frame : Fin 256) : MakesPictures linearFiles sharedRead 3 frame := by
  refine ⟨?_, ?_, ?_⟩
  · intro i n hu hn
    have := sharedRead_upstream hu
    obtain rfl | rfl | rfl | rfl : i = 0 ∨ i = 1 ∨ i = 2 ∨ i = 3 := by omega
    all_goals cases hn; intro h; cases h
  · intro i n hu hn
    have hfeed : ∀ a, Feeds sharedRead.graph a i →
        (a = 2 ∧ i = 3) ∨ (a = 1 ∧ i = 3) ∨ (a = 0 ∧ i = 2) ∨ (a = 0 ∧ i = 1) := by
      rintro a ⟨e, he, rfl, rfl⟩
      simp only [sharedRead, List.mem_cons, List.not_mem_nil, or_false] at he
      rcases he with rfl | rfl | rfl | rfl <;> simp
    refine ⟨fun ht a b ha hb => ?_, fun a b c ha hb hc => ?_⟩
    · have h1 := hfeed a ha
      have h2 := hfeed b hb
      by_cases hi : i = 3
      · subst hi; cases hn; exact absurd rfl ht
      · omega
    · have h1 := hfeed a ha
      have h2 := hfeed b hb
      have h3 := hfeed c hc
      omega
  · intro i n hu hn
    have := sharedRead_upstream hu
    obtain rfl | rfl | rfl | rfl : i = 0 ∨ i = 1 ∨ i = 2 ∨ i = 3 := by omega
    all_goals cases hn
    · refine ⟨nofun, ?_⟩
      intro a ha _
      cases ha
      intro h; cases h
    all_goals exact ⟨nofun, fun a ha => by cases ha⟩

theorem sharedRead_files (frame : Fin 256) : ShowsFiles linearFiles sharedRead 3 frame :=
  ⟨(sharedRead_pictures frame).leaves, (sharedRead_pictures frame).inputs,
    fun i n hu hn _ => (sharedRead_pictures frame).own i n hu hn⟩

theorem samePlaces_one : OneToOne samePlaces := by
  intro i j k l h h'
  simp only [samePlaces, List.mem_cons, Prod.mk.injEq, List.not_mem_nil, or_false] at h h'
  omega

/-- Both orders of building give the double of the white pixel. -/
example : ∃ g1 w1, Graph.execute (nodeSem .debug linearFiles) insSort 20 sharedRead 4 [1] noCache =
      .ok (.success, g1, w1) ∧ numbersOf g1.output.pixelBlock = [2, 1, 1] ∧
    ∃ g2, Graph.execute (nodeSem .debug linearFiles) insSort 20 otherOrder 14 [1] noCache =
      .ok (.success, g2, w1) ∧ g2.output = g1.output := by
  obtain ⟨g1, w1, e, hn⟩ : ∃ g1 w1, Graph.execute (nodeSem .debug linearFiles) insSort 20 sharedRead
      4 [1] noCache = .ok (.success, g1, w1) ∧ numbersOf g1.output.pixelBlock = [2, 1, 1] :=
    ⟨_, _, rfl, by decide +kernel⟩
  refine ⟨g1, w1, e, hn, ?_⟩
  have := C118_rebuilt .debug linearFiles insSort insSort sharedRead_reach otherOrder_reach
    sharedRead_slots otherOrder_slots otherOrder_shape samePlaces_one (id := 4) (id' := 14)
    (start := 3) (start' := 0) ⟨rfl, by decide⟩ rfl ⟨rfl, by decide⟩ rfl samePlaces_start rfl 20 [1]
    noCache
  rw [e] at this
  cases e2 : Graph.execute (nodeSem .debug linearFiles) insSort 20 otherOrder 14 [1] noCache with
  | error x => rw [e2] at this; cases this
  | ok x =>
    obtain ⟨st, g2, w2⟩ := x
    rw [e2] at this
    simp only [Except.map, Except.ok.injEq, Prod.mk.injEq] at this
    obtain ⟨rfl, h2, rfl⟩ := this
    exact ⟨g2, rfl, h2.symm⟩

/-- So it is when another picture was left in one of the graphs. -/
example (x : Stream (Fin 256) (Fin 256)) (srt : EdgeSort)
    (h : Reach (nodeSem .debug linearFiles) srt false { otherOrder with output := x }) :
    (Graph.execute (nodeSem .debug linearFiles) insSort 20 sharedRead 4 [1] noCache).map
        (fun r => (r.1, r.2.1.output, r.2.2)) =
      (Graph.execute (nodeSem .debug linearFiles) srt 20 { otherOrder with output := x } 14 [1]
        noCache).map (fun r => (r.1, r.2.1.output, r.2.2)) :=
  C118_rebuilt_shown .debug linearFiles insSort srt sharedRead_reach h
    sharedRead_slots otherOrder_slots
    ⟨otherOrder_shape.nodes, otherOrder_shape.inputs, otherOrder_shape.back⟩ samePlaces_one
    (start := 3) (start' := 0) ⟨rfl, by decide⟩ rfl ⟨rfl, fun j hj => by omega⟩ rfl samePlaces_start
    (sharedRead_files 1) 20 [] noCache

/-- Two nodes that read the file give what one gives. -/
example : ∃ g1 w1 g2 w2,
    Graph.execute (nodeSem .debug linearFiles) insSort 20 sharedRead 4 [1, 2] noCache =
      .ok (.success, g1, w1) ∧ numbersOf g1.output.pixelBlock = [2, 1, 1] ∧
    Graph.execute (nodeSem .debug linearFiles) insSort 20 readCopied 14 [1, 2] noCache =
      .ok (.success, g2, w2) ∧ g2.output = g1.output := by
  obtain ⟨g1, w1, e, hn⟩ : ∃ g1 w1, Graph.execute (nodeSem .debug linearFiles) insSort 20 sharedRead
      4 [1, 2] noCache = .ok (.success, g1, w1) ∧ numbersOf g1.output.pixelBlock = [2, 1, 1] :=
    ⟨_, _, rfl, by decide +kernel⟩
  obtain ⟨st, g2, w2, e2⟩ : ∃ st g2 w2, Graph.execute (nodeSem .debug linearFiles) insSort 20
      readCopied 14 [1, 2] noCache = .ok (st, g2, w2) := ⟨_, _, _, rfl⟩
  obtain ⟨rfl, h⟩ := C118_copied .debug linearFiles insSort insSort sharedRead_reach
    readCopied_reach sharedRead_slots readCopied_slots readCopied_shape (start := 3) (start' := 0)
    ⟨rfl, by decide⟩ rfl ⟨rfl, by decide⟩ rfl copiedPlaces_start (by simp)
    (fun fr _ => sharedRead_pictures fr) ⟨rfl, rfl⟩ ⟨rfl, rfl⟩ e e2
  exact ⟨g1, w1, g2, w2, e, hn, e2, h⟩

example {w w' w1 w2 g1 g2 st} (e : Graph.execute (nodeSem .debug linearFiles) insSort 20 sharedRead
      4 [1, 2] w = .ok (.success, g1, w1))
    (e' : Graph.execute (nodeSem .debug linearFiles) insSort 20 readCopied 14 [1, 2] w' =
      .ok (st, g2, w2)) : st = .success ∧ g2.output = g1.output :=
  C118_copied_uncached .debug linearFiles insSort insSort sharedRead_reach readCopied_reach
    sharedRead_slots readCopied_slots readCopied_shape (start := 3) (start' := 0)
    ⟨rfl, by decide⟩ rfl ⟨rfl, by decide⟩ rfl copiedPlaces_start (by simp)
    (fun fr _ => sharedRead_pictures fr) (by decide) (by decide) e e'

/-- Cropping a file, where the crop was added first and the identifiers are others. -/
def cropFirst : Graph (Node (Fin 256)) (Stream (Fin 256) (Fin 256)) :=
  ⟨[⟨12, .uninitialized, .cropImage pixelCrop⟩, ⟨11, .uninitialized, .readImage readAttrs⟩],
    [12, 11], ⟨[some 12, some 11], [], [⟨1, 0, 0⟩]⟩, .new, .dirty, .uninitialized⟩

theorem cropFirst_reach : Reach (nodeSem .debug twoFiles) insSort false cropFirst := by
  have h0 : Reach (nodeSem .debug twoFiles) insSort false _ := .new .new
  have h1 := Reach.add (g' := ⟨[⟨12, .uninitialized, .cropImage pixelCrop⟩], [12],
    ⟨[some 12], [], []⟩, .new, .dirty, .uninitialized⟩) _ h0 rfl
  have h2 := Reach.add (g' := ⟨[⟨12, .uninitialized, .cropImage pixelCrop⟩,
    ⟨11, .uninitialized, .readImage readAttrs⟩], [12, 11],
    ⟨[some 12, some 11], [], []⟩, .new, .dirty, .uninitialized⟩) _ h1 rfl
  exact Reach.connect (g' := cropFirst) 11 12 0 h2 rfl

theorem readCrop_pictures : MakesPictures twoFiles readCrop 1 1 := by
  have hup : ∀ i, Upstream readCrop.graph 1 i → i < 2 := by
    intro i h
    induction h with
    | refl => decide
    | step _ hf _ =>
      obtain ⟨e, he, rfl, -⟩ := hf
      simp only [readCrop, List.mem_cons, List.not_mem_nil, or_false] at he
      subst he
      decide
  have hfeed : ∀ a i, Feeds readCrop.graph a i → a = 0 := by
    rintro a i ⟨e, he, rfl, rfl⟩
    simp only [readCrop, List.mem_cons, List.not_mem_nil, or_false] at he
    subst he
    rfl
  refine ⟨?_, ?_, ?_⟩
  · intro i n hu hn
    have := hup i hu
    obtain rfl | rfl : i = 0 ∨ i = 1 := by omega
    all_goals cases hn; intro h; cases h
  · intro i n hu hn
    refine ⟨fun _ a b ha hb => ?_, fun a b c ha hb hc => ?_⟩
    · rw [hfeed a i ha, hfeed b i hb]
    · exact .inl (by rw [hfeed a i ha, hfeed b i hb])
  · intro i n hu hn
    have := hup i hu
    obtain rfl | rfl : i = 0 ∨ i = 1 := by omega
    all_goals cases hn
    · refine ⟨nofun, ?_⟩
      intro a ha _
      cases ha
      intro h; cases h
    · exact ⟨nofun, fun a ha => by cases ha⟩

/-- With the cache that the one graph has filled, the other finds everything in the cache and gives
the same. -/
example : ∃ w g1 log g2 w2 log',
    readCrop.execute (logged .debug twoFiles) insSort 20 2 [1] (blankWorld, []) =
      .ok (.success, g1, (w, log)) ∧
    cropFirst.execute (logged .debug twoFiles) insSort 20 12 [1] (w, []) =
      .ok (.success, g2, (w2, log')) ∧ w2.cache.hits = 2 ∧
    g2.output = g1.output := by
  obtain ⟨g1, w1, log1, -, -, -, e1, l1, -⟩ := readCrop_twice
  have hist : History .debug twoFiles insSort ReadCrop w1 :=
    .execute _ _ _ _ _ _ _ _ _ (.start 1000 []) .new e1 l1
  obtain ⟨w, w', g, st, lg, hw, e2, l2, hits⟩ : ∃ w w' g st lg,
      (∃ a b, readCrop.execute (logged .debug twoFiles) insSort 20 2 [1] (blankWorld, []) =
        .ok (.success, a, (w, b))) ∧
      cropFirst.execute (logged .debug twoFiles) insSort 20 12 [1] (w, []) =
      .ok (st, g, (w', lg)) ∧ (∀ c ∈ lg, ReadCrop c) ∧ w'.cache.hits = 2 := by
    refine ⟨_, _, _, _, _, ⟨_, _, rfl⟩, rfl, ?_, ?_⟩
    · show ∀ c ∈ [_, _], ReadCrop c
      refine List.forall_mem_cons.mpr ⟨?_, List.forall_mem_cons.mpr ⟨?_, by simp⟩⟩
      · exact ⟨rfl, .inl ⟨rfl, rfl⟩⟩
      · exact ⟨rfl, .inr ⟨rfl, _, rfl, ⟨rfl, rfl⟩, rfl, rfl⟩⟩
    · decide +kernel
  obtain ⟨a, b, hw⟩ := hw
  rw [e1] at hw
  simp only [Except.ok.injEq, Prod.mk.injEq, true_and] at hw
  obtain ⟨rfl, rfl, rfl⟩ := hw
  have u1 : UniqueSlots readCrop := by
    intro a a' b s h1 h2
    simp only [Conn, readCrop, List.mem_cons, Edge.mk.injEq, List.not_mem_nil, or_false] at h1 h2
    omega
  have u2 : UniqueSlots cropFirst := by
    intro a a' b s h1 h2
    simp only [Conn, cropFirst, List.mem_cons, Edge.mk.injEq, List.not_mem_nil, or_false] at h1 h2
    omega
  have hsh : SameShape SameSettings (fun i j => (i = 0 ∧ j = 1) ∨ (i = 1 ∧ j = 0)) readCrop
      cropFirst := by
    refine ⟨?_, ?_, ?_⟩
    · rintro i j (⟨rfl, rfl⟩ | ⟨rfl, rfl⟩) <;> exact ⟨_, _, rfl, rfl, rfl⟩
    · intro i j a s h hc _
      simp only [Conn, readCrop, cropFirst, List.mem_cons, Edge.mk.injEq, List.not_mem_nil,
        or_false] at h hc ⊢
      exact ⟨1, by omega⟩
    · intro i j b s h hc _
      simp only [Conn, readCrop, cropFirst, List.mem_cons, Edge.mk.injEq, List.not_mem_nil,
        or_false] at h hc ⊢
      exact ⟨0, by omega⟩
  obtain ⟨rfl, h⟩ := C118_copied_cached .debug twoFiles insSort insSort readCrop_regular
    readCrop_reach cropFirst_reach u1 u2 hsh
    (start := 1) (start' := 0) ⟨rfl, by decide⟩ rfl ⟨rfl, by decide⟩ rfl (.inr ⟨rfl, rfl⟩)
    (by simp) (fun fr hfr => by rw [List.mem_singleton.mp hfr]; exact readCrop_pictures) .new .new
    (.start 1000 []) hist e1 e2 l1 l2
  exact ⟨_, _, _, g, w', lg, e1, e2, hits, h⟩

end

end OCG.Props
