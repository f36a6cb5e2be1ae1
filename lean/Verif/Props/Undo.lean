import Verif.Spec.Undo
import Verif.Proofs.AttrBack
import Verif.Props.Attrs
import Verif.Props.Built
/-
Property C135: edits that are taken back leave no trace.
-/

namespace OCG.Props

open AgainSpec BuiltSpec GraphSpec UndoSpec

section
variable {N S : Type}

/-- The connections into a node, the newest first. -/
def into (g : Graph N S) (b : Nat) : List Edge := g.graph.edges.filter fun e => e.dst == b

theorem mem_into {g : Graph N S} {b : Nat} {e : Edge} :
    e ∈ into g b ↔ e ∈ g.graph.edges ∧ e.dst = b := by
  unfold into
  rw [List.mem_filter, beq_iff_eq]

theorem conn_into {g : Graph N S} {a b s : Nat} : Conn g a b s ↔ ⟨a, b, s⟩ ∈ into g b := by
  rw [mem_into]
  exact ⟨fun h => ⟨h, rfl⟩, fun h => h.1⟩

theorem into_conn {g : Graph N S} {b s : Nat} {e : Edge} (h : e ∈ into g b) (hw : e.weight = s) :
    Conn g e.src b s := by
  obtain ⟨h1, h2⟩ := mem_into.mp h
  subst h2 hw
  exact h1

theorem incoming_into {g : Graph N S} {r : Bool} (h : Inv g r) (b : Nat) :
    g.graph.incoming b = into g b := by
  unfold SGraph.incoming into
  split
  · rfl
  · rename_i hb
    symm
    rw [List.filter_eq_nil_iff]
    intro e he hd
    rw [beq_iff_eq] at hd
    exact hb (by rw [← hd]; exact (h.ends e he).2)

theorem edges_nodup {g : Graph N S} {r : Bool} (h : Inv g r) : g.graph.edges.Nodup :=
  (pairs_iff.mp h.pairs).of_map _

theorem into_nodup {g : Graph N S} {r : Bool} (h : Inv g r) (b : Nat) : (into g b).Nodup :=
  (edges_nodup h).filter _

/-- A node is the source of one connection into a node at most. -/
theorem into_src {g : Graph N S} {r : Bool} (h : Inv g r) (b : Nat) :
    ((into g b).map (·.src)).Nodup := by
  have hp := h.pairs.filter (fun e => e.dst == b)
  rw [List.Nodup, List.pairwise_map]
  refine hp.imp_of_mem ?_
  intro x y hx hy hxy hs
  have h1 := (List.mem_filter.mp hx).2
  have h2 := (List.mem_filter.mp hy).2
  simp only [beq_iff_eq] at h1 h2
  exact hxy ⟨hs, h1.trans h2.symm⟩

theorem sublist_filter {α : Type} [DecidableEq α] : ∀ {l' l : List α}, l'.Sublist l → l.Nodup →
    l' = l.filter (· ∈ l') := by
  intro l' l h
  induction h with
  | slnil => intro _; rfl
  | @cons l1 l2 a h ih =>
    intro hn
    rw [List.nodup_cons] at hn
    rw [List.filter_cons_of_neg (by simpa using fun hx => hn.1 (h.subset hx))]
    exact ih hn.2
  | @cons_cons l1 l2 a h ih =>
    intro hn
    rw [List.nodup_cons] at hn
    rw [List.filter_cons_of_pos (by simp)]
    congr 1
    refine (ih hn.2).trans (List.filter_congr fun x hx => ?_)
    have : x ≠ a := fun e => hn.1 (e ▸ hx)
    simp [this]

theorem filter_drop {α : Type} [DecidableEq α] (p : α → Bool) {l : List α} (h : l.Nodup) :
    l.filter (· ∉ l.takeWhile p) = l.dropWhile p := by
  have e : l.takeWhile p ++ l.dropWhile p = l := List.takeWhile_append_dropWhile
  rw [← e] at h
  have hd := (List.nodup_append.mp h).2.2
  have e2 : l.filter (· ∉ l.takeWhile p) =
      (l.takeWhile p ++ l.dropWhile p).filter (· ∉ l.takeWhile p) := by rw [e]
  rw [e2, List.filter_append, List.filter_eq_nil_iff.mpr (by intro x hx; simpa using hx), List.nil_append,
    List.filter_eq_self]
  intro x hx
  simpa using fun hy => hd x hy x hx rfl

/-- What disconnecting does to the connections into the nodes. -/
theorem disconnect_into {g : Graph N S} {r : Bool} (h : Inv g r) {dst b : Nat} (hb : At g dst b)
    (slot y : Nat) : into (g.disconnectInput dst slot) y =
      if y = b then (into g b).dropWhile (fun e => e.weight == slot) else into g y := by
  have hsub := sublist_filter (disconnect_shrunk g dst slot).edges (edges_nodup h)
  have hm := disconnect_mem h hb slot
  rw [incoming_into h] at hm
  have e : (g.disconnectInput dst slot).graph.edges = g.graph.edges.filter
      (· ∉ (into g b).takeWhile fun e => e.weight == slot) := by
    rw [hsub]
    refine List.filter_congr fun x hx => ?_
    rw [decide_eq_decide, hm x]
    exact ⟨fun k => k.2, fun k => ⟨hx, k⟩⟩
  have hin : into (g.disconnectInput dst slot) y = (into g y).filter
      (· ∉ (into g b).takeWhile fun e => e.weight == slot) := by
    conv_lhs => unfold into
    rw [e, List.filter_filter]
    unfold into
    rw [List.filter_filter]
    refine List.filter_congr fun x _ => Bool.and_comm _ _
  rw [hin]
  split
  · rename_i hy
    subst hy
    exact filter_drop _ (into_nodup h y)
  · rename_i hy
    rw [List.filter_eq_self]
    intro x hx
    simp only [decide_not, Bool.not_eq_eq_eq_not, Bool.not_true, decide_eq_false_iff_not]
    intro hx'
    have h1 := (mem_into.mp hx).2
    have h2 := (mem_into.mp ((List.takeWhile_prefix _).subset hx')).2
    exact hy (h1.symm.trans h2)

/-- The connections into a node after connecting `a` to a slot of it. -/
def connList (a b slot : Nat) (l : List Edge) : List Edge :=
  let d := l.dropWhile fun e => e.weight == slot
  if d.any fun e => e.src == a then SGraph.setWeight a b slot d else ⟨a, b, slot⟩ :: d

theorem setWeight_filter (a b w : Nat) (l : List Edge) (y : Nat) :
    (SGraph.setWeight a b w l).filter (fun e => e.dst == y) =
      if y = b then SGraph.setWeight a b w (l.filter fun e => e.dst == y)
      else l.filter fun e => e.dst == y := by
  induction l with
  | nil => simp [SGraph.setWeight]
  | cons e l ih =>
    simp only [SGraph.setWeight]
    split
    · rename_i h
      simp only [Bool.and_eq_true, beq_iff_eq] at h
      obtain ⟨h1, h2⟩ := h
      by_cases hy : y = b
      · subst hy
        rw [if_pos rfl, List.filter_cons_of_pos (by simpa using h2),
          List.filter_cons_of_pos (by simpa using h2), SGraph.setWeight, if_pos (by simp [h1, h2])]
      · rw [if_neg hy]
        have : e.dst ≠ y := fun k => hy (k.symm.trans h2)
        rw [List.filter_cons_of_neg (by simpa using this), List.filter_cons_of_neg (by simpa using this)]
    · rename_i h
      by_cases hd : e.dst = y
      · rw [List.filter_cons_of_pos (by simpa using hd), ih, List.filter_cons_of_pos (by simpa using hd)]
        split
        · rw [SGraph.setWeight, if_neg h]
        · rfl
      · rw [List.filter_cons_of_neg (by simpa using hd), ih, List.filter_cons_of_neg (by simpa using hd)]

/-- What connecting does. -/
theorem connect_into {g g' : Graph N S} {r : Bool} (h : Inv g r) {src dst a b slot : Nat}
    (ha : At g src a) (hb : At g dst b) (hc : g.connect src dst slot = .ok g') :
    (∀ y, into g' y = if y = b then connList a b slot (into g b) else into g y) ∧
    g'.ids = g.ids ∧ g'.nodes = g.nodes ∧ ∀ i, g'.graph.contains i = g.graph.contains i := by
  rcases connect_cases hc with ⟨hno, _⟩ | ⟨a', b', sg, h1, h2, e, rfl⟩
  · rw [find_at.mpr ha, find_at.mpr hb] at hno
    rcases hno with hno | hno <;> cases hno
  · have ea := (find_at.mp h1).unique ha
    have eb := (find_at.mp h2).unique hb
    subst ea eb
    have hi := h.disconnect dst slot
    obtain ⟨s1, -, -, -, -, -⟩ := updateEdge_spec hi.pairs hi.ends e
    refine ⟨fun y => ?_, (disconnect_same g dst slot).1, (disconnect_same g dst slot).2.1,
      fun i => ?_⟩
    · have hd := disconnect_into h hb slot
      have hany : (g.disconnectInput dst slot).graph.hasEdge a' b' =
          ((into g b').dropWhile fun e => e.weight == slot).any fun e => e.src == a' := by
        rw [Bool.eq_iff_iff, hasEdge_iff hi.ends, List.any_eq_true]
        have := hd b'
        rw [if_pos rfl] at this
        rw [← this]
        constructor
        · rintro ⟨x, k1, k2, k3⟩; exact ⟨x, mem_into.mpr ⟨k1, k3⟩, by simpa using k2⟩
        · rintro ⟨x, k1, k2⟩
          exact ⟨x, (mem_into.mp k1).1, by simpa using k2, (mem_into.mp k1).2⟩
      unfold SGraph.updateEdge at e
      rw [hany] at e
      unfold connList
      dsimp only
      split at e
      · rename_i hk
        cases e
        rw [if_pos hk]
        show ((SGraph.setWeight a' b' slot _).filter _) = _
        rw [setWeight_filter]
        have := hd y
        unfold into at this
        rw [this]
        split
        · rfl
        · rfl
      · rename_i hk
        rw [if_neg hk]
        split at e
        · cases e
          show ((⟨a', b', slot⟩ :: _ : List Edge).filter _) = _
          have := hd y
          unfold into at this
          by_cases hy : y = b'
          · rw [if_pos hy] at this ⊢
            rw [List.filter_cons_of_pos (by simp [hy]), this]
            rfl
          · rw [if_neg hy] at this ⊢
            rw [List.filter_cons_of_neg (by simpa using fun k : b' = y => hy k.symm), this]
            rfl
        · cases e
    · have : sg.contains i = (g.disconnectInput dst slot).graph.contains i := by
        unfold SGraph.contains; rw [s1]
      exact this.trans ((disconnect_shrunk g dst slot).contains i)

/-! ### connections into one node -/

theorem drop_none {slot : Nat} {l : List Edge} (h : ∀ e ∈ l, e.weight ≠ slot) :
    (l.dropWhile fun e => e.weight == slot) = l := by
  cases l with
  | nil => rfl
  | cons e l => exact List.dropWhile_cons_of_neg (by simpa using h e List.mem_cons_self)

theorem setWeight_again {a b w w' : Nat} (l : List Edge) :
    SGraph.setWeight a b w' (SGraph.setWeight a b w l) = SGraph.setWeight a b w' l := by
  induction l with
  | nil => rfl
  | cons e l ih =>
    simp only [SGraph.setWeight]
    split
    · rename_i h; rw [SGraph.setWeight, if_pos h]
    · rename_i h; rw [SGraph.setWeight, if_neg h, ih]

theorem setWeight_self {a b w : Nat} {l : List Edge}
    (h : ∀ e ∈ l, e.src = a → e.dst = b → e.weight = w) : SGraph.setWeight a b w l = l := by
  induction l with
  | nil => rfl
  | cons e l ih =>
    simp only [SGraph.setWeight]
    split
    · rename_i hk
      simp only [Bool.and_eq_true, beq_iff_eq] at hk
      obtain ⟨s, d, x⟩ := e
      have := h ⟨s, d, x⟩ List.mem_cons_self hk.1 hk.2
      dsimp only at this ⊢
      rw [this]
    · rw [ih fun x hx => h x (List.mem_cons_of_mem _ hx)]

theorem connected_back {a b slot : Nat} {l : List Edge} (hempty : ∀ e ∈ l, e.weight ≠ slot)
    (hnot : ∀ e ∈ l, e.src ≠ a) :
    ((connList a b slot l).dropWhile fun e => e.weight == slot) = l := by
  unfold connList
  dsimp only
  rw [drop_none hempty, if_neg (by simpa using hnot), List.dropWhile_cons_of_pos (by simp),
    drop_none hempty]

/-- The connection from `a` is the only one in the slot, and the only one from `a`. -/
theorem connect_own {a b slot : Nat} {l : List Edge} (hl : (l.map (·.src)).Nodup)
    (hab : ⟨a, b, slot⟩ ∈ l) (hone : ∀ e ∈ l, e.weight = slot → e.src = a) :
    connList a b slot l = l ∧
    connList a b slot (l.dropWhile fun e => e.weight == slot) = l ∧
    ∀ a', (∀ e ∈ l, e.src ≠ a') → connList a b slot (connList a' b slot l) = l := by
  have huniq : ∀ e ∈ l, e.src = a → e = ⟨a, b, slot⟩ := fun e he hs =>
    List.inj_on_of_nodup_map hl he hab hs
  cases l with
  | nil => cases hab
  | cons x t =>
    by_cases hx : x = ⟨a, b, slot⟩
    · subst hx
      rw [List.map_cons, List.nodup_cons] at hl
      have ht : ∀ e ∈ t, e.weight ≠ slot := fun e he hw => hl.1
        (List.mem_map.mpr ⟨e, he, hone e (List.mem_cons_of_mem _ he) hw⟩)
      have hta : ∀ e ∈ t, e.src ≠ a := fun e he hs => hl.1 (List.mem_map.mpr ⟨e, he, hs⟩)
      have hdrop : ((⟨a, b, slot⟩ :: t : List Edge).dropWhile fun e => e.weight == slot) = t := by
        rw [List.dropWhile_cons_of_pos (by simp), drop_none ht]
      refine ⟨?_, ?_, fun a' ha' => ?_⟩
      · unfold connList
        dsimp only
        rw [hdrop, if_neg (by simpa using hta)]
      · rw [hdrop]
        unfold connList
        dsimp only
        rw [drop_none ht, if_neg (by simpa using hta)]
      · have e1 : connList a' b slot (⟨a, b, slot⟩ :: t) = ⟨a', b, slot⟩ :: t := by
          unfold connList
          dsimp only
          rw [hdrop, if_neg (by simpa using fun e he => ha' e (List.mem_cons_of_mem _ he))]
        rw [e1]
        unfold connList
        dsimp only
        rw [List.dropWhile_cons_of_pos (by simp), drop_none ht, if_neg (by simpa using hta)]
    · have hxw : x.weight ≠ slot := fun hw => hx (huniq x List.mem_cons_self
        (hone x List.mem_cons_self hw))
      have hdrop : ((x :: t).dropWhile fun e => e.weight == slot) = x :: t :=
        List.dropWhile_cons_of_neg (by simpa using hxw)
      have hself : SGraph.setWeight a b slot (x :: t) = x :: t :=
        setWeight_self fun e he hs _ => by rw [huniq e he hs]
      have hany : ((x :: t).any fun e => e.src == a) = true :=
        List.any_eq_true.mpr ⟨_, hab, by simp⟩
      have e0 : connList a b slot (x :: t) = x :: t := by
        unfold connList
        dsimp only
        rw [hdrop, if_pos hany, hself]
      refine ⟨e0, by rw [hdrop, e0], fun a' ha' => ?_⟩
      have e1 : connList a' b slot (x :: t) = ⟨a', b, slot⟩ :: x :: t := by
        unfold connList
        dsimp only
        rw [hdrop, if_neg (by simpa using ha')]
      rw [e1]
      unfold connList
      dsimp only
      rw [List.dropWhile_cons_of_pos (by simp), hdrop, if_pos hany, hself]

theorem mem_setWeight {a b w : Nat} {l : List Edge} {e : Edge} (h : e ∈ SGraph.setWeight a b w l) :
    e ∈ l ∨ (e = ⟨a, b, w⟩) := by
  induction l with
  | nil => cases h
  | cons x l ih =>
    simp only [SGraph.setWeight] at h
    split at h
    · rename_i hk
      simp only [Bool.and_eq_true, beq_iff_eq] at hk
      rcases List.mem_cons.mp h with rfl | h
      · right; rw [Edge.mk.injEq]; exact ⟨hk.1, hk.2, rfl⟩
      · exact .inl (List.mem_cons_of_mem _ h)
    · rcases List.mem_cons.mp h with rfl | h
      · exact .inl List.mem_cons_self
      · exact (ih h).imp (List.mem_cons_of_mem _) id

theorem moved_back {a b slot slot' : Nat} {l : List Edge} (hl : (l.map (·.src)).Nodup)
    (hd : ∀ e ∈ l, e.dst = b) (hab : ⟨a, b, slot⟩ ∈ l)
    (hone : ∀ e ∈ l, e.weight = slot → e.src = a) (hempty : ∀ e ∈ l, e.weight ≠ slot') :
    connList a b slot (connList a b slot' l) = l := by
  have huniq : ∀ e ∈ l, e.src = a → e = ⟨a, b, slot⟩ := fun e he hs =>
    List.inj_on_of_nodup_map hl he hab hs
  have hss : slot' ≠ slot := fun h => hempty _ hab h.symm
  have hany : (l.any fun e => e.src == a) = true := List.any_eq_true.mpr ⟨_, hab, by simp⟩
  have e1 : connList a b slot' l = SGraph.setWeight a b slot' l := by
    unfold connList
    dsimp only
    rw [drop_none hempty, if_pos hany]
  have hsrc : (SGraph.setWeight a b slot' l).map (·.src) = l.map (·.src) := by
    have := congrArg (List.map Prod.fst) (setWeight_pairs (a := a) (b := b) (w := slot') (es := l))
    rw [List.map_map, List.map_map] at this
    exact this
  have hno : ∀ e ∈ SGraph.setWeight a b slot' l, e.weight ≠ slot := by
    intro e he hw
    rcases mem_setWeight he with k | rfl
    · -- the old connection is gone
      have k2 := huniq e k (hone e k hw)
      subst k2
      have hnd : ((SGraph.setWeight a b slot' l).map (·.src)).Nodup := by rw [hsrc]; exact hl
      have hin : (⟨a, b, slot'⟩ : Edge) ∈ SGraph.setWeight a b slot' l := by
        clear e1 hsrc hnd he hone hempty huniq hany
        induction l with
        | nil => cases hab
        | cons x l ih =>
          simp only [SGraph.setWeight]
          split
          · rename_i hk
            simp only [Bool.and_eq_true, beq_iff_eq] at hk
            obtain ⟨s, d, y⟩ := x
            dsimp only at hk ⊢
            rw [hk.1, hk.2]
            exact List.mem_cons_self
          · rename_i hk
            rcases List.mem_cons.mp hab with rfl | hab
            · exact absurd (by simp) hk
            · rw [List.map_cons, List.nodup_cons] at hl
              exact List.mem_cons_of_mem _ (ih hl.2 (fun e he => hd e (List.mem_cons_of_mem _ he)) hab hab)
      exact hss (congrArg Edge.weight (List.inj_on_of_nodup_map hnd hin he rfl))
    · exact hss hw
  rw [e1]
  unfold connList
  dsimp only
  have hany' : ((SGraph.setWeight a b slot' l).any fun e => e.src == a) = true := by
    rw [List.any_eq_true] at hany ⊢
    obtain ⟨x, hx, hs⟩ := hany
    have : x.src ∈ (SGraph.setWeight a b slot' l).map (·.src) := by
      rw [hsrc]; exact List.mem_map.mpr ⟨x, hx, rfl⟩
    obtain ⟨y, hy, e⟩ := List.mem_map.mp this
    exact ⟨y, hy, by rw [e]; exact hs⟩
  rw [drop_none hno, if_pos hany', setWeight_again,
    setWeight_self fun e he hs _ => by rw [huniq e he hs]]

end

variable {F H : Type} [FloatLike F] [HalfLike F H] [FloatConst F] [FloatBits F]

/-- What is kept: identifiers may be added, everything else stays as it was. -/
structure UndoKept (g g' : Graph (Node F) (Stream F H)) : Prop where
  ids : g.ids <+: g'.ids
  nodes : ∀ (i : Nat) (n : Node F), g.nodes[i]? = some n →
    ∃ n' : Node F, g'.nodes[i]? = some n' ∧ n'.attrs = n.attrs
  present : ∀ i, g.graph.contains i = true → g'.graph.contains i = true
  conns : ∀ b, into g' b = into g b

section
omit [FloatConst F] [FloatBits F]

theorem UndoKept.at {g g' : Graph (Node F) (Stream F H)} (h : UndoKept g g') {id i : Nat} (hi : At g id i) :
    At g' id i := by
  obtain ⟨t, ht⟩ := h.ids
  have hlt := (List.getElem?_eq_some_iff.mp hi.1).1
  refine ⟨?_, fun j hj => ?_⟩
  · rw [← ht, List.getElem?_append_left hlt]; exact hi.1
  · rw [← ht, List.getElem?_append_left (by omega)]; exact hi.2 j hj

theorem UndoKept.conn {g g' : Graph (Node F) (Stream F H)} (h : UndoKept g g') (a b s : Nat) :
    Conn g' a b s ↔ Conn g a b s := by
  rw [conn_into, conn_into, h.conns]

theorem UndoKept.trans {g g1 g2 : Graph (Node F) (Stream F H)} (h : UndoKept g g1) (h' : UndoKept g1 g2) :
    UndoKept g g2 :=
  ⟨h.ids.trans h'.ids, fun i n hn => by
      obtain ⟨n1, e1, k1⟩ := h.nodes i n hn
      obtain ⟨n2, e2, k2⟩ := h'.nodes i n1 e1
      exact ⟨n2, e2, k2.trans k1⟩,
    fun i hi => h'.present i (h.present i hi),
    fun b => (h'.conns b).trans (h.conns b)⟩

theorem get_kind (n : Node F) (name : String) (k : AttrSpec.Kind) : (nodeGet n name k).kind = k := by
  cases k <;> rfl

/-- Setting an attribute and setting it back. -/
theorem set_back {n m : Node F} {name : String} {v : AttrSpec.Value F}
    (h : m.attrs = (nodeSet n name v).attrs) :
    (nodeSet m name (nodeGet n name v.kind)).attrs = n.attrs := by
  rw [node_set_attrs] at h ⊢
  cases v with
  | str s =>
    simp only [nodeGet, AttrSpec.Value.kind] at h ⊢
    rw [h, Node.getStr_eq]; exact NodeAttrs.setStr_back _ _ _
  | i32 s =>
    simp only [nodeGet, AttrSpec.Value.kind] at h ⊢
    rw [h, Node.getI32_eq]; exact NodeAttrs.setI32_back _ _ _
  | f32 s =>
    simp only [nodeGet, AttrSpec.Value.kind] at h ⊢
    rw [h, Node.getF32_eq]; exact NodeAttrs.setF32_back _ _ _

end

theorem undone_kept {p : Profile} {srt : EdgeSort} {g g' : Graph (Node F) (Stream F H)}
    (h : Undone p srt g g') : ∀ r, Inv g r → (∃ r', Inv g' r') ∧ UndoKept g g' := by
  induction h with
  | @executed g g' he =>
    intro r hi
    have hs := executed_same he
    refine ⟨⟨r, hi.transfer hs.ids.symm hs.nodes.length_eq.symm hs.graph.symm⟩, by rw [hs.ids],
      fun i n hn => ?_, fun i hk => by rw [← hs.graph]; exact hk,
      fun b => by unfold into; rw [hs.graph]⟩
    obtain ⟨hlt, e⟩ := List.getElem?_eq_some_iff.mp hn
    have hlt' : i < g'.nodes.length := by rw [← hs.nodes.length_eq]; exact hlt
    have := hs.nodes.get hlt hlt'
    refine ⟨g'.nodes[i], List.getElem?_eq_getElem hlt', ?_⟩
    rw [← e]; exact this.2.symm
  | trans _ _ ih ih' =>
    intro r hi
    obtain ⟨⟨r1, h1⟩, k1⟩ := ih r hi
    obtain ⟨h2, k2⟩ := ih' r1 h1
    exact ⟨h2, k1.trans k2⟩
  | @setting g g1 g2 g3 id name v old hget hset _ hback ih =>
    intro r hi
    rw [set_eq] at hset hback
    have hi1 : Inv g1 r := by
      rcases setAttr_cases hset with ⟨_, rfl⟩ | ⟨i, n, _, _, rfl⟩
      · exact hi
      · exact hi.transfer rfl (by simp) rfl
    obtain ⟨⟨r2, hi2⟩, k⟩ := ih r hi1
    refine ⟨⟨r2, ?_⟩, ?_⟩
    · rcases setAttr_cases hback with ⟨_, rfl⟩ | ⟨i, n, _, _, rfl⟩
      · exact hi2
      · exact hi2.transfer rfl (by simp) rfl
    · rcases setAttr_cases hset with ⟨hno, rfl⟩ | ⟨i, n, hf, hn, rfl⟩
      · rcases setAttr_cases hback with ⟨_, rfl⟩ | ⟨i, n, hf, hn, rfl⟩
        · exact k
        · refine ⟨k.ids, fun j m hm => ?_, k.present, k.conns⟩
          have hne : i ≠ j := by
            rintro rfl
            obtain ⟨t, ht⟩ := k.ids
            have hlt := (List.getElem?_eq_some_iff.mp hm).1
            have hat := find_at.mp hf
            rw [← hi.ids_len] at hlt
            have : At g1 id i := by
              refine ⟨?_, fun j hj => ?_⟩
              · rw [← List.getElem?_append_left (l₂ := t) hlt, ht]; exact hat.1
              · rw [← List.getElem?_append_left (l₂ := t) (by omega), ht]; exact hat.2 j hj
            rw [find_at.mpr this] at hno
            cases hno
          dsimp only
          rw [List.getElem?_set_ne hne]
          exact k.nodes j m hm
      · have hat2 : At g2 id i := k.at (find_at.mp hf)
        have hold : old = nodeGet n name v.kind := by
          rw [get_eq] at hget
          unfold Graph.query at hget
          rw [hf] at hget
          dsimp only at hget
          rw [hn] at hget
          exact (Except.ok.inj hget).symm
        have hlt := (List.getElem?_eq_some_iff.mp hn).1
        rcases setAttr_cases hback with ⟨hno, rfl⟩ | ⟨i', m, hf', hm, rfl⟩
        · rw [find_at.mpr hat2] at hno; cases hno
        · have := (find_at.mp hf').unique hat2
          subst this
          refine ⟨k.ids, fun j q hq => ?_, k.present, k.conns⟩
          dsimp only
          by_cases hij : i' = j
          · subst hij
            rw [hn] at hq
            cases hq
            obtain ⟨m', e', a'⟩ := k.nodes i' (nodeSet n name v)
              (by dsimp only; rw [List.getElem?_set_self hlt])
            rw [hm] at e'
            cases e'
            refine ⟨_, List.getElem?_set_self (List.getElem?_eq_some_iff.mp hm).1, ?_⟩
            rw [hold]
            exact set_back a'
          · rw [List.getElem?_set_ne hij]
            refine k.nodes j q ?_
            dsimp only
            rw [List.getElem?_set_ne hij]
            exact hq
  | @connected g g1 g2 src dst a b slot ha hb hempty hnot hc _ ih =>
    intro r hi
    obtain ⟨c1, c2, c3, c4⟩ := connect_into hi ha hb hc
    obtain ⟨⟨r2, hi2⟩, k⟩ := ih r (hi.connect hc)
    have hb2 : At g2 dst b := k.at (by unfold At; rw [c2]; exact hb)
    have hsame := disconnect_same g2 dst slot
    refine ⟨⟨r2, hi2.disconnect dst slot⟩, by rw [hsame.1, ← c2]; exact k.ids, fun i n hn => ?_,
      fun i hk => ?_, fun y => ?_⟩
    · rw [hsame.2.1]; exact k.nodes i n (by rw [c3]; exact hn)
    · rw [(disconnect_shrunk g2 dst slot).contains]
      exact k.present i (by rw [c4]; exact hk)
    · rw [disconnect_into hi2 hb2, k.conns, k.conns, c1, c1, if_pos rfl]
      split
      · rename_i hy
        subst hy
        exact connected_back (fun e he hw => hempty e.src (into_conn he hw))
          fun e he hs => hnot e.weight (hs ▸ into_conn he rfl)
      · rfl
  | @moved g g1 g2 g3 src dst a b slot slot' ha hb hab hone hempty hc _ hc2 ih =>
    intro r hi
    obtain ⟨c1, c2, c3, c4⟩ := connect_into hi ha hb hc
    obtain ⟨⟨r2, hi2⟩, k⟩ := ih r (hi.connect hc)
    have hat : ∀ id i, At g id i → At g2 id i := fun id i hx => k.at (by
      unfold At; rw [c2]; exact hx)
    obtain ⟨e1, e2, e3, e4⟩ := connect_into hi2 (hat _ _ ha) (hat _ _ hb) hc2
    refine ⟨⟨r2, hi2.connect hc2⟩, by rw [e2, ← c2]; exact k.ids, fun i n hn => ?_,
      fun i hk => ?_, fun y => ?_⟩
    · rw [e3]; exact k.nodes i n (by rw [c3]; exact hn)
    · rw [e4]; exact k.present i (by rw [c4]; exact hk)
    · rw [e1, k.conns, k.conns, c1, c1, if_pos rfl]
      split
      · rename_i hy
        subst hy
        exact moved_back (into_src hi y) (fun e he => (mem_into.mp he).2) (conn_into.mp hab)
          (fun e he hw => hone e.src (into_conn he hw)) fun e he hw => hempty e.src (into_conn he hw)
      · rfl
  | @replaced g g1 g2 g3 src src' dst a a' b slot ha hb hab hone ha' hnot hc _ hc2 ih =>
    intro r hi
    obtain ⟨c1, c2, c3, c4⟩ := connect_into hi ha' hb hc
    obtain ⟨⟨r2, hi2⟩, k⟩ := ih r (hi.connect hc)
    have hat : ∀ id i, At g id i → At g2 id i := fun id i hx => k.at (by
      unfold At; rw [c2]; exact hx)
    obtain ⟨e1, e2, e3, e4⟩ := connect_into hi2 (hat _ _ ha) (hat _ _ hb) hc2
    refine ⟨⟨r2, hi2.connect hc2⟩, by rw [e2, ← c2]; exact k.ids, fun i n hn => ?_,
      fun i hk => ?_, fun y => ?_⟩
    · rw [e3]; exact k.nodes i n (by rw [c3]; exact hn)
    · rw [e4]; exact k.present i (by rw [c4]; exact hk)
    · rw [e1, k.conns, k.conns, c1, c1, if_pos rfl]
      split
      · rename_i hy
        subst hy
        exact (connect_own (into_src hi y) (conn_into.mp hab)
          fun e he hw => hone e.src (into_conn he hw)).2.2 a'
          fun e he hs => hnot e.weight (hs ▸ into_conn he rfl)
      · rfl
  | @disconnected g g2 g3 src dst a b slot ha hb hab hone _ hc ih =>
    intro r hi
    have d1 := disconnect_into hi hb slot
    have hsame := disconnect_same g dst slot
    obtain ⟨⟨r2, hi2⟩, k⟩ := ih r (hi.disconnect dst slot)
    have hat : ∀ id i, At g id i → At g2 id i := fun id i hx => k.at (by
      unfold At; rw [hsame.1]; exact hx)
    obtain ⟨c1, c2, c3, c4⟩ := connect_into hi2 (hat _ _ ha) (hat _ _ hb) hc
    refine ⟨⟨r2, hi2.connect hc⟩, by rw [c2, ← hsame.1]; exact k.ids, fun i n hn => ?_,
      fun i hk => ?_, fun y => ?_⟩
    · rw [c3]; exact k.nodes i n (by rw [hsame.2.1]; exact hn)
    · rw [c4]; exact k.present i (by rw [(disconnect_shrunk g dst slot).contains]; exact hk)
    · rw [c1, k.conns, k.conns, d1, d1, if_pos rfl]
      split
      · rename_i hy
        subst hy
        exact (connect_own (into_src hi y) (conn_into.mp hab)
          fun e he hw => hone e.src (into_conn he hw)).2.1
      · rfl
  | @added g g1 g2 i lib n hno hadd _ ih =>
    intro r hi
    obtain ⟨rfl, rfl, rfl⟩ := addNode_cases hi hadd
    obtain ⟨⟨r2, hi2⟩, k⟩ := ih _ (hi.add hadd)
    refine ⟨⟨_, hi2.remove n.id⟩, ?_⟩
    have hkept : UndoKept g g2 := by
      refine ⟨(List.prefix_append _ _).trans k.ids, fun j m hm => k.nodes j m ?_, fun j hj => ?_,
        k.conns⟩
      · dsimp only
        rw [List.getElem?_append_left (List.getElem?_eq_some_iff.mp hm).1]
        exact hm
      · apply k.present
        obtain ⟨w, e⟩ := contains_iff.mp hj
        exact contains_iff.mpr ⟨w, by
          dsimp only; rw [List.getElem?_append_left (contains_lt hj)]; exact e⟩
    rcases removeNode_cases (g := g2) (id := n.id) with ⟨_, h2, _⟩ | ⟨j, hf, _, _, h2⟩
    · rw [h2]; exact hkept
    · rw [h2]
      have hj : j = g.ids.length := by
        refine (find_at.mp hf).unique (k.at ⟨?_, fun l hl => ?_⟩)
        · dsimp only; simp [nodeSem]
        · dsimp only
          rw [List.getElem?_append_left hl]
          intro hx
          obtain ⟨q, hq⟩ : ∃ q, At g n.id q := by
            have hm : n.id ∈ g.ids := List.mem_of_getElem? hx
            cases hfd : g.find n.id with
            | none => exact absurd hm (find_none.mp hfd)
            | some q => exact ⟨q, find_at.mp hfd⟩
          exact hno q hq
      refine ⟨hkept.ids, hkept.nodes, fun l hl => ?_, fun y => ?_⟩
      · refine contains_setNone.mpr ⟨hkept.present l hl, ?_⟩
        have := contains_lt hl
        rw [hi.slots_len, ← hi.ids_len] at this
        omega
      · rw [← hkept.conns y]
        unfold into
        dsimp only
        rw [List.filter_filter]
        refine List.filter_congr fun e he => ?_
        by_cases hd : e.dst = y
        · have hx : e ∈ into g y := by rw [← hkept.conns]; exact mem_into.mpr ⟨he, hd⟩
          have hg := (mem_into.mp hx).1
          have k1 := contains_lt (hi.ends _ hg).1
          have k2 := contains_lt (hi.ends _ hg).2
          rw [hi.slots_len, ← hi.ids_len, ← hj] at k1 k2
          have n1 : e.src ≠ j := by omega
          have n2 : e.dst ≠ j := by omega
          simp [hd, n1, hd ▸ n2]
        · simp [hd]

/-- C135: edits that are taken back leave everything as it was. -/
theorem C135_restored (p : Profile) (lib : NodeLib F H) (srt : EdgeSort)
    {g g' : Graph (Node F) (Stream F H)} {r : Bool} (h : Reach (nodeSem p lib) srt r g)
    (hun : Undone p srt g g') : Restored g g' := by
  obtain ⟨-, k⟩ := undone_kept hun r h.inv
  exact ⟨fun id i => k.at, k.nodes, k.present, k.conn⟩

/-- C135: executing after edits that are taken back does what executing did before them. -/
theorem C135_execution (p : Profile) (lib : NodeLib F H) (srt : EdgeSort)
    {g g' : Graph (Node F) (Stream F H)} {r : Bool} (h : Reach (nodeSem p lib) srt r g)
    (hun : Undone p srt g g') {id start : Nat} (hid : At g id start)
    (hs : g.graph.contains start = true) {frame : F} (hp : ShowsFiles lib g start frame) (fuel : Nat)
    (frames : List F) (w : World F H) :
    (g'.execute (nodeSem p lib) srt fuel id (frame :: frames) w).map
        (fun r => (r.1, r.2.1.output, r.2.2)) =
      (g.execute (nodeSem p lib) srt fuel id (frame :: frames) w).map
        (fun r => (r.1, r.2.1.output, r.2.2)) := by
  obtain ⟨⟨r', hi'⟩, k⟩ := undone_kept hun r h.inv
  have hg : Sound g := h.inv.sound
  have hg' : Sound g' := hi'.sound
  have hren : Renamed (fun i j => i = j ∧ g.graph.contains i = true) SameSettings
      (fun s s' : Stream F H => s = s') srt srt { g with output := g'.output } g' := by
    refine ⟨?_, ?_, ?_, ?_, rfl⟩
    · rintro i _ ⟨rfl, hi⟩; exact ⟨hi, k.present i hi⟩
    · rintro i _ ⟨rfl, hi⟩
      have e : parents srt g'.graph i = parents srt g.graph i := by
        unfold parents
        rw [incoming_into hi', incoming_into h.inv, k.conns]
      rw [e]
      show List.Forall₂ _ (parents srt g.graph i) _
      rw [List.forall₂_same]
      intro u hu
      obtain ⟨⟨e, he, rfl, -⟩, -⟩ := (hg.mem_parents srt).mp hu
      exact ⟨rfl, (hg.ends e he).1⟩
    · rintro i _ ⟨rfl, hi⟩
      have hlt := hg.live i hi
      obtain ⟨n', e', a'⟩ := k.nodes i _ (List.getElem?_eq_getElem hlt)
      exact ⟨_, n', List.getElem?_eq_getElem hlt, e', a'.symm⟩
    · rintro i _ l _ ⟨rfl, -⟩ ⟨rfl, -⟩; exact Iff.rfl
  have := hren.execute (settings_matching p lib) (id := id) ⟨hg.ends, hg.live⟩ hg' hid (k.at hid)
    ⟨rfl, hs⟩ fuel (frame :: frames) (c := w) rfl
  rw [C117_output p lib srt fuel h hid hs hp frames g'.output w] at this
  cases e1 : g.execute (nodeSem p lib) srt fuel id (frame :: frames) w <;>
    cases e2 : g'.execute (nodeSem p lib) srt fuel id (frame :: frames) w <;>
    rw [e1, e2] at this <;> simp only [ResRel] at this
  · rw [this]
  · obtain ⟨k1, k2, k3⟩ := this
    simp only [Except.map, k1, k2, k3]

/-- C135: with no node using the cache, it also does not matter what was executed in between. -/
theorem C135_uncached (p : Profile) (lib : NodeLib F H) (srt : EdgeSort)
    {g g' : Graph (Node F) (Stream F H)} {r : Bool} (h : Reach (nodeSem p lib) srt r g)
    (hun : Undone p srt g g') {id start : Nat} (hid : At g id start)
    (hs : g.graph.contains start = true) {frame : F} (hp : ShowsFiles lib g start frame)
    (hc : ∀ n ∈ g.nodes, n.getI32 "use_cache" = 0) (fuel : Nat) (frames : List F)
    (w w' : World F H) {st : ExecuteStatus} {g1 : Graph (Node F) (Stream F H)} {w1 : World F H}
    (e : g.execute (nodeSem p lib) srt fuel id (frame :: frames) w = .ok (st, g1, w1)) :
    ∃ jobs g2, w1.writes = w.writes ++ jobs ∧
      g'.execute (nodeSem p lib) srt fuel id (frame :: frames) w' =
        .ok (st, g2, ⟨w'.cache, w'.writes ++ jobs⟩) ∧ g2.output = g1.output := by
  have hx := C135_execution p lib srt h hun hid hs hp fuel frames w'
  rw [C94_uncached p lib srt fuel g hc] at e hx
  cases e0 : Graph.execute (nodeSem p lib) srt fuel g id (frame :: frames) ⟨.withCapacity 0, []⟩ with
  | error x => rw [e0] at e; cases e
  | ok v =>
    rw [e0] at e hx
    cases e
    cases e2 : g'.execute (nodeSem p lib) srt fuel id (frame :: frames) w' with
    | error x => rw [e2] at hx; cases hx
    | ok v' =>
      rw [e2] at hx
      obtain ⟨st', g2, w2⟩ := v'
      simp only [Except.map, Except.ok.injEq, Prod.mk.injEq] at hx
      obtain ⟨rfl, h2, rfl⟩ := hx
      exact ⟨_, g2, rfl, rfl, h2⟩

section
variable {N S C Fr : Type}

/-- C135 fails for removing: whatever node is added after a removal, the call panics, so a removal
cannot be taken back; and a node whose adding was taken back cannot be added again. -/
theorem C135_removal_counterexample (sem : NodeSem N S C Fr) (srt : EdgeSort) {g : Graph N S}
    {r : Bool} (h : Reach sem srt r g) {id : Nat} (hr : (g.removeNode id).2 = true) (n : N) :
    (g.removeNode id).1.addNode sem n = .error .assertion := by
  have := Reach.remove id h
  rw [hr, Bool.or_true] at this
  exact C28_counterexample sem srt this n

example (srt : EdgeSort) : Reach toySem srt false toyTwo ∧ (toyTwo.removeNode 2).2 = true :=
  ⟨toyTwo_reach srt, rfl⟩

/-- C135 fails for disconnecting what was connected, if the node had been connected to another slot
before: then connecting moves the connection, and disconnecting loses it. -/
theorem C135_moved_counterexample (srt : EdgeSort) :
    ∃ g g1 : Graph Nat Unit, Reach toySem srt false g ∧ Conn g 0 1 0 ∧ (∀ x, ¬Conn g x 1 2) ∧
      g.connect 1 2 2 = .ok g1 ∧ ∀ s, ¬Conn (g1.disconnectInput 2 2) 0 1 s := by
  refine ⟨toyLinked, { toyLinked with graph := { toyGraph.graph with edges := [⟨0, 1, 2⟩] } },
    toyLinked_reach srt, by unfold Conn; decide, ?_, rfl, ?_⟩
  · intro x hx
    simp [Conn, toyLinked, toyGraph] at hx
  · intro s hx
    cases hx

end

/-! ### examples -/

attribute [local instance] finFloat finBits finHalf finPi

/-- The red gain set to 7. -/
def gainSeven : Graph (Node (Fin 256)) (Stream (Fin 256) (Fin 256)) :=
  { readGradeView 2 with
    nodes := [⟨1, .uninitialized, .readImage { readAttrs with useCache := 0 }⟩,
      ⟨2, .uninitialized, .grade { GradeAttrs.new with multiplyR := 7 }⟩,
      ⟨3, .uninitialized, .viewer { fullViewer with useCache := 0, bakeOption := 2 }⟩] }

/-- The same after showing the picture. -/
def gainShown : Graph (Node (Fin 256)) (Stream (Fin 256) (Fin 256)) :=
  graphAfter gainSeven (Graph.execute (nodeSem .debug linearFiles) insSort 20 gainSeven 3 [1] noCache)

/-- The same with the viewer disconnected and connected again, and the gain set back to 2. -/
def gainBack : Graph (Node (Fin 256)) (Stream (Fin 256) (Fin 256)) :=
  { gainShown with
    nodes := gainShown.nodes.set 1
      ((gainShown.nodes[1]?.getD (⟨0, .uninitialized, .grade GradeAttrs.new⟩ : Node (Fin 256))).setF32 "multiply_r" 2)
    state := .dirty }

theorem gainBack_undone : Undone .debug insSort (readGradeView 2) gainBack := by
  have e : ∃ st w', Graph.execute (nodeSem .debug linearFiles) insSort 20 gainSeven 3 [1] noCache =
      .ok (st, gainShown, w') := ⟨_, _, rfl⟩
  obtain ⟨st, w', e⟩ := e
  refine .setting (id := 2) (name := "multiply_r") (.f32 7) (.f32 2) rfl rfl
    (.trans (.executed (.step linearFiles .refl e))
      (.disconnected (src := 2) (dst := 3) (a := 1) (b := 2) (slot := 0) ⟨rfl, by decide⟩
        ⟨rfl, by decide⟩ (show (⟨1, 2, 0⟩ : Edge) ∈ (readGradeView 2).graph.edges by decide) ?_
        (.executed .refl) rfl)) rfl
  intro x hx
  have hx' : (⟨x, 2, 0⟩ : Edge) ∈ (readGradeView 2).graph.edges := hx
  simpa [readGradeView] using hx'

/-- In between the picture was graded with 7; then it is graded with 2 again. -/
example : ∃ jobs g1 g2 w1,
    numbersOf gainShown.output.pixelBlock = [7, 1, 1] ∧ Restored (readGradeView 2) gainBack ∧
    Graph.execute (nodeSem .debug linearFiles) insSort 20 (readGradeView 2) 3 [1] noCache =
      .ok (.success, g1, w1) ∧
    Graph.execute (nodeSem .debug linearFiles) insSort 20 gainBack 3 [1] noCache =
      .ok (.success, g2, ⟨noCache.cache, jobs⟩) ∧
    g2.output = g1.output ∧ numbersOf g1.output.pixelBlock = [2, 1, 1] := by
  obtain ⟨g1, w1, e, hn⟩ : ∃ g1 w1, Graph.execute (nodeSem .debug linearFiles) insSort 20
      (readGradeView 2) 3 [1] noCache = .ok (.success, g1, w1) ∧
      numbersOf g1.output.pixelBlock = [2, 1, 1] :=
    ⟨_, _, rfl, by decide +kernel⟩
  obtain ⟨jobs, g2, -, e2, ho⟩ := C135_uncached .debug linearFiles insSort (readGradeView_reach 2)
    gainBack_undone (start := 2) ⟨rfl, by decide⟩ rfl (readGradeView_files 1) (by decide) 20 []
    noCache noCache e
  exact ⟨jobs, g1, g2, w1, by decide +kernel, C135_restored .debug linearFiles insSort
    (readGradeView_reach 2) gainBack_undone, e, e2, ho, hn⟩

end OCG.Props
