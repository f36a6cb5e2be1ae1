import Verif.Proofs.Attrs
import Verif.Proofs.Graph
import Verif.Props.PixelBlock
/-
C34 and C35: attributes.
-/

namespace OCG.Props

open AttrSpec GraphSpec

variable {F S : Type} [FloatLike F]

/-- The value a node gives for an attribute, by kind. -/
def nodeGet (n : Node F) (name : String) : Kind → Value F
  | .str => .str (n.getStr name)
  | .i32 => .i32 (n.getI32 name)
  | .f32 => .f32 (n.getF32 name)

/-- The value given for an unknown node, by kind. -/
def noValue : Kind → Value F
  | .str => .str []
  | .i32 => .i32 0
  | .f32 => .f32 0

/-- Setting an attribute of a node, by kind. -/
def nodeSet (n : Node F) (name : String) : Value F → Node F
  | .str s => n.setStr name s
  | .i32 v => n.setI32 name v
  | .f32 x => n.setF32 name x

theorem get_eq (g : Graph (Node F) S) (id : Nat) (name : String) (k : Kind) :
    AttrSpec.get g id name k = g.query id (noValue k) (nodeGet · name k) := by
  cases k <;>
  simp only [AttrSpec.get, Graph.getNodeStr, Graph.getNodeI32, Graph.getNodeF32, Graph.query] <;>
  (split <;> first | rfl | (split <;> rfl))

theorem set_eq (g : Graph (Node F) S) (id : Nat) (name : String) (v : Value F) :
    AttrSpec.set g id name v = g.setAttr id (nodeSet · name v) := by
  cases v <;> rfl

theorem node_get_eq (n : Node F) (name : String) (k : Kind) :
    nodeGet n name k = match k with
      | .str => .str (n.attrs.getStr name)
      | .i32 => .i32 (n.attrs.getI32 name)
      | .f32 => .f32 (n.attrs.getF32 name) := by
  have h : n.attrs.attrExists name = .missing → ∀ k, name ∉ names n.attrs.nodeType k := by
    intro h k hk
    have := (NodeAttrs.exists_iff n.attrs name).mpr ⟨k, hk⟩
    rw [h] at this
    cases this
  cases k
  all_goals
    simp only [nodeGet, Node.getStr, Node.getI32, Node.getF32]
    congr 1
    split
    · rfl
    · rename_i hm
      first
        | exact (NodeAttrs.getStr_other _ _ (h hm _)).symm
        | exact (NodeAttrs.getI32_other _ _ (h hm _)).symm
        | exact (NodeAttrs.getF32_other _ _ (h hm _)).symm

theorem node_set_attrs (n : Node F) (name : String) (v : Value F) :
    nodeSet n name v = { n with attrs := match v with
      | .str s => n.attrs.setStr name s
      | .i32 x => n.attrs.setI32 name x
      | .f32 x => n.attrs.setF32 name x } := by
  have h : n.attrs.attrExists name = .missing → ∀ k, name ∉ names n.attrs.nodeType k := by
    intro h k hk
    have := (NodeAttrs.exists_iff n.attrs name).mpr ⟨k, hk⟩
    rw [h] at this
    cases this
  cases v
  all_goals
    simp only [nodeSet, Node.setStr, Node.setI32, Node.setF32]
    split
    · rfl
    · rename_i hm
      first
        | rw [(NodeAttrs.setStr_self _ _ _).2 (h hm _)]
        | rw [(NodeAttrs.setI32_self _ _ _).2 (h hm _)]
        | rw [(NodeAttrs.setF32_self _ _ _).2 (h hm _)]

theorem node_set_get (n : Node F) (name : String) (v : Value F)
    (h : name ∈ names n.attrs.nodeType v.kind) :
    nodeGet (nodeSet n name v) name v.kind = v := by
  rw [node_get_eq, node_set_attrs]
  cases v with
  | str s => exact congrArg Value.str ((NodeAttrs.setStr_self _ _ _).1 h)
  | i32 s => exact congrArg Value.i32 ((NodeAttrs.setI32_self _ _ _).1 h)
  | f32 s => exact congrArg Value.f32 ((NodeAttrs.setF32_self _ _ _).1 h)

theorem node_set_other (n : Node F) (name name' : String) (v : Value F) (k : Kind)
    (h : (name', k) ≠ (name, v.kind)) :
    nodeGet (nodeSet n name v) name' k = nodeGet n name' k := by
  rw [node_get_eq, node_get_eq, node_set_attrs]
  cases v <;> cases k <;> simp only [Value.kind] at h <;> first
    | exact congrArg _ (NodeAttrs.setStr_getStr_ne _ _ _ _ (fun e => h (by rw [e])))
    | exact congrArg _ (NodeAttrs.setI32_getI32_ne _ _ _ _ (fun e => h (by rw [e])))
    | exact congrArg _ (NodeAttrs.setF32_getF32_ne _ _ _ _ (fun e => h (by rw [e])))
    | exact congrArg _ (NodeAttrs.setStr_getI32 _ _ _ _)
    | exact congrArg _ (NodeAttrs.setStr_getF32 _ _ _ _)
    | exact congrArg _ (NodeAttrs.setI32_getStr _ _ _ _)
    | exact congrArg _ (NodeAttrs.setI32_getF32 _ _ _ _)
    | exact congrArg _ (NodeAttrs.setF32_getStr _ _ _ _)
    | exact congrArg _ (NodeAttrs.setF32_getI32 _ _ _ _)

theorem node_set_unsupported (n : Node F) (name : String) (v : Value F)
    (h : name ∉ names n.attrs.nodeType v.kind) : nodeSet n name v = n := by
  rw [node_set_attrs]
  cases v with
  | str s => simp only [(NodeAttrs.setStr_self n.attrs _ s).2 h]
  | i32 s => simp only [(NodeAttrs.setI32_self n.attrs _ s).2 h]
  | f32 s => simp only [(NodeAttrs.setF32_self n.attrs _ s).2 h]

theorem query_set {α : Type} (g : Graph (Node F) S) (f : Node F → Node F) (id i : Nat)
    (n : Node F) (hi : g.find id = some i) (hn : g.nodes[i]? = some n) (id' : Nat) (d : α)
    (q : Node F → α) :
    Graph.query { g with nodes := g.nodes.set i (f n), state := .dirty } id' d q =
      if id' = id then .ok (q (f n)) else g.query id' d q := by
  have hlt : i < g.nodes.length := by
    rcases Nat.lt_or_ge i g.nodes.length with h | h
    · exact h
    · rw [List.getElem?_eq_none h] at hn; cases hn
  have hf : ∀ nd st, Graph.find (N := Node F) (S := S) { g with nodes := nd, state := st } id' =
      g.find id' := fun _ _ => rfl
  unfold Graph.query
  rw [hf]
  by_cases he : id' = id
  · subst he
    rw [if_pos rfl, hi]
    dsimp only
    rw [List.getElem?_set_self hlt]
  · rw [if_neg he]
    cases hf' : g.find id' with
    | none => rfl
    | some j =>
      dsimp only
      have hij : i ≠ j := by
        intro e
        subst e
        obtain ⟨h1, h2⟩ := find_at.mp hi
        obtain ⟨h3, h4⟩ := find_at.mp hf'
        rw [h1] at h3
        exact he (Option.some.inj h3).symm
      rw [List.getElem?_set_ne hij]

/-- C34: a set attribute is read back. -/
theorem C34_set_get (g g' : Graph (Node F) S) (id i : Nat) (n : Node F) (name : String)
    (v : Value F) (hi : At g id i) (hn : g.nodes[i]? = some n)
    (hname : name ∈ names n.attrs.nodeType v.kind)
    (h : AttrSpec.set g id name v = .ok g') :
    AttrSpec.get g' id name v.kind = .ok v := by
  have hi' := find_at.mpr hi
  rw [set_eq] at h
  rcases setAttr_cases h with ⟨h1, _⟩ | ⟨j, m, h1, h2, rfl⟩
  · rw [hi'] at h1; cases h1
  · rw [hi'] at h1; cases h1
    rw [hn] at h2; cases h2
    rw [get_eq, query_set g (nodeSet · name v) id i n hi' hn, if_pos rfl, node_set_get n name v hname]

/-- C34: every other attribute of every node (and every attribute of another kind) reads as
before. -/
theorem C34_others_unchanged (g g' : Graph (Node F) S) (id : Nat) (name : String) (v : Value F)
    (h : AttrSpec.set g id name v = .ok g') (id' : Nat) (name' : String) (k : Kind)
    (hne : (id', name', k) ≠ (id, name, v.kind)) :
    AttrSpec.get g' id' name' k = AttrSpec.get g id' name' k := by
  rw [set_eq] at h
  rcases setAttr_cases h with ⟨_, rfl⟩ | ⟨j, m, h1, h2, rfl⟩
  · rfl
  · rw [get_eq, get_eq, query_set g (nodeSet · name v) id j m h1 h2]
    by_cases he : id' = id
    · subst he
      rw [if_pos rfl, node_set_other m name name' v k (fun e => hne (by rw [e]))]
      unfold Graph.query
      rw [h1]
      dsimp only
      rw [h2]
    · rw [if_neg he]

/-- C34: setting a name that the node does not have (or has with another kind) changes no
attribute at all. -/
theorem C34_unknown_name (g g' : Graph (Node F) S) (id : Nat) (name : String) (v : Value F)
    (hu : ∀ (i : Nat) n, At g id i → g.nodes[i]? = some n → name ∉ names n.attrs.nodeType v.kind)
    (h : AttrSpec.set g id name v = .ok g') (id' : Nat) (name' : String) (k : Kind) :
    AttrSpec.get g' id' name' k = AttrSpec.get g id' name' k := by
  rw [set_eq] at h
  rcases setAttr_cases h with ⟨_, rfl⟩ | ⟨j, m, h1, h2, rfl⟩
  · rfl
  · rw [get_eq, get_eq, query_set g (nodeSet · name v) id j m h1 h2,
      node_set_unsupported m name v (hu j m (find_at.mp h1) h2)]
    by_cases he : id' = id
    · subst he
      rw [if_pos rfl]
      unfold Graph.query
      rw [h1]
      dsimp only
      rw [h2]
    · rw [if_neg he]

/-- C34: no setter or getter panics, whatever the history of the graph. -/
theorem C34_no_panic {C Fr : Type} (sem : NodeSem (Node F) S C Fr) (srt : EdgeSort) {r : Bool}
    {g : Graph (Node F) S} (hr : Reach sem srt r g) (id : Nat) (name : String) :
    (∀ v, ∃ g', AttrSpec.set g id name v = .ok g') ∧
    (∀ k, ∃ v, AttrSpec.get g id name k = .ok v) := by
  have inv := hr.inv
  have key : ∀ i, g.find id = some i → ∃ n, g.nodes[i]? = some n := by
    intro i hi
    obtain ⟨h1, _⟩ := find_at.mp hi
    have : i < g.nodes.length := by
      rw [← inv.ids_len]
      rcases Nat.lt_or_ge i g.ids.length with h | h
      · exact h
      · rw [List.getElem?_eq_none h] at h1; cases h1
    exact ⟨_, List.getElem?_eq_getElem this⟩
  constructor
  · intro v
    rw [set_eq]
    unfold Graph.setAttr
    cases hf : g.find id with
    | none => exact ⟨_, rfl⟩
    | some i =>
      obtain ⟨n, hn⟩ := key i hf
      dsimp only
      rw [hn]
      exact ⟨_, rfl⟩
  · intro k
    rw [get_eq]
    unfold Graph.query
    cases hf : g.find id with
    | none => exact ⟨_, rfl⟩
    | some i =>
      obtain ⟨n, hn⟩ := key i hf
      dsimp only
      rw [hn]
      exact ⟨_, rfl⟩

/-- C35: an attribute exists exactly if some typed setter and getter of the node support it. -/
theorem C35_exists_iff_supported (hF : ∃ x : F, x ≠ 0) (n : Node F) (name : String) :
    n.attrExists name = .exists ↔ ∃ k, Supports n name k := by
  have conv : ∀ k, Supports n name k ↔ name ∈ names n.attrs.nodeType k := by
    intro k
    constructor
    · intro hs
      by_contra hk
      cases k with
      | str =>
        have h0 := hs [1]
        have h1 := node_set_unsupported n name (.str [1]) hk
        have h2 := node_get_eq n name .str
        simp only [nodeSet] at h1
        rw [h1] at h0
        simp only [nodeGet] at h2
        rw [NodeAttrs.getStr_other _ _ hk] at h2
        rw [h0] at h2
        cases h2
      | i32 =>
        have h0 := hs 1
        have h1 := node_set_unsupported n name (.i32 1) hk
        have h2 := node_get_eq n name .i32
        simp only [nodeSet] at h1
        rw [h1] at h0
        simp only [nodeGet] at h2
        rw [NodeAttrs.getI32_other _ _ hk] at h2
        rw [h0] at h2
        cases h2
      | f32 =>
        obtain ⟨x, hx⟩ := hF
        have h0 := hs x
        have h1 := node_set_unsupported n name (.f32 x) hk
        have h2 := node_get_eq n name .f32
        simp only [nodeSet] at h1
        rw [h1] at h0
        simp only [nodeGet] at h2
        rw [NodeAttrs.getF32_other _ _ hk] at h2
        rw [h0] at h2
        exact hx (Value.f32.inj h2)
    · intro hk
      cases k with
      | str => intro v; exact Value.str.inj (node_set_get n name (.str v) hk)
      | i32 => intro v; exact Value.i32.inj (node_set_get n name (.i32 v) hk)
      | f32 => intro v; exact Value.f32.inj (node_set_get n name (.f32 v) hk)
  rw [show n.attrExists name = n.attrs.attrExists name from rfl, NodeAttrs.exists_iff]
  exact exists_congr fun k => (conv k).symm

omit [FloatLike F] in
theorem names_kind (t : NodeType) (k k' : Kind) (name : String) (h : name ∈ names t k)
    (h' : name ∈ names t k') : k = k' := by
  revert name
  cases t <;> cases k <;> cases k' <;> simp [names]

/-- C35: the supported attributes are exactly the documented ones of the node's type, each with
one kind. -/
theorem C35_documented (n : Node F) (name : String) :
    n.attrExists name = .exists ↔ ∃! k, name ∈ names n.attrs.nodeType k := by
  rw [show n.attrExists name = n.attrs.attrExists name from rfl, NodeAttrs.exists_iff]
  constructor
  · rintro ⟨k, hk⟩
    refine ⟨k, hk, ?_⟩
    intro k' hk'
    exact names_kind _ _ _ _ hk' hk
  · rintro ⟨k, hk, _⟩; exact ⟨k, hk⟩

/-- C27 for attributes: an unknown node has no attributes, all its values are zero or empty, and
setting one changes nothing. -/
theorem C27_unknown_attributes (g : Graph (Node F) S) (id : Nat) (h : Unknown g id)
    (name : String) :
    g.nodeAttrExists id name = .ok .missing ∧ g.getNodeStr id name = .ok [] ∧
      g.getNodeI32 id name = .ok 0 ∧ g.getNodeF32 id name = .ok 0 ∧
      ∀ v, AttrSpec.set g id name v = .ok g := by
  have hf := find_none.mpr h
  refine ⟨?_, ?_, ?_, ?_, fun v => ?_⟩
  · unfold Graph.nodeAttrExists Graph.query; rw [hf]
  · unfold Graph.getNodeStr Graph.query; rw [hf]
  · unfold Graph.getNodeI32 Graph.query; rw [hf]
  · unfold Graph.getNodeF32 Graph.query; rw [hf]
  · rw [set_eq]; unfold Graph.setAttr; rw [hf]

/-- C35 in a graph: asking a graph for an attribute asks the node. -/
theorem C35_in_graph (g : Graph (Node F) S) {id i : Nat} (hid : At g id i) {n : Node F}
    (hn : g.nodes[i]? = some n) (name : String) :
    g.nodeAttrExists id name = .ok .exists ↔ ∃ k, name ∈ names n.attrs.nodeType k := by
  rw [← NodeAttrs.exists_iff]
  have e : g.nodeAttrExists id name = .ok (n.attrs.attrExists name) := by
    unfold Graph.nodeAttrExists Graph.query
    rw [find_at.mpr hid]
    simp only [hn]
    rfl
  rw [e]
  exact ⟨fun h => Except.ok.inj h, fun h => congrArg _ h⟩

/-! ### Examples -/

/-- A crop node 7 and a transform node 9. -/
def attrGraph : Graph (Node F) Unit :=
  ⟨[.create .cropImage 7, .create .transform 9], [7, 9], ⟨[some 7, some 9], [], []⟩, (), .dirty,
    .uninitialized⟩

example : (attrGraph (F := F)).nodeAttrExists 8 "enable" = .ok .missing :=
  (C27_unknown_attributes (attrGraph (F := F)) 8 (show 8 ∉ [7, 9] by decide) _).1

example : (attrGraph (F := F)).nodeAttrExists 7 "black_outside" = .ok .exists :=
  (C35_in_graph _ (i := 0) ⟨rfl, fun j hj => absurd hj (by omega)⟩ rfl _).mpr
    ⟨.i32, show _ ∈ names .cropImage .i32 by decide⟩

example : At (attrGraph (F := F)) 9 1 ∧
    (attrGraph (F := F)).nodes[1]? = some (.create .transform 9) ∧
    "rotate" ∈ names (Node.create (F := F) .transform 9).attrs.nodeType (Value.f32 (1 : F)).kind ∧
    (∃ g', AttrSpec.set (attrGraph (F := F)) 9 "rotate" (.f32 1) = .ok g') ∧
    ("rotate" ∉ names (Node.create (F := F) .transform 9).attrs.nodeType
      (Value.i32 (F := F) 1).kind) := by
  refine ⟨⟨rfl, ?_⟩, rfl, ?_, ⟨_, rfl⟩, ?_⟩
  · intro j hj
    have : j = 0 := by omega
    subst this
    simp [attrGraph]
  · simp [Node.create, NodeAttrs.create, NodeAttrs.nodeType, names, Value.kind]
  · simp [Node.create, NodeAttrs.create, NodeAttrs.nodeType, names, Value.kind]

/-- A semantics for the two nodes that computes nothing. -/
def attrSem : NodeSem (Node F) Unit Unit Unit where
  id := Node.id
  status := Node.status
  hash n _ hs := n.id + hs.sum
  validate _ mode _ ins := .ok (ins.map fun _ => mode)
  compute n _ _ _ _ _ := .ok (n, .valid, (), ())

example (srt : EdgeSort) : Reach (attrSem (F := F)) srt false attrGraph :=
  .add (.create .transform 9) (.add (.create .cropImage 7) (.new ()) rfl) rfl

example : (∃ x : Int, x ≠ 0) ∧
    (let _ := toyFloat
     (Node.create (F := Int) .cropImage 7).attrExists "reformat" = .exists ∧
     (Node.create (F := Int) .cropImage 7).attrExists "rotate" = .missing) :=
  ⟨⟨1, by decide⟩, rfl, rfl⟩

end OCG.Props
