import Verif.Model.Attrs
import Verif.Model.Graph
/-
Model of src/node.rs: nodes with their attribute blocks.
-/

namespace OCG

/-- cxxbridge.rs:222-266 `NodeType`. -/
inductive NodeType where
  | null
  | readImage
  | writeImage
  | grade
  | lensDistort
  | transform
  | mergeImage
  | cropImage
  | viewer
  | resampleImage
  deriving DecidableEq, Repr

/-- cxxbridge.rs:222-266, the declared codes. -/
def NodeType.code : NodeType → Nat
  | .null => 0
  | .readImage => 1
  | .writeImage => 2
  | .grade => 3
  | .lensDistort => 4
  | .transform => 5
  | .mergeImage => 6
  | .cropImage => 7
  | .viewer => 8
  | .resampleImage => 9

/-- The `attr_block` of a node (node.rs:53), one of the ten blocks.  `node_type` is not stored
separately: node.rs:202-217 `create_node` always pairs a block with its type. -/
inductive NodeAttrs (F : Type) where
  | null (a : NullAttrs)
  | readImage (a : ReadImageAttrs)
  | writeImage (a : WriteImageAttrs)
  | grade (a : GradeAttrs F)
  | lensDistort (a : LensDistortAttrs F)
  | transform (a : TransformAttrs F)
  | mergeImage (a : MergeImageAttrs F)
  | cropImage (a : CropImageAttrs)
  | viewer (a : ViewerAttrs)
  | resampleImage (a : ResampleImageAttrs)

namespace NodeAttrs

variable {F : Type}

/-- node.rs:63-66 `get_node_type`. -/
def nodeType : NodeAttrs F → NodeType
  | .null _ => .null
  | .readImage _ => .readImage
  | .writeImage _ => .writeImage
  | .grade _ => .grade
  | .lensDistort _ => .lensDistort
  | .transform _ => .transform
  | .mergeImage _ => .mergeImage
  | .cropImage _ => .cropImage
  | .viewer _ => .viewer
  | .resampleImage _ => .resampleImage

variable [FloatLike F]

/-- node.rs:202-217 `create_node`: the attribute block of a new node. -/
def create : NodeType → NodeAttrs F
  | .null => .null .new
  | .readImage => .readImage .new
  | .writeImage => .writeImage .new
  | .grade => .grade .new
  | .lensDistort => .lensDistort .new
  | .transform => .transform .new
  | .mergeImage => .mergeImage .new
  | .cropImage => .cropImage .new
  | .viewer => .viewer .new
  | .resampleImage => .resampleImage .new

/-- attrblock.rs:30, dynamic dispatch of `attr_exists`. -/
def attrExists (b : NodeAttrs F) (name : String) : AttrState :=
  match b with
  | .null a => a.attrExists name
  | .readImage a => a.attrExists name
  | .writeImage a => a.attrExists name
  | .grade a => a.attrExists name
  | .lensDistort a => a.attrExists name
  | .transform a => a.attrExists name
  | .mergeImage a => a.attrExists name
  | .cropImage a => a.attrExists name
  | .viewer a => a.attrExists name
  | .resampleImage a => a.attrExists name

/-- attrblock.rs:32, dynamic dispatch of `get_attr_str`. -/
def getStr (b : NodeAttrs F) (name : String) : Bytes :=
  match b with
  | .null a => a.getStr name
  | .readImage a => a.getStr name
  | .writeImage a => a.getStr name
  | .grade a => a.getStr name
  | .lensDistort a => a.getStr name
  | .transform a => a.getStr name
  | .mergeImage a => a.getStr name
  | .cropImage a => a.getStr name
  | .viewer a => a.getStr name
  | .resampleImage a => a.getStr name

/-- attrblock.rs:33, dynamic dispatch of `set_attr_str`. -/
def setStr (b : NodeAttrs F) (name : String) (value : Bytes) : NodeAttrs F :=
  match b with
  | .null a => .null (a.setStr name value)
  | .readImage a => .readImage (a.setStr name value)
  | .writeImage a => .writeImage (a.setStr name value)
  | .grade a => .grade (a.setStr name value)
  | .lensDistort a => .lensDistort (a.setStr name value)
  | .transform a => .transform (a.setStr name value)
  | .mergeImage a => .mergeImage (a.setStr name value)
  | .cropImage a => .cropImage (a.setStr name value)
  | .viewer a => .viewer (a.setStr name value)
  | .resampleImage a => .resampleImage (a.setStr name value)

/-- attrblock.rs:35, dynamic dispatch of `get_attr_i32`. -/
def getI32 (b : NodeAttrs F) (name : String) : Int :=
  match b with
  | .null a => a.getI32 name
  | .readImage a => a.getI32 name
  | .writeImage a => a.getI32 name
  | .grade a => a.getI32 name
  | .lensDistort a => a.getI32 name
  | .transform a => a.getI32 name
  | .mergeImage a => a.getI32 name
  | .cropImage a => a.getI32 name
  | .viewer a => a.getI32 name
  | .resampleImage a => a.getI32 name

/-- attrblock.rs:36, dynamic dispatch of `set_attr_i32`. -/
def setI32 (b : NodeAttrs F) (name : String) (value : Int) : NodeAttrs F :=
  match b with
  | .null a => .null (a.setI32 name value)
  | .readImage a => .readImage (a.setI32 name value)
  | .writeImage a => .writeImage (a.setI32 name value)
  | .grade a => .grade (a.setI32 name value)
  | .lensDistort a => .lensDistort (a.setI32 name value)
  | .transform a => .transform (a.setI32 name value)
  | .mergeImage a => .mergeImage (a.setI32 name value)
  | .cropImage a => .cropImage (a.setI32 name value)
  | .viewer a => .viewer (a.setI32 name value)
  | .resampleImage a => .resampleImage (a.setI32 name value)

/-- attrblock.rs:38, dynamic dispatch of `get_attr_f32`. -/
def getF32 (b : NodeAttrs F) (name : String) : F :=
  match b with
  | .null a => a.getF32 name
  | .readImage a => a.getF32 name
  | .writeImage a => a.getF32 name
  | .grade a => a.getF32 name
  | .lensDistort a => a.getF32 name
  | .transform a => a.getF32 name
  | .mergeImage a => a.getF32 name
  | .cropImage a => a.getF32 name
  | .viewer a => a.getF32 name
  | .resampleImage a => a.getF32 name

/-- attrblock.rs:39, dynamic dispatch of `set_attr_f32`. -/
def setF32 (b : NodeAttrs F) (name : String) (value : F) : NodeAttrs F :=
  match b with
  | .null a => .null (a.setF32 name value)
  | .readImage a => .readImage (a.setF32 name value)
  | .writeImage a => .writeImage (a.setF32 name value)
  | .grade a => .grade (a.setF32 name value)
  | .lensDistort a => .lensDistort (a.setF32 name value)
  | .transform a => .transform (a.setF32 name value)
  | .mergeImage a => .mergeImage (a.setF32 name value)
  | .cropImage a => .cropImage (a.setF32 name value)
  | .viewer a => .viewer (a.setF32 name value)
  | .resampleImage a => .resampleImage (a.setF32 name value)

end NodeAttrs

/-- node.rs:49-56 `NodeImpl` (the operation and the validator have no state). -/
structure Node (F : Type) where
  id : Nat
  status : NodeStatus
  attrs : NodeAttrs F

namespace Node

variable {F : Type} [FloatLike F]

/-- node.rs:202-222 `create_node`, `create_node_box_with_id`. -/
def create (t : NodeType) (id : Nat) : Node F := ⟨id, .uninitialized, .create t⟩

/-- node.rs:136-138 `attr_exists`. -/
def attrExists (n : Node F) (name : String) : AttrState := n.attrs.attrExists name

/-- node.rs:144-153 `get_attr_str`. -/
def getStr (n : Node F) (name : String) : Bytes :=
  match n.attrs.attrExists name with
  | .exists => n.attrs.getStr name
  | .missing => []

/-- node.rs:155-161 `set_attr_str`. -/
def setStr (n : Node F) (name : String) (value : Bytes) : Node F :=
  match n.attrs.attrExists name with
  | .exists => { n with attrs := n.attrs.setStr name value }
  | .missing => n

/-- node.rs:163-172 `get_attr_i32`. -/
def getI32 (n : Node F) (name : String) : Int :=
  match n.attrs.attrExists name with
  | .exists => n.attrs.getI32 name
  | .missing => 0

/-- node.rs:174-180 `set_attr_i32`. -/
def setI32 (n : Node F) (name : String) (value : Int) : Node F :=
  match n.attrs.attrExists name with
  | .exists => { n with attrs := n.attrs.setI32 name value }
  | .missing => n

/-- node.rs:182-191 `get_attr_f32`. -/
def getF32 (n : Node F) (name : String) : F :=
  match n.attrs.attrExists name with
  | .exists => n.attrs.getF32 name
  | .missing => 0

/-- node.rs:193-199 `set_attr_f32`. -/
def setF32 (n : Node F) (name : String) (value : F) : Node F :=
  match n.attrs.attrExists name with
  | .exists => { n with attrs := n.attrs.setF32 name value }
  | .missing => n

end Node

/-- graph.rs:130-139 `node_attr_exists`. -/
def Graph.nodeAttrExists {F S : Type} [FloatLike F] (g : Graph (Node F) S) (id : Nat)
    (name : String) : Res AttrState := g.query id .missing (·.attrExists name)

/-- graph.rs:141-150 `get_node_attr_str`. -/
def Graph.getNodeStr {F S : Type} [FloatLike F] (g : Graph (Node F) S) (id : Nat)
    (name : String) : Res Bytes := g.query id [] (·.getStr name)

/-- graph.rs:166-175 `get_node_attr_i32`. -/
def Graph.getNodeI32 {F S : Type} [FloatLike F] (g : Graph (Node F) S) (id : Nat)
    (name : String) : Res Int := g.query id 0 (·.getI32 name)

/-- graph.rs:191-200 `get_node_attr_f32`. -/
def Graph.getNodeF32 {F S : Type} [FloatLike F] (g : Graph (Node F) S) (id : Nat)
    (name : String) : Res F := g.query id 0 (·.getF32 name)

/-- graph.rs:152-164 `set_node_attr_str`. -/
def Graph.setNodeStr {F S : Type} [FloatLike F] (g : Graph (Node F) S) (id : Nat)
    (name : String) (value : Bytes) : Res (Graph (Node F) S) :=
  g.setAttr id (·.setStr name value)

/-- graph.rs:177-189 `set_node_attr_i32`. -/
def Graph.setNodeI32 {F S : Type} [FloatLike F] (g : Graph (Node F) S) (id : Nat)
    (name : String) (value : Int) : Res (Graph (Node F) S) :=
  g.setAttr id (·.setI32 name value)

/-- graph.rs:202-214 `set_node_attr_f32`. -/
def Graph.setNodeF32 {F S : Type} [FloatLike F] (g : Graph (Node F) S) (id : Nat)
    (name : String) (value : F) : Res (Graph (Node F) S) :=
  g.setAttr id (·.setF32 name value)

end OCG
