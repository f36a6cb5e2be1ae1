import Verif.Model.Compute
/-
Model of the C++ class `Graph` (src/graph.cpp) where it does more than call the Rust code.
-/

namespace OCG

variable {F H : Type} [FloatLike F] [HalfLike F H] [FloatConst F] [FloatBits F]

/-- graph.cpp:132-144 `Graph::execute` for whole frames; `static_cast<double>` is `ofInt`.  The
cache is taken out of its owner and put back (graph.cpp:146-155). -/
def Graph.executeWhole (p : Profile) (lib : NodeLib F H) (srt : EdgeSort) (fuel : Nat)
    (g : Graph (Node F) (Stream F H)) (id : Nat) (frames : List Int) (w : World F H) :
    Res (ExecuteStatus × Graph (Node F) (Stream F H) × World F H) :=
  g.execute (nodeSem p lib) srt fuel id (frames.map fun n => (FloatLike.ofInt n : F)) w

end OCG
