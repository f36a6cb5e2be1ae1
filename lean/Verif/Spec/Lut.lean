import Verif.Spec.Field
import Verif.Spec.Pixels
import Verif.Model.Lut
/-
Independent specification of identity lookup tables and of their cache keys.
-/

namespace OCG.LutSpec

/-- Step `k` of an axis with `n` entries from 0 to 1. -/
def step {F : Type} [Field F] (n k : Nat) : F := (k : F) / ((n : F) - 1)

/-- `values` lists the `n * n * n` colours of the regular lattice, red fastest, then green, then
blue. -/
def IsLattice {F : Type} [Field F] (n : Nat) (values : List F) : Prop :=
  values.length = n * n * n * 3 ∧
  ∀ r g b, r < n → g < n → b < n →
    PixelSpec.pixel 3 values ((b * n + g) * n + r) = [step n r, step n g, step n b]

/-- An integer that fits `i32` survives `ceil` and the cast. -/
class CeilLaws (F : Type) [Field F] [LinearOrder F] [FloatOps F] : Prop where
  exact : ∀ k : Int, InI32 k → FloatOps.toI32 (FloatOps.ceil (k : F)) = k

/-- What a client asks of the table functions and of their cache. -/
inductive Call (F : Type) where
  | transform (src dst : Bytes) (cubeSize : Int)
  | operations (ops : List (GradeOp F)) (cubeSize numChannels : Int)
  | setCapacity (bytes : Nat)

section
variable {F H : Type} [FloatLike F] [HalfLike F H]

/-- The answer without any cache. -/
def Call.fresh (p : Profile) (lib : ColorLib F) : Call F → Res (Option (Image F H))
  | .transform src dst n => (generateTransformLut p lib n 3 src dst).map some
  | .operations ops n m => (generateOpsLut p n m ops).map some
  | .setCapacity _ => .ok none

variable [FloatBits F]

/-- A client that makes calls one after the other on one cache gets `answers`. -/
inductive Session (p : Profile) (hf : ByteHash) (lib : ColorLib F) :
    Cache (Image F H) → List (Call F) → List (Option (Image F H)) → Prop
  | done (cache) : Session p hf lib cache [] []
  | transform {src dst n cache cache' image calls answers} :
      getTransformLut p hf lib src dst n cache = .ok (cache', image) →
      Session p hf lib cache' calls answers →
      Session p hf lib cache (.transform src dst n :: calls) (some image :: answers)
  | operations {n m cache cache' image calls answers} {stream : Stream F H} :
      getOpsLut p hf stream n m cache = .ok (cache', image) →
      Session p hf lib cache' calls answers →
      Session p hf lib cache (.operations stream.colorOps n m :: calls) (some image :: answers)
  | setCapacity {bytes cache cache' calls answers} :
      cache.setCapacity Image.sizeBytes p bytes = .ok cache' →
      Session p hf lib cache' calls answers →
      Session p hf lib cache (.setCapacity bytes :: calls) (none :: answers)

/-- The byte streams hashed for a call. -/
def Call.streams (hf : ByteHash) : Call F → List Bytes
  | .transform src dst n => [hashBytes (transformLutItems src dst n)]
  | .operations ops n m =>
    hashBytes (opsLutItems (colorOpsHash hf ops) n m) ::
      hashBytes (ops.map fun op => .u64 (hf (hashBytes op.hashItems))) ::
      ops.map fun op => hashBytes op.hashItems
  | .setCapacity _ => []

end
end OCG.LutSpec
