import Verif.Spec.Recall
/-
How much room a cache needs.
-/

namespace OCG.RoomSpec

open RecallSpec

variable {F H : Type}

/-- The bytes of all images in the cache. -/
def bytes (c : Cache (Image F H)) : Nat := (c.lru.map fun e => e.2.sizeBytes).sum

/-- The used bytes are those of the images, and no key is there twice. -/
structure Honest (c : Cache (Image F H)) : Prop where
  used : c.used = bytes c
  keys : (c.lru.map Prod.fst).Nodup

/-- The same world with another cache capacity. -/
def resize (w : World F H) (capacity : Nat) : World F H :=
  ⟨{ w.cache with capacity := capacity }, w.writes⟩

end OCG.RoomSpec
