import Verif.Model.Config
import Verif.Model.Ieee
/-
Model of the memory part of src/config.rs with Rust's `f32` (see Verif/Model/Ieee.lean).
-/

namespace OCG

/-- The cast `as usize` of config.rs:57: truncated and saturated to 64 bits, NaN gives 0. -/
def Ieee.toUsize {f : Format} (x : Ieee f) : Nat := (x.toRange 0 18446744073709551615).toNat

/-- config.rs:54-59 `ram_capacity_bytes` (and config.rs:98-100 `cache_ram_capacity_bytes`) for
`f32`; `totalBytes` is `get_total_system_memory_as_bytes()`. -/
def Config.capacityBytes [Libm single32] (totalBytes : Nat) (c : Config F32) : Nat :=
  c.ramCapacityBytes Ieee.toUsize totalBytes

end OCG
