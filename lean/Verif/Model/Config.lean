import Verif.Model.Float
import Verif.Model.Hash
/-
Model of src/config.rs.  The file system, the environment, the YAML parser and the amount of
memory of the machine are parameters.
-/

namespace OCG

/-- Is the value a NaN? (`x != x`, IEEE; std, external.) -/
def isNan {F : Type} [FloatLike F] (x : F) : Bool := !FloatLike.eq x x

/-- `f32::min` (std, external): the other argument if one is NaN. -/
def fmin {F : Type} [FloatLike F] (a b : F) : F :=
  if isNan a then b else if isNan b then a else if FloatLike.lt b a then b else a

/-- `f32::max` (std, external): the other argument if one is NaN. -/
def fmax {F : Type} [FloatLike F] (a b : F) : F :=
  if isNan a then b else if isNan b then a else if FloatLike.lt a b then b else a

/-- config.rs:36-43 `ConfigCache`, 66-70 `ConfigThreading` and 85-89 `ConfigImpl`, with the
fields of the two parts side by side. -/
structure Config (F : Type) where
  ramCapacityPercent : F
  numThreads : Int

namespace Config

variable {F : Type} [FloatLike F]

/-- config.rs:45-51, 72-76 and the derived `Default` of `ConfigImpl`. -/
def default : Config F := { ramCapacityPercent := 0, numThreads := 0 }

/-- config.rs:61-63 `ram_capacity_percent`. -/
def ramFactor (c : Config F) : F :=
  fmax (fmin (c.ramCapacityPercent / FloatLike.ofInt 100) 0) 1

/-- config.rs:54-59 `ram_capacity_bytes`; `totalBytes` is
`get_total_system_memory_as_bytes()` and `toUsize` the cast `f32 as usize`. -/
def ramCapacityBytes (toUsize : F → Nat) (totalBytes : Nat) (c : Config F) : Nat :=
  toUsize (FloatLike.ofInt totalBytes * c.ramFactor)

/-- config.rs:120-144 `get_config_path`.  `paths` are the directories of the environment
variable (`env::split_paths`, empty list if the variable is not set), `join` is
`PathBuf::push`, `isFile` is `Path::is_file` and `toStr` is `Path::to_str`. -/
def getConfigPath {P : Type} (join : P → P) (isFile : P → Bool) (toStr : P → Option Bytes) :
    List P → Bytes
  | [] => []
  | d :: ds =>
    if isFile (join d) then
      match toStr (join d) with
      | some v => v
      | none => getConfigPath join isFile toStr ds
    else getConfigPath join isFile toStr ds

/-- config.rs:146-156 `get_config`; `load` is config.rs:91-95 `load_config`, `none` when the
file cannot be read or parsed (`expect` panics). -/
def getConfig {P : Type} (join : P → P) (isFile : P → Bool) (toStr : P → Option Bytes)
    (load : Bytes → Option (Config F)) (paths : List P) : Res (Config F) :=
  match getConfigPath join isFile toStr paths with
  | [] => .ok default
  | path =>
    match load path with
    | some c => .ok c
    | none => .error .explicit

end Config
end OCG
