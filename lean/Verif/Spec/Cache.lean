import Verif.Model.Cache
/-
Independent specifications for the cache: what a user expects, without
reference to how the cache stores its entries.
-/

namespace OCG.CacheSpec

variable {V : Type}

/-- Total size of a list of images. -/
def total (size : V → Nat) : List (Nat × V) → Nat
  | [] => 0
  | e :: rest => size e.2 + total size rest

/-- What an ideal unbounded store would contain: the capacity in force and, for each
key, the last image inserted while the capacity was not zero. -/
structure Ideal (V : Type) where
  cap : Nat
  last : Nat → Option V

/-- Effect of a call on the ideal store.  Evictions do not affect it. -/
def Ideal.step (s : Ideal V) : Cache.Op V → Ideal V
  | .insert k v =>
    if s.cap = 0 then s else { s with last := fun j => if j = k then some v else s.last j }
  | .setCapacity n => { s with cap := n }
  | _ => s

/-- Ideal store after a history. -/
def Ideal.run (s : Ideal V) (ops : List (Cache.Op V)) : Ideal V := ops.foldl Ideal.step s

/-- The ideal store of a fresh cache. -/
def Ideal.init (cap : Nat) : Ideal V := { cap := cap, last := fun _ => none }

/-- Keys ordered by last use: `use k` moves `k` to the most-recently-used end. -/
def use (recency : List Nat) (k : Nat) : List Nat := recency.filter (· ≠ k) ++ [k]

/-- Recency list after a call, computed only from the call and its observable
outcome: an insert (while the capacity is not zero) and a successful lookup are uses. -/
def recencyStep (cap : Nat) (recency : List Nat) : Cache.Op V → Option V → List Nat
  | .insert k _, _ => if cap = 0 then recency else use recency k
  | .get k, some _ => use recency k
  | _, _ => recency

/-- Number of lookups in a history. -/
def gets : List (Cache.Op V) → Nat
  | [] => 0
  | .get _ :: rest => gets rest + 1
  | _ :: rest => gets rest

/-- A sequence of calls together with the keys ordered by last use. -/
def runRecency (size : V → Nat) (p : Profile) (c : Cache V) (recency : List Nat) :
    List (Cache.Op V) → Res (Cache V × List Nat)
  | [] => .ok (c, recency)
  | op :: ops => do
    let r ← Cache.step size p c op
    runRecency size p r.1 (recencyStep c.capacity recency op r.2) ops

/-- Side conditions on one call in a given state.  `fresh`: an inserted key is not
resident.  `fits`: an inserted image is not larger than the capacity. -/
structure Allow where
  fresh : Bool
  fits : Bool

/-- The side conditions `a` hold for call `op` in state `c`; image sizes and capacities
are below `allocLimit` (2^63) bytes. -/
def Allowed (size : V → Nat) (a : Allow) (c : Cache V) : Cache.Op V → Prop
  | .insert k v =>
    size v < allocLimit ∧ (a.fresh = true → Cache.find c.lru k = none) ∧
      (a.fits = true → c.capacity ≠ 0 → size v ≤ c.capacity)
  | .setCapacity n => n < allocLimit
  | _ => True

/-- The side conditions hold at each call of a history. -/
def AllowedRun (size : V → Nat) (p : Profile) (a : Allow) :
    Cache V → List (Cache.Op V) → Prop
  | _, [] => True
  | c, op :: ops =>
    Allowed size a c op ∧
      ∀ c' o, Cache.step size p c op = .ok (c', o) → AllowedRun size p a c' ops

end OCG.CacheSpec

namespace OCG.CacheSpec

variable {V : Type}

/-- The cache calls that the public API can trigger: a node or LUT requests an image under
a key (supplying the image to store on a miss), and the user changes the capacity. -/
inductive Client (V : Type) where
  | request (k : Nat) (v : V)
  | resize (n : Nat)

/-- One client call. -/
def Client.step (size : V → Nat) (p : Profile) (c : Cache V) : Client V → Res (Cache V)
  | .request k v => do let r ← Cache.getOrInsert size p c k v; .ok r.1
  | .resize n => Cache.setCapacity size p c n

/-- A sequence of client calls. -/
def clientRun (size : V → Nat) (p : Profile) (c : Cache V) : List (Client V) → Res (Cache V)
  | [] => .ok c
  | op :: ops => do
    let c' ← Client.step size p c op
    clientRun size p c' ops

/-- Sizes and capacities in a client history are below 2^63 bytes (`cap` is the capacity in
force).  With `fits` no requested image is larger than the capacity in force. -/
def ClientOk (size : V → Nat) (fits : Bool) : Nat → List (Client V) → Prop
  | _, [] => True
  | cap, .request _ v :: ops =>
    size v < allocLimit ∧ (fits = true → cap ≠ 0 → size v ≤ cap) ∧ ClientOk size fits cap ops
  | _, .resize n :: ops => n < allocLimit ∧ ClientOk size fits n ops

/-- Number of image requests in one client call. -/
def Client.requests : Client V → Nat
  | .request _ _ => 1
  | .resize _ => 0

end OCG.CacheSpec
