import Verif.Model.Prelude
/-
Model of src/cache.rs (the whole file except the debug string).
-/

namespace OCG

/-- cache.rs:48-61 `CacheImpl`.  The `LinkedHashMap` is a list of key/value
pairs in insertion/refresh order, the front being the least recently used entry.
Simplification: the diagnostics counters are unbounded naturals. -/
structure Cache (V : Type) where
  lru : List (Nat × V)
  capacity : Nat
  used : Nat
  hits : Nat
  misses : Nat
  inserts : Nat
  evictions : Nat
  deriving Repr

namespace Cache

variable {V : Type}

/-- cache.rs:71-89 `with_capacity` (and cache.rs:65-68 `new`, which passes 0). -/
def withCapacity (capacity : Nat) : Cache V :=
  { lru := [], capacity := capacity, used := 0, hits := 0, misses := 0,
    inserts := 0, evictions := 0 }

/-- `LinkedHashMap` lookup (linked-hash-map 0.5.4, external crate). -/
def find (l : List (Nat × V)) (k : Nat) : Option V :=
  match l with
  | [] => none
  | (k', v) :: rest => if k' = k then some v else find rest k

/-- Removal of one key from the list model of the `LinkedHashMap`. -/
def eraseKey (l : List (Nat × V)) (k : Nat) : List (Nat × V) :=
  l.filter (fun e => e.1 ≠ k)

/-- `LinkedHashMap::insert` (linked-hash-map 0.5.4): an existing key gets the new
value and moves to the back, a new key is appended at the back. -/
def mapInsert (l : List (Nat × V)) (k : Nat) (v : V) : List (Nat × V) :=
  eraseKey l k ++ [(k, v)]

/-- cache.rs:208-228 `evict`: drop the front entry. -/
def evict (size : V → Nat) (p : Profile) (c : Cache V) : Res (Cache V × Bool) :=
  match c.lru with
  | [] => .ok (c, false)
  | (_, v) :: rest => do
    let used' ← usub p c.used (size v)
    .ok ({ c with lru := rest, used := used', evictions := c.evictions + 1 }, true)

/-- cache.rs:195-197, the loop of `evict_bytes`.  `fuel` is the number of entries,
each iteration removes one. -/
def evictWhile (size : V → Nat) (p : Profile) (requested : Nat) :
    Nat → Cache V → Res (Cache V)
  | 0, c => .ok c
  | fuel + 1, c =>
    if requested ≤ c.used ∧ c.lru.length > 0 then do
      let r ← evict size p c
      evictWhile size p requested fuel r.1
    else .ok c

/-- cache.rs:203-205, the loop of `evict_all`. -/
def evictAllLoop (size : V → Nat) (p : Profile) : Nat → Cache V → Res (Cache V)
  | 0, c => .ok c
  | fuel + 1, c =>
    if c.lru.length > 0 then do
      let r ← evict size p c
      evictAllLoop size p fuel r.1
    else .ok c

/-- cache.rs:200-206 `evict_all`. -/
def evictAll (size : V → Nat) (p : Profile) (c : Cache V) : Res (Cache V) :=
  evictAllLoop size p c.lru.length c

/-- cache.rs:168-198 `evict_bytes`. -/
def evictBytes (size : V → Nat) (p : Profile) (c : Cache V) (n : Nat) : Res (Cache V) :=
  if c.lru.length = 0 then .ok c
  else if c.used = 0 then .ok c
  else if c.capacity = 0 then evictAll size p c
  else
    let requested := if n > c.used then 0 else c.used - n
    evictWhile size p requested c.lru.length c

/-- cache.rs:117-123 `set_capacity_bytes`. -/
def setCapacity (size : V → Nat) (p : Profile) (c : Cache V) (value : Nat) :
    Res (Cache V) :=
  if value < c.used then do
    let c' ← evictBytes size p c (c.used - value)
    .ok { c' with capacity := value }
  else .ok { c with capacity := value }

/-- cache.rs:127-147 `insert`. -/
def insert (size : V → Nat) (p : Profile) (c : Cache V) (k : Nat) (v : V) :
    Res (Cache V) :=
  if c.capacity = 0 then .ok c
  else do
    let expected ← uadd p c.used (size v)
    let c' ←
      if expected ≥ c.capacity then do
        let require ← usub p c.capacity (size v)
        let free ← usub p c.used require
        evictBytes size p c free
      else .ok c
    let used' ← uadd p c'.used (size v)
    .ok { c' with lru := mapInsert c'.lru k v, used := used',
                  inserts := c'.inserts + 1 }

/-- cache.rs:150-163 `get`; `get_refresh` moves a found entry to the back. -/
def get (c : Cache V) (k : Nat) : Cache V × Option V :=
  match find c.lru k with
  | some v =>
    ({ c with lru := eraseKey c.lru k ++ [(k, v)], hits := c.hits + 1 }, some v)
  | none => ({ c with misses := c.misses + 1 }, none)

/-- The public methods of the cache as operations (cache.rs:117, 127, 150, 168,
200, 208). -/
inductive Op (V : Type) where
  | insert (k : Nat) (v : V)
  | get (k : Nat)
  | setCapacity (n : Nat)
  | evictBytes (n : Nat)
  | evictAll
  | evict

/-- One call; the result of a lookup is the second component. -/
def step (size : V → Nat) (p : Profile) (c : Cache V) : Op V → Res (Cache V × Option V)
  | .insert k v => do let c' ← insert size p c k v; .ok (c', none)
  | .get k => .ok (get c k)
  | .setCapacity n => do let c' ← setCapacity size p c n; .ok (c', none)
  | .evictBytes n => do let c' ← evictBytes size p c n; .ok (c', none)
  | .evictAll => do let c' ← evictAll size p c; .ok (c', none)
  | .evict => do let r ← evict size p c; .ok (r.1, none)

/-- A sequence of calls. -/
def run (size : V → Nat) (p : Profile) (c : Cache V) : List (Op V) → Res (Cache V)
  | [] => .ok c
  | op :: ops => do
    let r ← step size p c op
    run size p r.1 ops

/-- The way every client uses the cache: look the key up, and only on a miss compute
the image and insert it (read_image.rs:142-163, merge_image.rs:240-261,
resample_image.rs:162-186, crop_image.rs:195-228, viewer.rs:213-241,
colorlutimage.rs:160-185 and 251-272; there are no other callers of `insert`). -/
def getOrInsert (size : V → Nat) (p : Profile) (c : Cache V) (k : Nat) (v : V) :
    Res (Cache V × V) :=
  match get c k with
  | (c', some v') => .ok (c', v')
  | (c', none) => do
    let c'' ← insert size p c' k v
    .ok (c'', v)

end Cache
end OCG
