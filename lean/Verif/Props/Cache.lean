import Verif.Proofs.CacheGood
/-
Properties C01-C09: the image cache.

`size` gives the byte size of an image.  The library itself only ever uses the cache through
"look up, insert on a miss" requests and capacity changes (`CacheSpec.Client`); `Cache.Op`
are the individual calls of cache.rs.
-/

namespace OCG.Props

open Cache CacheSpec

variable {V : Type} {size : V → Nat} {p : Profile}

/-- An image whose value is its own size, for the concrete cases. -/
private abbrev sz : Nat → Nat := id

/-! ### C01 -/

/-- C01: after any history of requests and capacity changes, the used byte count is the sum
of the sizes of the resident images. -/
theorem C01_cache_bytes_exact (cap : Nat) (hcap : cap < allocLimit) (ops : List (Client V))
    (hok : ClientOk size false cap ops) (c' : Cache V)
    (h : clientRun size p (withCapacity cap) ops = .ok c') :
    c'.used = total size c'.lru :=
  (client_run_exact _ c' ops false (exact_init cap hcap) hok h).used

/-- Small numbers are below 2^63. -/
private theorem small (n : Nat) (h : n < 1000) : n < allocLimit := by
  rw [allocLimit_eq]; omega

/-- Small numbers are below 2^64. -/
private theorem small64 (n : Nat) (h : n < 1000) : n < usizeMod := by
  rw [usizeMod_eq]; omega

example : ClientOk sz true 10
    [.request 1 4, .request 2 3, .request 1 4, .request 3 5, .resize 6, .request 4 2] := by
  simp only [ClientOk, id]
  refine ⟨small _ ?_, ?_, small _ ?_, ?_, small _ ?_, ?_, small _ ?_, ?_, small _ ?_,
    small _ ?_, ?_, trivial⟩ <;> simp

/-- C01 for individual cache calls: the byte count is exact as long as no call inserts under
a key that is still resident. -/
theorem C01_cache_bytes_exact_raw_partial (cap : Nat) (hcap : cap < allocLimit)
    (ops : List (Op V)) (fits : Bool)
    (hok : AllowedRun size p ⟨true, fits⟩ (withCapacity cap) ops) (c' : Cache V)
    (h : run size p (withCapacity cap) ops = .ok c') :
    c'.used = total size c'.lru :=
  (exact_run _ c' ops ⟨true, fits⟩ rfl (exact_init cap hcap) hok h).used

/-- Why the raw version is partial: inserting twice under one key counts the bytes twice. -/
theorem C01_raw_counterexample :
    run sz .debug (withCapacity 100) [.insert 1 10, .insert 1 10] =
      .ok { lru := [(1, 10)], capacity := 100, used := 20, hits := 0, misses := 0,
            inserts := 2, evictions := 0 } := by
  have u (a b : Nat) (h : a + b < 1000) : uadd .debug a b = .ok (a + b) :=
    uadd_of_lt (small64 _ h)
  simp [run, step, Cache.insert, withCapacity, bind, Except.bind, mapInsert, eraseKey, u]

/-! ### C02 -/

/-- C02 (images not larger than the capacity in force): after every request or capacity
change the used bytes, which are the bytes of the resident images, are within the capacity.
Missing: requests for images larger than the capacity, see `C02_counterexample`. -/
theorem C02_cache_within_capacity_partial (cap : Nat) (hcap : cap < allocLimit)
    (ops : List (Client V)) (hok : ClientOk size true cap ops) (c' : Cache V)
    (h : clientRun size p (withCapacity cap) ops = .ok c') :
    c'.used ≤ c'.capacity ∧ total size c'.lru ≤ c'.capacity := by
  have h1 := client_run_bound _ c' ops (exact_init cap hcap) (Nat.zero_le _) hok h
  have h2 := (client_run_exact _ c' ops true (exact_init cap hcap) hok h).used
  exact ⟨h1, by omega⟩

/-- C02 for individual calls, under the same conditions. -/
theorem C02_cache_within_capacity_raw_partial (cap : Nat) (hcap : cap < allocLimit)
    (ops : List (Op V)) (hok : AllowedRun size p ⟨true, true⟩ (withCapacity cap) ops)
    (c' : Cache V) (h : run size p (withCapacity cap) ops = .ok c') :
    c'.used ≤ c'.capacity :=
  bound_run _ c' ops ⟨true, true⟩ rfl rfl (exact_init cap hcap) (Nat.zero_le _) hok h

/-- Why C02 is partial: in a release build an image larger than the whole capacity is
stored, and the cache then reports more used bytes than its capacity. -/
theorem C02_counterexample :
    ∃ c', clientRun sz .release (withCapacity 10) [.request 1 20] = .ok c' ∧
      c'.capacity = 10 ∧ c'.used = 20 := by
  have hx : Exact sz { (withCapacity 10 : Cache Nat) with misses := 1 } := by
    have := exact_init (size := sz) 10 (small _ (by omega))
    exact ⟨this.used, this.nodup, this.small, this.cap⟩
  have := insert_eq (p := .release) _ 1 20 hx (small _ (by simp)) (by simp [withCapacity])
  rw [if_pos (Or.inr rfl)] at this
  refine ⟨afterInsert sz { (withCapacity 10 : Cache Nat) with misses := 1 } 1 20, ?_, ?_, ?_⟩
  · exact Res.bind_ok.mpr ⟨_, Res.bind_ok.mpr ⟨(_, 20), Res.bind_ok.mpr ⟨_, this, rfl⟩, rfl⟩, rfl⟩
  · rfl
  · rfl

/-! ### C03 -/

/-- C03: after any history of calls, in both build profiles and for any image sizes, a lookup
returns nothing or the image last inserted under the key (`Ideal` records the last insert
made while the capacity was not zero). -/
theorem C03_lookup_never_wrong (cap : Nat) (ops : List (Op V)) (c' : Cache V)
    (h : run size p (withCapacity cap) ops = .ok c') (k : Nat) :
    (get c' k).2 = none ∨ (get c' k).2 = ((Ideal.init cap).run ops).last k := by
  have ha : Agrees (withCapacity cap : Cache V) (Ideal.init cap) :=
    ⟨rfl, by simp [withCapacity, keys], by simp [withCapacity, find]⟩
  have := (agrees_run _ c' ops _ ha h).sound k
  rw [get_snd]
  cases hf : find c'.lru k with
  | none => exact Or.inl rfl
  | some v => exact Or.inr (this v hf).symm

/-- C03, hits: an image is found immediately after it was inserted. -/
theorem C03_lookup_after_insert (c c' : Cache V) (k : Nat) (v : V) (hc : c.capacity ≠ 0)
    (h : Cache.insert size p c k v = .ok c') : (get c' k).2 = some v := by
  obtain ⟨d, _, hl, _⟩ := insert_shape c c' k v hc h
  rw [get_snd, hl, find_mapInsert, if_pos rfl]

/-- C03, completeness: as long as nothing has been evicted every inserted image is found. -/
theorem C03_lookup_complete (cap : Nat) (ops : List (Op V)) (c' : Cache V)
    (h : run size p (withCapacity cap) ops = .ok c') (hev : c'.evictions = 0) (k : Nat) :
    (get c' k).2 = ((Ideal.init cap).run ops).last k := by
  have ha : Agrees (withCapacity cap : Cache V) (Ideal.init cap) :=
    ⟨rfl, by simp [withCapacity, keys], by simp [withCapacity, find]⟩
  rw [get_snd]
  exact complete_run _ c' ops _ ha (fun _ _ => rfl) h hev k

/-- C03, requests: a request that finds nothing gives the image computed for it; otherwise it gives
the resident image, which was computed for an earlier request under the same key. -/
theorem C03_request (cap : Nat) (ops : List (Client V)) (c c' : Cache V)
    (h : clientRun size p (withCapacity cap) ops = .ok c) (k : Nat) (v out : V)
    (hr : getOrInsert size p c k v = .ok (c', out)) :
    ((get c k).2 = none ∧ out = v) ∨ ((get c k).2 = some out ∧ Client.request k out ∈ ops) := by
  have good : ∀ (ops : List (Client V)) (c d : Cache V) (G : Nat → V → Prop), Good G c →
      (∀ k v, Client.request k v ∈ ops → G k v) → clientRun size p c ops = .ok d → Good G d := by
    intro ops
    induction ops with
    | nil => intro c d G hg _ e; cases e; exact hg
    | cons op ops ih =>
      intro c d G hg hG e
      obtain ⟨c1, e1, e⟩ := Res.bind_ok.mp e
      refine ih c1 d G ?_ (fun k v h => hG k v (List.mem_cons_of_mem _ h)) e
      cases op with
      | resize n => exact hg.setCapacity e1
      | request k v =>
        obtain ⟨r, hr, e1⟩ := Res.bind_ok.mp e1
        cases e1
        have h1 := (hg.get k).1
        unfold getOrInsert at hr
        cases hc : c.get k with
        | mk c2 o =>
          rw [hc] at hr h1
          cases o with
          | some u => cases hr; exact h1
          | none =>
            obtain ⟨c3, hi, hr⟩ := Res.bind_ok.mp hr
            cases hr
            exact h1.insert (hG k v List.mem_cons_self) hi
  have hg := good ops _ c (fun k v => Client.request k v ∈ ops) (good_empty _ rfl)
    (fun _ _ h => h) h
  unfold getOrInsert at hr
  cases hc : c.get k with
  | mk c2 o =>
    rw [hc] at hr
    cases o with
    | some u =>
      cases hr
      exact .inr ⟨rfl, (hg.get k).2 out (by rw [hc])⟩
    | none =>
      obtain ⟨c3, hi, hr⟩ := Res.bind_ok.mp hr
      cases hr
      exact .inl ⟨rfl, rfl⟩

/-- The second request for key 1 gives the image of the first. -/
example : ∃ c', getOrInsert sz .debug ⟨[(1, 4)], 10, 4, 0, 1, 1, 0⟩ 1 7 = .ok (c', 4) ∧
    clientRun sz .debug (withCapacity 10) [.request 1 4] = .ok ⟨[(1, 4)], 10, 4, 0, 1, 1, 0⟩ := by
  have u (a b : Nat) (h : a + b < 1000) : uadd .debug a b = .ok (a + b) :=
    uadd_of_lt (small64 _ h)
  refine ⟨_, rfl, ?_⟩
  simp [clientRun, Client.step, getOrInsert, Cache.get, find, withCapacity, Cache.insert, bind,
    Except.bind, mapInsert, eraseKey, u]

/-- The state used in the concrete cases: three inserts and a lookup. -/
private theorem demo_run :
    run sz .debug (withCapacity 10) [.insert 1 4, .insert 2 3, .get 1, .insert 3 5] =
      .ok { lru := [(1, 4), (3, 5)], capacity := 10, used := 9, hits := 1, misses := 0,
            inserts := 3, evictions := 1 } := by
  have u (a b : Nat) (h : a + b < 1000) : uadd .debug a b = .ok (a + b) :=
    uadd_of_lt (small64 _ h)
  have s (a b : Nat) (h : b ≤ a) : usub .debug a b = .ok (a - b) := usub_of_le h
  simp [run, step, Cache.insert, withCapacity, bind, Except.bind, mapInsert, eraseKey, Cache.get, find,
    u, s, evictBytes, evictWhile, evict]

example : ∃ c', run sz .debug (withCapacity 10)
      [.insert 1 4, .insert 2 3, .get 1, .insert 3 5] = .ok c' ∧
    (get c' 1).2 = some 4 ∧ (get c' 2).2 = none :=
  ⟨_, demo_run, rfl, rfl⟩

example : ((Ideal.init 10).run
    ([.insert 1 4, .insert 2 3, .get 1, .insert 3 5] : List (Op Nat))).last 2 = some 3 := rfl

/-! ### C04 -/

/-- C04: after any history, the resident keys in eviction order are the most recently used
keys: an image that is gone (or was never evicted from the `recency` list of all keys ever
used) was used before every resident one. -/
theorem C04_eviction_is_lru (cap : Nat) (ops : List (Op V)) (c' : Cache V) (r : List Nat)
    (h : runRecency size p (withCapacity cap) [] ops = .ok (c', r)) (k j : Nat)
    (hk : k ∈ r) (hgone : find c'.lru k = none) (hj : find c'.lru j ≠ none) :
    r.idxOf k < r.idxOf j := by
  obtain ⟨h1, h2, _⟩ := recency_run (withCapacity cap) c' ops [] r
    (by simp [withCapacity, keys]) List.nodup_nil h
  have hk' := (find_none_iff _ _).mp hgone
  have hj' : j ∈ keys c'.lru := by
    by_cases hh : j ∈ keys c'.lru
    · exact hh
    · exact absurd ((find_none_iff _ _).mpr hh) hj
  obtain ⟨t, ht⟩ := h1
  rw [← ht] at hk h2 ⊢
  have hkt : k ∈ t := by
    rcases List.mem_append.mp hk with h | h
    · exact h
    · exact absurd h hk'
  have hjt : j ∉ t := fun hjt => (List.nodup_append.mp h2).2.2 j hjt j hj' rfl
  rw [List.idxOf_append, List.idxOf_append, if_pos hkt, if_neg hjt]
  have := List.idxOf_lt_length_of_mem hkt
  omega

/-- C04, order: entries are dropped in order of last use, that is, the resident keys in
eviction order form the most recent end of the list of keys by last use. -/
theorem C04_eviction_order (cap : Nat) (ops : List (Op V)) (c' : Cache V) (r : List Nat)
    (h : runRecency size p (withCapacity cap) [] ops = .ok (c', r)) :
    c'.lru.map Prod.fst <:+ r :=
  (recency_run (withCapacity cap) c' ops [] r
    (by simp [withCapacity, keys]) List.nodup_nil h).1

/-- Key 2 was evicted; keys 1 and 3 were used more recently. -/
example : ∃ c', runRecency sz .debug (withCapacity 10) []
      [.insert 1 4, .insert 2 3, .get 1, .insert 3 5] = .ok (c', [2, 1, 3]) ∧
    find c'.lru 2 = none ∧ find c'.lru 1 ≠ none := by
  have u (a b : Nat) (h : a + b < 1000) : uadd .debug a b = .ok (a + b) :=
    uadd_of_lt (small64 _ h)
  have s (a b : Nat) (h : b ≤ a) : usub .debug a b = .ok (a - b) := usub_of_le h
  simp [runRecency, recencyStep, use, step, Cache.insert, withCapacity, bind, Except.bind,
    mapInsert, eraseKey, Cache.get, find, u, s, evictBytes, evictWhile, evict]

/-! ### C05 -/

/-- C05: a cache created with capacity zero and never given a positive capacity never panics,
holds nothing, uses no bytes and misses every lookup. -/
theorem C05_zero_capacity_stores_nothing (ops : List (Op V))
    (hops : ∀ n, Op.setCapacity n ∈ ops → n = 0) :
    ∃ c' : Cache V, run size p (withCapacity 0) ops = .ok c' ∧ c'.lru = [] ∧ c'.used = 0 ∧
      ∀ k, (get c' k).2 = none := by
  suffices H : ∀ c : Cache V, c.lru = [] → c.used = 0 → c.capacity = 0 →
      ∃ c' : Cache V, run size p c ops = .ok c' ∧ c'.lru = [] ∧ c'.used = 0 by
    obtain ⟨c', h1, h2, h3⟩ := H (withCapacity 0) rfl rfl rfl
    exact ⟨c', h1, h2, h3, fun k => by rw [get_snd, h2]; rfl⟩
  induction ops with
  | nil => exact fun c h1 h2 _ => ⟨c, rfl, h1, h2⟩
  | cons op ops ih =>
    intro c h1 h2 h3
    have ih := ih (fun n hn => hops n (List.mem_cons_of_mem _ hn))
    have hstep : ∃ d o, step size p c op = .ok (d, o) ∧ d.lru = [] ∧ d.used = 0 ∧
        d.capacity = 0 := by
      cases op with
      | insert k v => exact ⟨c, none, by simp [step, Cache.insert, h3, bind, Except.bind], h1, h2, h3⟩
      | get k =>
        exact ⟨(get c k).1, (get c k).2, rfl, by rw [get_lru, h1]; rfl, by rw [get_used, h2],
          by rw [get_capacity, h3]⟩
      | setCapacity n =>
        have hn := hops n (List.mem_cons_self ..)
        subst hn
        exact ⟨{ c with capacity := 0 }, none, by
          simp [step, setCapacity, h2, bind, Except.bind], h1, h2, rfl⟩
      | evictBytes n =>
        exact ⟨c, none, by simp [step, evictBytes, h1, bind, Except.bind], h1, h2, h3⟩
      | evictAll =>
        exact ⟨c, none, by simp [step, evictAll, evictAllLoop, h1, bind, Except.bind], h1, h2, h3⟩
      | evict =>
        exact ⟨c, none, by simp [step, evict, h1, bind, Except.bind], h1, h2, h3⟩
    obtain ⟨d, o, hd, g1, g2, g3⟩ := hstep
    obtain ⟨c', hr, k1, k2⟩ := ih d g1 g2 g3
    exact ⟨c', by simp [run, hd, bind, Except.bind, hr], k1, k2⟩

example : ∀ n, Op.setCapacity n ∈ ([.insert 1 4, .get 1, .setCapacity 0, .insert 2 0, .evict] :
    List (Op Nat)) → n = 0 := by simp

/-! ### C06 -/

/-- C06: in every state reached by requests and capacity changes, setting the capacity
succeeds, the capacity reads back, the resident images fit into it, only least recently used
images are dropped, and none is dropped if they already fitted. -/
theorem C06_shrink_fits (cap : Nat) (hcap : cap < allocLimit) (ops : List (Client V))
    (hok : ClientOk size false cap ops) (c : Cache V)
    (h : clientRun size p (withCapacity cap) ops = .ok c) (v : Nat) :
    ∃ c', setCapacity size p c v = .ok c' ∧ c'.capacity = v ∧ c'.used ≤ v ∧
      total size c'.lru ≤ v ∧ c'.lru <:+ c.lru ∧ (c.used ≤ v → c'.lru = c.lru) := by
  have hx := client_run_exact _ c ops false (exact_init cap hcap) hok h
  refine ⟨_, setCapacity_eq c v hx.used, ?_⟩
  unfold afterResize
  split
  · rename_i hlt
    refine ⟨rfl, ?_, ?_, keepBytes_suffix _ _, fun hle => by omega⟩ <;>
    · simp only [keepBytes]
      have h0 : c.used ≠ 0 := by omega
      have h5 : ¬ (c.used - v > c.used) := by omega
      have h6 : c.used - (c.used - v) = v := by omega
      simp only [h0, h5, h6, if_false]
      split
      · simp [total]
      · rcases total_dropUntil (size := size) v c.lru with h | h
        · omega
        · rw [h]; simp [total]
  · have := hx.used
    exact ⟨rfl, by simp only; omega, by simp only; omega, List.suffix_refl _, fun _ => rfl⟩

/-- Shrinking from 10 to 6 with images of 4 and 5 bytes resident drops the older one. -/
example : setCapacity sz .debug
    { lru := [(1, 4), (3, 5)], capacity := 10, used := 9, hits := 0, misses := 0,
      inserts := 2, evictions := 0 } 6 =
    .ok { lru := [(3, 5)], capacity := 6, used := 5, hits := 0, misses := 0,
          inserts := 2, evictions := 1 } := rfl

/-! ### C07 -/

/-- C07 (up to exact fits): in every state reached by requests and capacity changes,
inserting an image that is not larger than the capacity keeps a most recently used part of
the entries; it drops nothing if the image leaves room to spare, and it never drops more than
needed: with one more entry kept the total would reach the capacity.
Missing: an image that fills the cache exactly also causes an eviction, see
`C07_counterexample`. -/
theorem C07_minimal_eviction_partial (cap : Nat) (hcap : cap < allocLimit)
    (ops : List (Client V)) (hok : ClientOk size false cap ops) (c : Cache V)
    (h : clientRun size p (withCapacity cap) ops = .ok c) (k : Nat) (v : V)
    (hc : c.capacity ≠ 0) (hv : size v ≤ c.capacity) :
    ∃ c' dropped kept, Cache.insert size p c k v = .ok c' ∧ c.lru = dropped ++ kept ∧
      c'.lru = kept.filter (fun e => e.1 ≠ k) ++ [(k, v)] ∧
      (total size c.lru + size v < c.capacity → dropped = []) ∧
      (∀ s, s <:+ c.lru → kept.length < s.length → c.capacity ≤ total size s + size v) := by
  have hx := client_run_exact _ c ops false (exact_init cap hcap) hok h
  have hv' : size v < allocLimit := Nat.lt_of_le_of_lt hv hx.cap
  have hi := insert_eq (p := p) c k v hx hv' hc
  rw [if_pos (Or.inl hv)] at hi
  obtain ⟨t, ht⟩ := keepInsert_suffix (size := size) c v
  refine ⟨_, t, keepInsert size c v, hi, ht.symm, rfl, ?_, ?_⟩
  · intro hlt
    rw [← hx.used] at hlt
    have : keepInsert size c v = c.lru := by simp [keepInsert, hlt]
    rw [this] at ht
    simpa using ht
  · intro s hs hlen
    have hsl := hs.length_le
    unfold keepInsert at hlen
    split at hlen
    · omega
    · split at hlen
      · omega
      · have := dropUntil_minimal _ _ _ hs hlen
        omega

/-- Why C07 is partial: 6 bytes are used of 10, an image of 4 bytes would fit exactly, but
the insert evicts the older image. -/
theorem C07_counterexample :
    Cache.insert sz .debug
      { lru := [(1, 6)], capacity := 10, used := 6, hits := 0, misses := 1,
        inserts := 1, evictions := 0 } 2 4 =
    .ok { lru := [(2, 4)], capacity := 10, used := 4, hits := 0, misses := 1,
          inserts := 2, evictions := 1 } := by
  have u (a b : Nat) (h : a + b < 1000) : uadd .debug a b = .ok (a + b) :=
    uadd_of_lt (small64 _ h)
  have s (a b : Nat) (h : b ≤ a) : usub .debug a b = .ok (a - b) := usub_of_le h
  simp [Cache.insert, bind, Except.bind, mapInsert, eraseKey, u, s, evictBytes, evictWhile, evict]

/-- The state of `C07_counterexample` is reached by a single request. -/
example : clientRun sz .debug (withCapacity 10) [.request 1 6] =
    .ok { lru := [(1, 6)], capacity := 10, used := 6, hits := 0, misses := 1,
          inserts := 1, evictions := 0 } := by
  have u (a b : Nat) (h : a + b < 1000) : uadd .debug a b = .ok (a + b) :=
    uadd_of_lt (small64 _ h)
  simp [clientRun, Client.step, getOrInsert, Cache.get, find, withCapacity, Cache.insert, bind,
    Except.bind, mapInsert, eraseKey, u]

/-! ### C08 -/

/-- C08: after any history of requests and capacity changes, hits plus misses is the number
of requests, inserts never exceed misses, and the entries are the inserts not evicted. -/
theorem C08_counters (cap : Nat) (ops : List (Client V)) (c' : Cache V)
    (h : clientRun size p (withCapacity cap) ops = .ok c') :
    c'.hits + c'.misses = (ops.map Client.requests).sum ∧ c'.inserts ≤ c'.misses ∧
      c'.lru.length + c'.evictions = c'.inserts := by
  obtain ⟨h1, h2⟩ := client_run_counts (withCapacity cap) c' ops h
    ⟨by simp [withCapacity, keys], rfl, Nat.le_refl _⟩
  refine ⟨?_, h1.misses, h1.entries⟩
  rw [h2]; simp [withCapacity]

/-- C08 for individual calls: hits plus misses is the number of lookups. -/
theorem C08_lookup_counter_raw (cap : Nat) (ops : List (Op V)) (c' : Cache V)
    (h : run size p (withCapacity cap) ops = .ok c') : c'.hits + c'.misses = gets ops := by
  rw [run_gets _ c' ops h]; simp [withCapacity]

example : ∃ c', clientRun sz .debug (withCapacity 10) [.request 1 6, .request 1 6] = .ok c' ∧
    c'.hits = 1 ∧ c'.misses = 1 := by
  have u (a b : Nat) (h : a + b < 1000) : uadd .debug a b = .ok (a + b) :=
    uadd_of_lt (small64 _ h)
  simp [clientRun, Client.step, getOrInsert, Cache.get, find, withCapacity, Cache.insert, bind,
    Except.bind, mapInsert, eraseKey, u]

/-! ### C09 -/

/-- C09 (images not larger than the capacity in force): no request or capacity change
panics in either build profile, and both profiles end in the same state, so no subtraction
wraps around in release builds.
Missing: requests for images larger than the capacity, see `C09_counterexample`. -/
theorem C09_no_underflow_partial (cap : Nat) (hcap : cap < allocLimit)
    (ops : List (Client V)) (hok : ClientOk size true cap ops) :
    ∃ c', clientRun size .debug (withCapacity cap) ops = .ok c' ∧
      clientRun size .release (withCapacity cap) ops = .ok c' := by
  obtain ⟨c', h⟩ := client_run_ok (p := .debug) _ ops (exact_init cap hcap) hok
  exact ⟨c', h, client_transfer h⟩

/-- C09 for individual calls: whenever the checked build succeeds, the wrapping build
computes the same state. -/
theorem C09_profiles_agree_raw (c c' : Cache V) (ops : List (Op V))
    (h : run size .debug c ops = .ok c') : run size .release c ops = .ok c' :=
  run_transfer h

/-- Why C09 is partial: a debug build panics when an image larger than the capacity is
inserted. -/
theorem C09_counterexample :
    clientRun sz .debug (withCapacity 10) [.request 1 20] = .error .overflow := by
  have u (a b : Nat) (h : a + b < 1000) : uadd .debug a b = .ok (a + b) :=
    uadd_of_lt (small64 _ h)
  have s (a b : Nat) (h : ¬ b ≤ a) : usub .debug a b = .error .overflow := usub_debug h
  simp [clientRun, Client.step, getOrInsert, Cache.get, find, withCapacity, Cache.insert, bind,
    Except.bind, u, s]

end OCG.Props
