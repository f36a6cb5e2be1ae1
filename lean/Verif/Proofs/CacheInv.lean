import Verif.Proofs.Cache
/-
Invariants of the cache model.
-/

namespace OCG.Cache

open CacheSpec

variable {V : Type} {size : V → Nat} {p : Profile}

/-- Byte count exact, keys distinct, magnitudes below `allocLimit`. -/
structure Exact (size : V → Nat) (c : Cache V) : Prop where
  used : c.used = total size c.lru
  nodup : (keys c.lru).Nodup
  small : c.used < allocLimit
  cap : c.capacity < allocLimit

theorem usub_of_le {a b : Nat} (h : b ≤ a) : usub p a b = .ok (a - b) := by
  unfold usub; rw [if_pos h]

theorem usub_debug {a b : Nat} (h : ¬ b ≤ a) : usub .debug a b = .error .overflow := by
  unfold usub; rw [if_neg h]

theorem usub_release {a b : Nat} (h : ¬ b ≤ a) :
    usub .release a b = .ok (a + usizeMod - b) := by
  unfold usub; rw [if_neg h]

theorem uadd_of_lt {a b : Nat} (h : a + b < usizeMod) : uadd p a b = .ok (a + b) := by
  unfold uadd; rw [if_pos h]

theorem exact_init (cap : Nat) (h : cap < allocLimit) :
    Exact size (withCapacity cap : Cache V) :=
  ⟨rfl, by simp [withCapacity, keys], by rw [allocLimit_eq]; simp [withCapacity], h⟩

theorem nodup_suffix {α : Type} {a b : List α} (h : a <:+ b) (hb : b.Nodup) : a.Nodup := by
  obtain ⟨t, rfl⟩ := h
  exact (List.nodup_append.mp hb).2.1

/-- What an insert keeps of the old entries. -/
def keepInsert (size : V → Nat) (c : Cache V) (v : V) : List (Nat × V) :=
  if c.used + size v < c.capacity then c.lru
  else if c.used = 0 then c.lru
  else dropUntil size (c.capacity - size v) c.lru

theorem keepInsert_suffix (c : Cache V) (v : V) : keepInsert size c v <:+ c.lru := by
  unfold keepInsert
  split
  · exact List.suffix_refl _
  · split
    · exact List.suffix_refl _
    · exact dropUntil_suffix _ _

/-- Result of a successful insert. -/
def afterInsert (size : V → Nat) (c : Cache V) (k : Nat) (v : V) : Cache V :=
  { c with lru := mapInsert (keepInsert size c v) k v
           used := total size (keepInsert size c v) + size v
           inserts := c.inserts + 1
           evictions := c.evictions + (c.lru.length - (keepInsert size c v).length) }

/-- An insert either fits (and then succeeds with `afterInsert`) or is larger than the
capacity; then a debug build panics and a release build evicts everything. -/
theorem insert_eq (c : Cache V) (k : Nat) (v : V) (hx : Exact size c) (hv : size v < allocLimit)
    (hc : c.capacity ≠ 0) :
    insert size p c k v =
      if size v ≤ c.capacity ∨ p = .release then .ok (afterInsert size c k v)
      else .error .overflow := by
  obtain ⟨hu, hn, hs, hcap⟩ := hx
  have hM : usizeMod = 2 ^ 64 := usizeMod_eq
  have hL : allocLimit = 2 ^ 63 := allocLimit_eq
  have hle : total size (keepInsert size c v) ≤ c.used := by
    rw [hu]; exact total_suffix_le (keepInsert_suffix c v)
  have hsum : c.used + size v < usizeMod := by omega
  have hsum2 : total size (keepInsert size c v) + size v < usizeMod := by omega
  unfold insert
  simp only [hc, if_false, uadd_of_lt hsum, bind, Except.bind, ge_iff_le]
  by_cases h1 : c.capacity ≤ c.used + size v
  · rw [if_pos h1]
    by_cases h2 : size v ≤ c.capacity
    · have h3 : c.capacity - size v ≤ c.used := by omega
      rw [usub_of_le h2, if_pos (Or.inl h2)]
      simp only
      rw [usub_of_le h3]
      simp only
      rw [evictBytes_eq c _ hu]
      have hk : keepBytes size c (c.used - (c.capacity - size v)) = keepInsert size c v := by
        unfold keepBytes keepInsert
        have h4 : ¬ (c.used + size v < c.capacity) := by omega
        have h5 : ¬ (c.used - (c.capacity - size v) > c.used) := by omega
        have h6 : c.used - (c.used - (c.capacity - size v)) = c.capacity - size v := by omega
        simp only [hc, h4, h5, h6, if_false]
      simp only [hk, uadd_of_lt hsum2, afterInsert]
    · cases p with
      | debug =>
        rw [usub_debug h2, if_neg]
        simp [h2]
      | release =>
        have h3 : ¬ (c.capacity + usizeMod - size v ≤ c.used) := by omega
        rw [usub_release h2, if_pos (Or.inr rfl)]
        dsimp only
        rw [usub_release h3]
        dsimp only
        rw [evictBytes_eq c _ hu]
        have h5 : c.used + usizeMod - (c.capacity + usizeMod - size v)
            = c.used + size v - c.capacity := by omega
        have hk : keepBytes size c (c.used + size v - c.capacity)
            = keepInsert size c v := by
          unfold keepBytes keepInsert
          have h4 : ¬ (c.used + size v < c.capacity) := by omega
          have h5 : (c.used + size v - c.capacity > c.used) := by omega
          have h6 : c.capacity - size v = 0 := by omega
          simp only [hc, h4, h5, h6, if_false, if_true]
        rw [h5]
        simp only [hk, uadd_of_lt hsum2, afterInsert]
  · have h2 : size v ≤ c.capacity := by omega
    have h3 : c.used + size v < c.capacity := by omega
    have hk : keepInsert size c v = c.lru := by simp [keepInsert, h3]
    simp only [h1, h2, if_false, if_true, true_or, afterInsert, hk, ← hu]
    simp

/-- Where the kept entries stand relative to the capacity. -/
theorem total_keepInsert (c : Cache V) (v : V) (hu : c.used = total size c.lru) :
    total size (keepInsert size c v) + size v < c.capacity ∨
      total size (keepInsert size c v) = 0 := by
  unfold keepInsert
  split
  · left; omega
  · split
    · right; omega
    · rcases total_dropUntil (size := size) (c.capacity - size v) c.lru with h | h
      · left; omega
      · right; rw [h]; rfl

theorem exact_afterInsert (c : Cache V) (k : Nat) (v : V) (hx : Exact size c)
    (hv : size v < allocLimit) (hf : find c.lru k = none) :
    Exact size (afterInsert size c k v) := by
  have hsuf := keepInsert_suffix (size := size) c v
  have hk : k ∉ keys (keepInsert size c v) := by
    intro h
    exact (find_none_iff _ _).mp hf ((keys_suffix hsuf).subset h)
  refine ⟨?_, ?_, ?_, hx.cap⟩
  · simp only [afterInsert, mapInsert, eraseKey_of_fresh _ _ hk, total_append, total]
    omega
  · simp only [afterInsert, keys_mapInsert]
    exact nodup_use _ _ (nodup_suffix (keys_suffix hsuf) hx.nodup)
  · have := hx.cap
    simp only [afterInsert]
    rcases total_keepInsert (size := size) c v hx.used with h | h <;> omega

theorem get_snd (c : Cache V) (k : Nat) : (get c k).2 = find c.lru k := by
  unfold get
  split <;> simp_all

theorem get_lru (c : Cache V) (k : Nat) :
    (get c k).1.lru =
      match find c.lru k with | some v => eraseKey c.lru k ++ [(k, v)] | none => c.lru := by
  unfold get
  cases find c.lru k <;> rfl

theorem get_used (c : Cache V) (k : Nat) : (get c k).1.used = c.used := by
  unfold get
  split <;> rfl

theorem get_capacity (c : Cache V) (k : Nat) : (get c k).1.capacity = c.capacity := by
  unfold get
  split <;> rfl

theorem keys_get (c : Cache V) (k : Nat) :
    keys (get c k).1.lru = if (get c k).2.isSome then use (keys c.lru) k else keys c.lru := by
  rw [get_snd, get_lru]
  cases h : find c.lru k with
  | none => simp
  | some v =>
    have := keys_mapInsert c.lru k v
    simpa [mapInsert] using this

theorem exact_get (c : Cache V) (k : Nat) (hx : Exact size c) : Exact size (get c k).1 := by
  refine ⟨?_, ?_, ?_, ?_⟩
  · rw [get_used, get_lru, hx.used]
    cases h : find c.lru k with
    | none => rfl
    | some v =>
      simp only [total_append, total]
      have := total_eraseKey (size := size) c.lru k v hx.nodup h
      omega
  · rw [keys_get]
    split
    · exact nodup_use _ _ hx.nodup
    · exact hx.nodup
  · rw [get_used]; exact hx.small
  · rw [get_capacity]; exact hx.cap

theorem exact_evictBytes (c c' : Cache V) (n : Nat) (hx : Exact size c)
    (h : evictBytes size p c n = .ok c') : Exact size c' := by
  rw [evictBytes_eq c n hx.used] at h
  simp only [Except.ok.injEq] at h
  subst h
  have hs := keepBytes_suffix (size := size) c n
  refine ⟨rfl, nodup_suffix (keys_suffix hs) hx.nodup, ?_, hx.cap⟩
  have := total_suffix_le (size := size) hs
  have := hx.used
  have := hx.small
  simp only
  omega

/-- Result of a capacity change. -/
def afterResize (size : V → Nat) (c : Cache V) (n : Nat) : Cache V :=
  if n < c.used then
    { c with lru := keepBytes size c (c.used - n)
             used := total size (keepBytes size c (c.used - n))
             evictions := c.evictions + (c.lru.length - (keepBytes size c (c.used - n)).length)
             capacity := n }
  else { c with capacity := n }

theorem setCapacity_eq (c : Cache V) (n : Nat) (hu : c.used = total size c.lru) :
    setCapacity size p c n = .ok (afterResize size c n) := by
  unfold setCapacity afterResize
  split
  · rw [evictBytes_eq c _ hu]; rfl
  · rfl

theorem evict_eq (c : Cache V) (hx : Exact size c) :
    evict size p c = .ok
      (match c.lru with
       | [] => (c, false)
       | _ :: rest => ({ c with lru := rest, used := total size rest,
                                evictions := c.evictions + 1 }, true)) := by
  have hu := hx.used
  unfold evict
  cases h : c.lru with
  | nil => rfl
  | cons e r =>
    rw [h] at hu
    simp only [total] at hu
    have h1 : size e.2 ≤ c.used := by omega
    have h2 : c.used - size e.2 = total size r := by omega
    simp [usub, bind, Except.bind, h1, h2]

theorem exact_tail (c : Cache V) (e : Nat × V) (rest : List (Nat × V)) (n : Nat)
    (hx : Exact size c) (h : c.lru = e :: rest) :
    Exact size { c with lru := rest, used := total size rest, evictions := n } := by
  obtain ⟨hu, hn, hs, hcap⟩ := hx
  rw [h] at hu hn
  simp only [keys, List.map_cons, List.nodup_cons, total] at hu hn
  refine ⟨rfl, hn.2, ?_, hcap⟩
  simp only
  omega

/-- Exactness is preserved by every call whose inserts use non-resident keys. -/
theorem exact_step (c c' : Cache V) (op : Op V) (o : Option V) (a : Allow) (ha : a.fresh = true)
    (hx : Exact size c) (hok : Allowed size a c op)
    (h : step size p c op = .ok (c', o)) : Exact size c' := by
  cases op with
  | insert k v =>
    obtain ⟨hv, hf, _⟩ := hok
    have hf := hf ha
    simp only [step, bind, Except.bind] at h
    by_cases hc : c.capacity = 0
    · simp only [insert, hc, if_true] at h
      simp only [Except.ok.injEq, Prod.mk.injEq] at h
      rw [← h.1]; exact hx
    · rw [insert_eq c k v hx hv hc] at h
      split at h
      · simp at h
      · rename_i c'' heq
        split at heq
        · simp only [Except.ok.injEq, Prod.mk.injEq] at h heq
          rw [← h.1, ← heq]
          exact exact_afterInsert c k v hx hv hf
        · simp at heq
  | get k =>
    simp only [step, Except.ok.injEq] at h
    have := exact_get (size := size) c k hx
    rw [h] at this; exact this
  | setCapacity n =>
    have hn : n < allocLimit := hok
    simp only [step, bind, Except.bind, setCapacity_eq c n hx.used, Except.ok.injEq,
      Prod.mk.injEq] at h
    rw [← h.1, afterResize]
    split
    · have := exact_evictBytes (p := p) c _ (c.used - n) hx (evictBytes_eq c _ hx.used)
      exact ⟨this.used, this.nodup, this.small, hn⟩
    · exact ⟨hx.used, hx.nodup, hx.small, hn⟩
  | evictBytes n =>
    simp only [step, bind, Except.bind] at h
    rw [evictBytes_eq c _ hx.used] at h
    simp only [Except.ok.injEq, Prod.mk.injEq] at h
    rw [← h.1]
    exact exact_evictBytes (p := p) c _ n hx (evictBytes_eq c _ hx.used)
  | evictAll =>
    simp only [step, bind, Except.bind, evictAll] at h
    rw [evictAllLoop_eq _ _ (Nat.le_refl _) hx.used] at h
    simp only [Except.ok.injEq, Prod.mk.injEq] at h
    rw [← h.1]
    exact ⟨rfl, by simp [keys], by rw [allocLimit_eq]; simp, hx.cap⟩
  | evict =>
    simp only [step, bind, Except.bind, evict_eq c hx] at h
    cases hl : c.lru with
    | nil =>
      simp only [hl, Except.ok.injEq, Prod.mk.injEq] at h
      rw [← h.1]; exact hx
    | cons e r =>
      simp only [hl, Except.ok.injEq, Prod.mk.injEq] at h
      rw [← h.1]
      exact exact_tail c e r _ hx hl

theorem exact_run (c c' : Cache V) (ops : List (Op V)) (a : Allow) (ha : a.fresh = true)
    (hx : Exact size c) (hok : AllowedRun size p a c ops)
    (h : run size p c ops = .ok c') : Exact size c' := by
  induction ops generalizing c with
  | nil =>
    simp only [run, Except.ok.injEq] at h
    rw [← h]; exact hx
  | cons op ops ih =>
    simp only [run, bind, Except.bind] at h
    split at h
    · simp at h
    · rename_i r hr
      obtain ⟨h1, h2⟩ := hok
      exact ih r.1 (exact_step c r.1 op r.2 a ha hx h1 hr) (h2 r.1 r.2 hr) h

/-- The used bytes never exceed the capacity, for inserts of non-resident, fitting images. -/
theorem bound_step (c c' : Cache V) (op : Op V) (o : Option V) (a : Allow)
    (haf : a.fits = true)
    (hx : Exact size c) (hb : c.used ≤ c.capacity) (hok : Allowed size a c op)
    (h : step size p c op = .ok (c', o)) : c'.used ≤ c'.capacity := by
  cases op with
  | insert k v =>
    obtain ⟨hv, _, hfit⟩ := hok
    simp only [step, bind, Except.bind] at h
    by_cases hc : c.capacity = 0
    · simp only [insert, hc, if_true] at h
      simp only [Except.ok.injEq, Prod.mk.injEq] at h
      rw [← h.1]; exact hb
    · rw [insert_eq c k v hx hv hc] at h
      have hfit := hfit haf hc
      simp only [hfit, true_or, if_true, Except.ok.injEq, Prod.mk.injEq] at h
      rw [← h.1]
      simp only [afterInsert]
      rcases total_keepInsert (size := size) c v hx.used with h | h <;> omega
  | get k =>
    simp only [step, Except.ok.injEq] at h
    have h1 := get_used c k
    have h2 := get_capacity c k
    rw [h] at h1 h2
    simp only at h1 h2
    omega
  | setCapacity n =>
    simp only [step, bind, Except.bind, setCapacity_eq c n hx.used, Except.ok.injEq,
      Prod.mk.injEq] at h
    rw [← h.1, afterResize]
    split
    · rename_i hlt
      simp only [keepBytes]
      have h0 : c.used ≠ 0 := by omega
      have hc : c.capacity ≠ 0 := by omega
      have h5 : ¬ (c.used - n > c.used) := by omega
      have h6 : c.used - (c.used - n) = n := by omega
      simp only [h0, hc, h5, h6, if_false]
      rcases total_dropUntil (size := size) n c.lru with h | h
      · omega
      · rw [h]; simp [total]
    · simp only
      omega
  | evictBytes n =>
    simp only [step, bind, Except.bind] at h
    rw [evictBytes_eq c _ hx.used] at h
    simp only [Except.ok.injEq, Prod.mk.injEq] at h
    rw [← h.1]
    have := total_suffix_le (size := size) (keepBytes_suffix (size := size) c n)
    have := hx.used
    simp only
    omega
  | evictAll =>
    simp only [step, bind, Except.bind, evictAll] at h
    rw [evictAllLoop_eq _ _ (Nat.le_refl _) hx.used] at h
    simp only [Except.ok.injEq, Prod.mk.injEq] at h
    rw [← h.1]
    simp
  | evict =>
    simp only [step, bind, Except.bind, evict_eq c hx] at h
    cases hl : c.lru with
    | nil =>
      simp only [hl, Except.ok.injEq, Prod.mk.injEq] at h
      rw [← h.1]; exact hb
    | cons e r =>
      simp only [hl, Except.ok.injEq, Prod.mk.injEq] at h
      rw [← h.1]
      have hu := hx.used
      rw [hl] at hu
      simp only [total] at hu ⊢
      omega

theorem bound_run (c c' : Cache V) (ops : List (Op V)) (a : Allow) (ha : a.fresh = true)
    (haf : a.fits = true) (hx : Exact size c) (hb : c.used ≤ c.capacity)
    (hok : AllowedRun size p a c ops) (h : run size p c ops = .ok c') :
    c'.used ≤ c'.capacity := by
  induction ops generalizing c with
  | nil =>
    simp only [run, Except.ok.injEq] at h
    rw [← h]; exact hb
  | cons op ops ih =>
    simp only [run, bind, Except.bind] at h
    split at h
    · simp at h
    · rename_i r hr
      obtain ⟨h1, h2⟩ := hok
      exact ih r.1 (exact_step c r.1 op r.2 a ha hx h1 hr)
        (bound_step c r.1 op r.2 a haf hx hb h1 hr) (h2 r.1 r.2 hr) h

/-- No call panics when inserts use non-resident, fitting images. -/
theorem step_ok (c : Cache V) (op : Op V) (a : Allow) (haf : a.fits = true)
    (hx : Exact size c) (hok : Allowed size a c op) :
    ∃ c' o, step size p c op = .ok (c', o) := by
  cases op with
  | insert k v =>
    obtain ⟨hv, _, hfit⟩ := hok
    by_cases hc : c.capacity = 0
    · exact ⟨c, none, by simp [step, insert, hc, bind, Except.bind]⟩
    · have hfit := hfit haf hc
      exact ⟨afterInsert size c k v, none, by
        simp [step, bind, Except.bind, insert_eq c k v hx hv hc, hfit]⟩
  | get k => exact ⟨(get c k).1, (get c k).2, rfl⟩
  | setCapacity n =>
    simp only [step, bind, Except.bind, setCapacity_eq c n hx.used]; exact ⟨_, _, rfl⟩
  | evictBytes n =>
    simp only [step, bind, Except.bind]
    rw [evictBytes_eq c _ hx.used]; exact ⟨_, _, rfl⟩
  | evictAll =>
    simp only [step, bind, Except.bind, evictAll]
    rw [evictAllLoop_eq _ _ (Nat.le_refl _) hx.used]; exact ⟨_, _, rfl⟩
  | evict =>
    simp only [step, bind, Except.bind, evict_eq c hx]; exact ⟨_, _, rfl⟩

theorem run_ok (c : Cache V) (ops : List (Op V)) (a : Allow) (ha : a.fresh = true)
    (haf : a.fits = true) (hx : Exact size c)
    (hok : AllowedRun size p a c ops) : ∃ c', run size p c ops = .ok c' := by
  induction ops generalizing c with
  | nil => exact ⟨c, rfl⟩
  | cons op ops ih =>
    obtain ⟨h1, h2⟩ := hok
    obtain ⟨c', o, hs⟩ := step_ok (p := p) c op a haf hx h1
    obtain ⟨c'', hr⟩ := ih c' (exact_step c c' op o a ha hx h1 hs) (h2 c' o hs)
    exact ⟨c'', by simp [run, bind, Except.bind, hs, hr]⟩

end OCG.Cache
