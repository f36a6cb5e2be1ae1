import Verif.Spec.Cache
/-
Helper lemmas about the cache model.
-/

namespace OCG.Cache

open CacheSpec

variable {V : Type} {size : V → Nat} {p : Profile}

/-- Shortest suffix of the entries whose total is below `req` (or the empty list). -/
def dropUntil (size : V → Nat) (req : Nat) : List (Nat × V) → List (Nat × V)
  | [] => []
  | e :: rest => if req ≤ total size (e :: rest) then dropUntil size req rest else e :: rest

theorem total_append (a b : List (Nat × V)) :
    total size (a ++ b) = total size a + total size b := by
  induction a with
  | nil => simp [total]
  | cons e r ih => simp [total, ih]; omega

theorem dropUntil_length (req : Nat) (l : List (Nat × V)) :
    (dropUntil size req l).length ≤ l.length := by
  induction l with
  | nil => simp [dropUntil]
  | cons e r ih =>
    simp only [dropUntil]
    split
    · simp; omega
    · simp

theorem dropUntil_suffix (req : Nat) (l : List (Nat × V)) :
    dropUntil size req l <:+ l := by
  induction l with
  | nil => simp [dropUntil]
  | cons e r ih =>
    simp only [dropUntil]
    split
    · exact ih.trans (List.suffix_cons e r)
    · exact List.suffix_refl _

theorem total_dropUntil (req : Nat) (l : List (Nat × V)) :
    total size (dropUntil size req l) < req ∨ dropUntil size req l = [] := by
  induction l with
  | nil => simp [dropUntil]
  | cons e r ih =>
    simp only [dropUntil]
    split
    · exact ih
    · left; omega

theorem total_dropUntil_le (req : Nat) (l : List (Nat × V)) :
    total size (dropUntil size req l) ≤ total size l := by
  obtain ⟨a, h⟩ := dropUntil_suffix (size := size) req l
  rw [← h]
  simp only [total_append]
  rw [h]
  omega

theorem dropUntil_zero (l : List (Nat × V)) : dropUntil size 0 l = [] := by
  induction l with
  | nil => rfl
  | cons e r ih => simp [dropUntil, ih]

/-- Exact effect of the eviction loop when the byte count is exact. -/
theorem evictWhile_eq (req : Nat) :
    ∀ (fuel : Nat) (c : Cache V), c.lru.length ≤ fuel → c.used = total size c.lru →
      evictWhile size p req fuel c = .ok
        { c with lru := dropUntil size req c.lru
                 used := total size (dropUntil size req c.lru)
                 evictions := c.evictions + (c.lru.length - (dropUntil size req c.lru).length) } := by
  intro fuel
  induction fuel with
  | zero =>
    intro c hl hu
    obtain ⟨l, _, u, _, _, _, _⟩ := c
    simp only [Nat.le_zero, List.length_eq_zero_iff] at hl hu
    subst hl; subst hu
    simp [evictWhile, dropUntil, total]
  | succ n ih =>
    intro c hl hu
    obtain ⟨l, cap, u, h, m, i, ev⟩ := c
    cases l with
    | nil =>
      simp only at hu
      subst hu
      simp [evictWhile, dropUntil, total]
    | cons e r =>
      simp only at hu
      subst hu
      simp only [evictWhile, evict, usub, total, dropUntil, List.length_cons]
      by_cases hreq : req ≤ size e.2 + total size r
      · have h1 : size e.2 ≤ size e.2 + total size r := by omega
        simp only [hreq, true_and, Nat.zero_lt_succ, if_true, h1, bind, Except.bind, gt_iff_lt]
        have hlen : r.length ≤ n := by simpa using hl
        have := ih { lru := r, capacity := cap, used := size e.2 + total size r - size e.2,
                     hits := h, misses := m, inserts := i, evictions := ev + 1 } hlen (by simp)
        rw [this]
        have hd := dropUntil_length (size := size) req r
        simp only [Except.ok.injEq, Cache.mk.injEq, true_and]
        omega
      · simp [hreq, total]

/-- Exact effect of `evict_all` when the byte count is exact. -/
theorem evictAllLoop_eq :
    ∀ (fuel : Nat) (c : Cache V), c.lru.length ≤ fuel → c.used = total size c.lru →
      evictAllLoop size p fuel c = .ok
        { c with lru := [], used := 0, evictions := c.evictions + c.lru.length } := by
  intro fuel
  induction fuel with
  | zero =>
    intro c hl hu
    obtain ⟨l, _, u, _, _, _, _⟩ := c
    simp only [Nat.le_zero, List.length_eq_zero_iff] at hl hu
    subst hl; subst hu
    simp [evictAllLoop, total]
  | succ n ih =>
    intro c hl hu
    obtain ⟨l, cap, u, h, m, i, ev⟩ := c
    cases l with
    | nil =>
      simp only at hu
      subst hu
      simp [evictAllLoop, total]
    | cons e r =>
      simp only at hu
      subst hu
      have h1 : size e.2 ≤ size e.2 + total size r := by omega
      have hlen : r.length ≤ n := by simpa using hl
      have := ih { lru := r, capacity := cap, used := size e.2 + total size r - size e.2,
                   hits := h, misses := m, inserts := i, evictions := ev + 1 } hlen (by simp)
      simp only [evictAllLoop, evict, usub, total, List.length_cons, Nat.zero_lt_succ, if_true,
        bind, Except.bind, gt_iff_lt, h1]
      rw [this]
      simp only [Except.ok.injEq, Cache.mk.injEq, true_and]
      omega

/-- The list `evict_bytes n` leaves. -/
def keepBytes (size : V → Nat) (c : Cache V) (n : Nat) : List (Nat × V) :=
  if c.used = 0 then c.lru
  else if c.capacity = 0 then []
  else dropUntil size (if n > c.used then 0 else c.used - n) c.lru

theorem evictBytes_eq (c : Cache V) (n : Nat) (hu : c.used = total size c.lru) :
    evictBytes size p c n = .ok
      { c with lru := keepBytes size c n
               used := total size (keepBytes size c n)
               evictions := c.evictions + (c.lru.length - (keepBytes size c n).length) } := by
  unfold evictBytes keepBytes
  by_cases h0 : c.lru.length = 0
  · have hn : c.lru = [] := List.length_eq_zero_iff.mp h0
    have hu0 : c.used = 0 := by rw [hu, hn]; rfl
    obtain ⟨l, cap, u, h, m, i, ev⟩ := c
    simp only at hn hu0
    subst hn; subst hu0
    simp [total]
  · by_cases h1 : c.used = 0
    · obtain ⟨l, cap, u, h, m, i, ev⟩ := c
      simp only at h1 hu h0
      subst h1
      simp [h0, ← hu]
    · by_cases h2 : c.capacity = 0
      · simp only [h0, h1, h2, if_true, if_false]
        rw [evictAll, evictAllLoop_eq _ _ (Nat.le_refl _) hu]
        simp [h2, total]
      · simp only [h0, h1, h2, if_false]
        rw [evictWhile_eq _ _ _ (Nat.le_refl _) hu]

theorem keepBytes_suffix (c : Cache V) (n : Nat) : keepBytes size c n <:+ c.lru := by
  unfold keepBytes
  split
  · exact List.suffix_refl _
  · split
    · exact List.nil_suffix
    · exact dropUntil_suffix _ _

theorem total_suffix_le {a b : List (Nat × V)} (h : a <:+ b) :
    total size a ≤ total size b := by
  obtain ⟨t, ht⟩ := h
  rw [← ht, total_append]
  omega

/-! ### Key lists -/

/-- The keys of the entries. -/
def keys (l : List (Nat × V)) : List Nat := l.map Prod.fst

theorem find_none_iff (l : List (Nat × V)) (k : Nat) : find l k = none ↔ k ∉ keys l := by
  induction l with
  | nil => simp [find, keys]
  | cons e r ih =>
    obtain ⟨k', v⟩ := e
    simp only [find, keys, List.map_cons, List.mem_cons, not_or]
    split
    · rename_i h; simp [h]
    · rename_i h
      rw [ih]
      constructor
      · intro h2; exact ⟨fun e => h e.symm, h2⟩
      · intro h2; exact h2.2

theorem eraseKey_of_fresh (l : List (Nat × V)) (k : Nat) (h : k ∉ keys l) :
    eraseKey l k = l := by
  unfold eraseKey
  rw [List.filter_eq_self]
  intro e he
  simp only [ne_eq, decide_not, Bool.not_eq_eq_eq_not, Bool.not_true, decide_eq_false_iff_not]
  intro h2
  apply h
  rw [← h2]
  exact List.mem_map_of_mem he

theorem keys_eraseKey (l : List (Nat × V)) (k : Nat) :
    keys (eraseKey l k) = (keys l).filter (· ≠ k) := by
  induction l with
  | nil => rfl
  | cons e r ih =>
    simp only [eraseKey, keys, List.map_cons, List.filter_cons] at ih ⊢
    by_cases h : e.1 = k
    · simp [h, ih] at ih ⊢
      exact ih
    · simp only [ne_eq, h, not_false_eq_true, decide_true, if_true, List.map_cons]
      rw [← ih]

theorem keys_mapInsert (l : List (Nat × V)) (k : Nat) (v : V) :
    keys (mapInsert l k v) = use (keys l) k := by
  simp only [mapInsert, use, ← keys_eraseKey]
  simp [keys]

theorem nodup_use (l : List Nat) (k : Nat) (h : l.Nodup) : (use l k).Nodup := by
  unfold use
  rw [List.nodup_append]
  refine ⟨h.filter _, by simp, ?_⟩
  intro a ha b hb
  simp at ha hb
  omega

theorem find_eraseKey (l : List (Nat × V)) (k j : Nat) :
    find (eraseKey l k) j = if j = k then none else find l j := by
  induction l with
  | nil => simp [eraseKey, find]
  | cons e r ih =>
    obtain ⟨k', v⟩ := e
    simp only [eraseKey, List.filter_cons] at ih ⊢
    by_cases h : k' = k
    · subst h
      simp only [ne_eq, not_true_eq_false, decide_false, Bool.false_eq_true, if_false]
      rw [ih]
      by_cases hj : j = k'
      · simp [hj]
      · simp [hj, find, Ne.symm hj]
    · simp only [ne_eq, h, not_false_eq_true, decide_true, if_true, find]
      rw [ih]
      by_cases hj : k' = j
      · subst hj; simp [h]
      · simp [hj]

theorem find_append (a b : List (Nat × V)) (j : Nat) :
    find (a ++ b) j = match find a j with | some v => some v | none => find b j := by
  induction a with
  | nil => simp [find]
  | cons e r ih =>
    obtain ⟨k', v⟩ := e
    simp only [List.cons_append, find]
    split
    · rfl
    · exact ih

theorem find_mapInsert (l : List (Nat × V)) (k j : Nat) (v : V) :
    find (mapInsert l k v) j = if j = k then some v else find l j := by
  rw [mapInsert, find_append, find_eraseKey]
  by_cases h : j = k
  · simp [h, find]
  · simp only [h, if_false]
    cases find l j <;> simp [find, Ne.symm h]

/-- Looking a key up in a suffix of a duplicate-free list gives nothing or the same value. -/
theorem find_suffix {a b : List (Nat × V)} (h : a <:+ b) (hn : (keys b).Nodup) (j : Nat) (v : V)
    (hf : find a j = some v) : find b j = some v := by
  obtain ⟨t, rfl⟩ := h
  rw [find_append]
  have hj : j ∈ keys a := by
    by_cases hj : j ∈ keys a
    · exact hj
    · rw [(find_none_iff a j).mpr hj] at hf; simp at hf
  have : find t j = none := by
    rw [find_none_iff]
    intro ht
    rw [keys, List.map_append, List.nodup_append] at hn
    exact hn.2.2 j ht j hj rfl
  rw [this]
  exact hf

theorem keys_suffix {a b : List (Nat × V)} (h : a <:+ b) : keys a <:+ keys b := by
  obtain ⟨t, rfl⟩ := h
  exact ⟨keys t, by simp [keys]⟩

theorem total_eraseKey (l : List (Nat × V)) (k : Nat) (v : V) (hn : (keys l).Nodup)
    (hf : find l k = some v) : total size (eraseKey l k) + size v = total size l := by
  induction l with
  | nil => simp [find] at hf
  | cons e r ih =>
    obtain ⟨k', w⟩ := e
    simp only [keys, List.map_cons, List.nodup_cons] at hn
    simp only [find] at hf
    by_cases h : k' = k
    · subst h
      simp at hf
      subst hf
      have : eraseKey ((k', w) :: r) k' = r := by
        have := eraseKey_of_fresh r k' hn.1
        simp only [eraseKey, List.filter_cons] at this ⊢
        simp [this] at this ⊢
        exact this
      rw [this]
      simp [total]; omega
    · simp only [h, if_false] at hf
      have := ih hn.2 hf
      simp only [eraseKey, List.filter_cons, ne_eq, h, not_false_eq_true, decide_true, if_true,
        total] at this ⊢
      omega

theorem length_eraseKey (l : List (Nat × V)) (k : Nat) (v : V) (hn : (keys l).Nodup)
    (hf : find l k = some v) : (eraseKey l k).length + 1 = l.length := by
  induction l with
  | nil => simp [find] at hf
  | cons e r ih =>
    obtain ⟨k', w⟩ := e
    simp only [keys, List.map_cons, List.nodup_cons] at hn
    simp only [find] at hf
    by_cases h : k' = k
    · subst h
      have : eraseKey ((k', w) :: r) k' = r := by
        have := eraseKey_of_fresh r k' hn.1
        simp only [eraseKey, List.filter_cons] at this ⊢
        simp [this] at this ⊢
        exact this
      rw [this]
      simp
    · simp only [h, if_false] at hf
      have := ih hn.2 hf
      simp only [eraseKey, List.filter_cons, ne_eq, h, not_false_eq_true, decide_true, if_true,
        List.length_cons] at this ⊢
      omega

end OCG.Cache
