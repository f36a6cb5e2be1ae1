import Verif.Proofs.CacheInv
/-
Facts about cache histories that need no side conditions, and client histories.
-/

namespace OCG.Cache

open CacheSpec

variable {V : Type} {size : V → Nat} {p : Profile}

/-- Everything but the entries, the byte count and the eviction counter is unchanged;
the entries lose a prefix, whose length is added to the eviction counter. -/
structure Shrunk (c c' : Cache V) : Prop where
  suffix : c'.lru <:+ c.lru
  capacity : c'.capacity = c.capacity
  hits : c'.hits = c.hits
  misses : c'.misses = c.misses
  inserts : c'.inserts = c.inserts
  evictions : c'.evictions + c'.lru.length = c.evictions + c.lru.length

theorem Shrunk.refl (c : Cache V) : Shrunk c c :=
  ⟨List.suffix_refl _, rfl, rfl, rfl, rfl, rfl⟩

theorem Shrunk.trans {a b c : Cache V} (h : Shrunk a b) (g : Shrunk b c) : Shrunk a c :=
  ⟨g.suffix.trans h.suffix, g.capacity.trans h.capacity, g.hits.trans h.hits,
    g.misses.trans h.misses, g.inserts.trans h.inserts, g.evictions.trans h.evictions⟩

theorem evict_shrunk (c : Cache V) (r : Cache V × Bool) (h : evict size p c = .ok r) :
    Shrunk c r.1 := by
  unfold evict at h
  split at h
  · simp only [Except.ok.injEq] at h
    rw [← h]; exact Shrunk.refl c
  · rename_i k v rest hl
    simp only [bind, Except.bind] at h
    split at h
    · simp at h
    · simp only [Except.ok.injEq] at h
      rw [← h]
      exact ⟨by rw [hl]; exact List.suffix_cons _ _, rfl, rfl, rfl, rfl, by
        simp only [hl, List.length_cons]; omega⟩

theorem evictWhile_shrunk (req : Nat) (fuel : Nat) (c c' : Cache V)
    (h : evictWhile size p req fuel c = .ok c') : Shrunk c c' := by
  induction fuel generalizing c with
  | zero =>
    simp only [evictWhile, Except.ok.injEq] at h
    rw [← h]; exact Shrunk.refl c
  | succ n ih =>
    simp only [evictWhile, bind, Except.bind] at h
    split at h
    · split at h
      · simp at h
      · rename_i r hr
        exact (evict_shrunk c r hr).trans (ih r.1 h)
    · simp only [Except.ok.injEq] at h
      rw [← h]; exact Shrunk.refl c

theorem evictAllLoop_shrunk (fuel : Nat) (c c' : Cache V)
    (h : evictAllLoop size p fuel c = .ok c') : Shrunk c c' := by
  induction fuel generalizing c with
  | zero =>
    simp only [evictAllLoop, Except.ok.injEq] at h
    rw [← h]; exact Shrunk.refl c
  | succ n ih =>
    simp only [evictAllLoop, bind, Except.bind] at h
    split at h
    · split at h
      · simp at h
      · rename_i r hr
        exact (evict_shrunk c r hr).trans (ih r.1 h)
    · simp only [Except.ok.injEq] at h
      rw [← h]; exact Shrunk.refl c

theorem evictBytes_shrunk (n : Nat) (c c' : Cache V)
    (h : evictBytes size p c n = .ok c') : Shrunk c c' := by
  unfold evictBytes at h
  split at h
  · simp only [Except.ok.injEq] at h
    rw [← h]; exact Shrunk.refl c
  · split at h
    · simp only [Except.ok.injEq] at h
      rw [← h]; exact Shrunk.refl c
    · split at h
      · exact evictAllLoop_shrunk _ _ _ h
      · exact evictWhile_shrunk _ _ _ _ h

/-- Shape of every successful insert into a cache with capacity. -/
theorem insert_shape (c c' : Cache V) (k : Nat) (v : V) (hc : c.capacity ≠ 0)
    (h : insert size p c k v = .ok c') :
    ∃ d : Cache V, Shrunk c d ∧ c'.lru = mapInsert d.lru k v ∧ c'.capacity = c.capacity ∧
      c'.hits = c.hits ∧ c'.misses = c.misses ∧ c'.inserts = c.inserts + 1 ∧
      c'.evictions = d.evictions := by
  unfold insert at h
  rw [if_neg hc] at h
  obtain ⟨e, he, h⟩ := Res.bind_ok.mp h
  have hgo : ∀ (d : Cache V), Shrunk c d →
      (do let used' ← uadd p d.used (size v)
          Except.ok { d with lru := mapInsert d.lru k v, used := used',
                             inserts := d.inserts + 1 } : Res (Cache V)) = .ok c' →
      ∃ d : Cache V, Shrunk c d ∧ c'.lru = mapInsert d.lru k v ∧ c'.capacity = c.capacity ∧
        c'.hits = c.hits ∧ c'.misses = c.misses ∧ c'.inserts = c.inserts + 1 ∧
        c'.evictions = d.evictions := by
    intro d hs h
    obtain ⟨u, _, h⟩ := Res.bind_ok.mp h
    simp only [Except.ok.injEq] at h
    refine ⟨d, hs, ?_⟩
    rw [← h]
    exact ⟨rfl, hs.capacity, hs.hits, hs.misses, by simp [hs.inserts], rfl⟩
  split at h
  · obtain ⟨r, _, h⟩ := Res.bind_ok.mp h
    obtain ⟨f, _, h⟩ := Res.bind_ok.mp h
    obtain ⟨d, hd, h⟩ := Res.bind_ok.mp h
    exact hgo d (evictBytes_shrunk _ _ _ hd) h
  · exact hgo c (Shrunk.refl c) h

theorem setCapacity_shape (c c' : Cache V) (n : Nat) (h : setCapacity size p c n = .ok c') :
    ∃ d : Cache V, Shrunk c d ∧ c' = { d with capacity := n } := by
  unfold setCapacity at h
  simp only [bind, Except.bind] at h
  split at h
  · split at h
    · simp at h
    · rename_i d hd
      simp only [Except.ok.injEq] at h
      exact ⟨d, evictBytes_shrunk _ _ _ hd, h.symm⟩
  · simp only [Except.ok.injEq] at h
    exact ⟨c, Shrunk.refl c, h.symm⟩

/-- Effect of any successful call on the parts that matter for lookups. -/
inductive StepKind (c c' : Cache V) : Op V → Option V → Prop
  | ignored (k : Nat) (v : V) (hc : c.capacity = 0) (he : c' = c) : StepKind c c' (.insert k v) none
  | inserted (k : Nat) (v : V) (d : Cache V) (hc : c.capacity ≠ 0) (hd : Shrunk c d)
      (hl : c'.lru = mapInsert d.lru k v) (hcap : c'.capacity = c.capacity)
      (hh : c'.hits = c.hits) (hm : c'.misses = c.misses) (hi : c'.inserts = c.inserts + 1)
      (he : c'.evictions = d.evictions) : StepKind c c' (.insert k v) none
  | lookup (k : Nat) (he : c' = (get c k).1) : StepKind c c' (.get k) (get c k).2
  | resized (n : Nat) (d : Cache V) (hd : Shrunk c d) (he : c' = { d with capacity := n }) :
      StepKind c c' (.setCapacity n) none
  | shrunk (op : Op V) (hd : Shrunk c c')
      (hop : (∃ n, op = .evictBytes n) ∨ op = .evictAll ∨ op = .evict) : StepKind c c' op none

theorem step_kind (c c' : Cache V) (op : Op V) (o : Option V)
    (h : step size p c op = .ok (c', o)) : StepKind c c' op o := by
  cases op with
  | insert k v =>
    simp only [step, bind, Except.bind] at h
    split at h
    · simp at h
    · rename_i d hd
      simp only [Except.ok.injEq, Prod.mk.injEq] at h
      obtain ⟨rfl, rfl⟩ := h
      by_cases hc : c.capacity = 0
      · simp only [insert, hc, if_true, Except.ok.injEq] at hd
        exact .ignored k v hc hd.symm
      · obtain ⟨d', h1, h2, h3, h4, h5, h6, h7⟩ := insert_shape c _ k v hc hd
        exact .inserted k v d' hc h1 h2 h3 h4 h5 h6 h7
  | get k =>
    simp only [step, Except.ok.injEq] at h
    rw [Prod.ext_iff] at h
    obtain ⟨rfl, rfl⟩ := h
    exact .lookup k rfl
  | setCapacity n =>
    simp only [step, bind, Except.bind] at h
    split at h
    · simp at h
    · rename_i d hd
      simp only [Except.ok.injEq, Prod.mk.injEq] at h
      obtain ⟨rfl, rfl⟩ := h
      obtain ⟨d', h1, h2⟩ := setCapacity_shape c _ n hd
      exact .resized n d' h1 h2
  | evictBytes n =>
    simp only [step, bind, Except.bind] at h
    split at h
    · simp at h
    · rename_i d hd
      simp only [Except.ok.injEq, Prod.mk.injEq] at h
      obtain ⟨rfl, rfl⟩ := h
      exact .shrunk _ (evictBytes_shrunk n c _ hd) (Or.inl ⟨n, rfl⟩)
  | evictAll =>
    simp only [step, bind, Except.bind] at h
    split at h
    · simp at h
    · rename_i d hd
      simp only [Except.ok.injEq, Prod.mk.injEq] at h
      obtain ⟨rfl, rfl⟩ := h
      exact .shrunk _ (evictAllLoop_shrunk _ c _ hd) (Or.inr (Or.inl rfl))
  | evict =>
    simp only [step, bind, Except.bind] at h
    split at h
    · simp at h
    · rename_i d hd
      simp only [Except.ok.injEq, Prod.mk.injEq] at h
      obtain ⟨rfl, rfl⟩ := h
      exact .shrunk _ (evict_shrunk c _ hd) (Or.inr (Or.inr rfl))

/-! ### Lookup correctness -/

/-- The cache agrees with the ideal store. -/
structure Agrees (c : Cache V) (s : Ideal V) : Prop where
  cap : c.capacity = s.cap
  nodup : (keys c.lru).Nodup
  sound : ∀ k v, find c.lru k = some v → s.last k = some v

theorem agrees_step (c c' : Cache V) (op : Op V) (o : Option V) (s : Ideal V)
    (ha : Agrees c s) (h : step size p c op = .ok (c', o)) : Agrees c' (s.step op) := by
  obtain ⟨hcap, hn, hs⟩ := ha
  have hshr : ∀ d : Cache V, Shrunk c d → (keys d.lru).Nodup ∧
      ∀ k v, find d.lru k = some v → s.last k = some v := by
    intro d hd
    exact ⟨nodup_suffix (keys_suffix hd.suffix) hn,
      fun k v hf => hs k v (find_suffix hd.suffix hn k v hf)⟩
  cases step_kind c c' op o h with
  | ignored k v hc he =>
    subst he
    have : s.cap = 0 := by rw [← hcap]; exact hc
    simp only [Ideal.step, this, if_true]
    exact ⟨hcap, hn, hs⟩
  | inserted k v d hc hd hl hcap' _ _ _ _ =>
    have : s.cap ≠ 0 := by rw [← hcap]; exact hc
    simp only [Ideal.step, this, if_false]
    obtain ⟨h1, h2⟩ := hshr d hd
    refine ⟨hcap'.trans hcap, ?_, ?_⟩
    · rw [hl, keys_mapInsert]; exact nodup_use _ _ h1
    · intro j w hf
      rw [hl, find_mapInsert] at hf
      by_cases hj : j = k
      · simp only [hj, if_true] at hf ⊢; exact hf
      · simp only [hj, if_false] at hf ⊢
        exact h2 j w hf
  | lookup k he =>
    subst he
    simp only [Ideal.step]
    refine ⟨by rw [get_capacity]; exact hcap, ?_, ?_⟩
    · rw [keys_get]
      split
      · exact nodup_use _ _ hn
      · exact hn
    · intro j w hf
      rw [get_lru] at hf
      cases hfk : find c.lru k with
      | none => rw [hfk] at hf; exact hs j w hf
      | some x =>
        rw [hfk] at hf
        have := find_mapInsert c.lru k j x
        rw [mapInsert] at this
        simp only [this] at hf
        by_cases hj : j = k
        · subst hj
          simp only [if_true] at hf
          exact hs j w (by rw [hfk]; exact hf)
        · simp only [hj, if_false] at hf
          exact hs j w hf
  | resized n d hd he =>
    subst he
    obtain ⟨h1, h2⟩ := hshr d hd
    exact ⟨rfl, h1, h2⟩
  | shrunk op hd hop =>
    obtain ⟨h1, h2⟩ := hshr c' hd
    have : s.step op = s := by
      rcases hop with ⟨n, rfl⟩ | rfl | rfl <;> rfl
    rw [this]
    exact ⟨hd.capacity.trans hcap, h1, h2⟩

theorem agrees_run (c c' : Cache V) (ops : List (Op V)) (s : Ideal V)
    (ha : Agrees c s) (h : run size p c ops = .ok c') : Agrees c' (s.run ops) := by
  induction ops generalizing c s with
  | nil =>
    simp only [run, Except.ok.injEq] at h
    rw [← h]; exact ha
  | cons op ops ih =>
    simp only [run, bind, Except.bind] at h
    split at h
    · simp at h
    · rename_i r hr
      simp only [Ideal.run, List.foldl_cons]
      exact ih r.1 (s.step op) (agrees_step c r.1 op r.2 s ha hr) h

/-! ### Recency -/

theorem use_suffix {a b : List Nat} (h : a <:+ b) (k : Nat) : use a k <:+ use b k := by
  obtain ⟨t, rfl⟩ := h
  exact ⟨t.filter (· ≠ k), by simp [use, List.filter_append]⟩

theorem recency_step (c c' : Cache V) (op : Op V) (o : Option V) (r : List Nat)
    (hr : keys c.lru <:+ r) (h : step size p c op = .ok (c', o)) :
    keys c'.lru <:+ recencyStep c.capacity r op o := by
  cases step_kind c c' op o h with
  | ignored k v hc he =>
    subst he
    simpa [recencyStep, hc] using hr
  | inserted k v d hc hd hl _ _ _ _ _ =>
    simp only [recencyStep, hc, if_false]
    rw [hl, keys_mapInsert]
    exact use_suffix ((keys_suffix hd.suffix).trans hr) k
  | lookup k he =>
    subst he
    rw [keys_get]
    cases hg : (get c k).2 with
    | none => simpa [recencyStep] using hr
    | some v =>
      simp only [Option.isSome_some, if_true, recencyStep]
      exact use_suffix hr k
  | resized n d hd he =>
    subst he
    simpa [recencyStep] using (keys_suffix hd.suffix).trans hr
  | shrunk op hd hop =>
    have : recencyStep c.capacity r op (none : Option V) = r := by
      rcases hop with ⟨n, rfl⟩ | rfl | rfl <;> rfl
    rw [this]
    exact (keys_suffix hd.suffix).trans hr

theorem nodup_recencyStep (cap : Nat) (r : List Nat) (op : Op V) (o : Option V)
    (h : r.Nodup) : (recencyStep cap r op o).Nodup := by
  unfold recencyStep
  split
  · split
    · exact h
    · exact nodup_use _ _ h
  · exact nodup_use _ _ h
  · exact h

theorem recency_run (c c' : Cache V) (ops : List (Op V)) (r r' : List Nat)
    (hr : keys c.lru <:+ r) (hn : r.Nodup)
    (h : runRecency size p c r ops = .ok (c', r')) :
    keys c'.lru <:+ r' ∧ r'.Nodup ∧ run size p c ops = .ok c' := by
  induction ops generalizing c r with
  | nil =>
    simp only [runRecency, Except.ok.injEq, Prod.mk.injEq] at h
    obtain ⟨rfl, rfl⟩ := h
    exact ⟨hr, hn, rfl⟩
  | cons op ops ih =>
    simp only [runRecency, bind, Except.bind] at h
    split at h
    · simp at h
    · rename_i d hd
      have := ih d.1 _ (recency_step c d.1 op d.2 r hr hd)
        (nodup_recencyStep c.capacity r op d.2 hn) h
      refine ⟨this.1, this.2.1, ?_⟩
      simp only [run, bind, Except.bind, hd]
      exact this.2.2

/-! ### Client histories -/

theorem client_step_exact (c c' : Cache V) (op : Client V) (ops : List (Client V)) (f : Bool)
    (hx : Exact size c) (hok : ClientOk size f c.capacity (op :: ops))
    (h : op.step size p c = .ok c') :
    Exact size c' ∧ ClientOk size f c'.capacity ops := by
  cases op with
  | request k v =>
    obtain ⟨hv, hfit, hrest⟩ := hok
    simp only [Client.step, getOrInsert, bind, Except.bind] at h
    have hg := get_snd c k
    cases hgc : get c k with
    | mk d r =>
      have hd : d = (get c k).1 := by rw [hgc]
      have hdx : Exact size d := by rw [hd]; exact exact_get c k hx
      have hdcap : d.capacity = c.capacity := by rw [hd]; exact get_capacity c k
      rw [hgc] at h
      cases r with
      | some w =>
        simp only [Except.ok.injEq] at h
        subst h
        exact ⟨hdx, by rw [hdcap]; exact hrest⟩
      | none =>
        simp only at h
        rw [hgc] at hg
        have hfn : find d.lru k = none := by
          rw [hd, get_lru, ← hg]
          exact hg.symm
        cases hi : insert size p d k v with
        | error e => rw [hi] at h; simp at h
        | ok d' =>
          rw [hi] at h
          simp only [Except.ok.injEq] at h
          subst h
          have hs : step size p d (.insert k v) = .ok (d', none) := by
            simp [step, bind, Except.bind, hi]
          refine ⟨exact_step d d' (.insert k v) none ⟨true, false⟩ rfl hdx
            ⟨hv, fun _ => hfn, by simp⟩ hs, ?_⟩
          have : d'.capacity = d.capacity := by
            cases step_kind d d' _ _ hs with
            | ignored _ _ _ h => rw [h]
            | inserted _ _ _ _ _ _ h => exact h
            | shrunk _ h => exact h.capacity
          rw [this, hdcap]; exact hrest
  | resize n =>
    obtain ⟨hn, hrest⟩ := hok
    simp only [Client.step] at h
    have hs : step size p c (.setCapacity n) = .ok (c', none) := by
      simp [step, bind, Except.bind, h]
    refine ⟨exact_step c c' (.setCapacity n) none ⟨true, true⟩ rfl hx hn hs, ?_⟩
    obtain ⟨d, _, rfl⟩ := setCapacity_shape c c' n h
    exact hrest

theorem client_run_exact (c c' : Cache V) (ops : List (Client V)) (f : Bool)
    (hx : Exact size c) (hok : ClientOk size f c.capacity ops)
    (h : clientRun size p c ops = .ok c') : Exact size c' := by
  induction ops generalizing c with
  | nil =>
    simp only [clientRun, Except.ok.injEq] at h
    rw [← h]; exact hx
  | cons op ops ih =>
    simp only [clientRun, bind, Except.bind] at h
    split at h
    · simp at h
    · rename_i d hd
      obtain ⟨h1, h2⟩ := client_step_exact c d op ops f hx hok hd
      exact ih d h1 h2 h

theorem client_step_bound (c c' : Cache V) (op : Client V) (ops : List (Client V))
    (hx : Exact size c) (hb : c.used ≤ c.capacity)
    (hok : ClientOk size true c.capacity (op :: ops))
    (h : op.step size p c = .ok c') : c'.used ≤ c'.capacity := by
  cases op with
  | request k v =>
    obtain ⟨hv, hfit, hrest⟩ := hok
    simp only [Client.step, getOrInsert, bind, Except.bind] at h
    cases hgc : get c k with
    | mk d r =>
      have hd : d = (get c k).1 := by rw [hgc]
      have hdx : Exact size d := by rw [hd]; exact exact_get c k hx
      have hdb : d.used ≤ d.capacity := by rw [hd, get_used, get_capacity]; exact hb
      have hdcap : d.capacity = c.capacity := by rw [hd]; exact get_capacity c k
      rw [hgc] at h
      cases r with
      | some w =>
        simp only [Except.ok.injEq] at h
        rw [← h]; exact hdb
      | none =>
        simp only at h
        cases hi : insert size p d k v with
        | error e => rw [hi] at h; simp at h
        | ok d' =>
          rw [hi] at h
          simp only [Except.ok.injEq] at h
          subst h
          have hs : step size p d (.insert k v) = .ok (d', none) := by
            simp [step, bind, Except.bind, hi]
          exact bound_step d d' (.insert k v) none ⟨false, true⟩ rfl hdx hdb
            ⟨hv, by simp, by rw [hdcap]; simpa using hfit⟩ hs
  | resize n =>
    obtain ⟨hn, hrest⟩ := hok
    have hs : step size p c (.setCapacity n) = .ok (c', none) := by
      simp only [Client.step] at h
      simp [step, bind, Except.bind, h]
    exact bound_step c c' (.setCapacity n) none ⟨true, true⟩ rfl hx hb hn hs

theorem client_run_bound (c c' : Cache V) (ops : List (Client V))
    (hx : Exact size c) (hb : c.used ≤ c.capacity) (hok : ClientOk size true c.capacity ops)
    (h : clientRun size p c ops = .ok c') : c'.used ≤ c'.capacity := by
  induction ops generalizing c with
  | nil =>
    simp only [clientRun, Except.ok.injEq] at h
    rw [← h]; exact hb
  | cons op ops ih =>
    simp only [clientRun, bind, Except.bind] at h
    split at h
    · simp at h
    · rename_i d hd
      obtain ⟨h1, h2⟩ := client_step_exact c d op ops true hx hok hd
      exact ih d h1 (client_step_bound c d op ops hx hb hok hd) h2 h

theorem client_step_ok (c : Cache V) (op : Client V) (ops : List (Client V))
    (hx : Exact size c) (hok : ClientOk size true c.capacity (op :: ops)) :
    ∃ c', op.step size p c = .ok c' := by
  cases op with
  | request k v =>
    obtain ⟨hv, hfit, hrest⟩ := hok
    simp only [Client.step, getOrInsert, bind, Except.bind]
    cases hgc : get c k with
    | mk d r =>
      have hd : d = (get c k).1 := by rw [hgc]
      have hdx : Exact size d := by rw [hd]; exact exact_get c k hx
      have hdcap : d.capacity = c.capacity := by rw [hd]; exact get_capacity c k
      cases r with
      | some w => exact ⟨_, rfl⟩
      | none =>
        obtain ⟨d', o, hs⟩ := step_ok (p := p) d (.insert k v) ⟨false, true⟩ rfl hdx
          ⟨hv, by simp, by rw [hdcap]; simpa using hfit⟩
        simp only [step, bind, Except.bind] at hs
        cases hi : insert size p d k v with
        | error e => rw [hi] at hs; simp at hs
        | ok d'' => exact ⟨d'', by simp only [hi]⟩
  | resize n =>
    obtain ⟨d, o, hs⟩ := step_ok (p := p) c (.setCapacity n) ⟨false, true⟩ rfl hx hok.1
    simp only [step, bind, Except.bind] at hs
    cases hi : setCapacity size p c n with
    | error e => rw [hi] at hs; simp at hs
    | ok d'' => exact ⟨d'', hi⟩

theorem client_run_ok (c : Cache V) (ops : List (Client V))
    (hx : Exact size c) (hok : ClientOk size true c.capacity ops) :
    ∃ c', clientRun size p c ops = .ok c' := by
  induction ops generalizing c with
  | nil => exact ⟨c, rfl⟩
  | cons op ops ih =>
    obtain ⟨d, hd⟩ := client_step_ok (p := p) c op ops hx hok
    obtain ⟨h1, h2⟩ := client_step_exact c d op ops true hx hok hd
    obtain ⟨c', hc'⟩ := ih d h1 h2
    exact ⟨c', by simp [clientRun, bind, Except.bind, hd, hc']⟩

end OCG.Cache

namespace OCG.Cache

open CacheSpec

variable {V : Type} {size : V → Nat} {p : Profile}

/-- A longer suffix than the one kept is too big. -/
theorem dropUntil_minimal (req : Nat) (l s : List (Nat × V)) (h : s <:+ l)
    (hlen : (dropUntil size req l).length < s.length) : req ≤ total size s := by
  induction l with
  | nil =>
    rw [List.suffix_nil] at h
    subst h
    simp at hlen
  | cons e r ih =>
    simp only [dropUntil] at hlen
    split at hlen
    · rename_i hr
      rw [List.suffix_cons_iff] at h
      rcases h with h | h
      · rw [h]; exact hr
      · exact ih h hlen
    · have := h.length_le
      omega

/-- Counters of a client history. -/
structure Counts (c : Cache V) : Prop where
  nodup : (keys c.lru).Nodup
  entries : c.lru.length + c.evictions = c.inserts
  misses : c.inserts ≤ c.misses

theorem Shrunk.counts {c c' : Cache V} (h : Shrunk c c') (hc : Counts c) : Counts c' := by
  obtain ⟨h1, h2, h3⟩ := hc
  refine ⟨nodup_suffix (keys_suffix h.suffix) h1, ?_, ?_⟩
  · have := h.evictions; have := h.inserts; omega
  · have := h.misses; have := h.inserts; omega

/-- Counters of a client step. -/
theorem client_step_counts (c c' : Cache V) (op : Client V)
    (h : op.step size p c = .ok c') (hc : Counts c) :
    Counts c' ∧ c'.hits + c'.misses = c.hits + c.misses + op.requests := by
  cases op with
  | request k v =>
    simp only [Client.step, getOrInsert] at h
    obtain ⟨r, hr, h⟩ := Res.bind_ok.mp h
    simp only [Except.ok.injEq] at h
    obtain ⟨h1, h2, h3⟩ := hc
    unfold get at hr
    cases hf : find c.lru k with
    | some w =>
      simp only [hf, Except.ok.injEq] at hr
      rw [← h, ← hr]
      have hlen := length_eraseKey c.lru k w h1 hf
      have hn : (keys (mapInsert c.lru k w)).Nodup := by
        rw [keys_mapInsert]; exact nodup_use _ _ h1
      refine ⟨⟨hn, ?_, h3⟩, by simp only [Client.requests]; omega⟩
      simp only [List.length_append, List.length_cons, List.length_nil]
      omega
    | none =>
      simp only [hf] at hr
      obtain ⟨d, hd, hr⟩ := Res.bind_ok.mp hr
      simp only [Except.ok.injEq] at hr
      rw [← h, ← hr]
      simp only [Client.requests]
      by_cases hcap : c.capacity = 0
      · simp only [insert, hcap, if_true, Except.ok.injEq] at hd
        rw [← hd]
        exact ⟨⟨h1, h2, by simp only; omega⟩, by simp only; omega⟩
      · obtain ⟨e, g1, g2, g3, g4, g5, g6, g7⟩ := insert_shape { c with misses := c.misses + 1 } d k v hcap hd
        have hfe : k ∉ keys e.lru := fun hk =>
          (find_none_iff _ _).mp hf ((keys_suffix g1.suffix).subset hk)
        have hce := g1.counts ⟨h1, h2, by simp only; omega⟩
        have hlen := g1.evictions
        have hins := g1.inserts
        simp only at g3 g4 g5 g6 hlen hins
        refine ⟨⟨?_, ?_, by omega⟩, by omega⟩
        · rw [g2, keys_mapInsert]; exact nodup_use _ _ hce.nodup
        · rw [g2, mapInsert, eraseKey_of_fresh _ _ hfe, g6, g7]
          simp only [List.length_append, List.length_cons, List.length_nil]
          omega
  | resize n =>
    obtain ⟨d, hd, rfl⟩ := setCapacity_shape c c' n h
    have := hd.counts hc
    refine ⟨⟨this.nodup, this.entries, this.misses⟩, ?_⟩
    have := hd.hits; have := hd.misses
    simp only [Client.requests]; omega

theorem client_run_counts (c c' : Cache V) (ops : List (Client V))
    (h : clientRun size p c ops = .ok c') (hc : Counts c) :
    Counts c' ∧ c'.hits + c'.misses = c.hits + c.misses + (ops.map Client.requests).sum := by
  induction ops generalizing c with
  | nil =>
    simp only [clientRun, Except.ok.injEq] at h
    subst h
    exact ⟨hc, by simp⟩
  | cons op ops ih =>
    simp only [clientRun] at h
    obtain ⟨d, hd, h⟩ := Res.bind_ok.mp h
    obtain ⟨h1, h2⟩ := client_step_counts c d op hd hc
    obtain ⟨h3, h4⟩ := ih d h h1
    refine ⟨h3, ?_⟩
    simp only [List.map_cons, List.sum_cons]
    omega

/-- Hits plus misses count the lookups of any history. -/
theorem run_gets (c c' : Cache V) (ops : List (Op V)) (h : run size p c ops = .ok c') :
    c'.hits + c'.misses = c.hits + c.misses + gets ops := by
  induction ops generalizing c with
  | nil =>
    simp only [run, Except.ok.injEq] at h
    subst h
    simp [gets]
  | cons op ops ih =>
    simp only [run] at h
    obtain ⟨⟨d, o⟩, hd, h⟩ := Res.bind_ok.mp h
    have h2 := ih d h
    have h1 : d.hits + d.misses = c.hits + c.misses + gets [op] := by
      cases step_kind c d op o hd with
      | ignored k v _ he => subst he; simp [gets]
      | inserted k v _ _ _ _ _ hh hm _ _ => simp [gets, hh, hm]
      | lookup k he =>
        subst he
        simp only [gets, get]
        cases find c.lru k <;> simp only <;> omega
      | resized n e hs he => subst he; simp [gets, hs.hits, hs.misses]
      | shrunk op hs hop =>
        rcases hop with ⟨n, rfl⟩ | rfl | rfl <;> simp [gets, hs.hits, hs.misses]
    have h3 : gets (op :: ops) = gets [op] + gets ops := by
      cases op <;> simp [gets]; omega
    omega

end OCG.Cache

namespace OCG.Cache

open CacheSpec

variable {V : Type} {size : V → Nat} {p : Profile}

/-! ### Debug and release agree unless debug panics -/

theorem usub_transfer {a b x : Nat} (h : usub .debug a b = .ok x) : usub p a b = .ok x := by
  by_cases hle : b ≤ a
  · rw [usub_of_le hle] at h ⊢; exact h
  · rw [usub_debug hle] at h; simp at h

theorem uadd_transfer {a b x : Nat} (h : uadd .debug a b = .ok x) : uadd p a b = .ok x := by
  by_cases hlt : a + b < usizeMod
  · rw [uadd_of_lt hlt] at h ⊢; exact h
  · unfold uadd at h; rw [if_neg hlt] at h; simp at h

theorem evict_transfer {c : Cache V} {r} (h : evict size .debug c = .ok r) :
    evict size p c = .ok r := by
  unfold evict at h ⊢
  split
  · rename_i hl
    rw [hl] at h; exact h
  · rename_i k v rest hl
    rw [hl] at h
    obtain ⟨u, hu, h⟩ := Res.bind_ok.mp h
    exact Res.bind_ok.mpr ⟨u, usub_transfer hu, h⟩

theorem evictWhile_transfer {req : Nat} (fuel : Nat) {c c' : Cache V}
    (h : evictWhile size .debug req fuel c = .ok c') : evictWhile size p req fuel c = .ok c' := by
  induction fuel generalizing c with
  | zero => exact h
  | succ n ih =>
    simp only [evictWhile] at h ⊢
    split at h
    · rename_i hc
      rw [if_pos hc]
      obtain ⟨u, hu, h⟩ := Res.bind_ok.mp h
      exact Res.bind_ok.mpr ⟨u, evict_transfer hu, ih h⟩
    · rename_i hc
      rw [if_neg hc]; exact h

theorem evictAllLoop_transfer (fuel : Nat) {c c' : Cache V}
    (h : evictAllLoop size .debug fuel c = .ok c') : evictAllLoop size p fuel c = .ok c' := by
  induction fuel generalizing c with
  | zero => exact h
  | succ n ih =>
    simp only [evictAllLoop] at h ⊢
    split at h
    · rename_i hc
      rw [if_pos hc]
      obtain ⟨u, hu, h⟩ := Res.bind_ok.mp h
      exact Res.bind_ok.mpr ⟨u, evict_transfer hu, ih h⟩
    · rename_i hc
      rw [if_neg hc]; exact h

theorem evictBytes_transfer {n : Nat} {c c' : Cache V}
    (h : evictBytes size .debug c n = .ok c') : evictBytes size p c n = .ok c' := by
  unfold evictBytes at h ⊢
  split at h
  · rename_i h1; rw [if_pos h1]; exact h
  · rename_i h1
    rw [if_neg h1]
    split at h
    · rename_i h2; rw [if_pos h2]; exact h
    · rename_i h2
      rw [if_neg h2]
      split at h
      · rename_i h3; rw [if_pos h3]; exact evictAllLoop_transfer _ h
      · rename_i h3; rw [if_neg h3]; exact evictWhile_transfer _ h

theorem insert_transfer {k : Nat} {v : V} {c c' : Cache V}
    (h : insert size .debug c k v = .ok c') : insert size p c k v = .ok c' := by
  unfold insert at h ⊢
  split at h
  · rename_i h1; rw [if_pos h1]; exact h
  · rename_i h1
    rw [if_neg h1]
    obtain ⟨e, he, h⟩ := Res.bind_ok.mp h
    refine Res.bind_ok.mpr ⟨e, uadd_transfer he, ?_⟩
    split at h
    · rename_i h2
      rw [if_pos h2]
      obtain ⟨r, hr, h⟩ := Res.bind_ok.mp h
      refine Res.bind_ok.mpr ⟨r, usub_transfer hr, ?_⟩
      obtain ⟨f, hf, h⟩ := Res.bind_ok.mp h
      refine Res.bind_ok.mpr ⟨f, usub_transfer hf, ?_⟩
      obtain ⟨d, hd, h⟩ := Res.bind_ok.mp h
      refine Res.bind_ok.mpr ⟨d, evictBytes_transfer hd, ?_⟩
      obtain ⟨u, hu, h⟩ := Res.bind_ok.mp h
      exact Res.bind_ok.mpr ⟨u, uadd_transfer hu, h⟩
    · rename_i h2
      rw [if_neg h2]
      obtain ⟨d, hd, h⟩ := Res.bind_ok.mp h
      refine Res.bind_ok.mpr ⟨d, hd, ?_⟩
      obtain ⟨u, hu, h⟩ := Res.bind_ok.mp h
      exact Res.bind_ok.mpr ⟨u, uadd_transfer hu, h⟩

theorem setCapacity_transfer {n : Nat} {c c' : Cache V}
    (h : setCapacity size .debug c n = .ok c') : setCapacity size p c n = .ok c' := by
  unfold setCapacity at h ⊢
  split at h
  · rename_i h1
    rw [if_pos h1]
    obtain ⟨d, hd, h⟩ := Res.bind_ok.mp h
    exact Res.bind_ok.mpr ⟨d, evictBytes_transfer hd, h⟩
  · rename_i h1; rw [if_neg h1]; exact h

theorem step_transfer {op : Op V} {c : Cache V} {r} (h : step size .debug c op = .ok r) :
    step size p c op = .ok r := by
  cases op with
  | insert k v =>
    obtain ⟨d, hd, h⟩ := Res.bind_ok.mp h
    exact Res.bind_ok.mpr ⟨d, insert_transfer hd, h⟩
  | get k => exact h
  | setCapacity n =>
    obtain ⟨d, hd, h⟩ := Res.bind_ok.mp h
    exact Res.bind_ok.mpr ⟨d, setCapacity_transfer hd, h⟩
  | evictBytes n =>
    obtain ⟨d, hd, h⟩ := Res.bind_ok.mp h
    exact Res.bind_ok.mpr ⟨d, evictBytes_transfer hd, h⟩
  | evictAll =>
    obtain ⟨d, hd, h⟩ := Res.bind_ok.mp h
    exact Res.bind_ok.mpr ⟨d, evictAllLoop_transfer _ hd, h⟩
  | evict =>
    obtain ⟨d, hd, h⟩ := Res.bind_ok.mp h
    exact Res.bind_ok.mpr ⟨d, evict_transfer hd, h⟩

theorem run_transfer {ops : List (Op V)} {c c' : Cache V} (h : run size .debug c ops = .ok c') :
    run size p c ops = .ok c' := by
  induction ops generalizing c with
  | nil => exact h
  | cons op ops ih =>
    obtain ⟨d, hd, h⟩ := Res.bind_ok.mp h
    exact Res.bind_ok.mpr ⟨d, step_transfer hd, ih h⟩

theorem client_transfer {ops : List (Client V)} {c c' : Cache V}
    (h : clientRun size .debug c ops = .ok c') : clientRun size p c ops = .ok c' := by
  induction ops generalizing c with
  | nil => exact h
  | cons op ops ih =>
    obtain ⟨d, hd, h⟩ := Res.bind_ok.mp h
    refine Res.bind_ok.mpr ⟨d, ?_, ih h⟩
    cases op with
    | request k v =>
      simp only [Client.step] at hd ⊢
      obtain ⟨r, hr, hd⟩ := Res.bind_ok.mp hd
      refine Res.bind_ok.mpr ⟨r, ?_, hd⟩
      unfold getOrInsert at hr ⊢
      cases hg : get c k with
      | mk e o =>
        rw [hg] at hr
        cases o with
        | some w => exact hr
        | none =>
          obtain ⟨f, hf, hr⟩ := Res.bind_ok.mp hr
          exact Res.bind_ok.mpr ⟨f, insert_transfer hf, hr⟩
    | resize n => exact setCapacity_transfer hd

/-! ### Nothing is lost without an eviction -/

theorem Shrunk.eq_of_evictions {c c' : Cache V} (h : Shrunk c c') (h0 : c'.evictions = 0) :
    c.evictions = 0 ∧ c'.lru = c.lru := by
  have h1 := h.evictions
  have h2 := h.suffix.length_le
  have h3 : c.evictions = 0 := by omega
  exact ⟨h3, h.suffix.eq_of_length (by omega)⟩

theorem complete_step (c c' : Cache V) (op : Op V) (o : Option V) (s : Ideal V)
    (hcap : c.capacity = s.cap)
    (hs : c.evictions = 0 → ∀ k, find c.lru k = s.last k)
    (h : step size p c op = .ok (c', o)) :
    c'.evictions = 0 → ∀ k, find c'.lru k = (s.step op).last k := by
  intro h0
  cases step_kind c c' op o h with
  | ignored k v hc he =>
    subst he
    have : s.cap = 0 := by rw [← hcap]; exact hc
    simp only [Ideal.step, this, if_true]
    exact hs h0
  | inserted k v d hc hd hl hcap' _ _ _ he =>
    have : s.cap ≠ 0 := by rw [← hcap]; exact hc
    simp only [Ideal.step, this, if_false]
    rw [he] at h0
    obtain ⟨h1, h2⟩ := hd.eq_of_evictions h0
    intro j
    rw [hl, find_mapInsert, h2, hs h1]
  | lookup k he =>
    subst he
    have hev : c.evictions = 0 := by
      rw [← h0]; unfold get; split <;> rfl
    intro j
    rw [get_lru]
    have hs := hs hev
    simp only [Ideal.step]
    cases hfk : find c.lru k with
    | none => exact hs j
    | some x =>
      have := find_mapInsert c.lru k j x
      rw [mapInsert] at this
      simp only [this]
      split
      · rename_i hj
        subst hj
        rw [← hs, hfk]
      · exact hs j
  | resized n d hd he =>
    subst he
    obtain ⟨h1, h2⟩ := hd.eq_of_evictions h0
    intro j
    simp only [Ideal.step, h2]
    exact hs h1 j
  | shrunk op hd hop =>
    obtain ⟨h1, h2⟩ := hd.eq_of_evictions h0
    have : s.step op = s := by
      rcases hop with ⟨n, rfl⟩ | rfl | rfl <;> rfl
    rw [this, h2]
    exact hs h1

theorem complete_run (c c' : Cache V) (ops : List (Op V)) (s : Ideal V) (ha : Agrees c s)
    (hs : c.evictions = 0 → ∀ k, find c.lru k = s.last k)
    (h : run size p c ops = .ok c') :
    c'.evictions = 0 → ∀ k, find c'.lru k = (s.run ops).last k := by
  induction ops generalizing c s with
  | nil =>
    simp only [run, Except.ok.injEq] at h
    subst h; exact hs
  | cons op ops ih =>
    simp only [run] at h
    obtain ⟨⟨d, o⟩, hd, h⟩ := Res.bind_ok.mp h
    exact ih d (s.step op) (agrees_step c d op o s ha hd)
      (complete_step c d op o s ha.cap hs hd) h

end OCG.Cache
