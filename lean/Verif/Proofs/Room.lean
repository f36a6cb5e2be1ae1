import Verif.Spec.Room
import Verif.Proofs.Recall
import Verif.Proofs.Along
/-
Executions in caches of different capacities, as long as nothing is dropped.
-/

namespace OCG.RoomSpec

open CacheSpec RecallSpec Cache

section
variable {V : Type} {size : V → Nat} {p : Profile}

theorem evict_kept {c : Cache V} {r : Cache V × Bool} (hl : c.lru.length > 0)
    (h : evict size p c = .ok r) : c.evictions < r.1.evictions := by
  unfold evict at h
  split at h
  · rename_i hn; rw [hn] at hl; simp at hl
  · obtain ⟨u, -, h⟩ := Res.bind_ok.mp h
    cases h
    exact Nat.lt_succ_self _

theorem shrunk_mono {c c' : Cache V} (h : Cache.Shrunk c c') : c.evictions ≤ c'.evictions := by
  have := h.suffix.length_le
  have := h.evictions
  omega

theorem evictWhile_kept {req fuel : Nat} {c c' : Cache V}
    (h : evictWhile size p req fuel c = .ok c') (he : c'.evictions = c.evictions) : c' = c := by
  cases fuel with
  | zero => cases h; rfl
  | succ n =>
    simp only [evictWhile] at h
    split at h
    · rename_i hl
      obtain ⟨r, h1, h⟩ := Res.bind_ok.mp h
      have := evict_kept hl.2 h1
      have := shrunk_mono (evictWhile_shrunk _ _ _ _ h)
      omega
    · cases h; rfl

theorem evictAllLoop_kept {fuel : Nat} {c c' : Cache V}
    (h : evictAllLoop size p fuel c = .ok c') (he : c'.evictions = c.evictions) : c' = c := by
  cases fuel with
  | zero => cases h; rfl
  | succ n =>
    simp only [evictAllLoop] at h
    split at h
    · rename_i hl
      obtain ⟨r, h1, h⟩ := Res.bind_ok.mp h
      have := evict_kept hl h1
      have := shrunk_mono (evictAllLoop_shrunk _ _ _ h)
      omega
    · cases h; rfl

theorem evictBytes_kept {n : Nat} {c c' : Cache V} (h : evictBytes size p c n = .ok c')
    (he : c'.evictions = c.evictions) : c' = c := by
  unfold evictBytes at h
  split at h
  · cases h; rfl
  · split at h
    · cases h; rfl
    · split at h
      · exact evictAllLoop_kept h he
      · exact evictWhile_kept h he

/-- An insert that drops nothing. -/
theorem insert_kept {c c' : Cache V} {k : Nat} {v : V} (hc : c.capacity ≠ 0)
    (h : Cache.insert size p c k v = .ok c') (he : c'.evictions = c.evictions) :
    ∃ u, uadd p c.used (size v) = .ok u ∧
      c' = { c with lru := mapInsert c.lru k v, used := u, inserts := c.inserts + 1 } := by
  unfold Cache.insert at h
  rw [if_neg hc] at h
  obtain ⟨x, hx, h⟩ := Res.bind_ok.mp h
  have done : ∀ d : Cache V, (d.evictions = c.evictions → d = c) →
      (do let used' ← uadd p d.used (size v)
          Except.ok { d with lru := mapInsert d.lru k v, used := used',
                             inserts := d.inserts + 1 } : Res (Cache V)) = .ok c' →
      ∃ u, uadd p c.used (size v) = .ok u ∧
        c' = { c with lru := mapInsert c.lru k v, used := u, inserts := c.inserts + 1 } := by
    intro d hd h
    obtain ⟨u, hu, h⟩ := Res.bind_ok.mp h
    cases h
    have := hd he
    subst this
    exact ⟨u, hu, rfl⟩
  dsimp only at h
  split at h
  · obtain ⟨a, -, h⟩ := Res.bind_ok.mp h
    obtain ⟨b, -, h⟩ := Res.bind_ok.mp h
    obtain ⟨d, hd, h⟩ := Res.bind_ok.mp h
    exact done d (evictBytes_kept hd) h
  · exact done c (fun _ => rfl) h

/-- An insert that fits. -/
theorem insert_room {c : Cache V} {k : Nat} {v : V} (hf : c.used + size v < c.capacity)
    (hm : c.capacity < usizeMod) : Cache.insert size p c k v =
      .ok { c with lru := mapInsert c.lru k v, used := c.used + size v,
                   inserts := c.inserts + 1 } := by
  have h : c.used + size v < usizeMod := by omega
  unfold Cache.insert
  rw [if_neg (by omega), uadd_of_lt h]
  simp only [bind, Except.bind, ge_iff_le]
  rw [if_neg (by omega)]
  simp only [uadd_of_lt h]

theorem total_mapInsert {l : List (Nat × V)} {k : Nat} {v : V} (h : find l k = none) :
    total size (mapInsert l k v) = total size l + size v := by
  rw [mapInsert, eraseKey_of_fresh _ _ ((find_none_iff _ _).mp h), total_append]
  rfl

theorem get_evictions (c : Cache V) (k : Nat) : (c.get k).1.evictions = c.evictions := by
  unfold Cache.get; split <;> rfl

theorem total_get {c : Cache V} (hn : (keys c.lru).Nodup) (k : Nat) :
    total size (c.get k).1.lru = total size c.lru := by
  rw [get_lru]
  cases h : find c.lru k with
  | none => rfl
  | some v =>
    simp only [total_append, total]
    have := total_eraseKey (size := size) c.lru k v hn h
    omega

theorem nodup_get {c : Cache V} (hn : (keys c.lru).Nodup) (k : Nat) :
    (keys (c.get k).1.lru).Nodup := by
  rw [keys_get]
  split
  · exact nodup_use _ _ hn
  · exact hn

theorem get_resize (c : Cache V) (k K : Nat) :
    Cache.get { c with capacity := K } k = ({ (c.get k).1 with capacity := K }, (c.get k).2) := by
  unfold Cache.get
  dsimp only
  split <;> rfl

end

variable {F H : Type}

theorem bytes_total (c : Cache (Image F H)) : bytes c = total Image.sizeBytes c.lru := by
  unfold bytes
  induction c.lru with
  | nil => rfl
  | cons a l ih => simp only [List.map_cons, List.sum_cons, total, ih]

/-- What is kept from the start. -/
structure Since (e0 : Nat) (w : World F H) : Prop where
  evictions : e0 ≤ w.cache.evictions
  keys : (keys w.cache.lru).Nodup
  capacity : w.cache.capacity ≠ 0

/-- Nothing dropped so far, and less than `K` bytes. -/
structure Until (e0 K : Nat) (w : World F H) : Prop where
  evictions : w.cache.evictions ≤ e0
  bytes : total Image.sizeBytes w.cache.lru < K

/-- The same world with the capacity `K`. -/
structure Sized (K : Nat) (w v : World F H) : Prop where
  same : v = resize w K
  used : w.cache.used = total Image.sizeBytes w.cache.lru

variable {e0 K : Nat}

theorem lookup_room (hK : K < usizeMod) {X : Type} {p : Profile} {key : Nat} {hit : X}
    {make : Res (Image F H × X)} {u : Bool} {w w' : World F H} {i : Image F H} {x : X}
    (e : lookup p u w key hit make = .ok (w', i, x)) (hq : Since e0 w) :
    Since e0 w' ∧ (Until e0 K w' → Until e0 K w ∧ ∀ v, Sized K w v →
      ∃ v', lookup p u v key hit make = .ok (v', i, x) ∧ Sized K w' v') := by
  have hg0 := (lookup_grows e).1
  unfold lookup at e ⊢
  cases u with
  | false =>
    rw [if_neg (by simp)] at e
    obtain ⟨⟨i', x'⟩, e1, e⟩ := Res.bind_ok.mp e
    simp only [Except.ok.injEq, Prod.mk.injEq] at e
    obtain ⟨rfl, rfl, rfl⟩ := e
    refine ⟨hq, fun hp => ⟨hp, fun v hv => ⟨v, ?_, hv⟩⟩⟩
    simp only [Bool.false_eq_true, if_false, e1, bind, Except.bind]
  | true =>
    rw [if_pos rfl] at e
    have hev := get_evictions w.cache key
    have hcap := get_capacity w.cache key
    have hn := nodup_get hq.keys key
    have ht := total_get (size := Image.sizeBytes) hq.keys key
    have hus := get_used w.cache key
    have hf := get_find w.cache key
    have hr := get_resize w.cache key K
    rcases hg : w.cache.get key with ⟨c, o⟩
    rw [hg] at e hev hcap hn ht hus hf hr
    dsimp only at e hev hcap hn ht hus hf hr
    cases o with
    | some image =>
      simp only [Except.ok.injEq, Prod.mk.injEq] at e
      obtain ⟨rfl, rfl, rfl⟩ := e
      refine ⟨⟨by rw [hev]; exact hq.evictions, hn, by rw [hcap]; exact hq.capacity⟩, fun hp =>
        ⟨⟨by rw [← hev]; exact hp.evictions, by rw [← ht]; exact hp.bytes⟩, ?_⟩⟩
      rintro v ⟨rfl, hu⟩
      refine ⟨resize { w with cache := c } K, ?_, rfl, by dsimp only; rw [hus, ht, hu]⟩
      simp only [if_true]
      unfold resize
      dsimp only
      rw [hr]
    | none =>
      obtain ⟨⟨i', x'⟩, e1, e⟩ := Res.bind_ok.mp e
      obtain ⟨c', e2, e⟩ := Res.bind_ok.mp e
      simp only [Except.ok.injEq, Prod.mk.injEq] at e
      obtain ⟨rfl, rfl, rfl⟩ := e
      have hg1 := hg0.evictions
      have hg2 := hg0.capacity
      dsimp only at hg1 hg2
      have hl : c.lru = w.cache.lru := by
        have := get_lru w.cache key
        rw [← hf, hg] at this
        exact this
      have hc : c.capacity ≠ 0 := by rw [hcap]; exact hq.capacity
      have hn' : (keys c'.lru).Nodup := by
        obtain ⟨d, h1, h2, -⟩ := insert_shape c c' key i' hc e2
        rw [h2, keys_mapInsert]
        exact nodup_use _ _ (nodup_suffix (keys_suffix h1.suffix) hn)
      refine ⟨⟨hq.evictions.trans hg1, hn', by dsimp only; rw [hg2]; exact hq.capacity⟩,
        fun hp => ?_⟩
      have hp1 := hp.evictions
      have hp2 := hp.bytes
      have hq1 := hq.evictions
      dsimp only at hp1 hp2
      obtain ⟨u, hu, rfl⟩ := insert_kept hc e2 (by omega)
      dsimp only at hp2
      have hfc : find c.lru key = none := by rw [hl]; exact hf.symm
      rw [total_mapInsert hfc, ht] at hp2
      refine ⟨⟨by omega, by omega⟩, ?_⟩
      rintro v ⟨rfl, hused⟩
      have hlt : c.used + i'.sizeBytes < K := by omega
      dsimp only at hu
      have hus' : u = c.used + i'.sizeBytes := by
        rw [uadd_of_lt (by omega)] at hu
        cases hu
        rfl
      have hroom := insert_room (p := p) (size := Image.sizeBytes) (k := key) (v := i')
        (c := { c with capacity := K }) hlt hK
      refine ⟨_, ?_, rfl, ?_⟩
      · simp only [if_true]
        unfold resize
        dsimp only
        rw [hr]
        simp only [e1, hroom, bind, Except.bind, hus']
      · dsimp only
        rw [total_mapInsert hfc, ht, hus', hus, hused]

variable [FloatLike F] [HalfLike F H] [FloatConst F] [FloatBits F]

theorem along_room (hK : K < usizeMod) (p : Profile) (lib : NodeLib F H) :
    Along (nodeSem p lib) (Since e0) (Until e0 K) (Sized K) := by
  intro n f m ins prev w n' st out w1 e hq
  unfold nodeSem at e ⊢
  dsimp only at e ⊢
  obtain ⟨⟨a1, a2, a3⟩, q1, e⟩ := Res.bind_ok.mp e
  simp only [Except.ok.injEq, Prod.mk.injEq] at e
  obtain ⟨rfl, rfl, rfl, rfl⟩ := e
  change Call.run p lib ⟨n, f, m, ins, prev⟩ w = .ok (_, _, _) at q1
  have fwd : ∀ {v v1}, Call.run p lib ⟨n, f, m, ins, prev⟩ v = .ok (a1, a2, v1) →
      (do let __discr ← n.run p lib f m ins prev v
          match __discr with
          | (st, out, w') => Except.ok ({ n with status := st }, st, out, w') : Res _) =
        .ok ({ n with status := a1 }, a1, a2, v1) := by
    intro v v1 h
    unfold Call.run at h
    dsimp only at h
    rw [h]
    rfl
  rcases run_shape p lib ⟨n, f, m, ins, prev⟩ with h | ⟨X, u, hit, make, fin, h⟩
  · obtain ⟨jobs, h1, rfl⟩ := plain_gives h q1
    refine ⟨⟨hq.evictions, hq.keys, hq.capacity⟩, fun hp => ⟨⟨hp.evictions, hp.bytes⟩, ?_⟩⟩
    rintro v ⟨rfl, hu⟩
    exact ⟨_, fwd (h1 _), rfl, hu⟩
  · rw [h.run] at q1
    obtain ⟨⟨w2, i, x⟩, e1, q1⟩ := Res.bind_ok.mp q1
    simp only [Except.ok.injEq, Prod.mk.injEq] at q1
    obtain ⟨rfl, rfl, rfl⟩ := q1
    obtain ⟨k1, k2⟩ := lookup_room (K := K) hK e1 hq
    refine ⟨k1, fun hp => ⟨(k2 hp).1, fun v hv => ?_⟩⟩
    obtain ⟨v', e2, hs⟩ := (k2 hp).2 v hv
    refine ⟨v', fwd ?_, hs⟩
    rw [h.run, e2]
    rfl

end OCG.RoomSpec
