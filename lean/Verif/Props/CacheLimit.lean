import Verif.Spec.CacheLimit
import Verif.Proofs.CacheInv
import Verif.Proofs.Relate
import Verif.Props.Builds
import Verif.Props.CacheRun
/-
C133: whatever is executed, the cache stays within its limit.
-/

namespace OCG.Props

open CacheLimitSpec GraphSpec Cache CacheSpec Spec

section
variable {V : Type} {size : V → Nat}

/-- The invariant: exact counting, and no more than allowed. -/
def KeepsLimit (size : V → Nat) (c : Cache V) : Prop := Exact size c ∧ c.used ≤ c.capacity

/-- A debug build stores nothing that is larger than the capacity. -/
theorem insert_debug_fits {c c' : Cache V} {k : Nat} {v : V} (hc : c.capacity ≠ 0)
    (h : Cache.insert size .debug c k v = .ok c') : size v ≤ c.capacity := by
  by_contra hv
  unfold Cache.insert at h
  rw [if_neg hc] at h
  obtain ⟨e, he, h⟩ := Res.bind_ok.mp h
  unfold uadd at he
  split at he
  · cases he
    rw [if_pos (by omega)] at h
    obtain ⟨c1, h1, -⟩ := Res.bind_ok.mp h
    rw [usub_debug hv] at h1
    cases h1
  · cases he

theorem limit_insert {c c' : Cache V} {k : Nat} {v : V} (hk : KeepsLimit size c)
    (hf : find c.lru k = none) (h : Cache.insert size .debug c k v = .ok c') : KeepsLimit size c' := by
  have hfit : c.capacity ≠ 0 → size v ≤ c.capacity := fun hc => insert_debug_fits hc h
  by_cases hc : c.capacity = 0
  · unfold Cache.insert at h
    rw [if_pos hc] at h
    cases h
    exact hk
  · have hok : Allowed size ⟨true, true⟩ c (.insert k v) :=
      ⟨by have := hfit hc; have := hk.1.cap; omega, fun _ => hf, fun _ => hfit⟩
    have hs : Cache.step size .debug c (.insert k v) = .ok (c', none) :=
      Res.bind_ok.mpr ⟨c', h, rfl⟩
    exact ⟨exact_step c c' _ _ _ rfl hk.1 hok hs, bound_step c c' _ _ _ rfl hk.1 hk.2 hok hs⟩

theorem limit_get {c : Cache V} (k : Nat) (hk : KeepsLimit size c) : KeepsLimit size (get c k).1 :=
  ⟨exact_get c k hk.1, by rw [get_used, get_capacity]; exact hk.2⟩

theorem limit_setCapacity {p : Profile} {c c' : Cache V} {n : Nat} (hn : n < allocLimit)
    (hk : KeepsLimit size c) (h : Cache.setCapacity size p c n = .ok c') : KeepsLimit size c' := by
  have hs : Cache.step size p c (.setCapacity n) = .ok (c', none) := Res.bind_ok.mpr ⟨c', h, rfl⟩
  have hok : Allowed size ⟨true, true⟩ c (.setCapacity n) := hn
  exact ⟨exact_step c c' _ _ _ rfl hk.1 hok hs, bound_step c c' _ _ _ rfl hk.1 hk.2 hok hs⟩

theorem get_none_lru {c c' : Cache V} {k : Nat} (h : get c k = (c', none)) :
    find c'.lru k = none := by
  unfold Cache.get at h
  split at h
  · cases h
  · cases h; assumption

end

section
variable {F H : Type} [FloatLike F] [HalfLike F H] [FloatConst F]

theorem limit_cached {c c' : Cache (Image F H)} {key : Nat} {make : Res (Image F H)}
    {image : Image F H} (hk : KeepsLimit Image.sizeBytes c)
    (h : cached .debug c key make = .ok (c', image)) : KeepsLimit Image.sizeBytes c' := by
  unfold cached at h
  have hg := limit_get key hk
  split at h
  · rename_i e
    rw [e] at hg
    cases h
    exact hg
  · rename_i e
    rw [e] at hg
    obtain ⟨i, -, h⟩ := Res.bind_ok.mp h
    obtain ⟨c1, h1, h⟩ := Res.bind_ok.mp h
    cases h
    exact limit_insert hg (get_none_lru e) h1

theorem limit_lookup {X : Type} {use : Bool} {w w' : World F H} {key : Nat} {hit : X}
    {make : Res (Image F H × X)} {image : Image F H} {x : X}
    (hk : KeepsLimit Image.sizeBytes w.cache)
    (h : lookup .debug use w key hit make = .ok (w', image, x)) :
    KeepsLimit Image.sizeBytes w'.cache := by
  unfold lookup at h
  have hg := limit_get key hk
  split at h
  · split at h
    · rename_i e
      rw [e] at hg
      cases h
      exact hg
    · rename_i e
      rw [e] at hg
      obtain ⟨⟨i, y⟩, -, h⟩ := Res.bind_ok.mp h
      obtain ⟨c1, h1, h⟩ := Res.bind_ok.mp h
      cases h
      exact limit_insert hg (get_none_lru e) h1
  · obtain ⟨⟨i, y⟩, -, h⟩ := Res.bind_ok.mp h
    cases h
    exact hk

variable [FloatBits F]

/-- Computing a node in a debug build keeps the limit. -/
theorem limit_run (lib : NodeLib F H) (n : Node F) (frame : F) (mode : Mode)
    (inputs : List (Stream F H)) (prev : Stream F H) {w w' : World F H} {st : NodeStatus}
    {out : Stream F H} (hk : KeepsLimit Image.sizeBytes w.cache)
    (h : n.run .debug lib frame mode inputs prev w = .ok (st, out, w')) :
    KeepsLimit Image.sizeBytes w'.cache := by
  unfold Node.run at h
  dsimp only at h
  split at h
  · unfold computeNull at h
    split at h <;> (cases h; exact hk)
  · unfold ReadImageAttrs.compute at h
    split at h
    · split at h
      · cases h; exact hk
      · dsimp only at h
        split at h
        · cases h; exact hk
        · obtain ⟨⟨w1, i, x⟩, h1, h⟩ := Res.bind_ok.mp h
          cases h
          exact limit_lookup hk h1
        · split at h <;> (cases h; exact hk)
    · cases h; exact hk
  · unfold WriteImageAttrs.compute at h
    split at h
    · cases h; exact hk
    · split at h
      · cases h; exact hk
      · split at h
        · cases h; exact hk
        · obtain ⟨⟨b, j⟩, -, h⟩ := Res.bind_ok.mp h
          cases h
          exact hk
  · unfold GradeAttrs.compute at h
    dsimp only at h
    split at h <;> (cases h; exact hk)
  · unfold LensDistortAttrs.compute at h
    dsimp only at h
    split at h
    · split at h
      · cases h; exact hk
      · cases h
    · cases h; exact hk
  · unfold TransformAttrs.compute at h
    dsimp only at h
    cases h
    exact hk
  · unfold MergeImageAttrs.compute at h
    split at h
    · cases h; exact hk
    · split at h
      · cases h; exact hk
      · dsimp only at h
        obtain ⟨⟨w1, i, x⟩, h1, h⟩ := Res.bind_ok.mp h
        cases h
        exact limit_lookup hk h1
  · unfold CropImageAttrs.compute at h
    split at h
    · cases h; exact hk
    · split at h
      · cases h; exact hk
      · obtain ⟨⟨w1, i, x⟩, h1, h⟩ := Res.bind_ok.mp h
        cases h
        exact limit_lookup hk h1
  · unfold ViewerAttrs.compute at h
    split at h
    · cases h; exact hk
    · dsimp only at h
      split at h
      · obtain ⟨⟨w1, i, x⟩, h1, h⟩ := Res.bind_ok.mp h
        cases h
        exact limit_lookup hk h1
      · cases h; exact hk
  · unfold ResampleImageAttrs.compute at h
    split at h
    · cases h; exact hk
    · split at h
      · cases h; exact hk
      · obtain ⟨-, -, h⟩ := Res.bind_ok.mp h
        split at h
        · obtain ⟨⟨w1, i, x⟩, h1, h⟩ := Res.bind_ok.mp h
          cases h
          exact limit_lookup hk h1
        · cases h; exact hk

theorem limit_execute {lib : NodeLib F H} {srt : EdgeSort} {fuel : Nat}
    {g g' : Graph (Node F) (Stream F H)} {id : Nat} {frames : List F} {w w' : World F H}
    {st : ExecuteStatus} (hk : KeepsLimit Image.sizeBytes w.cache)
    (h : g.execute (nodeSem .debug lib) srt fuel id frames w = .ok (st, g', w')) :
    KeepsLimit Image.sizeBytes w'.cache :=
  (execute_keeps (PN := fun _ => True) (PS := fun _ => True)
    (PC := fun w : World F H => KeepsLimit Image.sizeBytes w.cache)
    (fun n fr m ins prev c n' st out c' _ _ _ hc e => by
      obtain ⟨⟨s1, o1, c1⟩, e1, e⟩ := Res.bind_ok.mp e
      cases e
      exact ⟨trivial, trivial, limit_run lib n fr m ins prev hc e1⟩)
    srt fuel (fun _ _ => trivial) trivial id frames hk h).2.2

theorem keepsLimit_within {c : Cache (Image F H)} (h : KeepsLimit Image.sizeBytes c) :
    WithinLimit c := by
  have e : ∀ l : List (Nat × Image F H),
      total Image.sizeBytes l = (l.map fun e => e.2.sizeBytes).sum := by
    intro l
    induction l with
    | nil => rfl
    | cons a l ih => simp only [total, List.map_cons, List.sum_cons, ih]
  have hu : c.used = bytesHeld c := h.1.used.trans (e _)
  exact ⟨hu, hu ▸ h.2, h.1.nodup⟩

/-- C133, debug builds: whatever graphs are executed and whatever lookup tables are made, the images
in the cache take as much memory as it says, and no more than its capacity. -/
theorem C133_debug (lib : NodeLib F H) (srt : EdgeSort) {w : World F H}
    (h : AnyUse .debug lib srt w) : WithinLimit w.cache := by
  have hL : allocLimit = 2 ^ 63 := allocLimit_eq
  refine keepsLimit_within ?_
  induction h with
  | start cap hc => exact ⟨exact_init cap (by omega), Nat.zero_le _⟩
  | capacity n cache _ hn e ih => exact limit_setCapacity (by omega) ih e
  | execute w' fuel g g' id frames st _ e ih => exact limit_execute ih e
  | transformLut src dst n cache image _ e ih => exact limit_cached ih e
  | opsLut s n k cache image _ e ih => exact limit_cached ih e

/-- C133, release builds, where a debug build would not stop (see `C130_session`): the cache is the
one of the debug build, and within its limit. -/
theorem C133_release_partial (lib : NodeLib F H) (srt : EdgeSort) (fuel : Nat)
    (actions : List (Action F H)) (hcalls : ∀ op, .cache op ∈ actions →
      ∃ n, op = .setCapacity n ∧ n < 2 ^ 63)
    {g g' : Graph (Node F) (Stream F H)} {w w' : World F H} (hw : AnyUse .debug lib srt w)
    (hx : session .debug lib srt fuel actions (g, w) = .ok (g', w')) :
    session .release lib srt fuel actions (g, w) = .ok (g', w') ∧ WithinLimit w'.cache := by
  refine ⟨C130_follows lib srt fuel actions (g, w) _ hx, ?_⟩
  refine C133_debug lib srt ?_
  clear * - hcalls hw hx
  induction actions generalizing g w with
  | nil => cases hx; exact hw
  | cons a as ih =>
    unfold session at hx
    obtain ⟨⟨g1, w1⟩, h1, h2⟩ := Res.bind_ok.mp hx
    refine ih (fun op hop => hcalls op (List.mem_cons_of_mem _ hop)) ?_ h2
    cases a with
    | addNode n => obtain ⟨r, -, e⟩ := Res.bind_ok.mp h1; cases e; exact hw
    | removeNode id => cases h1; exact hw
    | connect a b slot => obtain ⟨r, -, e⟩ := Res.bind_ok.mp h1; cases e; exact hw
    | disconnect b slot => cases h1; exact hw
    | edit id f => obtain ⟨r, -, e⟩ := Res.bind_ok.mp h1; cases e; exact hw
    | execute id frames =>
      obtain ⟨⟨st, g2, w2⟩, e1, e⟩ := Res.bind_ok.mp h1
      cases e
      exact .execute _ fuel _ _ id frames st hw e1
    | cache op =>
      obtain ⟨⟨c2, o2⟩, e1, e⟩ := Res.bind_ok.mp h1
      cases e
      obtain ⟨n, rfl, hn⟩ := hcalls op List.mem_cons_self
      obtain ⟨c3, e2, e3⟩ := Res.bind_ok.mp e1
      cases e3
      exact .capacity n _ hw hn e2

end

/-! ### Examples -/

attribute [local instance] finFloat finBits finHalf finPi

/-- Two read nodes for two files, of one and of two pixels. -/
def twoReads : Graph (Node (Fin 256)) (Stream (Fin 256) (Fin 256)) :=
  ⟨[{ readNode 1 [97] with id := 1 }, { readNode 1 [98] with id := 2 }], [1, 2],
    ⟨[some 1, some 2], [], []⟩, .new, .dirty, .uninitialized⟩

/-- An empty cache of 30 bytes. -/
def smallWorld : World (Fin 256) (Fin 256) := ⟨.withCapacity 30, []⟩

/-- Reading two files with a cache that has room for one of them (the images take 12 and 24
bytes). -/
example : ∃ g1 w1 g2 w2,
    twoReads.execute (nodeSem .debug twoFiles) insSort 20 1 [1] smallWorld = .ok (.success, g1, w1) ∧
    g1.execute (nodeSem .debug twoFiles) insSort 20 2 [1] w1 = .ok (.success, g2, w2) ∧
    w1.cache.used = 12 ∧ w2.cache.used = 24 ∧ WithinLimit w2.cache := by
  obtain ⟨g1, w1, e1, k1, g2, w2, e2, k2⟩ : ∃ g1 w1,
      twoReads.execute (nodeSem .debug twoFiles) insSort 20 1 [1] smallWorld = .ok (.success, g1, w1) ∧
      w1.cache.used = 12 ∧ ∃ g2 w2,
      g1.execute (nodeSem .debug twoFiles) insSort 20 2 [1] w1 = .ok (.success, g2, w2) ∧
      w2.cache.used = 24 :=
    ⟨_, _, rfl, by decide +kernel, _, _, rfl, by decide +kernel⟩
  exact ⟨g1, w1, g2, w2, e1, e2, k1, k2, C133_debug twoFiles insSort
    (.execute _ 20 _ _ 2 [1] _ (.execute _ 20 _ _ 1 [1] _ (.start 30 (by decide)) e1) e2)⟩

/-- The same in a release build, with less capacity afterwards. -/
example : ∃ s, session .release twoFiles insSort 20
      [.execute 1 [1], .execute 2 [1], .cache (.setCapacity 20)] (twoReads, smallWorld) = .ok s ∧
    WithinLimit s.2.cache := by
  obtain ⟨s, e⟩ : ∃ s, session .debug twoFiles insSort 20
      [.execute 1 [1], .execute 2 [1], .cache (.setCapacity 20)] (twoReads, smallWorld) = .ok s :=
    ⟨_, rfl⟩
  obtain ⟨g, w⟩ := s
  have h := C133_release_partial twoFiles insSort 20 _ (fun op hop => by
    simp only [List.mem_cons, reduceCtorEq, List.not_mem_nil, or_false, false_or,
      Action.cache.injEq] at hop
    exact ⟨20, hop, by decide⟩) (.start 30 (by decide)) e
  exact ⟨_, h.1, h.2⟩

/-- C133 fails in release builds: with a capacity of 5 bytes, a lookup table of two values leaves 8
bytes in the cache. -/
theorem C133_counterexample : ∃ (image : Image (Fin 256) (Fin 256)) (w : World (Fin 256) (Fin 256)),
    getOpsLut .release twoFiles.hash .new 2 1 (.withCapacity 5) = .ok (w.cache, image) ∧
    AnyUse .release twoFiles insSort w ∧ w.cache.capacity = 5 ∧ bytesHeld w.cache = 8 ∧
    ¬ WithinLimit w.cache := by
  obtain ⟨image, e, hb⟩ : ∃ image : Image (Fin 256) (Fin 256),
      generateOpsLut .release 2 1 (Stream.new : Stream (Fin 256) (Fin 256)).colorOps = .ok image ∧
      image.sizeBytes = 8 := ⟨_, rfl, by decide +kernel⟩
  have hL : allocLimit = 2 ^ 63 := allocLimit_eq
  have hx : Exact Image.sizeBytes
      { (Cache.withCapacity 5 : Cache (Image (Fin 256) (Fin 256))) with misses := 1 } := by
    have := exact_init (V := Image (Fin 256) (Fin 256)) (size := Image.sizeBytes) 5 (by omega)
    exact ⟨this.used, this.nodup, this.small, this.cap⟩
  have hi := fun k => insert_eq (p := .release) _ k image hx (by omega) (by simp [withCapacity])
  simp only [or_true, if_true] at hi
  have hg : ∃ k, getOpsLut .release twoFiles.hash (Stream.new : Stream (Fin 256) (Fin 256)) 2 1
      (.withCapacity 5) = .ok (afterInsert Image.sizeBytes
        { (Cache.withCapacity 5 : Cache (Image (Fin 256) (Fin 256))) with misses := 1 } k image,
        image) := by
    refine ⟨twoFiles.hash (hashBytes (opsLutItems (colorOpsHash twoFiles.hash
      (Stream.new : Stream (Fin 256) (Fin 256)).colorOps) 2 1)), ?_⟩
    unfold getOpsLut cached
    exact Res.bind_ok.mpr ⟨image, e, Res.bind_ok.mpr ⟨_, hi _, rfl⟩⟩
  obtain ⟨k, hg⟩ := hg
  have h8 : bytesHeld (afterInsert Image.sizeBytes
      { (Cache.withCapacity 5 : Cache (Image (Fin 256) (Fin 256))) with misses := 1 } k image) = 8 := by
    simp [bytesHeld, afterInsert, keepInsert, withCapacity, mapInsert, eraseKey, hb]
  refine ⟨image, ⟨_, []⟩, hg, .opsLut (w := ⟨.withCapacity 5, []⟩) _ 2 1 _ image
    (.start 5 (by decide)) hg, rfl, h8, fun h => ?_⟩
  have h1 : 8 ≤ 5 := h8 ▸ h.fits
  exact absurd h1 (by decide)

end OCG.Props
