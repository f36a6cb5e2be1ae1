import Verif.Spec.Room
import Verif.Proofs.Room
import Verif.Props.Recall
/-
Property C142: the capacity of the cache does not matter as long as everything fits.
-/

namespace OCG.Props

open CacheSpec RecallSpec RoomSpec

section
variable {F H : Type} [FloatLike F] [HalfLike F H] [FloatConst F] [FloatBits F]

/-- C142: if an execution drops nothing from the cache, then with any capacity above the bytes of the
images that are in the cache at the end, the same execution has the same result, and leaves the same
cache apart from its capacity. -/
theorem C142_room (p : Profile) (lib : NodeLib F H) (srt : EdgeSort) (fuel : Nat)
    {g g' : Graph (Node F) (Stream F H)} {id : Nat} {frames : List F} {w w' : World F H}
    {status : ExecuteStatus} (hw : Honest w.cache) (hc : w.cache.capacity ≠ 0)
    (e : Graph.execute (nodeSem p lib) srt fuel g id frames w = .ok (status, g', w'))
    (hev : w'.cache.evictions = w.cache.evictions) {capacity : Nat}
    (hroom : bytes w'.cache < capacity) (husize : capacity < usizeMod) :
    Graph.execute (nodeSem p lib) srt fuel g id frames (resize w capacity) =
      .ok (status, g', resize w' capacity) ∧ Honest w'.cache := by
  obtain ⟨k1, k2⟩ := execute_along (along_room (e0 := w.cache.evictions) husize p lib) srt fuel e
    ⟨le_rfl, hw.keys, hc⟩
  obtain ⟨v, e2, rfl, hu⟩ := (k2 ⟨hev.le, by rw [← bytes_total]; exact hroom⟩).2 (resize w capacity)
    ⟨rfl, by rw [← bytes_total]; exact hw.used⟩
  exact ⟨e2, by rw [bytes_total]; exact hu, k1.keys⟩

theorem later_room {p : Profile} {srt : EdgeSort} {w v : World F H} (hw : Honest w.cache)
    (hc : w.cache.capacity ≠ 0) (h : Later p srt w v) {capacity : Nat} (husize : capacity < usizeMod) :
    v.cache.evictions = w.cache.evictions → bytes v.cache < capacity →
      Later p srt (resize w capacity) (resize v capacity) ∧ Honest v.cache := by
  have key : (Since w.cache.evictions v ∧ (Until w.cache.evictions capacity v →
      Until w.cache.evictions capacity w ∧
        (v.cache.used = total Image.sizeBytes v.cache.lru) ∧
        Later p srt (resize w capacity) (resize v capacity))) := by
    induction h with
    | refl =>
      exact ⟨⟨le_rfl, hw.keys, hc⟩, fun h => ⟨h, by rw [← bytes_total]; exact hw.used, .refl⟩⟩
    | step lib h e ih =>
      obtain ⟨i1, i2⟩ := ih
      obtain ⟨k1, k2⟩ := execute_along (along_room husize p lib) srt _ e i1
      refine ⟨k1, fun hp => ?_⟩
      obtain ⟨j1, j2⟩ := k2 hp
      obtain ⟨l1, l2, l3⟩ := i2 j1
      obtain ⟨v', e2, rfl, hu⟩ := j2 _ ⟨rfl, l2⟩
      exact ⟨l1, hu, .step lib l3 e2⟩
  intro hev hroom
  obtain ⟨-, k2, k3⟩ := key.2 ⟨hev.le, by rw [← bytes_total]; exact hroom⟩
  exact ⟨k3, by rw [bytes_total]; exact k2, key.1.keys⟩

/-- C142: the same for any number of executions of any graphs. -/
theorem C142_history {p : Profile} {srt : EdgeSort} {w v : World F H} (hw : Honest w.cache)
    (hc : w.cache.capacity ≠ 0) (h : Later p srt w v)
    (hev : v.cache.evictions = w.cache.evictions) {capacity : Nat}
    (hroom : bytes v.cache < capacity) (husize : capacity < usizeMod) :
    Later p srt (resize w capacity) (resize v capacity) ∧ Honest v.cache :=
  later_room hw hc h husize hev hroom

/-- C142: if an execution drops nothing, it drops nothing with a larger capacity either, and gives
the same. -/
theorem C142_more (p : Profile) (lib : NodeLib F H) (srt : EdgeSort) (fuel : Nat)
    {g g' : Graph (Node F) (Stream F H)} {id : Nat} {frames : List F} {w w' : World F H}
    {status : ExecuteStatus} (hw : Honest w.cache)
    (e : Graph.execute (nodeSem p lib) srt fuel g id frames w = .ok (status, g', w'))
    (hev : w'.cache.evictions = w.cache.evictions) (hfits : bytes w'.cache ≤ w.cache.capacity)
    {capacity : Nat} (hmore : w.cache.capacity < capacity) (hc : w.cache.capacity ≠ 0)
    (husize : capacity < usizeMod) :
    ∃ w2, Graph.execute (nodeSem p lib) srt fuel g id frames (resize w capacity) =
      .ok (status, g', w2) ∧ w2.cache.evictions = w.cache.evictions ∧ w2.writes = w'.writes :=
  ⟨_, (C142_room p lib srt fuel hw hc e hev (by omega) husize).1, hev, rfl⟩

end

section
attribute [local instance] finFloat finBits finHalf finPi

theorem blank_honest : Honest blankWorld.cache := ⟨rfl, List.nodup_nil⟩

/-- The picture and its cropped pixel take 24 bytes of a cache with room for 1000; with room for 25
the execution is the same. -/
example : ∃ g w, readCrop.execute (nodeSem .debug twoFiles) insSort 20 2 [1] blankWorld =
      .ok (.success, g, w) ∧ bytes w.cache = 24 ∧ w.cache.inserts = 2 ∧
    readCrop.execute (nodeSem .debug twoFiles) insSort 20 2 [1] (resize blankWorld 25) =
      .ok (.success, g, resize w 25) := by
  obtain ⟨g, w, e, hev, hb, hi⟩ : ∃ g w,
      readCrop.execute (nodeSem .debug twoFiles) insSort 20 2 [1] blankWorld = .ok (.success, g, w) ∧
      w.cache.evictions = 0 ∧ bytes w.cache = 24 ∧ w.cache.inserts = 2 :=
    ⟨_, _, rfl, by decide +kernel, by decide +kernel, by decide +kernel⟩
  exact ⟨g, w, e, hb, hi, (C142_room .debug twoFiles insSort 20 blank_honest (by decide) e hev
    (by omega) (by rw [usizeMod_eq]; omega)).1⟩

/-- The same for a history of two executions. -/
example : ∃ v, Later .debug insSort blankWorld v ∧ v.cache.hits = 2 ∧
    Later .debug insSort (resize blankWorld 25) (resize v 25) := by
  obtain ⟨g, w, g2, v, e, e2, hev, hb, hh⟩ : ∃ g w g2 v,
      readCrop.execute (nodeSem .debug twoFiles) insSort 20 2 [1] blankWorld = .ok (.success, g, w) ∧
      g.execute (nodeSem .debug twoFiles) insSort 20 2 [1] w = .ok (.success, g2, v) ∧
      v.cache.evictions = 0 ∧ bytes v.cache = 24 ∧ v.cache.hits = 2 :=
    ⟨_, _, _, _, rfl, rfl, by decide +kernel, by decide +kernel, by decide +kernel⟩
  have hl : Later .debug insSort blankWorld v := .step twoFiles (.step twoFiles .refl e) e2
  exact ⟨v, hl, hh, (C142_history blank_honest (by decide) hl hev (by omega)
    (by rw [usizeMod_eq]; omega)).1⟩

/-- With ten times the room nothing changes. -/
example : ∃ g w w2, readCrop.execute (nodeSem .debug twoFiles) insSort 20 2 [1] blankWorld =
      .ok (.success, g, w) ∧
    readCrop.execute (nodeSem .debug twoFiles) insSort 20 2 [1] (resize blankWorld 10000) =
      .ok (.success, g, w2) ∧ w2.cache.evictions = 0 := by
  obtain ⟨g, w, e, hev, hb⟩ : ∃ g w,
      readCrop.execute (nodeSem .debug twoFiles) insSort 20 2 [1] blankWorld = .ok (.success, g, w) ∧
      w.cache.evictions = 0 ∧ bytes w.cache ≤ 1000 :=
    ⟨_, _, rfl, by decide +kernel, by decide +kernel⟩
  obtain ⟨w2, h1, h2, -⟩ := C142_more .debug twoFiles insSort 20 blank_honest e hev hb
    (capacity := 10000) (by decide) (by decide) (by rw [usizeMod_eq]; omega)
  exact ⟨g, w, w2, e, h1, h2⟩

/-- C142: the bound is sharp.  A cache with room for exactly the images drops one of them. -/
theorem C142_sharp : ∃ g w g2 w2,
    readCrop.execute (nodeSem .debug twoFiles) insSort 20 2 [1] blankWorld = .ok (.success, g, w) ∧
    w.cache.evictions = 0 ∧
    readCrop.execute (nodeSem .debug twoFiles) insSort 20 2 [1]
      (resize blankWorld (bytes w.cache)) = .ok (.success, g2, w2) ∧
    w2.cache.evictions = 1 ∧ w2.cache.lru.length = 1 := by
  refine ⟨_, _, _, _, rfl, by decide +kernel, rfl, by decide +kernel, by decide +kernel⟩

end
end OCG.Props
