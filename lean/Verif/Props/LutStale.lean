import Verif.Props.IeeeConvert
import Verif.Props.Lut
/-
C74: two ways in which a cached lookup table is not the one that would be computed afresh.
-/

namespace OCG.Props

open OCG.LutSpec OCG.BlockSpec OCG.PixelSpec IeeeSpec
open Ieee hiding floor ceil round

section
attribute [local instance] IeeeConvertExamples.someLibm

/-- What a client sees of a table: the values and the name of the colour space. -/
def tableOf (r : Res (Image F32 F16)) : Option (List F32 × Bytes) :=
  match r with
  | .ok i => i.pixelBlock.asSliceF32.toOption.map fun v => (v, i.spec.colorSpace)
  | .error _ => none

/-- A table that was computed for an empty cache is found again under the same key. -/
theorem cached_twice (p : Profile) (key : Nat) {make other : Res (Image F32 F16)} {i : Image F32 F16}
    (h : make = .ok i) (hs : Image.sizeBytes i < 1000) :
    ∃ c c' : Cache (Image F32 F16), cached p (.withCapacity 1000) key make = .ok (c, i) ∧
      cached p c key other = .ok (c', i) := by
  have e : (Cache.withCapacity 1000 : Cache (Image F32 F16)).get key =
      ({ (Cache.withCapacity 1000 : Cache (Image F32 F16)) with misses := 1 }, none) := rfl
  have a : ∀ n, n < 1000 → uadd p 0 n = .ok n := by
    intro n hn
    have := usizeMod_eq
    unfold uadd
    rw [if_pos (by omega), Nat.zero_add]
  have ins : ({ (Cache.withCapacity 1000 : Cache (Image F32 F16)) with misses := 1 }).insert
      Image.sizeBytes p key i = .ok ⟨[(key, i)], 1000, Image.sizeBytes i, 0, 1, 1, 0⟩ := by
    unfold Cache.insert
    rw [if_neg (by show ¬ (1000 = 0); decide)]
    refine Res.bind_ok.mpr ⟨_, a _ hs, ?_⟩
    rw [if_neg (by show ¬ (Image.sizeBytes i ≥ 1000); omega)]
    exact Res.bind_ok.mpr ⟨_, rfl, Res.bind_ok.mpr ⟨_, a _ hs, rfl⟩⟩
  refine ⟨⟨[(key, i)], 1000, Image.sizeBytes i, 0, 1, 1, 0⟩,
    ⟨Cache.eraseKey [(key, i)] key ++ [(key, i)], 1000, Image.sizeBytes i, 1, 1, 1, 0⟩, ?_, ?_⟩
  · unfold cached
    rw [e, h]
    exact Res.bind_ok.mpr ⟨_, rfl, Res.bind_ok.mpr ⟨_, ins, rfl⟩⟩
  · have g : (⟨[(key, i)], 1000, Image.sizeBytes i, 0, 1, 1, 0⟩ : Cache (Image F32 F16)).get key =
        (⟨Cache.eraseKey [(key, i)] key ++ [(key, i)], 1000, Image.sizeBytes i, 1, 1, 1, 0⟩,
          some i) := by
      unfold Cache.get
      rw [show Cache.find [(key, i)] key = some i from if_pos rfl]
    unfold cached
    rw [g]

/-- A grade that leaves red alone. -/
def noRed : GradeOp F32 := { GradeOp.new with processR := 0 }

/-- The same, with a white point of red (which does not matter) that equals the black point. -/
def flatRed : GradeOp F32 := { GradeOp.new with processR := 0, whitePointR := 0 }

theorem red_alike : hashBytes noRed.hashItems = hashBytes flatRed.hashItems := by decide +kernel

/-- The tables have 8 colours.  The first grade leaves black black, the second one gives NaN. -/
theorem red_tables (p : Profile) :
    (tableOf (generateOpsLut p 2 3 [noRed])).map (fun t => t.1.take 3) =
        some [zero false, zero false, zero false] ∧
      (tableOf (generateOpsLut p 2 3 [flatRed])).map (fun t => t.1.take 3) =
        some [nan, zero false, zero false] := by
  cases p <;> decide +kernel

/-- Two tables that differ although the grades are hashed alike: only one of two calls in a row
gets the table that would be computed afresh. -/
theorem stale_session (p : Profile) (hf : ByteHash) (lib : ColorLib F32) {ops ops' : List (GradeOp F32)}
    (hh : colorOpsHash hf ops = colorOpsHash hf ops') {i i' : Image F32 F16}
    (h : generateOpsLut p 2 3 ops = .ok i) (h' : generateOpsLut p 2 3 ops' = .ok i') (hne : i ≠ i')
    (hs : Image.sizeBytes i < 1000) : ∃ answers : List (Option (Image F32 F16)),
      Session p hf lib (.withCapacity 1000) [.operations ops 2 3, .operations ops' 2 3] answers ∧
      ¬ List.Forall₂ (fun call answer => Call.fresh p lib call = .ok answer)
        [.operations ops 2 3, .operations ops' 2 3] answers := by
  obtain ⟨c, c', h1, h2⟩ := cached_twice p
    (hf (hashBytes (opsLutItems (colorOpsHash hf ops) 2 3))) (other := generateOpsLut p 2 3 ops') h hs
  refine ⟨[some i, some i], ?_, ?_⟩
  · refine Session.operations (stream := { (Stream.new : Stream F32 F16) with colorOps := ops }) h1
      (Session.operations (stream := { (Stream.new : Stream F32 F16) with colorOps := ops' })
        (cache' := c') ?_ (.done _))
    rw [hh] at h2
    exact h2
  · intro hf2
    cases hf2 with
    | cons _ t =>
      cases t with
      | cons e _ =>
        have e : (generateOpsLut p 2 3 ops').map some = .ok (some i) := e
        rw [h'] at e
        cases e
        exact hne rfl

/-- C74 counterexample: whatever the hash function, of two tables for grades that leave red alone
the second is the one in the cache, though computed afresh it would have NaN for red: settings of a
channel that is not processed are not hashed, but they matter. -/
theorem C74_counterexample_grade (p : Profile) (hf : ByteHash) (lib : ColorLib F32) :
    ∃ answers : List (Option (Image F32 F16)),
      Session p hf lib (.withCapacity 1000) [.operations [noRed] 2 3, .operations [flatRed] 2 3]
        answers ∧
      ¬ List.Forall₂ (fun call answer => Call.fresh p lib call = .ok answer)
        [.operations [noRed] 2 3, .operations [flatRed] 2 3] answers := by
  have hh : colorOpsHash hf [noRed] = colorOpsHash hf [flatRed] := by
    unfold colorOpsHash
    simp only [List.flatMap_cons, List.flatMap_nil, red_alike]
  obtain ⟨t, t'⟩ := red_tables p
  cases h : generateOpsLut (H := F16) p 2 3 [noRed] with
  | error e => rw [h] at t; cases t
  | ok i =>
    cases h' : generateOpsLut (H := F16) p 2 3 [flatRed] with
    | error e => rw [h'] at t'; cases t'
    | ok i' =>
      have hs : Image.sizeBytes i < 1000 := by
        have : ((generateOpsLut (H := F16) p 2 3 [noRed]).toOption.map Image.sizeBytes).all
            (· < 1000) = true := by cases p <;> decide +kernel
        rw [h] at this
        exact of_decide_eq_true this
      refine stale_session p hf lib hh h h' ?_ hs
      rintro rfl
      rw [h] at t
      rw [h'] at t'
      rw [t] at t'
      exact absurd t' (by decide +kernel)

/-- A colour library that paints everything black if the name of the destination is short, and
leaves everything else alone. -/
def nameLib : ColorLib F32 :=
  ⟨fun px _ _ _ _ _ _ dst => (true, if dst.length < 2 then px.map fun _ => zero false else px)⟩

/-- The last colours of the tables from `aTo:b` to `c` and from `a` to `bTo:c`. -/
theorem name_tables (p : Profile) :
    (tableOf (generateTransformLut p nameLib 2 3 ([97] ++ toMark ++ [98]) [99])).map
        (fun t => t.1.drop 21) = some [zero false, zero false, zero false] ∧
      (tableOf (generateTransformLut p nameLib 2 3 [97] ([98] ++ toMark ++ [99]))).map
        (fun t => t.1.drop 21) = some [ofInt 1, ofInt 1, ofInt 1] := by
  cases p <;> decide +kernel

/-- C74 counterexample: whatever the hash function, after a table from `aTo:b` to `c` the cache
answers a request for a table from `a` to `bTo:c` with the former (see C59). -/
theorem C74_counterexample_names (p : Profile) (hf : ByteHash) :
    ∃ answers : List (Option (Image F32 F16)),
      Session p hf nameLib (.withCapacity 1000)
        [.transform ([97] ++ toMark ++ [98]) [99] 2, .transform [97] ([98] ++ toMark ++ [99]) 2]
        answers ∧
      ¬ List.Forall₂ (fun call answer => Call.fresh p nameLib call = .ok answer)
        [.transform ([97] ++ toMark ++ [98]) [99] 2, .transform [97] ([98] ++ toMark ++ [99]) 2]
        answers := by
  obtain ⟨t, t'⟩ := name_tables p
  cases h : generateTransformLut (H := F16) p nameLib 2 3 ([97] ++ toMark ++ [98]) [99] with
  | error e => rw [h] at t; cases t
  | ok i =>
    cases h' : generateTransformLut (H := F16) p nameLib 2 3 [97] ([98] ++ toMark ++ [99]) with
    | error e => rw [h'] at t'; cases t'
    | ok i' =>
      have hs : Image.sizeBytes i < 1000 := by
        have : ((generateTransformLut (H := F16) p nameLib 2 3 ([97] ++ toMark ++ [98])
            [99]).toOption.map Image.sizeBytes).all (· < 1000) = true := by
          cases p <;> decide +kernel
        rw [h] at this
        exact of_decide_eq_true this
      obtain ⟨c, c', h1, h2⟩ := cached_twice p
        (hf (hashBytes (transformLutItems ([97] ++ toMark ++ [98]) [99] 2)))
        (other := generateTransformLut p nameLib 2 3 [97] ([98] ++ toMark ++ [99])) h hs
      refine ⟨[some i, some i], .transform h1 (.transform (cache' := c') h2 (.done _)), ?_⟩
      intro hf2
      cases hf2 with
      | cons _ r =>
        cases r with
        | cons e _ =>
          have e : (generateTransformLut (H := F16) p nameLib 2 3 [97]
            ([98] ++ toMark ++ [99])).map some = .ok (some i) := e
          rw [h'] at e
          cases e
          rw [h] at t
          rw [h'] at t'
          rw [t] at t'
          exact absurd t' (by decide +kernel)

end
end OCG.Props
