import Verif.Props.Settle
/-
C161 for executions with the cache.
-/

namespace OCG.Props

open GraphSpec PictureSpec RenderSpec FileSpec BBoxSpec BlockSpec ImageSpecs CacheSpec AlikeSpec
open SettleSpec

section
variable {F H : Type} [FloatLike F] [FloatConst F] [FloatBits F] [HalfLike F H]

/-- C161 for executions, one of which is done with the cache, in any state that a history of regular
executions leads to (as in C45). -/
theorem C161_cached (p p' : Profile) (lib : NodeLib F H) (srt srt' : EdgeSort)
    {K : Call F H → Prop} (hK : Regular p lib K) {w w' : World F H} (hw : History p lib srt K w)
    {g₁ g₂ : Graph (Node F) (Stream F H)} {r r' : Bool} (h : Reach (nodeSem p lib) srt r g₁)
    (hg : Produced p lib K g₁.output) (h' : Reach (nodeSem p' lib) srt' r' g₂)
    {id id' start start' : Nat} (hid : At g₁ id start) (hid' : At g₂ id' start')
    (hs : g₁.graph.contains start = true) (hs' : g₂.graph.contains start' = true)
    {frames : List F} {pic pic' : F → Nat → Layer F}
    (hp : ∀ fr ∈ frames, Pictures lib srt g₁ start fr (pic fr))
    (hp' : ∀ fr ∈ frames, Pictures lib srt' g₂ start' fr (pic' fr))
    {n n' : Node F} (hn : g₁.nodes[start]? = some n) (hn' : g₂.nodes[start']? = some n')
    (hW : Writes n) (ha : n.attrs = n'.attrs) (hk : KnowsType n)
    (hq : ∀ i m, Upstream g₁.graph start i → i ≠ start → g₁.nodes[i]? = some m → ¬ Writes m)
    (hq' : ∀ i m, Upstream g₂.graph start' i → i ≠ start' → g₂.nodes[i]? = some m → ¬ Writes m)
    (hl : ∀ fr ∈ frames, Linear (filePath lib n fr))
    (hrep : ∀ fr ∈ frames, Swapped lib srt srt' g₁ g₂ (pic fr) (pic' fr) start start')
    (hU : ∀ fr ∈ frames, ∀ R, Rests lib (pic fr start) R → Upright R)
    {v v' : World F H} (hoff : IsOff v) {fuel fuel' : Nat}
    {st st' : ExecuteStatus} {g₁' g₂' : Graph (Node F) (Stream F H)} {log : List (Call F H)}
    (hx : g₁.execute (logged p lib) srt fuel id frames (w, []) = .ok (st, g₁', (w', log)))
    (hlog : ∀ c ∈ log, K c)
    (hx' : g₂.execute (nodeSem p' lib) srt' fuel' id' frames v = .ok (st', g₂', v')) :
    st = st' ∧ ∃ jobs jobs', w'.writes = w.writes ++ jobs ∧ v'.writes = v.writes ++ jobs' ∧
      jobs.length = frames.length ∧ List.Forall₂ SamePixels jobs jobs' := by
  obtain ⟨i, s, a⟩ := n
  obtain ⟨i', s', a'⟩ := n'
  dsimp only at ha
  subst ha
  have hW' : Writes (⟨i', s', a⟩ : Node F) := hW
  have rest : ∀ fr ∈ frames, RestsAlike lib (pic fr start) (pic' fr start') := fun fr hf =>
    C161_pictures h.inv.sound h'.inv.sound hs hs' (hp fr hf) (hp' fr hf) (hrep fr hf) .refl .refl
  classical
  refine C159_cached p p' lib srt srt' hK hw h hg h' hid hid' hs hs' hp hp' hn hn' hW hW' hq hq'
    (fun fr hf => ⟨hl fr hf, rfl⟩) ⟨hk, rfl, rfl⟩
    (R := fun fr => if hf : fr ∈ frames then (rest fr hf).choose else (pic fr 0).still)
    (fun fr hf => ?_) hoff hx hlog hx'
  rw [dif_pos hf]
  obtain ⟨S, k1, k2, k3, -⟩ := (rest fr hf).choose_spec
  exact ⟨hU fr hf _ k1, ⟨_, k1, rfl, rfl, rfl, fun _ _ _ => rfl⟩, S, k2,
    k3.data.symm, k3.display.symm, k3.channels.symm, fun x y hx =>
      (k3.pixels x y (k3.data ▸ hx)).symm⟩

end

/-! ### Example -/

section
open HashSpec
attribute [local instance] finFloat finBits finHalf finPi

theorem white_swapped : Swapped linearFiles insSort insSort readCropWrite readCropWrite whiteLayers
    whiteLayers 2 2 := by
  have sized : ∀ i, i < 3 → Sized (whiteLayers i) := by
    intro i hi
    unfold Sized ValidSize
    rcases i with _ | _ | _ | i
    · decide
    · decide
    · decide
    · omega
  refine .same (ins := [1]) (ins' := [1]) rfl rfl rfl (by unfold Steady; decide) rfl rfl rfl
    (fun k a b ha hb => ?_) (sized 2 (by decide)) (sized 2 (by decide))
  rcases k with _ | k
  swap
  · cases ha
  cases ha
  cases hb
  refine .same (ins := [0]) (ins' := [0]) rfl rfl rfl (by unfold Steady; decide) rfl rfl rfl
    (fun k a b ha hb => ?_) (sized 1 (by decide)) (sized 1 (by decide))
  rcases k with _ | k
  swap
  · cases ha
  cases ha
  cases hb
  exact .part ⟨_, _, rests_nothing _ _, rests_nothing _ _, ⟨rfl, rfl, rfl, fun _ _ _ => rfl⟩, rfl⟩
    (sized 0 (by decide)) (sized 0 (by decide))

/-- Executed a second time with the cache, from which both images come, the graph writes the same file
as without a cache. -/
example : ∃ w g w₁ log g' w', History .debug linearFiles insSort ReadCropWrite w ∧
    readCropWrite.execute (logged .debug linearFiles) insSort 20 3 [1] (w, []) =
      .ok (.success, g, (w₁, log)) ∧ w₁.cache.hits = 2 ∧
    readCropWrite.execute (nodeSem .debug linearFiles) insSort 20 3 [1] noCache =
      .ok (.success, g', w') ∧
    ∃ job job', w₁.writes = w.writes ++ [job] ∧ w'.writes = [job'] ∧ SamePixels job job' := by
  obtain ⟨g1, w1, log1, g2, w2, log2, e1, l1, e2, l2, hits⟩ := rcw_twice
  have hist : History .debug linearFiles insSort ReadCropWrite w1 :=
    .execute _ _ _ _ _ _ _ _ _ (.start 1000 []) .new e1 l1
  obtain ⟨g', w', e'⟩ : ∃ g' w', readCropWrite.execute (nodeSem .debug linearFiles) insSort 20 3 [1]
      noCache = .ok (.success, g', w') := ⟨_, _, rfl⟩
  have quiet : ∀ i m, Upstream readCropWrite.graph 2 i → i ≠ 2 → readCropWrite.nodes[i]? = some m →
      ¬ Writes m := by
    rintro i m - hne hm ⟨h, -, -⟩
    rcases i with _ | _ | _ | i
    · cases hm; cases h
    · cases hm; cases h
    · exact hne rfl
    · cases hm
  obtain ⟨-, jobs, jobs', h1, h2, h3, h4⟩ := C161_cached .debug .debug linearFiles insSort insSort
    rcw_regular hist readCropWrite_reach .new readCropWrite_reach readCropWrite_at readCropWrite_at
    rfl rfl (frames := [1]) (pic := fun _ => whiteLayers) (pic' := fun _ => whiteLayers)
    (fun fr _ => whitePictures_ok fr) (fun fr _ => whitePictures_ok fr)
    (n := ⟨3, .uninitialized, writeNode.attrs⟩) (n' := ⟨3, .uninitialized, writeNode.attrs⟩) rfl rfl
    ⟨rfl, by decide, by decide⟩ rfl (by unfold KnowsType; decide) quiet quiet
    (fun fr hf => by
      rw [List.mem_singleton] at hf
      subst hf
      unfold Linear
      decide +kernel)
    (fun fr _ => white_swapped)
    (fun fr _ R hR => by
      obtain ⟨e1, e2, -⟩ := carriedOut_unique (rests_nothing linearFiles (whitePictures 2)) hR
      constructor <;> (first | rw [e1] | rw [e2]) <;> decide)
    ⟨rfl, rfl⟩ e2 l2 e'
  cases h4 with
  | nil => cases h3
  | cons h5 h6 =>
    cases h6 with
    | nil => exact ⟨w1, g2, w2, log2, g', w', hist, e2, hits, e', _, _, h1, h2, h5⟩
    | cons => cases h3

end

end OCG.Props
