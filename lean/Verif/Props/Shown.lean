import Verif.Props.MergeMoved
/-
C138: any picture that looks like what the write node gets describes the file, also with the cache.
-/

namespace OCG.Props

open GraphSpec PictureSpec RenderSpec FileSpec BBoxSpec BlockSpec ImageSpecs CacheSpec

section
variable {F H : Type} [FloatLike F] [FloatConst F] [FloatBits F] [HalfLike F H]

/-- C138: with or without what is in the cache, the file shows every picture that looks like the one
the write node gets. With C153 to C158 for the nodes in front of it, those hold for files that are
written with the cache too. -/
theorem C138_shown (p : Profile) (lib : NodeLib F H) (srt : EdgeSort)
    {K : Call F H → Prop} (hK : Regular p lib K) {w w' : World F H} (hw : History p lib srt K w)
    {g : Graph (Node F) (Stream F H)} {r : Bool} (h : Reach (nodeSem p lib) srt r g)
    (hg : Produced p lib K g.output)
    {id start : Nat} (hid : At g id start) (hs : g.graph.contains start = true)
    {frames : List F} {pic : F → Nat → Layer F}
    (hp : ∀ fr ∈ frames, Pictures lib srt g start fr (pic fr))
    {n : Node F} (hn : g.nodes[start]? = some n) (hW : Writes n)
    (hq : ∀ i m, Upstream g.graph start i → i ≠ start → g.nodes[i]? = some m → ¬ Writes m)
    (hl : ∀ fr ∈ frames, Linear (filePath lib n fr))
    {S R : F → Picture F} (hS : ∀ fr ∈ frames, Rests lib (pic fr start) (S fr))
    (hR : ∀ fr ∈ frames, (S fr).data = (R fr).data ∧ (S fr).display = (R fr).display ∧
      (S fr).channels = (R fr).channels ∧
      ∀ x y, Has (R fr).data x y → (S fr).at_ x y = (R fr).at_ x y)
    {fuel : Nat} {st : ExecuteStatus} {g' : Graph (Node F) (Stream F H)} {log : List (Call F H)}
    (hx : g.execute (logged p lib) srt fuel id frames (w, []) = .ok (st, g', (w', log)))
    (hlog : ∀ c ∈ log, K c) :
    st = .success ∧ ∃ jobs, w'.writes = w.writes ++ jobs ∧
      List.Forall₂ (fun fr job => job.path = filePath lib n fr ∧ ∃ own,
        FileShows (wantedType (n.getI32 "pixel_data_type") own)
          (window n (filePath lib n fr) (R fr)) (R fr) job) frames jobs := by
  obtain ⟨h1, jobs, h2, h3⟩ := C138_cached p lib srt hK hw h hg hid hs hp hn hW hq hl hx hlog
  refine ⟨h1, jobs, h2, ?_⟩
  clear h2 hx hl hp
  induction h3 with
  | nil => exact .nil
  | @cons fr job frames jobs j _ ih =>
    refine .cons ?_ (ih (fun x hx => hS x (List.mem_cons_of_mem _ hx))
      fun x hx => hR x (List.mem_cons_of_mem _ hx))
    obtain ⟨k1, own, T, k2, k3⟩ := j
    obtain ⟨e1, e2, e3, -, e4⟩ := carriedOut_unique (hS fr List.mem_cons_self) k2
    obtain ⟨d1, d2, d3, d4⟩ := hR fr List.mem_cons_self
    refine ⟨k1, own, shows_alike (e1.trans d1) (e2.trans d2) (e3.trans d3) (fun x y hxy => ?_) k3⟩
    rw [e4 x y (by rw [d1]; exact hxy), d4 x y hxy]

end

section
open HashSpec
attribute [local instance] finFloat finBits finHalf finPi

/-- The second time everything comes from the cache, and the file shows the white picture. -/
example : ∃ w g' w' log, History .debug linearFiles insSort ReadCropWrite w ∧
    readCropWrite.execute (logged .debug linearFiles) insSort 20 3 [1] (w, []) =
      .ok (.success, g', (w', log)) ∧ w'.cache.hits = 2 ∧ ∃ job, w'.writes = w.writes ++ [job] ∧
    ∃ t W, FileShows t W (whitePictures 2) job := by
  obtain ⟨g1, w1, log1, g2, w2, log2, e1, l1, e2, l2, hits⟩ := rcw_twice
  have hist : History .debug linearFiles insSort ReadCropWrite w1 :=
    .execute _ _ _ _ _ _ _ _ _ (.start 1000 []) .new e1 l1
  obtain ⟨-, jobs, h1, h2⟩ := C138_shown .debug linearFiles insSort rcw_regular hist
    readCropWrite_reach .new readCropWrite_at rfl (frames := [1])
    (pic := fun _ => whiteLayers) (fun fr _ => whitePictures_ok fr)
    (n := ⟨3, .uninitialized, writeNode.attrs⟩) rfl ⟨rfl, by decide, by decide⟩
    (fun i m _ hne hm => by
      rintro ⟨h, -, -⟩
      rcases i with _ | _ | _ | i
      · cases hm; cases h
      · cases hm; cases h
      · exact hne rfl
      · cases hm)
    (fun fr hf => by
      rw [List.mem_singleton] at hf
      subst hf
      unfold Linear
      decide +kernel)
    (S := fun _ => whitePictures 2) (R := fun _ => whitePictures 2)
    (fun _ _ => rests_nothing _ _) (fun _ _ => ⟨rfl, rfl, rfl, fun _ _ _ => rfl⟩) e2 l2
  cases h2 with
  | cons h3 h4 =>
    cases h4
    obtain ⟨-, own, h6⟩ := h3
    exact ⟨w1, g2, w2, log2, hist, e2, hits, _, h1, _, _, h6⟩

end
end OCG.Props
