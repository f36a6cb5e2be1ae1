import Verif.Spec.FileShows
import Verif.Props.Render
import Verif.Props.IeeeTypes
/-
Property C138: what is in a file that was written.
-/

namespace OCG.Props

open GraphSpec PictureSpec RenderSpec FileSpec BBoxSpec BlockSpec ImageSpecs CacheSpec

section
variable {F H : Type} [FloatLike F] [HalfLike F H]

omit [FloatLike F] in
theorem channel_of_pixel {w : BBox} {n : Nat} {v : List F} {x y : Int} (h : Has w x y) {c : Nat}
    (hc : c < n) :
    (pixelAt w n v x y)[c]? = channelAt (sizeFor w n) v (x - w.minX) (y - w.minY) c := by
  obtain ⟨h1, h2, h3, h4⟩ := h
  have h0 : 0 ≤ (y - w.minY) * (w.maxX - w.minX) + (x - w.minX) := by
    have : 0 ≤ (y - w.minY) * (w.maxX - w.minX) := Int.mul_nonneg (by omega) (by omega)
    omega
  unfold pixelAt PixelSpec.pixel channelAt
  rw [List.getElem?_take_of_lt hc, List.getElem?_drop]
  congr 1
  simp only [sizeFor]
  generalize (y - w.minY) * (w.maxX - w.minX) + (x - w.minX) = k at *
  lift k to Nat using h0
  rw [Int.toNat_natCast]
  omega

omit [FloatLike F] [HalfLike F H] in
theorem channel_map {α β : Type} (f : α → β) (s : BlockSize) (d : List α) (x y c : Int) :
    channelAt s (d.map f) x y c = (channelAt s d x y c).map f := by
  unfold channelAt
  rw [List.getElem?_map]

theorem stored_conv (t : DType) (x : F) : convElem (F := F) (H := H) .f32 t x = stored t x := by
  cases t <;> rfl

theorem black_zero (t : DType) : zeroElem (F := F) (H := H) t = black t := by
  cases t <;> rfl

/-- Linear values in a block. -/
theorem delivers_stored {lib : ColorLib F} {alpha : Bool} {t : DType} {P : Picture F}
    {block : PixelBlock F H} (h : Delivers lib alpha colorSpaceLinear t P block) :
    ∃ d : List (Elem F H t), block = ⟨sizeFor P.data P.channels, ⟨t, d⟩⟩ ∧
      (d.length : Int) = elements (sizeFor P.data P.channels) ∧
      ∀ (x y : Int) (c : Nat), Has P.data x y → c < P.channels →
        channelAt (sizeFor P.data P.channels) d (x - P.data.minX) (y - P.data.minY) c =
          (P.at_ x y)[c]?.map (stored t) := by
  obtain ⟨v, h1, h2⟩ := h
  unfold inSpace at h2
  rw [if_pos rfl] at h2
  have e : (floatImage (H := H) (sizeFor P.data P.channels) v).convert (.known t) =
      .ok ⟨sizeFor P.data P.channels, ⟨t, v.map (stored t)⟩⟩ := by
    by_cases ht : t = .f32
    · subst ht
      refine (C18_convert_same (floatImage (H := H) (sizeFor P.data P.channels) v)).trans ?_
      exact congrArg (fun l : List F => Except.ok (floatImage (H := H) (sizeFor P.data P.channels) l))
        (List.map_id v).symm
    · unfold PixelBlock.convert DataBlock.convert floatImage
      simp only [if_neg (Ne.symm ht), bind, Except.bind]
      refine congrArg (fun l => Except.ok (⟨_, ⟨t, l⟩⟩ : PixelBlock F H)) ?_
      have key : ∀ l : List F, List.map (α := F) (convElem (F := F) (H := H) .f32 t) l =
          List.map (α := F) (stored (F := F) (H := H) t) l :=
        fun l => List.map_congr_left fun x _ => stored_conv t x
      exact key v
  rw [e] at h2
  refine ⟨v.map (stored t), (Except.ok.inj h2).symm, by rw [List.length_map]; exact h1.length,
    fun x y c hx hc => ?_⟩
  rw [channel_map, ← channel_of_pixel hx hc, h1.pixels x y hx]

/-- C138 for one picture: a file in linear light that is written for a picture shows the picture. -/
theorem C138_written {lib : NodeLib F H} {frame : F} {n : Node F} {alpha : Bool} {own : DType}
    {P : Picture F} {job : WriteJob F H} (h : Written lib frame n alpha own P job)
    (hl : Linear (filePath lib n frame)) :
    job.path = filePath lib n frame ∧
      FileShows (wantedType (n.getI32 "pixel_data_type") own) (window n (filePath lib n frame) P) P job := by
  refine ⟨h.path, ?_⟩
  obtain ⟨block, hd, hn, hc⟩ := h.pixels
  rw [hl] at hd
  obtain ⟨d, e, dl, dv⟩ := delivers_stored hd
  have hw := h.width
  have hh := h.height
  by_cases hcr : CropsFile (n.getI32 "crop_on_write") (filePath lib n frame)
  · obtain ⟨⟨d', e', dl', dv'⟩, hx, hy⟩ := hc hcr
    have hW : window n (filePath lib n frame) P = P.display := if_pos hcr
    subst e
    have e1 : job.size = sizeFor P.display P.channels := congrArg PixelBlock.size e'
    have e2 : job.block = ⟨_, d'⟩ := congrArg PixelBlock.block e'
    rw [hW]
    rw [e1] at hw hh
    refine ⟨hx, hy, hw, hh, h.channels, h.format, e1, d', e2, dl', fun x y c hx hc => ?_⟩
    have k := dv' x y c hx (Int.natCast_nonneg c) (by
      show (c : Int) < P.channels
      exact_mod_cast hc)
    refine k.trans ?_
    split
    · exact dv x y c ‹_› hc
    · exact congrArg some (black_zero _)
  · obtain ⟨e', hx, hy⟩ := hn hcr
    have hW : window n (filePath lib n frame) P = P.data := if_neg hcr
    subst e
    have e1 : job.size = sizeFor P.data P.channels := congrArg PixelBlock.size e'
    have e2 : job.block = ⟨_, d⟩ := congrArg PixelBlock.block e'
    rw [hW]
    rw [e1] at hw hh
    refine ⟨hx, hy, hw, hh, h.channels, h.format, e1, d, e2, dl, fun x y c hx hc => ?_⟩
    rw [dv x y c hx hc, if_pos hx]

variable [FloatConst F] [FloatBits F]

theorem files_of_written {lib : NodeLib F H} {n : Node F} {start : Nat} {pic : F → Nat → Layer F}
    {frames : List F} {jobs : List (WriteJob F H)} (hl : ∀ fr ∈ frames, Linear (filePath lib n fr))
    (h : List.Forall₂ (fun fr job => WrittenLayer lib fr n (pic fr start) job) frames jobs) :
    List.Forall₂ (fun fr job => job.path = filePath lib n fr ∧ ∃ own R, Rests lib (pic fr start) R ∧
        FileShows (wantedType (n.getI32 "pixel_data_type") own) (window n (filePath lib n fr) R) R job)
      frames jobs := by
  induction h with
  | nil => exact .nil
  | cons hj _ ih =>
    refine .cons ?_ (ih fun fr hf => hl fr (List.mem_cons_of_mem _ hf))
    obtain ⟨alpha, own, R, hR, hw⟩ := hj
    obtain ⟨k1, k2⟩ := C138_written hw (hl _ List.mem_cons_self)
    exact ⟨k1, own, R, hR, k2⟩

/-- C138: rendering a write node to files in linear light writes one file for every frame, and every
file shows the picture of its frame, with the waiting deformers carried out. -/
theorem C138_rendered (p : Profile) (lib : NodeLib F H) (srt : EdgeSort)
    {g : Graph (Node F) (Stream F H)} {r : Bool} (h : Reach (nodeSem p lib) srt r g)
    {id start : Nat} (hid : At g id start) (hs : g.graph.contains start = true)
    {frames : List F} {pic : F → Nat → Layer F}
    (hp : ∀ fr ∈ frames, Pictures lib srt g start fr (pic fr))
    {n : Node F} (hn : g.nodes[start]? = some n) (hW : Writes n)
    (hq : ∀ i m, Upstream g.graph start i → i ≠ start → g.nodes[i]? = some m → ¬ Writes m)
    (hl : ∀ fr ∈ frames, Linear (filePath lib n fr))
    {w w' : World F H} (hw : IsOff w) {fuel : Nat} {st : ExecuteStatus}
    {g' : Graph (Node F) (Stream F H)}
    (hx : g.execute (nodeSem p lib) srt fuel id frames w = .ok (st, g', w')) :
    st = .success ∧ ∃ jobs, w'.writes = w.writes ++ jobs ∧
      List.Forall₂ (fun fr job => job.path = filePath lib n fr ∧ ∃ own R, Rests lib (pic fr start) R ∧
        FileShows (wantedType (n.getI32 "pixel_data_type") own) (window n (filePath lib n fr) R) R job)
        frames jobs := by
  obtain ⟨h1, jobs, h2, h3⟩ := C124_render_partial p lib srt h hid hs hp hn hW hq hw hx
  exact ⟨h1, jobs, h2, files_of_written hl h3⟩

/-- C138: the same with the cache, in any state that a history of regular executions leads to (as in
C45): what comes from the cache is written no differently. -/
theorem C138_cached (p : Profile) (lib : NodeLib F H) (srt : EdgeSort)
    {K : Call F H → Prop} (hK : Regular p lib K) {w w' : World F H} (hw : History p lib srt K w)
    {g : Graph (Node F) (Stream F H)} {r : Bool} (h : Reach (nodeSem p lib) srt r g)
    (hg : Produced p lib K g.output)
    {id start : Nat} (hid : At g id start) (hs : g.graph.contains start = true)
    {frames : List F} {pic : F → Nat → Layer F}
    (hp : ∀ fr ∈ frames, Pictures lib srt g start fr (pic fr))
    {n : Node F} (hn : g.nodes[start]? = some n) (hW : Writes n)
    (hq : ∀ i m, Upstream g.graph start i → i ≠ start → g.nodes[i]? = some m → ¬ Writes m)
    (hl : ∀ fr ∈ frames, Linear (filePath lib n fr))
    {fuel : Nat} {st : ExecuteStatus} {g' : Graph (Node F) (Stream F H)} {log : List (Call F H)}
    (hx : g.execute (logged p lib) srt fuel id frames (w, []) = .ok (st, g', (w', log)))
    (hlog : ∀ c ∈ log, K c) :
    st = .success ∧ ∃ jobs, w'.writes = w.writes ++ jobs ∧
      List.Forall₂ (fun fr job => job.path = filePath lib n fr ∧ ∃ own R, Rests lib (pic fr start) R ∧
        FileShows (wantedType (n.getI32 "pixel_data_type") own) (window n (filePath lib n fr) R) R job)
        frames jobs := by
  obtain ⟨h1, jobs, h2, h3⟩ :=
    C124_render_cached_partial p lib srt hK hw h hg hid hs hp hn hW hq hx hlog
  exact ⟨h1, jobs, h2, files_of_written hl h3⟩

end

section
open IeeeSpec
open Ieee hiding floor ceil round
variable [Libm single32]

/-- Rounding a single float to a half float. -/
theorem half_rounds {x : F32} (hx : IsFinite x) : Rounds (val x) (x.convert : F16) := by
  refine ⟨x.neg, x.mag * 2 ^ 24, 2 ^ 149, by positivity, ?_, ?_⟩
  · unfold Ieee.convert
    rw [not_nan hx, not_inf hx]
    rfl
  · rw [val_mag]
    push_cast
    show sgn x.neg * (x.mag : ℚ) / 2 ^ 149 = sgn x.neg * ((x.mag : ℚ) * 2 ^ 24 / 2 ^ 149) / 2 ^ 24
    field_simp

/-- C138: a finite value is stored as well as the type can have it. -/
theorem C138_faithful (t : DType) (x : F32) (hx : IsFinite x) :
    Faithful t x (stored (F := F32) (H := F16) t x) := by
  cases t with
  | f32 => rfl
  | f16 =>
    intro h
    have hy : IsFinite (⟨false, 0x7bff, by decide⟩ : F16) := by unfold IsFinite; decide
    have hv : val (⟨false, 0x7bff, by decide⟩ : F16) = 65504 := by
      unfold val
      norm_num
    have k := (half_rounds hx).finite hy (by rw [hv]; norm_num; exact h)
    exact ⟨k.1, (half_rounds hx).nearest (by decide) k.1⟩
  | u8 => exact fun h0 h1 => C71_single_u8 hx h0 h1
  | u16 => exact fun h0 h1 => C71_single_u16_partial hx h0 h1

end

section
open HashSpec
attribute [local instance] finFloat finBits finHalf finPi

/-- With the cache: the second time both images come from it, and the file shows the picture. -/
example : ∃ w g' w' log, History .debug linearFiles insSort ReadCropWrite w ∧
    readCropWrite.execute (logged .debug linearFiles) insSort 20 3 [1] (w, []) =
      .ok (.success, g', (w', log)) ∧ w'.cache.hits = 2 ∧ ∃ job, w'.writes = w.writes ++ [job] ∧
    ∃ R t W, Rests linearFiles (whiteLayers 2) R ∧ FileShows t W R job := by
  obtain ⟨g1, w1, log1, g2, w2, log2, e1, l1, e2, l2, hits⟩ := rcw_twice
  have hist : History .debug linearFiles insSort ReadCropWrite w1 :=
    .execute _ _ _ _ _ _ _ _ _ (.start 1000 []) .new e1 l1
  obtain ⟨-, jobs, h1, h2⟩ := C138_cached .debug linearFiles insSort rcw_regular hist
    readCropWrite_reach .new readCropWrite_at rfl (frames := [1])
    (pic := fun _ => whiteLayers) (fun fr _ => whitePictures_ok fr)
    (n := ⟨3, .uninitialized, writeNode.attrs⟩) rfl ⟨rfl, by decide, by decide⟩
    (fun i m _ hne hm => by
      rintro ⟨h, -, -⟩
      rcases i with _ | _ | _ | i
      · cases hm; cases h
      · cases hm; cases h
      · exact hne rfl
      · cases hm)
    (fun fr hf => by
      rw [List.mem_singleton] at hf
      subst hf
      unfold Linear
      decide +kernel) e2 l2
  cases h2 with
  | cons h3 h4 =>
    cases h4
    obtain ⟨-, own, R, h5, h6⟩ := h3
    exact ⟨w1, g2, w2, log2, hist, e2, hits, _, h1, R, _, _, h5, h6⟩

end
end OCG.Props
