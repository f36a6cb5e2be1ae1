import Verif.Spec.Copy
import Verif.Props.Render
import Verif.Props.IeeeConvert
import Verif.Props.IeeeColor
/-
C125: copying a picture keeps every pixel.
-/

namespace OCG.Props

open BlockSpec BBoxSpec ImageSpecs PixelSpec GraphSpec PictureSpec CopySpec RenderSpec IdleSpec
open IeeeSpec ComputeSpec AgainSpec CacheSpec
open Ieee hiding floor ceil round

section
variable {F : Type}

/-- Every value of a buffer is a channel of a pixel. -/
theorem index_pixel {w : BBox} {n : Nat} (hn : 0 < n) {v : List F} (hs : ValidSize (sizeFor w n))
    (hl : (v.length : Int) = elements (sizeFor w n)) {i : Nat} (hi : i < v.length) :
    ∃ x y, ∃ c : Nat, Has w x y ∧ c < n ∧ ∀ u : List F, (pixelAt w n u x y)[c]? = u[i]? := by
  obtain ⟨s1, s2, s3, -⟩ := hs
  unfold elements at hl
  simp only [sizeFor] at *
  obtain ⟨W, hW⟩ := Int.eq_ofNat_of_zero_le (Int.le_of_lt s1)
  obtain ⟨T, hT⟩ := Int.eq_ofNat_of_zero_le (Int.le_of_lt s2)
  rw [hW, hT] at hl
  have hl' : v.length = W * T * n := by exact_mod_cast hl
  have hq : i / n < W * T := Nat.div_lt_of_lt_mul (by rw [Nat.mul_comm]; omega)
  have hWpos : 0 < W := by
    rcases Nat.eq_zero_or_pos W with h | h
    · rw [h, Nat.zero_mul] at hq; omega
    · exact h
  have hc : i / n % W < W := Nat.mod_lt _ hWpos
  have hr : i / n / W < T := Nat.div_lt_of_lt_mul hq
  refine ⟨w.minX + (i / n % W : Nat), w.minY + (i / n / W : Nat), i % n, ?_, Nat.mod_lt _ hn, ?_⟩
  · clear hq
    generalize i / n % W = a at hc
    generalize i / n / W = b at hr
    unfold Has
    omega
  · intro u
    unfold pixelAt pixel
    have e : ((w.minY + ((i / n / W : Nat) : Int) - w.minY) * (w.maxX - w.minX) +
        (w.minX + ((i / n % W : Nat) : Int) - w.minX)).toNat = i / n := by
      rw [hW]
      have : (w.minY + ((i / n / W : Nat) : Int) - w.minY) * ((W : Nat) : Int) +
        (w.minX + ((i / n % W : Nat) : Int) - w.minX) = ((i / n / W * W + i / n % W : Nat) : Int) := by
        push_cast; ring
      rw [this, Int.toNat_natCast, Nat.mul_comm]
      exact Nat.div_add_mod _ _
    rw [e, List.getElem?_take_of_lt (Nat.mod_lt _ hn), List.getElem?_drop]
    congr 1
    rw [Nat.mul_comm]
    exact Nat.div_add_mod _ _

end

section
variable [Libm single32]

omit [Libm single32] in
theorem zeros_same (f : Format) (hf : Ok f) (a b : Bool) :
    Same (Ieee.zero a : Ieee f) (Ieee.zero b) := by
  refine ⟨finite_of_code_zero hf (Ieee.zero_code _), finite_of_code_zero hf (Ieee.zero_code _), ?_⟩
  rw [val_zero_iff.mpr (Ieee.zero_code _), val_zero_iff.mpr (Ieee.zero_code _)]

/-- A value that went to a float, kept its number there, and came back is unchanged. -/
theorem back_unchanged : (t : DType) → (x : Elem F32 F16 t) → Ordinary t x → (y : F32) →
    Same y (convElem (F := F32) (H := F16) t .f32 x) →
    Unchanged t x (convElem (F := F32) (H := F16) .f32 t y)
  | .f32, _, _, _, h => h
  | .f16, x, hx, y, h => by
    have hs : convElem (F := F32) (H := F16) .f32 .f16 (convElem .f16 .f32 x) = x :=
      C100_half_float x (not_nan hx)
    rcases same_cases h with e | ⟨h1, h2⟩
    · rw [e, hs]; exact .refl hx
    · have key : ∀ b, (Ieee.convert (Ieee.zero b : F32) : F16) = Ieee.zero b := by decide +kernel
      have hx' : x = (Ieee.zero (Ieee.neg (convElem (F := F32) (H := F16) .f16 .f32 x : F32)) : F16) := by
        rw [← key]
        conv_lhs => rw [← hs]
        conv_lhs => rw [show (convElem (F := F32) (H := F16) .f16 .f32 x : F32) = Ieee.zero _ from
          Ieee.eq_zero_of_code h2]
        rfl
      have hy' : (convElem (F := F32) (H := F16) .f32 .f16 y : F16) = Ieee.zero y.neg := by
        rw [← key, ← Ieee.eq_zero_of_code h1]; rfl
      show Same (f := half16) _ x
      rw [hx', hy']
      exact zeros_same _ ok_half _ _
  | .u8, x, _, y, h => by
    have hs : convElem (F := F32) (H := F16) .f32 .u8 (convElem .u8 .f32 x) = x := C100_u8_float x
    rcases same_cases h with e | ⟨h1, h2⟩
    · rw [e]; exact hs.symm
    · have key : ∀ a b, Fin.ofNat 256 (Ieee.toRange 0 255 (Ieee.mul (Ieee.zero a) (Ieee.ofInt 255) : F32)).toNat
          = Fin.ofNat 256 (Ieee.toRange 0 255 (Ieee.mul (Ieee.zero b) (Ieee.ofInt 255) : F32)).toNat := by
        decide +kernel
      have := key (Ieee.neg (convElem (F := F32) (H := F16) .u8 .f32 x : F32)) y.neg
      rw [← Ieee.eq_zero_of_code h1, ← Ieee.eq_zero_of_code h2] at this
      exact hs.symm.trans this
  | .u16, x, _, y, h => by
    have hs : convElem (F := F32) (H := F16) .f32 .u16 (convElem .u16 .f32 x) = x :=
      C100_u16_float x
    rcases same_cases h with e | ⟨h1, h2⟩
    · rw [e]; exact hs.symm
    · have key : ∀ a b, Fin.ofNat 65536 (Ieee.toRange 0 65535 (Ieee.mul (Ieee.zero a) (Ieee.ofInt 65535) : F32)).toNat
          = Fin.ofNat 65536 (Ieee.toRange 0 65535 (Ieee.mul (Ieee.zero b) (Ieee.ofInt 65535) : F32)).toNat := by
        decide +kernel
      have := key (Ieee.neg (convElem (F := F32) (H := F16) .u16 .f32 x : F32)) y.neg
      rw [← Ieee.eq_zero_of_code h1, ← Ieee.eq_zero_of_code h2] at this
      exact hs.symm.trans this

/-- Floats of ordinary values are finite. -/
theorem ordinary_finite : (t : DType) → (x : Elem F32 F16 t) → Ordinary t x →
    IsFinite (f := single32) (convElem (F := F32) (H := F16) t .f32 x)
  | .f32, _, h => h
  | .f16, _, h => (half_to_single h).1
  | .u8, x, _ => by
    have : ∀ y : Fin 256, (div (ofInt y.val) (ofInt 255) : F32).isFinite = true := by decide +kernel
    have := this x
    refine (finite_iff _).mpr ?_
    unfold isFinite at this
    exact of_decide_eq_true this
  | .u16, x, _ => quotient_finite (Nat.le_of_lt_succ (Fin.isLt (n := 65536) x))

theorem identity_eq : (Mat4.identity : Mat4 F32) = fun i j => if i = j then (1 : F32) else 0 := by
  funext i j
  have h4 : ∀ j : Fin 4, j = 0 ∨ j = 1 ∨ j = 2 ∨ j = 3 := by omega
  rcases h4 i with rfl | rfl | rfl | rfl <;> rcases h4 j with rfl | rfl | rfl | rfl <;> rfl

/-- Storing finite pixels with no colours waiting keeps their numbers. -/
theorem copy_settled {n : Nat} (hn : Channels n) {v out : List F32} (hv : v.length = n)
    (hf : ∀ x ∈ v, IsFinite x) (h : Settled n v out) {c : Nat} (hc : c < n) :
    ∃ a b, v[c]? = some a ∧ out[c]? = some b ∧ Same b a := by
  obtain ⟨mid, h1, h2⟩ := h
  cases h2
  obtain ⟨o, k1, -, k3⟩ := C57_single_identity hn v hf
  rw [← identity_eq, h1] at k1
  cases k1
  have := k3 0 c (by rw [hv, Nat.div_self hn.pos]; exact Nat.one_pos) hc
  rwa [Nat.zero_mul, Nat.zero_add] at this

/-- The conversions from and to floats. -/
def asFloat (t : DType) (x : Elem F32 F16 t) : F32 := convElem t .f32 x
def ofFloat (t : DType) (x : F32) : Elem F32 F16 t := convElem .f32 t x

/-- The floats of a block. -/
theorem convert_floats (size : BlockSize) (t : DType) (data : List (Elem F32 F16 t)) :
    (⟨size, ⟨t, data⟩⟩ : PixelBlock F32 F16).convert (.known .f32) =
      .ok (floatImage size (data.map (asFloat t))) := by
  by_cases ht : t = .f32
  · subst ht
    refine (C18_convert_same (⟨size, ⟨.f32, data⟩⟩ : PixelBlock F32 F16)).trans ?_
    exact congrArg (fun l : List F32 => Except.ok (floatImage (H := F16) size l)) (List.map_id data).symm
  · unfold PixelBlock.convert DataBlock.convert
    simp only [if_neg ht, bind, Except.bind]
    rfl

theorem convert_back (size : BlockSize) (t : DType) (v : List F32) :
    (floatImage (H := F16) size v).convert (.known t) =
      .ok ⟨size, ⟨t, v.map (ofFloat t)⟩⟩ := by
  by_cases ht : t = .f32
  · subst ht
    refine (C18_convert_same (floatImage (H := F16) size v)).trans ?_
    exact congrArg (fun l : List F32 => Except.ok (floatImage (H := F16) size l)) (List.map_id v).symm
  · unfold PixelBlock.convert DataBlock.convert floatImage
    simp only [if_neg (Ne.symm ht), bind, Except.bind]
    rfl

omit [Libm single32] in
theorem file_size {F H : Type} [FloatLike F] [HalfLike F H] {lib : NodeLib F H} {path : Bytes}
    {spec : FileSpec F} {t : DType} {n : Nat} {data : List (Elem F H t)}
    (hF : FileHas lib path spec t n data) : ValidSize (sizeFor (fileWindow spec) n) := by
  obtain ⟨h1, h2, h3, h4, -⟩ := hF.sane
  have hn : (n : Int) ≤ max 4 spec.numChannels := by
    rw [hF.channels]
    split <;> omega
  have hn0 : (0 : Int) < n := by rcases hF.three with h | h <;> rw [h] <;> decide
  have e1 : spec.x + spec.width + spec.fullX - (spec.x + spec.fullX) = spec.width := by omega
  have e2 : spec.y + spec.height + spec.fullY - (spec.y + spec.fullY) = spec.height := by omega
  have : spec.width * spec.height * n ≤ spec.width * spec.height * max 4 spec.numChannels :=
    Int.mul_le_mul_of_nonneg_left hn (Int.mul_nonneg (by omega) (by omega))
  unfold ValidSize sizeFor fileWindow
  simp only [e1, e2]
  exact ⟨h1, h2, hn0, by omega⟩

/-- The pixels of a picture of a file, written with the type of the file. -/
theorem delivered_copy {lib : NodeLib F32 F16} {path : Bytes} {spec : FileSpec F32} {t : DType}
    {n : Nat} {data : List (Elem F32 F16 t)} (hF : FileHas lib path spec t n data)
    (ho : ∀ x ∈ data, Ordinary t x) {P R : Picture F32} (hP : IsFile lib path P)
    (hd : R.data = P.data) (hch : R.channels = P.channels)
    (hR : ∀ x y, Has P.data x y → R.at_ x y = P.at_ x y) {alpha : Bool} {block : PixelBlock F32 F16}
    (h : Delivers lib.bake.color alpha colorSpaceLinear t R block) :
    P.data = fileWindow spec ∧ P.channels = n ∧
    ∃ out, block = ⟨⟨spec.width, spec.height, n⟩, ⟨t, out⟩⟩ ∧
      List.Forall₂ (Unchanged t) data out := by
  obtain ⟨spec', t', k, v0, -, p1, p2, p3, p4, p5, p6, -, -, p7, ⟨raw, p8, p9, -⟩, p10, p11⟩ := hP
  rw [hF.header] at p1
  cases p1
  rw [hF.format] at p3
  cases p3
  have hn : P.channels = n := by
    have := p5.trans hF.channels.symm
    exact_mod_cast this
  have hw : P.data = fileWindow spec := p6
  have hlen := hF.length
  have hk : k = data.length := by
    rw [hw, hn] at p7
    exact_mod_cast p7.trans hlen.symm
  have hpx := hF.pixels
  rw [hw, hn, hk, ← hpx, convert_floats] at p8
  have hraw : raw = data.map (asFloat t) := by
    have := congrArg (fun b => b.block) (Except.ok.inj p8)
    simp only [floatImage] at this
    exact (eq_of_heq (DataBlock.mk.inj this).2).symm
  have hv0 := (p9 hF.space).trans hraw
  obtain ⟨v, hv, hb⟩ := h
  unfold inSpace at hb
  rw [if_pos rfl, convert_back] at hb
  have hsize : sizeFor R.data R.channels = ⟨spec.width, spec.height, n⟩ := by
    rw [hd, hch, hw, hn]
    unfold sizeFor fileWindow
    simp only [BlockSize.mk.injEq, and_true]
    constructor <;> omega
  rw [hsize] at hb
  refine ⟨hw, hn, _, (Except.ok.inj hb).symm, ?_⟩
  have hvl := hv.length
  rw [hd, hch] at hvl
  have hlv : v.length = data.length := by
    rw [hw, hn] at hvl
    exact_mod_cast hvl.trans hlen.symm
  have hC : Channels P.channels := .inr p4
  have hvs : ValidSize (sizeFor P.data P.channels) := by
    rw [hw, hn]
    exact file_size hF
  rw [List.forall₂_map_right_iff]
  refine List.forall₂_iff_get.mpr ⟨hlv.symm, fun i h1 h2 => ?_⟩
  obtain ⟨x, y, c, hxy, hc, hu⟩ := index_pixel hC.pos hvs hvl h2
  have hs := p11 x y hxy
  rw [← hR x y hxy, ← hv.pixels x y (by rw [hd]; exact hxy), hd, hch] at hs
  obtain ⟨a, b, e1, e2, e3⟩ := copy_settled hC (pixelAt_length hvs p10 hxy) (by
    intro z hz
    have hz := List.mem_of_mem_drop (List.mem_of_mem_take hz)
    rw [hv0] at hz
    obtain ⟨d, hd, rfl⟩ := List.mem_map.mp hz
    exact ordinary_finite t d (ho d hd)) hs hc
  rw [hu] at e1 e2
  rw [List.getElem?_eq_getElem h2] at e2
  cases e2
  rw [hv0, List.getElem?_map, List.getElem?_eq_getElem h1] at e1
  cases e1
  exact back_unchanged t _ (ho _ (List.getElem_mem _)) _ e3

/-- There is a picture of a file. -/
theorem file_picture {lib : NodeLib F32 F16} {path : Bytes} {spec : FileSpec F32} {t : DType}
    {n : Nat} {data : List (Elem F32 F16 t)} (hF : FileHas lib path spec t n data) :
    ∃ P : Picture F32, IsFile lib path P ∧ P.data = fileWindow spec ∧ P.channels = n ∧
      P.display = ⟨0, 0, spec.fullWidth, spec.fullHeight⟩ := by
  have hs := file_size hF
  have hl : ((data.map (asFloat t)).length : Int) = elements (sizeFor (fileWindow spec) n) := by
    rw [List.length_map]; exact hF.length
  obtain ⟨g, hg⟩ := exists_settled (n := n) (.inr hF.three) (fileWindow spec)
    (fun x y => pixelAt (fileWindow spec) n (data.map (asFloat t)) x y)
    (fun x y h => pixelAt_length hs hl h)
  refine ⟨⟨fileWindow spec, ⟨0, 0, spec.fullWidth, spec.fullHeight⟩, n, spec.colorSpace, g⟩,
    ⟨spec, t, data.length, data.map (asFloat t), hF.file, hF.header, hF.sane, hF.format, hF.three,
      hF.channels, rfl, rfl, rfl, hF.length, ⟨data.map (asFloat t), ?_, fun _ => rfl, fun h => absurd hF.space h⟩,
      hl, hg⟩, rfl, rfl, rfl⟩
  rw [← hF.pixels]
  exact convert_floats _ t data

omit [Libm single32] in
theorem idle_makes {F H : Type} [FloatLike F] [FloatConst F] [HalfLike F H] {lib : NodeLib F H}
    {frame : F} {n : Node F} (h : Idle n) (L : Layer F) : Makes lib frame n [L] L := by
  rcases h with h | ⟨he, ht⟩
  · exact .null h
  · by_cases hg : n.attrs.nodeType = .grade
    · refine .gradeOff hg fun hG => ?_
      rw [hG.1] at he
      exact absurd he (by decide)
    · refine .off ?_ he
      simp only [List.mem_cons, List.not_mem_nil, or_false] at ht ⊢
      tauto

/-- The pictures of a graph that copies, that nothing else is written, and what the files say. -/
theorem copy_pictures {p : Profile} {lib : NodeLib F32 F16} {srt : EdgeSort}
    {g : Graph (Node F32) (Stream F32 F16)} {r : Bool} (h : Reach (nodeSem p lib) srt r g)
    {start : Nat} (hs : g.graph.contains start = true)
    {frames : List F32} {n : Node F32} (hn : g.nodes[start]? = some n) (hW : Writes n)
    {src : F32 → Bytes} (hc : ∀ fr ∈ frames, Copies lib srt g start fr (src fr))
    {t : DType} {c : Nat} {spec : F32 → FileSpec F32} {data : F32 → List (Elem F32 F16 t)}
    (hF : ∀ fr ∈ frames, FileHas lib (src fr) (spec fr) t c (data fr))
    (ho : ∀ fr ∈ frames, ∀ x ∈ data fr, Ordinary t x)
    (hty : ∀ own, wantedType (n.getI32 "pixel_data_type") own = t)
    (hcrop : n.getI32 "crop_on_write" = 0)
    (hwr : ∀ fr ∈ frames, lib.oiio.hasWriter (filePath lib n fr) = true)
    (hsp : ∀ fr ∈ frames, fileSpace (filePath lib n fr) = colorSpaceLinear) :
    ∃ pic : F32 → Nat → Layer F32, (∀ fr ∈ frames, Pictures lib srt g start fr (pic fr)) ∧
      (frames ≠ [] → ∀ i m, Upstream g.graph start i → i ≠ start → g.nodes[i]? = some m →
        ¬ Writes m) ∧
      ∀ jobs, List.Forall₂ (fun fr job => WrittenLayer lib fr n (pic fr start) job) frames jobs →
        List.Forall₂ (fun fr job => job.path = filePath lib n fr ∧
        IsCopy (spec fr) t c (data fr) job) frames jobs := by
  have hP : ∀ fr, ∃ P : Picture F32, fr ∈ frames → IsFile lib (src fr) P ∧
      P.data = fileWindow (spec fr) ∧ P.channels = c ∧
      P.display = ⟨0, 0, (spec fr).fullWidth, (spec fr).fullHeight⟩ := by
    intro fr
    by_cases hfr : fr ∈ frames
    · obtain ⟨P, hP⟩ := file_picture (hF fr hfr)
      exact ⟨P, fun _ => hP⟩
    · exact ⟨⟨default, default, 0, [], fun _ _ => []⟩, fun h => absurd h hfr⟩
  choose P hP using hP
  have hg := h.inv.sound
  have hncut : ∀ fr, ¬ CropsFile (n.getI32 "crop_on_write") (filePath lib n fr) := by
    intro fr
    rw [hcrop]
    rintro (h | ⟨h, -⟩) <;> exact absurd h (by decide)
  have hpic : ∀ fr ∈ frames, Pictures lib srt g start fr (fun _ => ⟨P fr, []⟩) := by
    intro fr hfr i m ins hu hm hins
    obtain ⟨q1, q2, q3, q4⟩ := hP fr hfr
    rcases hc fr hfr i m ins hu hm hins with ⟨rfl, h1, h2, h3⟩ | ⟨h1, h2⟩
    · exact .read h1 h2 (by rw [h3]; exact q1)
    · obtain ⟨a, rfl⟩ := List.length_eq_one_iff.mp h1
      rcases h2 with h2 | rfl
      · exact idle_makes h2 _
      · rw [hn] at hm
        cases hm
        have hsane := (hF fr hfr).sane
        obtain ⟨-, -, -, -, -, -, hx, hy⟩ := hsane
        refine .write hW.1 hW.2.1 hW.2.2 (rests_refl lib _) ⟨.inl hcrop, hwr fr hfr, ?_, ?_,
          fun h => absurd h (hncut fr)⟩
        · rw [q4]; dsimp only; omega
        · rw [q4]; dsimp only; omega
  have hq : frames ≠ [] → ∀ i m, Upstream g.graph start i → i ≠ start → g.nodes[i]? = some m →
      ¬ Writes m := by
    intro hne i m hu hi hm hWm
    obtain ⟨fr, hfr⟩ := List.exists_mem_of_ne_nil frames hne
    rcases hc fr hfr i m _ hu hm (hg.direct srt (hg.upstream_live hs hu)) with ⟨-, h1, -⟩ | ⟨-, h2⟩
    · rw [hWm.1] at h1; cases h1
    · rcases h2 with (h2 | ⟨-, h2⟩) | h2
      · rw [hWm.1] at h2; cases h2
      · rw [hWm.1] at h2; simp at h2
      · exact hi h2
  have key : ∀ fr ∈ frames, ∀ job, WrittenLayer lib fr n ⟨P fr, []⟩ job →
      job.path = filePath lib n fr ∧ IsCopy (spec fr) t c (data fr) job := by
    rintro fr hfr job ⟨alpha, own, R, hR, hWr⟩
    obtain ⟨q1, q2, q3, q4⟩ := hP fr hfr
    obtain ⟨hRd, hRat⟩ := hR.still (fun d hd => nomatch hd)
    obtain ⟨block, hB, hB', -⟩ := hWr.pixels
    rw [hsp fr hfr, hty own] at hB
    obtain ⟨b1, b2, b3⟩ := hB' (hncut fr)
    obtain ⟨-, -, out, hout, hall⟩ := delivered_copy (hF fr hfr) (ho fr hfr) q1 hRd hR.channels hRat hB
    have hdisp : R.display = ⟨0, 0, (spec fr).fullWidth, (spec fr).fullHeight⟩ := hR.display.trans q4
    have hsize : job.size = ⟨(spec fr).width, (spec fr).height, c⟩ :=
      congrArg PixelBlock.size (b1.trans hout)
    refine ⟨hWr.path, ⟨out, b1.trans hout, hall⟩, ?_, ?_, ?_, ?_, ?_, ?_, ?_, ?_, ?_⟩
    · rw [hWr.format, hty own, (hF fr hfr).format]
    · rw [hWr.width, hsize]
    · rw [hWr.height, hsize]
    · rw [hWr.fullX, hdisp]
    · rw [hWr.fullY, hdisp]
    · rw [hWr.fullWidth, hdisp]; exact Int.sub_zero _
    · rw [hWr.fullHeight, hdisp]; exact Int.sub_zero _
    · intro h0
      rw [b2, hRd, q2]
      show (spec fr).x + (spec fr).fullX = _
      rw [h0, Int.add_zero]
    · intro h0
      rw [b3, hRd, q2]
      show (spec fr).y + (spec fr).fullY = _
      rw [h0, Int.add_zero]
  refine ⟨fun fr _ => ⟨P fr, []⟩, hpic, hq, ?_⟩
  intro jobs h3
  clear hpic hq hF ho hwr hsp hc hP
  induction h3 with
  | nil => exact .nil
  | cons ha _ ih =>
    exact .cons (key _ List.mem_cons_self _ ha) (ih fun fr hfr => key fr (List.mem_cons_of_mem _ hfr))

/-- C125: a graph that reads files in linear light and writes them again, in the same type and to
formats in linear light, with nothing but idle nodes in between, writes files with exactly the values
that were read, for every frame: bytes and shorts bit by bit, floats with the same values.
Missing: pixels with infinite values or NaNs, for which it is false (`C125_counterexample`), and
files in other colour spaces, whose conversion is up to OpenImageIO. -/
theorem C125_copy_partial (p : Profile) (lib : NodeLib F32 F16) (srt : EdgeSort)
    {g : Graph (Node F32) (Stream F32 F16)} {r : Bool} (h : Reach (nodeSem p lib) srt r g)
    {id start : Nat} (hid : At g id start) (hs : g.graph.contains start = true)
    {frames : List F32} {n : Node F32} (hn : g.nodes[start]? = some n) (hW : Writes n)
    {src : F32 → Bytes} (hc : ∀ fr ∈ frames, Copies lib srt g start fr (src fr))
    {t : DType} {c : Nat} {spec : F32 → FileSpec F32} {data : F32 → List (Elem F32 F16 t)}
    (hF : ∀ fr ∈ frames, FileHas lib (src fr) (spec fr) t c (data fr))
    (ho : ∀ fr ∈ frames, ∀ x ∈ data fr, Ordinary t x)
    (hty : ∀ own, wantedType (n.getI32 "pixel_data_type") own = t)
    (hcrop : n.getI32 "crop_on_write" = 0)
    (hwr : ∀ fr ∈ frames, lib.oiio.hasWriter (filePath lib n fr) = true)
    (hsp : ∀ fr ∈ frames, fileSpace (filePath lib n fr) = colorSpaceLinear)
    {w w' : World F32 F16} (hw : IsOff w) {fuel : Nat} {st : ExecuteStatus}
    {g' : Graph (Node F32) (Stream F32 F16)}
    (hx : g.execute (nodeSem p lib) srt fuel id frames w = .ok (st, g', w')) :
    st = .success ∧ ∃ jobs, w'.writes = w.writes ++ jobs ∧
      List.Forall₂ (fun fr job => job.path = filePath lib n fr ∧
        IsCopy (spec fr) t c (data fr) job) frames jobs := by
  by_cases hne : frames = []
  · subst hne
    obtain ⟨order, d, e, hi⟩ := order_of_reach h hs
    unfold Graph.execute at hx
    rw [find_at.mpr hid] at hx
    simp only [e, bind, Except.bind, Graph.frameLoop] at hx
    cases hx
    exact ⟨rfl, [], by simp, .nil⟩
  obtain ⟨pic, h1, h2, h3⟩ := copy_pictures h hs hn hW hc hF ho hty hcrop hwr hsp
  obtain ⟨h4, jobs, h5, h6⟩ := C124_render_partial p lib srt h hid hs h1 hn hW (h2 hne) hw hx
  exact ⟨h4, jobs, h5, h3 jobs h6⟩

/-- C125 for graphs arranged in levels, for example a chain: the copying always comes to an end. -/
theorem C125_copy_leveled_partial (p : Profile) (lib : NodeLib F32 F16) (srt : EdgeSort)
    {g : Graph (Node F32) (Stream F32 F16)} {r : Bool} (h : Reach (nodeSem p lib) srt r g)
    {id start : Nat} (hid : At g id start) (hs : g.graph.contains start = true)
    {frames : List F32} {n : Node F32} (hn : g.nodes[start]? = some n) (hW : Writes n)
    {src : F32 → Bytes} (hc : ∀ fr ∈ frames, Copies lib srt g start fr (src fr))
    {t : DType} {c : Nat} {spec : F32 → FileSpec F32} {data : F32 → List (Elem F32 F16 t)}
    (hF : ∀ fr ∈ frames, FileHas lib (src fr) (spec fr) t c (data fr))
    (ho : ∀ fr ∈ frames, ∀ x ∈ data fr, Ordinary t x)
    (hty : ∀ own, wantedType (n.getI32 "pixel_data_type") own = t)
    (hcrop : n.getI32 "crop_on_write" = 0)
    (hwr : ∀ fr ∈ frames, lib.oiio.hasWriter (filePath lib n fr) = true)
    (hsp : ∀ fr ∈ frames, fileSpace (filePath lib n fr) = colorSpaceLinear)
    (hl : Leveled g.graph start) (hne : frames ≠ []) {w : World F32 F16} (hw : IsOff w) :
    ∃ enough, ∀ fuel, enough ≤ fuel → ∃ g' w' jobs,
      g.execute (nodeSem p lib) srt fuel id frames w = .ok (.success, g', w') ∧
      w'.writes = w.writes ++ jobs ∧
      List.Forall₂ (fun fr job => job.path = filePath lib n fr ∧
        IsCopy (spec fr) t c (data fr) job) frames jobs := by
  obtain ⟨pic, h1, h2, h3⟩ := copy_pictures h hs hn hW hc hF ho hty hcrop hwr hsp
  obtain ⟨k, hk⟩ := C124_render_leveled_partial p lib srt h hid hs hl h1 hn hW (h2 hne) hw
  refine ⟨k, fun fuel hf => ?_⟩
  obtain ⟨g', w', jobs, e, h5, h6⟩ := hk fuel hf
  exact ⟨g', w', jobs, e, h5, h3 jobs h6⟩

end

/-! ### Examples -/

attribute [local instance] IeeeConvertExamples.someLibm

/-- The value 1. -/
def halfOne : F16 := ⟨false, 0x3c00, by decide⟩

/-- Infinity. -/
def halfInf : F16 := ⟨false, 0x7c00, by decide⟩

/-- A file with one pixel of four half floats in linear light. -/
def halfSpec : FileSpec F32 :=
  { x := 0, y := 0, width := 1, height := 1, fullX := 0, fullY := 0, fullWidth := 1
    fullHeight := 1, numChannels := 4, format := .known .f16, colorSpace := colorSpaceLinear
    gamma := 1, pixelAspect := 1, orientation := 1
    unassociatedAlpha := 0, dither := 0 }

/-- Writes the start of a buffer. -/
def fillWith {A : Type} (new old : List A) : List A := new.take old.length ++ old.drop new.length

theorem fillWith_length {A : Type} (new old : List A) : (fillWith new old).length = old.length := by
  unfold fillWith
  rw [List.length_append, List.length_take, List.length_drop]
  omega

/-- Every file is one pixel of half floats. -/
def halfFiles (px : List F16) : NodeLib F32 F16 where
  hash := sipHash
  shell _ := none
  pathKind _ := .file
  bake := { color := ⟨fun px _ _ _ _ _ _ _ => (true, px)⟩,
            deform := ⟨fun _ => none, ⟨fun _ x y => (x, y), fun _ x y => (x, y), fun _ b => b,
              fun _ b => b⟩⟩ }
  lensAccepts _ := true
  oiio :=
    { header := fun _ => some halfSpec
      pixels := fun _ _ t _ old => match t with
        | .f16 => fillWith px old
        | .u8 => old
        | .u16 => old
        | .f32 => old
      hasWriter := fun _ => true
      stores := fun _ => true
      resample := fun _ _ _ _ _ _ old => (true, old)
      toInt := fun q => if 0 ≤ q then q.floor else q.ceil
      pixels_length := by
        intro _ _ t _ old
        cases t <;> first | rfl | exact fillWith_length px old
      resample_length := fun _ _ _ _ _ _ _ => rfl
      toInt_fits := fun _ _ _ => rfl }

/-- Writes half floats to `a.exr`. -/
def writeHalf : Node F32 :=
  ⟨3, .uninitialized, .writeImage { WriteImageAttrs.new with
    enable := 1, execute := 1, filePath := [97, 46, 101, 120, 114], cropOnWrite := 0,
    pixelDataType := 1 }⟩

/-- Reading, nothing, writing. -/
def copyGraph : Graph (Node F32) (Stream F32 F16) :=
  ⟨[⟨1, .uninitialized, .readImage { ReadImageAttrs.new with enable := 1, filePath := [98] }⟩,
    ⟨2, .uninitialized, .null {}⟩, writeHalf], [1, 2, 3],
    ⟨[some 1, some 2, some 3], [], [⟨1, 2, 0⟩, ⟨0, 1, 0⟩]⟩, .new, .dirty, .uninitialized⟩

theorem copyGraph_reach (px : List F16) :
    Reach (nodeSem .debug (halfFiles px)) insSort false copyGraph :=
  .connect 2 3 0 (.connect 1 2 0 (.add writeHalf (.add ⟨2, .uninitialized, .null {}⟩
    (.add ⟨1, .uninitialized, .readImage { ReadImageAttrs.new with enable := 1, filePath := [98] }⟩
      (.new .new) rfl) rfl) rfl) rfl) rfl

theorem copyGraph_at : At copyGraph 3 2 := by
  refine ⟨rfl, ?_⟩
  intro j hj
  rcases j with _ | _ | j <;> first | decide | omega

theorem copyGraph_copies (px : List F16) (frame : F32) :
    Copies (halfFiles px) insSort copyGraph 2 frame
      (filePath (halfFiles px) ⟨1, .uninitialized,
        .readImage { ReadImageAttrs.new with enable := 1, filePath := [98] }⟩ frame) := by
  intro i n ins _ hn hins
  rcases i with _ | _ | _ | i
  · cases hn
    cases hins
    exact .inl ⟨rfl, rfl, by decide, rfl⟩
  · cases hn
    cases hins
    exact .inr ⟨rfl, .inl (.inl rfl)⟩
  · cases hn
    cases hins
    exact .inr ⟨rfl, .inr rfl⟩
  · cases hn

/-- No cache, nothing written. -/
def copyWorld : World F32 F16 := ⟨.withCapacity 0, []⟩

theorem half_has (a b c d : F16) (path : Bytes) :
    FileHas (halfFiles [a, b, c, d]) path halfSpec .f16 4 [a, b, c, d] :=
  ⟨rfl, rfl, by constructor <;> decide, rfl, rfl, .inr rfl, rfl, rfl, rfl⟩

/-- The codes of the half floats in a file. -/
def jobCodes (job : WriteJob F32 F16) : List Nat :=
  match job.block with
  | ⟨.f16, d⟩ => List.map (fun x : F16 => x.code) d
  | _ => []

/-- The codes of what was written by a successful execution. -/
def writtenCodes (r : Res (ExecuteStatus × Graph (Node F32) (Stream F32 F16) × World F32 F16)) :
    Option (List (List Nat)) :=
  match r with
  | .ok (.success, _, w) => some (w.writes.map jobCodes)
  | _ => none

theorem written_codes
    {r : Res (ExecuteStatus × Graph (Node F32) (Stream F32 F16) × World F32 F16)}
    {l : List (List Nat)} (h : writtenCodes r = some l) :
    ∃ g' w', r = .ok (.success, g', w') ∧ w'.writes.map jobCodes = l := by
  rcases r with _ | ⟨st, g', w'⟩
  · cases h
  · cases st
    case success => exact ⟨g', w', rfl, Option.some.inj h⟩
    all_goals cases h

theorem job_block {job : WriteJob F32 F16} {a b c d : Nat} (h : jobCodes job = [a, b, c, d]) :
    ∃ x y z w : F16, job.block = ⟨.f16, ([x, y, z, w] : List F16)⟩ ∧
      x.code = a ∧ y.code = b ∧ z.code = c ∧ w.code = d := by
  unfold jobCodes at h
  match job.block, h with
  | ⟨.f16, [x, y, z, w]⟩, h =>
    change [x.code, y.code, z.code, w.code] = [a, b, c, d] at h
    simp only [List.cons.injEq, and_true] at h
    exact ⟨x, y, z, w, rfl, h⟩

/-- A pixel of ones. -/
example : ∃ g' w', copyGraph.execute (nodeSem .debug (halfFiles [halfOne, halfOne, halfOne, halfOne]))
      insSort 20 3 [1] copyWorld = .ok (.success, g', w') ∧
    ∃ job, w'.writes = [job] ∧ IsCopy halfSpec .f16 4 [halfOne, halfOne, halfOne, halfOne] job := by
  have e : writtenCodes (copyGraph.execute
      (nodeSem .debug (halfFiles [halfOne, halfOne, halfOne, halfOne])) insSort 20 3
      [1] copyWorld) = some [[0x3c00, 0x3c00, 0x3c00, 0x3c00]] := by decide +kernel
  obtain ⟨g', w', e, -⟩ := written_codes e
  obtain ⟨-, jobs, h1, h2⟩ := C125_copy_partial .debug
    (halfFiles [halfOne, halfOne, halfOne, halfOne]) insSort (copyGraph_reach _)
    copyGraph_at rfl (frames := [1]) (n := writeHalf) rfl ⟨rfl, by decide, by decide⟩
    (fun fr _ => copyGraph_copies _ fr) (t := .f16) (spec := fun _ => halfSpec)
    (data := fun _ => [halfOne, halfOne, halfOne, halfOne]) (fun fr _ => half_has _ _ _ _ _)
    (fun _ _ x hx => by
      have hx' : x = halfOne := by
        rcases hx with _ | ⟨_, _ | ⟨_, _ | ⟨_, _ | ⟨_, h⟩⟩⟩⟩ <;> first | rfl | cases h
      rw [hx']
      exact (finite_iff (f := half16) halfOne).mpr (by decide))
    (fun _ => rfl) rfl (fun _ _ => rfl)
    (fun fr hfr => by
      obtain rfl := List.mem_singleton.mp hfr
      decide +kernel) ⟨rfl, rfl⟩ e
  cases h2 with
  | cons h h' =>
    cases h'
    exact ⟨g', w', e, _, h1, h.2⟩

/-- The same without knowing that the execution returns. -/
example : ∃ enough, ∀ fuel, enough ≤ fuel → ∃ g' w' jobs, copyGraph.execute
      (nodeSem .debug (halfFiles [halfOne, halfOne, halfOne, halfOne])) insSort fuel 3 [1]
      copyWorld = .ok (.success, g', w') ∧ w'.writes = copyWorld.writes ++ jobs ∧
    List.Forall₂ (fun fr job =>
      job.path = filePath (halfFiles [halfOne, halfOne, halfOne, halfOne]) writeHalf fr ∧
      IsCopy halfSpec .f16 4 [halfOne, halfOne, halfOne, halfOne] job) [1] jobs :=
  C125_copy_leveled_partial .debug
    (halfFiles [halfOne, halfOne, halfOne, halfOne]) insSort (copyGraph_reach _)
    copyGraph_at rfl (frames := [1]) (n := writeHalf) rfl ⟨rfl, by decide, by decide⟩
    (fun fr _ => copyGraph_copies _ fr) (t := .f16) (spec := fun _ => halfSpec)
    (data := fun _ => [halfOne, halfOne, halfOne, halfOne]) (fun fr _ => half_has _ _ _ _ _)
    (fun _ _ x hx => by
      have hx' : x = halfOne := by
        rcases hx with _ | ⟨_, _ | ⟨_, _ | ⟨_, _ | ⟨_, h⟩⟩⟩⟩ <;> first | rfl | cases h
      rw [hx']
      exact (finite_iff (f := half16) halfOne).mpr (by decide))
    (fun _ => rfl) rfl (fun _ _ => rfl)
    (fun fr hfr => by
      obtain rfl := List.mem_singleton.mp hfr
      decide +kernel)
    ⟨fun i => 2 - i, by
      rintro u v _ ⟨e, he, rfl, rfl⟩ _
      change e ∈ ([⟨1, 2, 0⟩, ⟨0, 1, 0⟩] : List Edge) at he
      simp only [List.mem_cons, List.not_mem_nil, or_false] at he
      rcases he with rfl | rfl <;> rfl⟩ (by simp) ⟨rfl, rfl⟩

/-- C125: an infinite value destroys the pixel.  A file with an infinite red value is read and
written by a graph that does nothing else: all channels come out as NaN.  (Every write bakes the
picture, and baking multiplies every pixel with a colour matrix, even if there is nothing to grade;
infinity times zero is NaN.) -/
theorem C125_counterexample : ∃ g' w', copyGraph.execute
      (nodeSem .debug (halfFiles [halfInf, halfOne, halfOne, halfOne])) insSort 20 3
      [1] copyWorld = .ok (.success, g', w') ∧
    ∃ job, w'.writes = [job] ∧
      (∃ r g b a : F16, job.block = ⟨.f16, ([r, g, b, a] : List F16)⟩ ∧ g.isNan = true ∧
        b.isNan = true ∧ a.isNan = true) ∧
      ¬ IsCopy halfSpec .f16 4 [halfInf, halfOne, halfOne, halfOne] job := by
  have e : writtenCodes (copyGraph.execute
      (nodeSem .debug (halfFiles [halfInf, halfOne, halfOne, halfOne])) insSort 20 3
      [1] copyWorld) = some [[0x7c00, 0x7fff, 0x7fff, 0x7fff]] := by decide +kernel
  obtain ⟨g', w', e, hc⟩ := written_codes e
  refine ⟨g', w', e, ?_⟩
  obtain ⟨job, rest, h1, h2, h3⟩ := List.map_eq_cons_iff.mp hc
  obtain rfl := List.map_eq_nil_iff.mp h3
  obtain ⟨x, y, z, w, hb, -, hy, hz, hw⟩ := job_block h2
  have nan : ∀ v : F16, v.code = 0x7fff → v.isNan = true := by
    intro v hv
    unfold Ieee.isNan
    rw [hv]
    decide
  refine ⟨job, h1, ⟨x, y, z, w, hb, nan y hy, nan z hz, nan w hw⟩, ?_⟩
  rintro ⟨⟨out, ho, hu⟩, -⟩
  injection ho with _ ho
  rw [hb] at ho
  injection ho with _ ho
  cases ho
  have hs : Same (f := half16) y halfOne := by
    cases hu with
    | cons _ hu =>
      cases hu with
      | cons h _ => exact h
  have := (finite_iff (f := half16) y).mp hs.1
  rw [hy] at this
  exact absurd this (by decide)

end OCG.Props
