import Verif.Spec.PictureGraph
import Verif.Proofs.ExecRule
import Verif.Props.Picture
import Verif.Props.PictureResample
import Verif.Props.Locality
/-
C87: the picture a whole graph makes.
-/

namespace OCG.Props

open BlockSpec BBoxSpec ImageSpecs PixelSpec ColorSpec PictureSpec ComputeSpec GraphSpec
open CacheSpec (IsOff)

set_option linter.unusedSimpArgs false

section
variable {F H : Type} [FloatLike F] [HalfLike F H]

theorem shows_same {lib : ColorLib F} {s t : Stream F H} {P : Picture F} (h : SameImage t s)
    (hP : Shows lib s P) : Shows lib t P := by
  obtain ⟨h1, h2, h3, h4, h5, h6, h7, h8⟩ := h
  obtain ⟨k1, k2, k3, k4, k5, k6, k7⟩ := hP
  exact ⟨h3.trans k1, h2.trans k2, h5 ▸ k3, k4, k5, by rw [h7]; exact k6,
    by rw [h3, h4, h5, h6, h8]; exact k7⟩

theorem forall₂_one {α β : Type} {R : α → β → Prop} {vals : List α} {b : β}
    (h : List.Forall₂ R vals [b]) : ∃ a, vals = [a] ∧ R a b := by
  cases h with
  | cons h t => cases t; exact ⟨_, rfl, h⟩

omit [HalfLike F H] in
theorem transform_unique {n : Node F} (ht : n.attrs.nodeType = .transform) {a b : TransformDeformer F}
    (a1 : a.getI32 "enable" = 1) (ha : Describes n a.getI32 a.getF32) (b1 : b.getI32 "enable" = 1)
    (hb : Describes n b.getI32 b.getF32) : a = b := by
  obtain ⟨a2, a3⟩ := ha
  obtain ⟨b2, b3⟩ := hb
  rw [ht] at a2 a3 b2 b3
  have h1 : ∀ name ∈ AttrSpec.names .transform .i32, a.getI32 name = b.getI32 name :=
    fun name hm => by
      by_cases h : name = "enable"
      · rw [h, a1, b1]
      · rw [a2 name hm h, b2 name hm h]
  have h2 : ∀ name ∈ AttrSpec.names .transform .f32, a.getF32 name = b.getF32 name :=
    fun name hm => by rw [a3 name hm, b3 name hm]
  simp only [AttrSpec.names, List.forall_mem_cons, List.not_mem_nil, false_implies, implies_true,
    and_true, TransformDeformer.getI32, TransformDeformer.getF32] at h1 h2
  cases a
  cases b
  simp only at h1 h2
  simp only [TransformDeformer.mk.injEq]
  tauto

omit [HalfLike F H] in
theorem lens_unique {n : Node F} (ht : n.attrs.nodeType = .lensDistort) {a b : Tde4Deformer F}
    (a1 : a.getI32 "enable" = 1) (ha : Describes n a.getI32 a.getF32) (ca : StandardCamera a.getF32)
    (b1 : b.getI32 "enable" = 1) (hb : Describes n b.getI32 b.getF32)
    (cb : StandardCamera b.getF32) : a = b := by
  have k1 := ca.focal.trans cb.focal.symm
  have k2 := ca.width.trans cb.width.symm
  have k3 := ca.height.trans cb.height.symm
  have k4 := ca.aspect.trans cb.aspect.symm
  obtain ⟨a2, a3⟩ := ha
  obtain ⟨b2, b3⟩ := hb
  rw [ht] at a2 a3 b2 b3
  have h1 : ∀ name ∈ AttrSpec.names .lensDistort .i32, a.getI32 name = b.getI32 name :=
    fun name hm => by
      by_cases h : name = "enable"
      · rw [h, a1, b1]
      · rw [a2 name hm h, b2 name hm h]
  have h2 : ∀ name ∈ AttrSpec.names .lensDistort .f32, a.getF32 name = b.getF32 name :=
    fun name hm => by rw [a3 name hm, b3 name hm]
  simp only [AttrSpec.names, List.forall_mem_cons, List.not_mem_nil, false_implies, implies_true,
    and_true, Tde4Deformer.getI32, Tde4Deformer.getF32] at h1 h2 k1 k2 k3 k4
  cases a
  cases b
  simp only at h1 h2 k1 k2 k3 k4
  simp only [Tde4Deformer.mk.injEq]
  tauto

variable [FloatConst F]

omit [HalfLike F H] in
theorem boxed_enabled {lib : DeformLib F} {w : BBoxF F} (ds : List (Deformer F)) (b c : BBoxF F) :
    Boxed lib w (ds.filter (fun d => d.enable = 1)) b c → Boxed lib w ds b c := by
  induction ds generalizing b with
  | nil => exact id
  | cons d ds ih =>
    by_cases h : d.enable = 1
    · rw [List.filter_cons_of_pos (by simpa using h)]
      intro hc
      cases hc with
      | off h' _ => exact absurd h h'
      | on _ e hc => exact .on h e (ih _ hc)
    · rw [List.filter_cons_of_neg (by simpa using h)]
      exact fun hc => .off h (ih _ hc)

omit [HalfLike F H] in
theorem carriedOut_enabled {lib : DeformLib F} {ds : List (Deformer F)} {P R : Picture F}
    (h : CarriedOut lib (ds.filter (fun d => d.enable = 1)) P R) : CarriedOut lib ds P R := by
  refine ⟨h.display, h.channels, h.space, fun hd => h.still ?_, fun ⟨d, hd, hon⟩ => ?_⟩
  · intro d hm
    exact hd d (List.mem_filter.mp hm).1
  · obtain ⟨h1, h2, h3, h4, h5, ⟨box, h6, h7⟩, h8⟩ :=
      h.moved ⟨d, List.mem_filter.mpr ⟨hd, by simpa using hon⟩, hon⟩
    refine ⟨h1, fun e he hen => h2 e (List.mem_filter.mpr ⟨he, by simpa using hen⟩) hen, h3, h4, h5,
      ⟨box, boxed_enabled _ _ _ h6, h7⟩, fun x y hxy => ?_⟩
    obtain ⟨q, hq, hq'⟩ := h8 x y hxy
    exact ⟨q, (carried_enabled _ _ _).mpr hq, hq'⟩

theorem rests_appears {lib : NodeLib F H} {s : Stream F H} {L : Layer F} {R : Picture F}
    (h : ShowsLayer lib.bake.color s L) (hR : Rests lib L R) : Appears lib.bake s R :=
  ⟨L.still, h.1, carriedOut_enabled (by rw [h.2]; exact hR)⟩

theorem shows_layer {lib : ColorLib F} {s : Stream F H} {P : Picture F} (h : Shows lib s P) :
    ShowsLayer lib s ⟨P, []⟩ :=
  ⟨h.isStill, List.filter_eq_nil_iff.mpr fun d hd => by simpa using h.flat d hd⟩

theorem layer_shows {lib : ColorLib F} {s : Stream F H} {P : Picture F}
    (h : ShowsLayer lib s ⟨P, []⟩) : Shows lib s P :=
  still_shows h.1 fun d hd => by simpa using List.filter_eq_nil_iff.mp h.2 d hd

omit [HalfLike F H] in
/-- With no deformer waiting the picture rests as it is. -/
theorem carriedOut_refl {lib : DeformLib F} (P : Picture F) : CarriedOut lib [] P P :=
  ⟨rfl, rfl, rfl, fun _ => ⟨rfl, fun _ _ _ => rfl⟩, fun ⟨_, h, _⟩ => nomatch h⟩

theorem rests_refl (lib : NodeLib F H) (P : Picture F) : Rests lib ⟨P, []⟩ P := carriedOut_refl P

theorem layer_same {lib : ColorLib F} {s t : Stream F H} {L : Layer F} (h : SameImage t s)
    (hP : ShowsLayer lib s L) : ShowsLayer lib t L := by
  obtain ⟨h1, h2, h3, h4, h5, h6, h7, h8⟩ := h
  obtain ⟨⟨k1, k2, k3, k4, k5, k7⟩, k6⟩ := hP
  exact ⟨⟨h3.trans k1, h2.trans k2, h5 ▸ k3, k4, k5, by rw [h3, h4, h5, h6, h8]; exact k7⟩,
    by rw [h7]; exact k6⟩

variable [FloatBits F]

/-- C87, one node: on inputs that show the pictures, a node that is asked for pixels shows the
picture it should make of them. -/
theorem C87_node (p : Profile) (lib : NodeLib F H) (n : Node F) (frame : F) (mode : Mode)
    (prev : Stream F H) (w : World F H) (hm : mode &&& modePixel = modePixel) (hw : IsOff w)
    {Ps : List (Layer F)} {Q : Layer F} (h : Makes lib frame n Ps Q)
    {inputs : List (Stream F H)} (hi : List.Forall₂ (ShowsLayer lib.bake.color) inputs Ps) :
    ∃ out w', n.run p lib frame mode inputs prev w = .ok (.valid, out, w') ∧ IsOff w' ∧
      ShowsLayer lib.bake.color out Q := by
  cases h with
  | null ht =>
    obtain ⟨s, rfl, hs⟩ := forall₂_one hi
    exact ⟨s, w, C86_null p lib n frame mode s [] prev w ht, hw, hs⟩
  | read ht he hf =>
    obtain ⟨out, w', e, h1, -, h2⟩ := C86_read p lib n frame mode inputs prev w ht he hm hw hf
    exact ⟨out, w', e, h1, shows_layer h2⟩
  | grade ht hg ho hQ =>
    obtain ⟨s, rfl, hs, hd⟩ := forall₂_one hi
    obtain ⟨out, op, e, h1, h3, -, h2⟩ := C86_grade p lib n frame mode s [] prev w ht hg hs
    rw [gradeOf_unique ht ho h1] at hQ
    exact ⟨out, w, e, hw, h2 _ hQ, by rw [h3]; exact hd⟩
  | transform ht he h1 h2 =>
    obtain ⟨s, rfl, hs, hd⟩ := forall₂_one hi
    obtain ⟨out, d, e, k1, k2, h3, h4⟩ := C86_transform p lib n frame mode s [] prev w ht he hs
    cases transform_unique ht h1 h2 k1 k2
    refine ⟨out, w, e, hw, h4, ?_⟩
    rw [h3, List.filter_append, hd]
    refine congrArg (_ ++ ·) (List.filter_eq_self.mpr fun e he => ?_)
    cases List.mem_singleton.mp he
    exact decide_eq_true h1
  | lens ht he h1 h2 hc ha =>
    obtain ⟨s, rfl, hs, hd⟩ := forall₂_one hi
    obtain ⟨d, k1, k2, k3, h⟩ := C86_lens p lib n frame mode s [] prev w ht he hs
    cases lens_unique ht h1 h2 hc k1 k2 k3
    obtain ⟨out, e, h3, h4⟩ := h ha
    refine ⟨out, w, e, hw, h4, ?_⟩
    rw [h3, List.filter_append, hd]
    refine congrArg (_ ++ ·) (List.filter_eq_self.mpr fun e he => ?_)
    cases List.mem_singleton.mp he
    exact decide_eq_true h1
  | gradeOff ht hg =>
    obtain ⟨s, rfl, hs⟩ := forall₂_one hi
    exact ⟨s, w, C86_grade_idle p lib n frame mode s [] prev w ht hg, hw, hs⟩
  | off ht he =>
    obtain ⟨s, rfl, hs⟩ := forall₂_one hi
    obtain ⟨out, e, hsame⟩ := C46_pass_through_partial p lib n frame mode s [] prev w he (by
      simp only [List.mem_cons, List.not_mem_nil, or_false] at ht ⊢
      tauto)
    exact ⟨out, w, e, hw, layer_same hsame hs⟩
  | crop ht he hb hR hl hv hQ =>
    obtain ⟨s, rfl, hs⟩ := forall₂_one hi
    obtain ⟨out, w', e, h1, -, -, h2⟩ := C86_crop_partial p lib n frame mode s [] prev w ht he hb hw
      (rests_appears hs hR) hl hv
    exact ⟨out, w', e, h1, shows_layer (h2 _ hQ)⟩
  | merge ht he hmode hRA hRB hd ha hb hv hQ =>
    cases hi with
    | cons hA hi =>
      obtain ⟨s, rfl, hB⟩ := forall₂_one hi
      obtain ⟨out, w', e, h1, -, -, h2⟩ := C86_merge_partial p lib n frame mode _ s [] prev w ht he
        hmode hw (rests_appears hA hRA) (rests_appears hB hRB) (hB.1.data.trans hd) ha hb hv
      exact ⟨out, w', e, h1, shows_layer (h2 _ hQ)⟩
  | viewer ht he ho hc hsp hty hQ =>
    obtain ⟨s, rfl, hs, hd⟩ := forall₂_one hi
    obtain ⟨out, w', e, h1, -, -, -, -, -, -, h3, -, h2⟩ := C86_viewer_grades p lib n frame mode s []
      prev w ht he ho hc hw hs
    exact ⟨out, w', e, h1, (h2 hsp _ (hty _)).2 _ hQ, by rw [h3]; exact hd⟩
  | viewerSpace ht he ho hc hsp hty hl =>
    obtain ⟨s, rfl, hs, hd⟩ := forall₂_one hi
    obtain ⟨out, w', e, h1, -, -, -, -, -, h3, h4, -, h2⟩ := C86_viewer_space p lib n frame mode s []
      prev w ht he ho hc hw
    have hs' := hs.space.trans hl
    have h5 : out.imageSpec.colorSpace = colorSpaceLinear := by
      rcases h4 with h4 | h4 <;> rw [h4]
      · exact hs'
      · exact hsp
    have h6 := h2 h5 hsp (by unfold wantedType; rw [if_pos hty]) _ hs
    dsimp only at h6 hl
    rw [← hl] at h6
    exact ⟨out, w', e, h1, h6, by rw [h3]; exact hd⟩
  | @resample pick P Q ds ht he hf hint hpick hl hc hx hy hQ =>
    obtain ⟨s, rfl, hs, hd⟩ := forall₂_one hi
    obtain ⟨out, w', e, h1, -, h3, -, h6⟩ := C86_resample_partial p lib n frame mode s prev w ht he hf
      hint hw hpick hs hl (.inr hc) hx hy
    exact ⟨out, w', e, h1, h6 Q hQ, by rw [h3]; exact hd⟩
  | resampleIdle ht he hf =>
    obtain ⟨s, rfl, hs⟩ := forall₂_one hi
    refine ⟨s, w, ?_, hw, hs⟩
    obtain ⟨id, st, attrs⟩ := n
    cases attrs <;> simp only [NodeAttrs.nodeType, reduceCtorEq] at ht
    simp only [attr_eval] at he hf
    simp [Node.run, ResampleImageAttrs.compute, he, hf, ensure]
    rfl
  | viewerOff ht he ho =>
    obtain ⟨s, rfl, hs⟩ := forall₂_one hi
    refine ⟨s, w, ?_, hw, hs⟩
    obtain ⟨id, st, attrs⟩ := n
    cases attrs <;> simp only [NodeAttrs.nodeType, reduceCtorEq] at ht
    simp only [attr_eval] at he ho
    simp [Node.run, ViewerAttrs.compute, he, ho, BakeOption.ofI32]
  | write ht he hx hR hW =>
    obtain ⟨s, rfl, hs⟩ := forall₂_one hi
    obtain ⟨job, block, e, -⟩ := C86_write p lib n frame mode s [] prev w ht he hx hW.crop hW.writer
      (rests_appears hs hR) hW.width hW.height hW.cut
    exact ⟨s, _, e, ⟨hw.1, hw.2⟩, hs⟩
  | writeOff ht he hx =>
    obtain ⟨s, rfl, hs⟩ := forall₂_one hi
    refine ⟨s, w, ?_, hw, hs⟩
    obtain ⟨id, st, attrs⟩ := n
    cases attrs <;> simp only [NodeAttrs.nodeType, reduceCtorEq] at ht
    simp only [attr_eval] at he hx
    simp [Node.run, WriteImageAttrs.compute, he, hx]

/-- Every request includes the pixels: the nodes that make pictures ask their inputs for them. -/
theorem pixels_requested {p : Profile} {lib : NodeLib F H} {srt : EdgeSort}
    {g : Graph (Node F) (Stream F H)} (hg : Sound g) {start : Nat}
    (hs : g.graph.contains start = true) {frame : F} {pic : Nat → Layer F}
    (hp : Pictures lib srt g start frame pic) {i : Nat} {m : Mode}
    (h : Requested (nodeSem p lib) srt g start i m) :
    Upstream g.graph start i ∧ m &&& modePixel = modePixel := by
  induction h with
  | start => exact ⟨.refl, rfl⟩
  | @input i m n h ins ns modes j m' _ hn hins hns hv hz ih =>
    obtain ⟨hu, hmp⟩ := ih
    have hmk := hp i n ins hu hn hins
    have hup : Upstream g.graph start j := by
      rw [hg.direct srt (hg.upstream_live hs hu)] at hins
      cases hins
      exact .step hu ((hg.mem_parents srt).mp (List.of_mem_zip hz).1).1
    refine ⟨hup, ?_⟩
    have hlen : ns.length = ins.length := by
      have := congrArg List.length hns
      simpa using this.symm
    have hall : m &&& modeAll &&& modePixel = modePixel := by
      rw [Nat.and_assoc]; exact hmp
    have hone : ins.length = 1 → n.attrs.nodeType ≠ .viewer → n.attrs.nodeType ≠ .mergeImage →
        m' &&& modePixel = modePixel := by
      intro hl hnv hnm
      obtain ⟨a, rfl⟩ := List.length_eq_one_iff.mp hl
      obtain ⟨b, rfl⟩ := List.length_eq_one_iff.mp (hlen.trans hl)
      have : modes = [m &&& modeAll] := by
        obtain ⟨id, st, attrs⟩ := n
        cases attrs <;> first
          | exact absurd rfl hnv
          | exact absurd rfl hnm
          | exact (Except.ok.inj hv).symm
      subst this
      simp only [List.zip_cons_cons, List.zip_nil_right, List.mem_singleton, Prod.mk.injEq] at hz
      rw [hz.2]
      exact hall
    have hlm : ∀ {l : List (Layer F)}, ins.map pic = l → ins.length = l.length :=
      fun e => by rw [← e]; simp
    generalize hps : ins.map pic = Ps at hmk
    generalize pic i = Q at hmk
    have hl := hlm hps
    cases hmk with
    | null ht => exact hone hl (by rw [ht]; simp) (by rw [ht]; simp)
    | read ht =>
      rw [List.length_nil] at hl
      rw [List.length_eq_zero_iff.mp hl] at hz
      cases hz
    | grade ht => exact hone hl (by rw [ht]; simp) (by rw [ht]; simp)
    | gradeOff ht => exact hone hl (by rw [ht]; simp) (by rw [ht]; simp)
    | transform ht => exact hone hl (by rw [ht]; simp) (by rw [ht]; simp)
    | lens ht => exact hone hl (by rw [ht]; simp) (by rw [ht]; simp)
    | off ht =>
      exact hone hl (fun e => by rw [e] at ht; simp at ht) (fun e => by rw [e] at ht; simp at ht)
    | crop ht => exact hone hl (by rw [ht]; simp) (by rw [ht]; simp)
    | resample ht => exact hone hl (by rw [ht]; simp) (by rw [ht]; simp)
    | resampleIdle ht => exact hone hl (by rw [ht]; simp) (by rw [ht]; simp)
    | write ht => exact hone hl (by rw [ht]; simp) (by rw [ht]; simp)
    | writeOff ht => exact hone hl (by rw [ht]; simp) (by rw [ht]; simp)
    | merge ht =>
      obtain ⟨a, b, rfl⟩ := List.length_eq_two.mp hl
      obtain ⟨c, d, rfl⟩ := List.length_eq_two.mp (hlen.trans hl)
      have : modes = [m &&& modeAll, m &&& modeAll] := by
        obtain ⟨id, st, attrs⟩ := n
        cases attrs <;> simp only [NodeAttrs.nodeType, reduceCtorEq] at ht
        exact (Except.ok.inj hv).symm
      subst this
      simp only [List.zip_cons_cons, List.zip_nil_right, List.mem_cons, List.not_mem_nil, or_false,
        Prod.mk.injEq] at hz
      rcases hz with hz | hz <;> (rw [hz.2]; exact hall)
    | viewer ht he ho hc =>
      obtain ⟨a, rfl⟩ := List.length_eq_one_iff.mp hl
      obtain ⟨b, rfl⟩ := List.length_eq_one_iff.mp (hlen.trans hl)
      have : modes = [m &&& (modeAll - modeColorSpace - modeColor)] := by
        obtain ⟨id, st, attrs⟩ := n
        cases attrs <;> simp only [NodeAttrs.nodeType, reduceCtorEq] at ht
        rename_i v
        simp only [attr_eval] at he ho hc
        have := hv
        simp only [nodeSem, Node.validate, ViewerAttrs.validate, he, ho, hc] at this
        exact (Except.ok.inj this).symm
      subst this
      simp only [List.zip_cons_cons, List.zip_nil_right, List.mem_singleton, Prod.mk.injEq] at hz
      rw [hz.2, Nat.and_assoc]
      exact hmp
    | viewerSpace ht he ho hc =>
      obtain ⟨a, rfl⟩ := List.length_eq_one_iff.mp hl
      obtain ⟨b, rfl⟩ := List.length_eq_one_iff.mp (hlen.trans hl)
      have : modes = [m &&& (modeAll - modeColorSpace)] := by
        obtain ⟨id, st, attrs⟩ := n
        cases attrs <;> simp only [NodeAttrs.nodeType, reduceCtorEq] at ht
        rename_i v
        simp only [attr_eval] at he ho hc
        have := hv
        simp only [nodeSem, Node.validate, ViewerAttrs.validate, he, ho, hc] at this
        exact (Except.ok.inj this).symm
      subst this
      simp only [List.zip_cons_cons, List.zip_nil_right, List.mem_singleton, Prod.mk.injEq] at hz
      rw [hz.2, Nat.and_assoc]
      exact hmp
    | viewerOff ht he ho =>
      obtain ⟨a, rfl⟩ := List.length_eq_one_iff.mp hl
      obtain ⟨b, rfl⟩ := List.length_eq_one_iff.mp (hlen.trans hl)
      have : modes = [m &&& modeAll] := by
        obtain ⟨id, st, attrs⟩ := n
        cases attrs <;> simp only [NodeAttrs.nodeType, reduceCtorEq] at ht
        rename_i v
        simp only [attr_eval] at he ho
        have := hv
        simp only [nodeSem, Node.validate, ViewerAttrs.validate, he, ho] at this
        exact (Except.ok.inj this).symm
      subst this
      simp only [List.zip_cons_cons, List.zip_nil_right, List.mem_singleton, Prod.mk.injEq] at hz
      rw [hz.2]
      exact hall

omit [FloatBits F] in
theorem makes_viewer {lib : NodeLib F H} {frame : F} {n : Node F} {Ps : List (Layer F)}
    {Q : Layer F} (h : Makes lib frame n Ps Q) (hn : n.attrs.nodeType = .viewer) :
    n.getI32 "enable" = 1 ∧ (((n.getI32 "bake_option" = 2 ∨
      n.getI32 "bake_option" = 1) ∧ n.getI32 "crop_to_format" = 0) ∨
      n.getI32 "bake_option" = 0) := by
  cases h with
  | viewer _ he ho hc => exact ⟨he, .inl ⟨.inl ho, hc⟩⟩
  | viewerSpace _ he ho hc => exact ⟨he, .inl ⟨.inr ho, hc⟩⟩
  | resample ht => rw [ht] at hn; cases hn
  | resampleIdle ht => rw [ht] at hn; cases hn
  | viewerOff _ he ho => exact ⟨he, .inr ho⟩
  | null ht => rw [ht] at hn; cases hn
  | read ht => rw [ht] at hn; cases hn
  | grade ht => rw [ht] at hn; cases hn
  | gradeOff ht => rw [ht] at hn; cases hn
  | transform ht => rw [ht] at hn; cases hn
  | lens ht => rw [ht] at hn; cases hn
  | off ht => rw [hn] at ht; simp at ht
  | crop ht => rw [ht] at hn; cases hn
  | write ht => rw [ht] at hn; cases hn
  | writeOff ht => rw [ht] at hn; cases hn
  | merge ht => rw [ht] at hn; cases hn

/-- Nodes that make pictures can be asked what they need of their inputs. -/
theorem makes_validates (p : Profile) {lib : NodeLib F H} {frame : F} {n : Node F}
    {Ps : List (Layer F)} {Q : Layer F} (h : Makes lib frame n Ps Q) :
    ValidatesAt (nodeSem p lib) n := by
  intro mode hash ins
  have hf : (validateFirst mode ins).length = ins.length := by cases ins <;> simp [validateFirst]
  have hm : (validateMerge mode ins).length = ins.length := by
    rcases ins with _ | ⟨a, _ | ⟨b, l⟩⟩ <;> simp [validateMerge]
  have hv := makes_viewer h
  obtain ⟨id, st, attrs⟩ := n
  cases attrs
  case viewer a =>
    obtain ⟨he, ho⟩ := hv rfl
    simp only [attr_eval] at he ho
    cases ins with
    | nil => exact ⟨[], rfl, rfl⟩
    | cons b l =>
      rcases ho with ⟨ho | ho, hc⟩ | ho
      · refine ⟨_, by simp only [nodeSem, Node.validate, ViewerAttrs.validate, he, ho, hc]; rfl,
          by simp⟩
      · refine ⟨_, by simp only [nodeSem, Node.validate, ViewerAttrs.validate, he, ho, hc]; rfl,
          by simp⟩
      · refine ⟨_, by simp only [nodeSem, Node.validate, ViewerAttrs.validate, he, ho]; rfl,
          by simp⟩
  case mergeImage a => exact ⟨_, rfl, hm⟩
  all_goals exact ⟨_, rfl, hf⟩

/-- Nodes that differ in nothing but the stored status. -/
def SameNode (n n' : Node F) : Prop := n.id = n'.id ∧ n.attrs = n'.attrs

theorem sameNode_asks (p : Profile) (lib : NodeLib F H) : AsksAlike (nodeSem p lib) SameNode := by
  intro n n' mode h ns ns' hR hF
  obtain ⟨id, st, attrs⟩ := n
  obtain ⟨id', st', attrs'⟩ := n'
  obtain ⟨rfl, rfl⟩ := hR
  have hfirst : validateFirst mode ns = validateFirst mode ns' := by
    cases hF with
    | nil => rfl
    | cons _ ht =>
      have := ht.length_eq
      simp [validateFirst, List.map_const', this]
  have hmerge : validateMerge mode ns = validateMerge mode ns' := by
    cases hF with
    | nil => rfl
    | cons _ ht =>
      cases ht with
      | nil => rfl
      | cons _ ht =>
        have := ht.length_eq
        simp [validateMerge, List.map_const', this]
  cases attrs
  case viewer a =>
    show a.validate mode ns = a.validate mode ns'
    cases hF with
    | nil => rfl
    | cons _ ht =>
      have := ht.length_eq
      simp only [ViewerAttrs.validate, List.map_const', this]
  case mergeImage a => exact congrArg Except.ok hmerge
  all_goals exact congrArg Except.ok hfirst

omit [FloatBits F] in
theorem makes_same {lib : NodeLib F H} {frame : F} {n n' : Node F} (hR : SameNode n n')
    {Ps : List (Layer F)} {Q : Layer F} (h : Makes lib frame n Ps Q) :
    Makes lib frame n' Ps Q := by
  obtain ⟨id, st, attrs⟩ := n
  obtain ⟨id', st', attrs'⟩ := n'
  obtain ⟨rfl, rfl⟩ := hR
  cases h with
  | viewer h1 h2 h3 h4 h5 h6 h7 => exact .viewer h1 h2 h3 h4 h5 h6 h7
  | viewerSpace h1 h2 h3 h4 h5 h6 h7 => exact .viewerSpace h1 h2 h3 h4 h5 h6 h7
  | viewerOff h1 h2 h3 => exact .viewerOff h1 h2 h3
  | resample h1 h2 h3 h4 h5 h6 h7 h8 h9 h10 => exact .resample h1 h2 h3 h4 h5 h6 h7 h8 h9 h10
  | resampleIdle h1 h2 h3 => exact .resampleIdle h1 h2 h3
  | null ht => exact .null ht
  | read h1 h2 h3 => exact .read h1 h2 h3
  | grade h1 h2 h3 h4 => exact .grade h1 h2 ⟨h3.1, h3.2.1, h3.2.2⟩ h4
  | gradeOff h1 h2 => exact .gradeOff h1 h2
  | transform h1 h2 h3 h4 => exact .transform h1 h2 h3 ⟨h4.1, h4.2⟩
  | lens h1 h2 h3 h4 h5 h6 => exact .lens h1 h2 h3 ⟨h4.1, h4.2⟩ h5 h6
  | off h1 h2 => exact .off h1 h2
  | crop h1 h2 h3 h4 h5 h6 h7 => exact .crop h1 h2 h3 h4 h5 h6 h7
  | write h1 h2 h3 h5 h4 => exact .write h1 h2 h3 h5 ⟨h4.1, h4.2, h4.3, h4.4, h4.5⟩
  | writeOff h1 h2 h3 => exact .writeOff h1 h2 h3
  | merge h1 h2 h3 h4 h5 h6 h7 h8 h9 h10 => exact .merge h1 h2 h3 h4 h5 h6 h7 h8 h9 h10

theorem picture_steps {p : Profile} {lib : NodeLib F H} {srt : EdgeSort}
    {g : Graph (Node F) (Stream F H)} (hg : Sound g) {start : Nat}
    (hs : g.graph.contains start = true) {frame : F} {pic : Nat → Layer F}
    (hp : Pictures lib srt g start frame pic) :
    Steps (nodeSem p lib) srt g start frame SameNode IsOff
      (fun i s => ShowsLayer lib.bake.color s (pic i)) := by
  intro i m n0 n vals prev w hreq hn0 hR hF hw
  obtain ⟨hu, hm⟩ := pixels_requested hg hs hp hreq
  have hmk := makes_same hR (hp i n0 _ hu hn0 (hg.direct srt (hg.upstream_live hs hu)))
  obtain ⟨out, w', e, hw', hQ⟩ := C87_node p lib n frame m prev w hm hw hmk
    (inputs := vals) (by
      rw [List.forall₂_map_right_iff]
      exact List.Forall₂.flip hF)
  exact ⟨{ n with status := .valid }, .valid, out, w',
    by simp only [nodeSem, e, bind, Except.bind], by simp [Fails], hR, hQ, hw'⟩

/-- What executing a graph of pictures leaves. -/
theorem picture_execution (p : Profile) (lib : NodeLib F H) (srt : EdgeSort)
    {g : Graph (Node F) (Stream F H)} {r : Bool} (h : Reach (nodeSem p lib) srt r g)
    {id start : Nat} (hid : At g id start) (hs : g.graph.contains start = true)
    {frames : List F} {frame : F} (hlast : frames.getLast? = some frame)
    {pic : F → Nat → Layer F}
    (hp : ∀ fr ∈ frames, Pictures lib srt g start fr (pic fr)) {order d : List Nat}
    (ho : g.graph.findAllUpstream srt start = .ok order)
    (hi : SInv g.graph start order ⟨[], d⟩) (ht : Topo g.graph order) {fuel : Nat}
    (hf : (order.length + 1) ^ order.length < fuel) {w : World F H} (hw : IsOff w) :
    ∃ g' w', g.execute (nodeSem p lib) srt fuel id frames w = .ok (.success, g', w') ∧ IsOff w' ∧
      LastCall (nodeSem p lib) srt g frame SameNode IsOff
        (fun i s => ShowsLayer lib.bake.color s (pic frame i)) start modeAll g'.output w' := by
  have hg : Sound g := h.inv.sound
  have hfr : frame ∈ frames := List.mem_of_getLast? hlast
  obtain ⟨g1, w1, e, -, hw1, hl⟩ := frameLoop_rule hg hs (sameNode_asks p lib)
    (fun i hu n0 n hn0 hR => makes_validates p
      (makes_same hR (hp frame hfr i n0 _ hu hn0 (hg.direct srt (hg.upstream_live hs hu)))))
    (Sh := fun fr i s => ShowsLayer lib.bake.color s (pic fr i)) hi ht fuel hf frames
    (fun fr hfr => picture_steps hg hs (hp fr hfr)) g w
    ⟨rfl, fun k n hn => ⟨n, hn, rfl, rfl⟩⟩ hw
  refine ⟨{ g1 with state := .clean, status := .success }, w1, ?_, hw1, hl frame hlast⟩
  unfold Graph.execute
  rw [find_at.mpr hid]
  dsimp only
  simp only [ho, e, bind, Except.bind]

/-- C87: executing a node of a graph arranged in levels, with caching off, succeeds, and the output
shows the picture that the node should make: every upstream node does to the pictures of its inputs
what C86 says, for the last of the frames. -/
theorem C87_graph_partial (p : Profile) (lib : NodeLib F H) (srt : EdgeSort)
    {g : Graph (Node F) (Stream F H)} {r : Bool} (h : Reach (nodeSem p lib) srt r g)
    {id start : Nat} (hid : At g id start) (hs : g.graph.contains start = true)
    (hl : Leveled g.graph start) {frames : List F} {frame : F}
    (hlast : frames.getLast? = some frame) {pic : F → Nat → Layer F}
    (hp : ∀ fr ∈ frames, Pictures lib srt g start fr (pic fr)) {w : World F H} (hw : IsOff w) :
    ∃ enough, ∀ fuel, enough ≤ fuel → ∃ g' w',
      g.execute (nodeSem p lib) srt fuel id frames w = .ok (.success, g', w') ∧ IsOff w' ∧
      ShowsLayer lib.bake.color g'.output (pic frame start) := by
  obtain ⟨L, hL⟩ := hl
  obtain ⟨order, d, e, hi, ht⟩ := leveled_topo srt h.inv.ends (contains_lt_bound hs) L hL
  refine ⟨(order.length + 1) ^ order.length + 1, fun fuel hf => ?_⟩
  obtain ⟨g', w', e1, e2, n0, n, vals, prev, c, n', st, -, -, -, -, -, hsh⟩ :=
    picture_execution p lib srt h hid hs hlast hp e hi ht (fuel := fuel) (by omega) hw
  exact ⟨g', w', e1, e2, hsh⟩

/-- C87 for all graphs: an execution that returns has succeeded, and the output shows the picture. -/
theorem C87_graph_returns_partial (p : Profile) (lib : NodeLib F H) (srt : EdgeSort)
    {g : Graph (Node F) (Stream F H)} {r : Bool} (h : Reach (nodeSem p lib) srt r g)
    {id start : Nat} (hid : At g id start) (hs : g.graph.contains start = true)
    {frames : List F} {frame : F} (hlast : frames.getLast? = some frame)
    {pic : F → Nat → Layer F}
    (hp : ∀ fr ∈ frames, Pictures lib srt g start fr (pic fr)) {w w' : World F H} (hw : IsOff w)
    {fuel : Nat} {st : ExecuteStatus} {g' : Graph (Node F) (Stream F H)}
    (hx : g.execute (nodeSem p lib) srt fuel id frames w = .ok (st, g', w')) :
    st = .success ∧ IsOff w' ∧ ShowsLayer lib.bake.color g'.output (pic frame start) := by
  obtain ⟨order, d, e, hi⟩ := order_of_reach h hs
  have ht := execute_topo h.inv.sound hid hs (fun e => by rw [e] at hlast; cases hlast) hx e hi
  obtain ⟨g1, w1, e1, e2, n0, n, vals, prev, c, n', st', -, -, -, -, -, hsh⟩ :=
    picture_execution p lib srt h hid hs hlast hp e hi ht
      (fuel := max fuel ((order.length + 1) ^ order.length + 1)) (by omega) hw
  have := execute_more (Nat.le_max_left fuel ((order.length + 1) ^ order.length + 1)) hx
  rw [this] at e1
  cases e1
  exact ⟨rfl, e2, hsh⟩

/-- C87, files: executing a write node that is switched on hands the picture to OpenImageIO as the
last job. -/
theorem C87_file_partial (p : Profile) (lib : NodeLib F H) (srt : EdgeSort)
    {g : Graph (Node F) (Stream F H)} {r : Bool} (h : Reach (nodeSem p lib) srt r g)
    {id start : Nat} (hid : At g id start) (hs : g.graph.contains start = true)
    {frames : List F} {frame : F} (hlast : frames.getLast? = some frame)
    {pic : F → Nat → Layer F}
    (hp : ∀ fr ∈ frames, Pictures lib srt g start fr (pic fr)) {w w' : World F H} (hw : IsOff w)
    {n : Node F} (hn : g.nodes[start]? = some n) (hnt : n.attrs.nodeType = .writeImage)
    (he : n.getI32 "enable" ≠ 0) (hex : n.getI32 "execute" ≠ 0)
    {fuel : Nat} {st : ExecuteStatus} {g' : Graph (Node F) (Stream F H)}
    (hx : g.execute (nodeSem p lib) srt fuel id frames w = .ok (st, g', w')) :
    ∃ before job, w'.writes = before ++ [job] ∧
      WrittenLayer lib frame n (pic frame start) job := by
  obtain ⟨order, d, e, hi⟩ := order_of_reach h hs
  have hg : Sound g := h.inv.sound
  have ht := execute_topo h.inv.sound hid hs (fun e => by rw [e] at hlast; cases hlast) hx e hi
  obtain ⟨g1, w1, e1, e2, n0, n1, vals, prev, c, n', st', hn0, hR, hF, hc, hcall, hsh⟩ :=
    picture_execution p lib srt h hid hs hlast hp e hi ht
      (fuel := max fuel ((order.length + 1) ^ order.length + 1)) (by omega) hw
  have := execute_more (Nat.le_max_left fuel ((order.length + 1) ^ order.length + 1)) hx
  rw [this] at e1
  cases e1
  rw [hn] at hn0
  cases hn0
  have hmk := hp frame (List.mem_of_getLast? hlast) start n _ .refl hn (hg.direct srt hs)
  generalize hps : (parents srt g.graph start).map (pic frame) = Ps at hmk
  generalize hQ : pic frame start = Q at hmk
  have hF' : List.Forall₂ (ShowsLayer lib.bake.color) vals Ps := by
    rw [← hps, List.forall₂_map_right_iff]
    exact List.Forall₂.flip hF
  have hW : ∃ s R, vals = [s] ∧ ShowsLayer lib.bake.color s Q ∧ Rests lib Q R ∧
      Writable lib frame n R := by
    cases hmk with
    | write _ _ _ hR hW =>
      obtain ⟨s, e, hs⟩ := forall₂_one hF'
      exact ⟨s, _, e, hs, hR, hW⟩
    | writeOff _ _ h => exact absurd h hex
    | off ht => rw [hnt] at ht; simp at ht
    | viewer ht | viewerOff ht | null ht | read ht | grade ht | gradeOff ht | crop ht | merge ht
    | transform ht | lens ht | viewerSpace ht | resampleIdle ht | resample ht =>
      rw [hnt] at ht; cases ht
  obtain ⟨s, R, rfl, hs, hR, hW⟩ := hW
  obtain ⟨i0, s0, attrs⟩ := n
  obtain ⟨i1, s1, attrs1⟩ := n1
  obtain ⟨rfl, rfl⟩ := hR
  obtain ⟨job, block, ej, h1, h2, h3, h4, h5, h6, h7, h8, h9, h10, h11, h12, h13⟩ :=
    C86_write p lib ⟨i0, s1, attrs⟩ frame modeAll s [] prev c hnt he hex hW.crop hW.writer
      (rests_appears hs hR) hW.width hW.height hW.cut
  simp only [nodeSem, ej, bind, Except.bind, Except.ok.injEq, Prod.mk.injEq] at hcall
  obtain ⟨-, -, -, hw'⟩ := hcall
  refine ⟨c.writes, job, by rw [← hw'], _, _, R, hR, ⟨h1, h2, ⟨block, h3, h4, h5⟩, h6, h7, h8, h9, h10,
    h11, h12, h13⟩⟩

end

/-! ### Examples -/

attribute [local instance] finFloat finBits finHalf finPi

/-- One file: a white pixel in linear light. -/
def linearFiles : NodeLib (Fin 256) (Fin 256) :=
  { twoFiles with
    oiio := { twoFiles.oiio with
      header := fun _ => some { plainFile 1 with colorSpace := colorSpaceLinear } } }

/-- Reading, cropping to a wider window, writing. -/
def readCropWrite : Graph (Node (Fin 256)) (Stream (Fin 256) (Fin 256)) :=
  ⟨[⟨1, .uninitialized, .readImage readAttrs⟩,
    ⟨2, .uninitialized, .cropImage { pixelCrop with windowMinX := -1, reformat := 1 }⟩,
    ⟨3, .uninitialized, writeNode.attrs⟩], [1, 2, 3],
    ⟨[some 1, some 2, some 3], [], [⟨1, 2, 0⟩, ⟨0, 1, 0⟩]⟩, .new, .dirty, .uninitialized⟩

theorem readCropWrite_reach : Reach (nodeSem .debug linearFiles) insSort false readCropWrite :=
  .connect 2 3 0 (.connect 1 2 0 (.add ⟨3, .uninitialized, writeNode.attrs⟩
    (.add ⟨2, .uninitialized, .cropImage { pixelCrop with windowMinX := -1, reformat := 1 }⟩
    (.add ⟨1, .uninitialized, .readImage readAttrs⟩ (.new .new) rfl) rfl) rfl) rfl) rfl

/-- The white pixel, and the white pixel with a black one on its left. -/
def whitePictures (i : Nat) : Picture (Fin 256) :=
  if i = 0 then ⟨⟨0, 0, 1, 1⟩, ⟨0, 0, 1, 1⟩, 3, colorSpaceLinear, fun _ _ => [1, 1, 1]⟩
  else ⟨⟨-1, 0, 1, 1⟩, ⟨-1, 0, 1, 1⟩, 3, colorSpaceLinear,
    fun x _ => if x = 0 then [1, 1, 1] else [0, 0, 0]⟩

/-- With no deformers. -/
def whiteLayers (i : Nat) : Layer (Fin 256) := ⟨whitePictures i, []⟩

theorem linear_file (path : Bytes) : IsFile linearFiles path (whitePictures 0) := by
  refine ⟨_, .f32, 3, [1, 1, 1], rfl, rfl, by constructor <;> decide, rfl, .inl rfl, rfl,
    rfl, rfl, rfl, rfl, ⟨[1, 1, 1], rfl, ?_, ?_⟩, rfl, ?_⟩
  · intro _; rfl
  · intro _; rfl
  · intro x y h
    obtain ⟨rfl, rfl⟩ := has_one h
    exact ⟨[1, 1, 1], by decide +kernel, .nil _⟩

theorem whites_cropped : IsCropped ⟨-1, 0, 1, 1⟩ true (whitePictures 0) (whitePictures 1) := by
  refine ⟨rfl, rfl, rfl, rfl, ?_⟩
  rintro x y ⟨h1, h2, h3, h4⟩
  have hy : y = 0 := by change (0 : Int) ≤ y at h3; change y < 1 at h4; omega
  have hx : x = -1 ∨ x = 0 := by change (-1 : Int) ≤ x at h1; change x < 1 at h2; omega
  subst hy
  rcases hx with rfl | rfl
  · exact ⟨[0, 0, 0], by decide +kernel, .nil _⟩
  · exact ⟨[1, 1, 1], by decide +kernel, .nil _⟩

theorem whitePictures_ok (frame : Fin 256) :
    Pictures linearFiles insSort readCropWrite 2 frame whiteLayers := by
  intro i n ins _ hn hins
  rcases i with _ | _ | _ | i
  · cases hn
    cases hins
    exact .read rfl (by decide) (linear_file _)
  · cases hn
    cases hins
    exact .crop rfl rfl (by decide) (rests_refl _ _) rfl (show ValidSize ⟨2, 1, 3⟩ by unfold ValidSize; decide)
      whites_cropped
  · cases hn
    cases hins
    exact .write rfl (by decide) (by decide) (rests_refl _ _) ⟨.inl rfl, rfl, by decide, by decide,
      fun h => absurd h (by rintro (h | ⟨h, -⟩) <;> exact absurd h (by decide))⟩
  · cases hn

theorem readCropWrite_at : At readCropWrite 3 2 := by
  refine ⟨rfl, ?_⟩
  intro j hj
  rcases j with _ | _ | j <;> first | decide | omega

theorem readCropWrite_leveled : Leveled readCropWrite.graph 2 := by
  refine ⟨fun i => 2 - i, ?_⟩
  rintro u v _ ⟨e, he, rfl, rfl⟩ _
  change e ∈ ([⟨1, 2, 0⟩, ⟨0, 1, 0⟩] : List Edge) at he
  simp only [List.mem_cons, List.not_mem_nil, or_false] at he
  rcases he with rfl | rfl <;> rfl

example : ∃ enough, ∀ fuel, enough ≤ fuel → ∃ g' w',
    readCropWrite.execute (nodeSem .debug linearFiles) insSort fuel 3 [1, 2] noCache =
      .ok (.success, g', w') ∧ g'.output.dataWindow = ⟨-1, 0, 1, 1⟩ := by
  obtain ⟨k, h⟩ := C87_graph_partial .debug linearFiles insSort readCropWrite_reach readCropWrite_at rfl
    readCropWrite_leveled (frames := [1, 2]) (frame := 2) rfl (pic := fun _ => whiteLayers)
    (fun fr _ => whitePictures_ok fr) noCache_off
  refine ⟨k, fun fuel hf => ?_⟩
  obtain ⟨g', w', e, -, hs⟩ := h fuel hf
  exact ⟨g', w', e, hs.1.data⟩

example : ∃ g' w', readCropWrite.execute (nodeSem .debug linearFiles) insSort 20 3 [1] noCache =
      .ok (.success, g', w') ∧ Shows linearFiles.bake.color g'.output (whitePictures 2) ∧
    ∃ before job, w'.writes = before ++ [job] ∧
      WrittenLayer linearFiles 1 ⟨3, .uninitialized, writeNode.attrs⟩ (whiteLayers 2) job := by
  have e : ∃ g' w', readCropWrite.execute (nodeSem .debug linearFiles) insSort 20 3 [1] noCache =
      .ok (.success, g', w') := ⟨_, _, rfl⟩
  obtain ⟨g', w', e⟩ := e
  obtain ⟨-, -, h⟩ := C87_graph_returns_partial .debug linearFiles insSort readCropWrite_reach
    readCropWrite_at rfl (frames := [1]) (frame := 1) rfl (pic := fun _ => whiteLayers)
    (fun fr _ => whitePictures_ok fr) noCache_off e
  exact ⟨g', w', e, layer_shows h, C87_file_partial .debug linearFiles insSort readCropWrite_reach
    readCropWrite_at rfl (frames := [1]) (frame := 1) rfl (pic := fun _ => whiteLayers)
    (fun fr _ => whitePictures_ok fr) noCache_off rfl rfl (by decide) (by decide) e⟩

/-- The same with a lens that moves everything one pixel to the right. -/
def linearLens : NodeLib (Fin 256) (Fin 256) :=
  { linearFiles with bake := rightLens.bake }

/-- Reading, a lens, writing. -/
def readLensWrite : Graph (Node (Fin 256)) (Stream (Fin 256) (Fin 256)) :=
  ⟨[⟨1, .uninitialized, .readImage readAttrs⟩, ⟨2, .uninitialized, (lensNode 0).attrs⟩,
    ⟨3, .uninitialized, writeNode.attrs⟩], [1, 2, 3],
    ⟨[some 1, some 2, some 3], [], [⟨1, 2, 0⟩, ⟨0, 1, 0⟩]⟩, .new, .dirty, .uninitialized⟩

theorem readLensWrite_reach : Reach (nodeSem .debug linearLens) insSort false readLensWrite :=
  .connect 2 3 0 (.connect 1 2 0 (.add ⟨3, .uninitialized, writeNode.attrs⟩
    (.add ⟨2, .uninitialized, (lensNode 0).attrs⟩
    (.add ⟨1, .uninitialized, .readImage readAttrs⟩ (.new .new) rfl) rfl) rfl) rfl) rfl

/-- The white pixel, with the lens waiting behind the second node. -/
def lensLayers (i : Nat) : Layer (Fin 256) :=
  ⟨whitePictures 0, if i = 0 then [] else [.tde4 Tde4Deformer.new]⟩

theorem lens_rests :
    Rests linearLens (lensLayers 2) { whitePictures 0 with data := ⟨1, 0, 2, 1⟩ } := by
  refine ⟨rfl, rfl, rfl, fun h => absurd rfl (h _ List.mem_cons_self), fun _ => ⟨.inl rfl, ?_, ?_, ?_,
    ?_, ⟨_, .on rfl rfl .nil, ?_⟩, ?_⟩⟩
  · intro d hd _
    cases List.mem_singleton.mp hd
    exact .inl rfl
  · constructor <;> decide
  · constructor <;> decide
  · unfold ValidSize; decide
  · decide +kernel
  · intro x y _
    exact ⟨_, .on rfl rfl .nil, rfl⟩

theorem lensLayers_ok (frame : Fin 256) :
    Pictures linearLens insSort readLensWrite 2 frame lensLayers := by
  intro i n ins _ hn hins
  rcases i with _ | _ | _ | i
  · cases hn
    cases hins
    refine .read rfl (by decide) ?_
    refine ⟨_, .f32, 3, [1, 1, 1], rfl, rfl, by constructor <;> decide, rfl, .inl rfl, rfl,
      rfl, rfl, rfl, rfl, ⟨[1, 1, 1], rfl, fun _ => rfl, fun _ => rfl⟩, rfl, ?_⟩
    intro x y h
    obtain ⟨rfl, rfl⟩ := has_one h
    exact ⟨[1, 1, 1], by decide +kernel, .nil _⟩
  · cases hn
    cases hins
    refine .lens (ds := []) rfl rfl rfl ⟨?_, ?_⟩ ⟨rfl, rfl, rfl, rfl⟩ rfl
    · simp only [AttrSpec.names, List.forall_mem_cons, NodeAttrs.nodeType, lensNode, nodeOf]
      decide
    · simp only [AttrSpec.names, List.forall_mem_cons, NodeAttrs.nodeType, lensNode, nodeOf]
      decide
  · cases hn
    cases hins
    exact .write rfl (by decide) (by decide) lens_rests ⟨.inl rfl, rfl, by decide, by decide,
      fun h => absurd h (by rintro (h | ⟨h, -⟩) <;> exact absurd h (by decide))⟩
  · cases hn

theorem readLensWrite_at : At readLensWrite 3 2 := by
  refine ⟨rfl, ?_⟩
  intro j hj
  rcases j with _ | _ | j <;> first | decide | omega

/-- The lens is carried out on the picture that is written: the file is one pixel to the right. -/
example : ∃ g' w' before job, readLensWrite.execute (nodeSem .debug linearLens) insSort 20 3 [1] noCache =
      .ok (.success, g', w') ∧ ShowsLayer linearLens.bake.color g'.output (lensLayers 2) ∧
    w'.writes = before ++ [job] ∧ job.spec.x = 1 := by
  have e : ∃ g' w', readLensWrite.execute (nodeSem .debug linearLens) insSort 20 3 [1] noCache =
      .ok (.success, g', w') := ⟨_, _, rfl⟩
  obtain ⟨g', w', e⟩ := e
  obtain ⟨-, -, h⟩ := C87_graph_returns_partial .debug linearLens insSort readLensWrite_reach
    readLensWrite_at rfl (frames := [1]) (frame := 1) rfl (pic := fun _ => lensLayers)
    (fun fr _ => lensLayers_ok fr) noCache_off e
  obtain ⟨before, job, h1, alpha, own, R, hR, h2⟩ := C87_file_partial .debug linearLens insSort
    readLensWrite_reach readLensWrite_at rfl (frames := [1]) (frame := 1) rfl
    (pic := fun _ => lensLayers) (fun fr _ => lensLayers_ok fr) noCache_off rfl rfl (by decide)
    (by decide) e
  refine ⟨g', w', before, job, e, h, h1, ?_⟩
  obtain ⟨block, -, h3, -⟩ := h2.pixels
  obtain ⟨-, h3, -⟩ := h3 (by rintro (h | ⟨h, -⟩) <;> exact absurd h (by decide))
  obtain ⟨-, -, -, -, -, ⟨box, hb, hd⟩, -⟩ := hR.moved ⟨_, List.mem_cons_self, rfl⟩
  cases hb with
  | off h _ => exact absurd rfl h
  | on _ e hb =>
    cases hb
    cases e
    rw [h3, hd]
    decide +kernel

/-- Reading, and a viewer that bakes everything. -/
def readView : Graph (Node (Fin 256)) (Stream (Fin 256) (Fin 256)) :=
  ⟨[⟨1, .uninitialized, .readImage readAttrs⟩, ⟨2, .uninitialized, .viewer fullViewer⟩], [1, 2],
    ⟨[some 1, some 2], [], [⟨0, 1, 0⟩]⟩, .new, .dirty, .uninitialized⟩

/-- C87 fails for a viewer that bakes everything: it does not ask the reading node for pixels, which
then gives what was last computed, the colour bars of a new graph, and the execution succeeds. -/
theorem C87_counterexample_viewer : ∃ g' w',
    Reach (nodeSem .debug linearFiles) insSort false readView ∧
    readView.execute (nodeSem .debug linearFiles) insSort 20 2 [1] noCache =
      .ok (.success, g', w') ∧
    IsFile linearFiles [97] (whitePictures 0) ∧
    ∀ Q, IsBaked (Fin 256) .f32 (whitePictures 0) Q → ¬ Shows linearFiles.bake.color g'.output Q := by
  refine ⟨_, _, .connect 1 2 0 (.add ⟨2, .uninitialized, .viewer fullViewer⟩
    (.add ⟨1, .uninitialized, .readImage readAttrs⟩ (.new .new) rfl) rfl) rfl, rfl,
    linear_file _, ?_⟩
  intro Q hQ h
  exact absurd (h.data.trans hQ.data) (by decide +kernel)

/-- One file with alpha, and resampling that picks pixels. -/
def alphaFiles : NodeLib (Fin 256) (Fin 256) :=
  { pickLib with
    pathKind := fun _ => .file
    oiio := { pickLib.oiio with
      header := fun _ => some { plainFile 1 with colorSpace := colorSpaceLinear, numChannels := 4 } } }

/-- Reading, and doubling the size. -/
def readDouble : Graph (Node (Fin 256)) (Stream (Fin 256) (Fin 256)) :=
  ⟨[⟨1, .uninitialized, .readImage readAttrs⟩, ⟨2, .uninitialized, doubleNode.attrs⟩], [1, 2],
    ⟨[some 1, some 2], [], [⟨0, 1, 0⟩]⟩, .new, .dirty, .uninitialized⟩

theorem readDouble_reach : Reach (nodeSem .debug alphaFiles) insSort false readDouble :=
  .connect 1 2 0 (.add ⟨2, .uninitialized, doubleNode.attrs⟩
    (.add ⟨1, .uninitialized, .readImage readAttrs⟩ (.new .new) rfl) rfl) rfl

/-- One white pixel, and four. -/
def doubleLayers (i : Nat) : Layer (Fin 256) :=
  ⟨if i = 0 then ⟨⟨0, 0, 1, 1⟩, ⟨0, 0, 1, 1⟩, 4, colorSpaceLinear, fun _ _ => [1, 1, 1, 1]⟩
    else ⟨⟨0, 0, 2, 2⟩, ⟨0, 0, 2, 2⟩, 4, colorSpaceLinear, fun _ _ => [1, 1, 1, 1]⟩, []⟩

theorem alpha_file (path : Bytes) : IsFile alphaFiles path (doubleLayers 0).still := by
  refine ⟨_, .f32, 4, [1, 1, 1, 1], rfl, rfl, by constructor <;> decide, rfl, .inr rfl, rfl,
    rfl, rfl, rfl, rfl, ⟨[1, 1, 1, 1], rfl, ?_, ?_⟩, rfl, ?_⟩
  · intro _; rfl
  · intro _; rfl
  · intro x y h
    obtain ⟨rfl, rfl⟩ := has_one h
    exact ⟨[1, 1, 1, 1], by decide +kernel, .nil _⟩

theorem scaledTo_one_two : OiioSpec.ScaledTo 1 1 2 := by
  constructor <;> (try rw [scaled_one]) <;> norm_num

theorem doubleLayers_ok (frame : Fin 256) :
    Pictures alphaFiles insSort readDouble 1 frame doubleLayers := by
  intro i n ins _ hn hins
  rcases i with _ | _ | i
  · cases hn
    cases hins
    exact .read rfl (by decide) (alpha_file _)
  · cases hn
    cases hins
    refine .resample rfl rfl (by decide) rfl (picks_all fun _ _ _ _ _ _ => rfl) rfl rfl ?_ ?_
      ⟨⟨rfl, rfl⟩, scaledTo_one_two, scaledTo_one_two, rfl, rfl, rfl, fun _ _ _ => rfl⟩
    · show OiioSpec.scaled 1 1 < _; rw [scaled_one]; norm_num
    · show OiioSpec.scaled 1 1 < _; rw [scaled_one]; norm_num
  · cases hn

theorem readDouble_at : At readDouble 2 1 := by
  refine ⟨rfl, ?_⟩
  intro j hj
  rcases j with _ | j <;> first | decide | omega

theorem readDouble_leveled : Leveled readDouble.graph 1 := by
  refine ⟨fun i => 1 - i, ?_⟩
  rintro u v _ ⟨e, he, rfl, rfl⟩ _
  change e ∈ ([⟨0, 1, 0⟩] : List Edge) at he
  cases List.mem_singleton.mp he
  rfl

example : ∃ enough, ∀ fuel, enough ≤ fuel → ∃ g' w',
    readDouble.execute (nodeSem .debug alphaFiles) insSort fuel 2 [1] noCache =
      .ok (.success, g', w') ∧ Shows alphaFiles.bake.color g'.output (doubleLayers 1).still := by
  obtain ⟨k, h⟩ := C87_graph_partial .debug alphaFiles insSort readDouble_reach readDouble_at rfl
    readDouble_leveled (frames := [1]) (frame := 1) rfl (pic := fun _ => doubleLayers)
    (fun fr _ => doubleLayers_ok fr) noCache_off
  refine ⟨k, fun fuel hf => ?_⟩
  obtain ⟨g', w', e, -, hs⟩ := h fuel hf
  exact ⟨g', w', e, layer_shows hs⟩

end OCG.Props
