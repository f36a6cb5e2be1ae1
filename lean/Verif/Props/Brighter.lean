import Verif.Spec.Brighter
import Verif.Props.Light
import Verif.Props.GradeOrder
import Verif.Props.Levels
/-
C145: brighter sources never make anything darker.
-/

namespace OCG.Props

open GraphSpec LightSpec PictureSpec ImageSpecs ComputeSpec BBoxSpec BlockSpec ColorSpec PixelSpec OiioSpec
open BrighterSpec LevelSpec OrderSpec IeeeSpec PlainSpec
open ChannelSpec (SameTools Proper)
open CacheSpec (IsOff)
open Ieee hiding floor ceil round

section
variable [Libm single32]

/-! ### Numbers -/

theorem notAbove_val {x y : F32} (hx : IsFinite x) (hy : IsFinite y) (h : NotAbove x y) :
    val x ≤ val y := by
  rw [val_le_iff]
  exact ((notAbove_iff inf_pos_single).mp h).2.2

theorem notAbove_same {p q p' q' : F32} (h : NotAbove p p') (e : Same q p) (e' : Same q' p') :
    NotAbove q q' := by
  refine .inl ⟨e.1, e'.1, ?_⟩
  rw [e.2.2, e'.2.2]
  exact notAbove_val e.2.1 e'.2.1 h

theorem notAbove_self {x : F32} (h : IsFinite x) : NotAbove x x := .inl ⟨h, h, le_refl _⟩

theorem finite_not_nan {x : F32} (h : IsFinite x) : x.isNan = false := by
  by_contra hn
  exact not_finite_iff.mpr (.inr (by simpa using hn)) h

/-- A product that is finite has finite factors, or one of them is zero. -/
theorem finite_of_mul {x y : F32} (h : IsFinite (mul x y)) : IsFinite x ∧ IsFinite y := by
  have n0 : ¬ IsFinite (nan : F32) := by unfold IsFinite; decide +kernel
  have i0 : ∀ b, ¬ IsFinite (inf b : F32) := by unfold IsFinite; decide +kernel
  unfold mul at h
  split at h
  · exact absurd h n0
  · split at h
    · split at h
      · exact absurd h n0
      · exact absurd h (i0 _)
    · rename_i h1 h2
      simp only [Bool.or_eq_true, not_or, Bool.not_eq_true] at h1 h2
      constructor
      · by_contra hx
        rcases not_finite_iff.mp hx with a | a
        · rw [a] at h2; exact absurd h2.1 (by decide)
        · rw [a] at h1; exact absurd h1.1 (by decide)
      · by_contra hx
        rcases not_finite_iff.mp hx with a | a
        · rw [a] at h2; exact absurd h2.2 (by decide)
        · rw [a] at h1; exact absurd h1.2 (by decide)

/-- Merging keeps the order. -/
theorem blend_rises {mode : MergeImageMode} {mix : F32} (hmix : NotAbove 0 mix)
    {a a' b b' : Int → F32} {c : Int} (ha : NotAbove (a c) (a' c)) (hb : NotAbove (b c) (b' c))
    (h3 : a' 3 = a 3) (hover : mode = .over → NotAbove (a 3) 1)
    (hmul : mode = .multiply → NotAbove 0 (a c) ∧ NotAbove 0 (b c))
    (hf : IsFinite (blend mode mix a b c)) (hf' : IsFinite (blend mode mix a' b' c)) :
    NotAbove (blend mode mix a b c) (blend mode mix a' b' c) := by
  have k0 : (0 : F32).key = 0 := key_zero false
  have key : ∀ {x y : F32}, NotAbove x y → x.key ≤ y.key := fun h => ((notAbove_iff inf_pos_single).mp h).2.2
  have hm0 : 0 ≤ mix.key := k0 ▸ key hmix
  refine (notAbove_iff inf_pos_single).mpr ⟨finite_not_nan hf, finite_not_nan hf', ?_⟩
  cases mode with
  | uninitialized => exact le_refl _
  | add =>
    have f1 : IsFinite (add (a c) (mul (b c) mix)) := hf
    have f2 : IsFinite (add (a' c) (mul (b' c) mix)) := hf'
    exact add_keeps₂ mant_single inf_pos_single (key ha)
      (mul_keeps mant_single inf_pos_single (key hb) hm0 (finite_not_nan (finite_of_add f1).2)
        (finite_not_nan (finite_of_add f2).2)) (finite_not_nan f1) (finite_not_nan f2)
  | over =>
    have f1 : IsFinite (add (a c) (mul (b c) (mul (sub 1 (a 3)) mix))) := hf
    have f2 : IsFinite (add (a' c) (mul (b' c) (mul (sub 1 (a' 3)) mix))) := hf'
    rw [h3] at f2
    have e2 : blend .over mix a' b' c = add (a' c) (mul (b' c) (mul (sub 1 (a 3)) mix)) := by
      rw [← h3]; rfl
    have g1 := (finite_of_add f1).2
    have g2 := (finite_of_add f2).2
    have g3 := (finite_of_mul g1).2
    have g4 := (finite_of_mul g3).1
    rw [e2]
    exact add_keeps₂ mant_single inf_pos_single (key ha)
      (mul_keeps mant_single inf_pos_single (key hb)
        (mul_nonneg' mant_single inf_pos_single
          (sub_nonneg' mant_single inf_pos_single (key (hover rfl)) (finite_not_nan g4)).1 hm0
          (finite_not_nan g3)) (finite_not_nan g1) (finite_not_nan g2))
      (finite_not_nan f1) (finite_not_nan f2)
  | multiply =>
    have f1 : IsFinite (mul (a c) (mul (b c) mix)) := hf
    have f2 : IsFinite (mul (a' c) (mul (b' c) mix)) := hf'
    obtain ⟨g1, g2⟩ := finite_of_mul f1
    obtain ⟨g3, g4⟩ := finite_of_mul f2
    obtain ⟨n1, n2⟩ := hmul rfl
    have na : 0 ≤ (a c).key := k0 ▸ key n1
    have nb : 0 ≤ (b c).key := k0 ▸ key n2
    have na' : 0 ≤ (a' c).key := le_trans na (key ha)
    have nm := mul_nonneg' mant_single inf_pos_single nb hm0 (finite_not_nan g2)
    have hk := mul_keeps mant_single inf_pos_single (key hb) hm0 (finite_not_nan g2) (finite_not_nan g4)
    have mid : (mul (a' c) (mul (b c) mix)).isNan = false := by
      rw [mul_finite g3 g2]
      exact rounded_not_nan _ _ _
    refine le_trans (mul_keeps mant_single inf_pos_single (key ha) nm (finite_not_nan f1) mid) ?_
    show (mul (a' c) (mul (b c) mix)).key ≤ (mul (a' c) (mul (b' c) mix)).key
    rw [mul_comm' (a' c), mul_comm' (a' c)]
    refine mul_keeps mant_single inf_pos_single hk na' ?_ ?_
    · rw [mul_comm']; exact mid
    · rw [mul_comm']; exact finite_not_nan f2

/-! ### Pictures -/

theorem whole_of_proper {P : Picture F32} (h : Proper P) : Whole P :=
  ⟨h.channels, h.size, fun x y hxy => (h.plain x y hxy).1⟩

/-- What is stored is what was to be stored, up to the sign of zero. -/
theorem stored_values {n : Nat} (hn : n = 3 ∨ n = 4) {v out : List F32} (hl : v.length = n)
    (ho : ∀ p ∈ out, IsPlain p) (h : Settled n v out) : out.length = n ∧
      ∀ k, k < n → Same (out.getD k 0) (v.getD k 0) := by
  have hn' : Channels n := by rcases hn with rfl | rfl <;> simp [Channels]
  have hf := stored_finite hn hl (fun p hp => (ho p hp).1) h
  obtain ⟨mid, e, k⟩ := h
  have q : ∀ {n : Int} {a b : List F32}, Carried n [] a b → a = b := by
    intro n a b h
    cases h
    rfl
  rw [← q k]
  obtain ⟨out', e', h1, h2⟩ := C57_single_identity hn' v hf
  have : out' = mid := by
    have := e'.symm.trans e
    injection this
  subst this
  refine ⟨h1.trans hl, fun k hk => ?_⟩
  obtain ⟨p, q, a, b, c⟩ := h2 0 k (by rw [hl, Nat.div_self (by omega)]; decide) hk
  rw [Nat.zero_mul, Nat.zero_add] at a b
  rw [List.getD_eq_getElem?_getD, List.getD_eq_getElem?_getD, a, b]
  exact c

theorem plain_getD {v : List F32} (h : ∀ p ∈ v, IsPlain p) (k : Nat) : IsPlain (v.getD k 0) := by
  rw [List.getD_eq_getElem?_getD]
  rcases hk : v[k]? with _ | p
  · exact plain_zero
  · exact h p (List.mem_of_getElem? hk)

theorem proper_value {P : Picture F32} (h : Proper P) (x y : Int) (c : Nat) :
    IsPlain (P.value x y c) := by
  by_cases hxy : Has P.data x y
  · rw [value_in hxy]
    exact plain_getD (h.plain x y hxy).2 c
  · rw [value_out hxy]
    exact plain_zero

/-- Storing keeps the order of pictures. -/
theorem settled_dimmer {P Q : Picture F32} (hP : Proper P) (hQ : Proper Q) (hs : SameSheet P Q)
    (h : ∀ x y, Has P.data x y → ∃ v v' : List F32, Settled P.channels v (P.at_ x y) ∧
      Settled P.channels v' (Q.at_ x y) ∧ v.length = P.channels ∧ v'.length = P.channels ∧
      (∀ c, c < 3 → IsFinite (v.getD c 0) → IsFinite (v'.getD c 0) →
        NotAbove (v.getD c 0) (v'.getD c 0)) ∧ v'.getD 3 0 = v.getD 3 0) : Dimmer P Q := by
  have hc := hP.channels
  refine ⟨hs, fun x y c hc3 => ?_, fun x y => ?_⟩
  · by_cases hxy : Has P.data x y
    · obtain ⟨v, v', s, s', l, l', k, -⟩ := h x y hxy
      obtain ⟨-, e⟩ := stored_values hc l (hP.plain x y hxy).2 s
      obtain ⟨-, e'⟩ := stored_values hc l' (hQ.plain x y (hs.data ▸ hxy)).2 s'
      have a := e c (by omega)
      have b := e' c (by omega)
      rw [value_in hxy, value_in (hs.data ▸ hxy)]
      exact notAbove_same (k c hc3 a.2.1 b.2.1) a b
    · rw [value_out hxy, value_out (hs.data ▸ hxy)]
      exact notAbove_self plain_zero.1
  · by_cases hxy : Has P.data x y
    · obtain ⟨v, v', s, s', l, l', -, k⟩ := h x y hxy
      have p := (hP.plain x y hxy).2
      have q := (hQ.plain x y (hs.data ▸ hxy)).2
      obtain ⟨m, e⟩ := stored_values hc l p s
      obtain ⟨m', e'⟩ := stored_values hc l' q s'
      refine (value_in (hs.data ▸ hxy) 3).trans (Eq.trans ?_ (value_in hxy 3).symm)
      rcases Nat.lt_or_ge 3 P.channels with h3 | h3
      · have b := e' 3 h3
        rw [k] at b
        exact same_plain (plain_getD q 3) (plain_getD p 3) b (e 3 h3)
      · rw [List.getD_eq_getElem?_getD, List.getD_eq_getElem?_getD,
          List.getElem?_eq_none (by omega), List.getElem?_eq_none (by omega)]
    · exact (value_out (hs.data ▸ hxy) 3).trans (value_out hxy 3).symm

/-- Pixels that are taken from the same places keep their order. -/
theorem looks_dimmer {f : Int → Int → Option (Int × Int)} {P P' Q Q' : Picture F32}
    (h : Dimmer P P') (hf : Looks f P Q) (hf' : Looks f P' Q') (hs : SameSheet Q Q') : Dimmer Q Q' := by
  refine ⟨hs, fun x y c hc => ?_, fun x y => ?_⟩
  · rw [hf x y c, hf' x y c]
    split
    · exact notAbove_self plain_zero.1
    · exact h.colours _ _ c hc
  · refine (hf' x y 3).trans (Eq.trans ?_ (hf x y 3).symm)
    split
    · rfl
    · exact h.alpha _ _

/-- The layers have the same deformers waiting, and the first one is nowhere brighter. -/
def DimmerLayer (L L' : Layer F32) : Prop := Dimmer L.still L'.still ∧ L.moves = L'.moves

theorem whole_pixel {P : Picture F32} (h : Whole P) (x y : Int) : (P.pixel x y).length = P.channels := by
  unfold Picture.pixel
  split
  · exact h.values x y ‹_›
  · exact List.length_replicate

theorem value_getD (P : Picture F32) (x y : Int) (c : Nat) :
    P.value x y c = (P.pixel x y).getD c 0 := by
  unfold Picture.value
  rw [if_pos (by omega), Int.toNat_natCast]

/-- Grading keeps the order of pictures. -/
theorem graded_dimmer {op : GradeOp F32} (he : op.getI32 "enable" = 1) (hu : ∀ c, c < 3 → Uphill op c) {P P' Q Q' : Picture F32}
    (h : Dimmer P P') (hP : Proper P) (hP' : Proper P') (hQ : Proper Q) (hQ' : Proper Q')
    (hg : IsGraded op P Q) (hg' : IsGraded op P' Q') : Dimmer Q Q' := by
  have hs : SameSheet Q Q' := ⟨by rw [hg.data, hg'.data, h.sheet.data],
    by rw [hg.display, hg'.display, h.sheet.display],
    by rw [hg.channels, hg'.channels, h.sheet.channels], by rw [hg.space, hg'.space, h.sheet.space]⟩
  obtain ⟨-, v⟩ := graded_whole he (whole_of_proper hP) hg
  obtain ⟨-, v'⟩ := graded_whole he (whole_of_proper hP') hg'
  have hc := hP.channels
  refine ⟨hs, fun x y c hc3 => ?_, fun x y => ?_⟩
  · have f := proper_value hQ x y c
    have f' := proper_value hQ' x y c
    rw [v x y c] at f ⊢
    rw [v' x y c, h.sheet.data, h.sheet.channels] at f' ⊢
    by_cases hxy : Has P.data x y
    · rw [if_pos ⟨hxy, by omega⟩] at f f' ⊢
      rw [if_pos ⟨hxy, by omega⟩]
      have hpq := h.colours x y c hc3
      have rise : Rising (gradedBy op c) := by
        unfold gradedBy
        split
        · exact gradeValue_rising (hu c hc3)
        · exact Rising.id
      exact (notAbove_iff inf_pos_single).mpr ⟨finite_not_nan f.1, finite_not_nan f'.1,
        rise.2 _ _ ((notAbove_iff inf_pos_single).mp hpq).2.2 (finite_not_nan f.1) (finite_not_nan f'.1)⟩
    · rw [if_neg (fun k => hxy k.1), if_neg (fun k => hxy k.1)]
      exact notAbove_self plain_zero.1
  · refine (v' x y 3).trans (Eq.trans ?_ (v x y 3).symm)
    rw [h.sheet.data, h.sheet.channels]
    have e : P'.value x y ((3 : Nat) : Int) = P.value x y ((3 : Nat) : Int) := h.alpha x y
    rw [e]

/-- Carrying out deformers keeps the order of pictures. -/
theorem dimmer_rests {H : Type} {lib lib' : NodeLib F32 H} (hl : SameTools lib lib') {K K' : Layer F32}
    (h : DimmerLayer K K') (hp : Proper K.still) (hp' : Proper K'.still) {R R' : Picture F32}
    (hR : Rests lib K R) (hR' : Rests lib' K' R') : Dimmer R R' ∧ Whole R ∧ Whole R' ∧
      (NotNegative K.still → NotNegative R) ∧ (AtMostOpaque K.still → AtMostOpaque R) := by
  obtain ⟨h1, h2⟩ := h
  unfold Rests at hR hR'
  rw [← hl.deform, ← h2] at hR'
  have w1 := whole_of_proper hp
  obtain ⟨f, hf⟩ := looks_rests w1 hR
  obtain ⟨-, b1, c1⟩ := hf _ _ (sheet_refl _) w1 hR
  obtain ⟨a2, b2, c2⟩ := hf _ _ h1.sheet (whole_of_proper hp') hR'
  refine ⟨looks_dimmer h1 c1 c2 a2, b1, b2, fun hn x y c hc => ?_, fun hn x y => ?_⟩
  · rw [c1 x y c]
    split
    · exact notAbove_self plain_zero.1
    · exact hn _ _ c hc
  · refine Eq.mpr (congrArg (NotAbove · 1) (c1 x y 3)) ?_
    split
    · exact (notAbove_iff inf_pos_single).mpr (by
        show (zero false : F32).isNan = false ∧ (ofInt 1 : F32).isNan = false ∧ (zero false : F32).key ≤
          (ofInt 1 : F32).key
        decide +kernel)
    · exact hn _ _

omit [Libm single32] in
theorem inType_conv {F H : Type} [FloatLike F] [HalfLike F H] (t : DType) (x : F) :
    inType H t x = convElem t .f32 (convElem .f32 t x : Elem F H t) := by
  cases t <;> rfl

/-- Storing with a type keeps the order. -/
theorem inType_rises {t : DType} {x y : F32} (h : NotAbove x y) :
    NotAbove (inType F16 t x) (inType F16 t y) := by
  have := to_single (t := t) (from_single (u := t) h)
  rw [inType_conv, inType_conv]
  exact this

theorem makes_dimmer {lib lib' : NodeLib F32 F16} {fr : F32} {n : Node F32}
    {Ls Ls' : List (Layer F32)} {L L' : Layer F32} (hl : SameTools lib lib') (ha : Rises n)
    (h1 : Makes lib fr n Ls L) (h2 : Makes lib' fr n Ls' L')
    (hin : List.Forall₂ DimmerLayer Ls Ls')
    (hp : ∀ K ∈ Ls, Proper K.still) (hp' : ∀ K ∈ Ls', Proper K.still) (hL : Proper L.still)
    (hL' : Proper L'.still) (hover : MergesBy .over n → ∀ K ∈ Ls, AtMostOpaque K.still)
    (hmul : MergesBy .multiply n → ∀ K ∈ Ls, NotNegative K.still)
    (hr : n.attrs.nodeType = .readImage → Dimmer L.still L'.still) : DimmerLayer L L' := by
  have one : ∀ {A B : Layer F32}, List.Forall₂ DimmerLayer [A] [B] → DimmerLayer A B :=
    fun h => (List.forall₂_cons.mp h).1
  cases h1 with
  | read ht =>
    cases h2 with
    | read => exact ⟨hr ht, rfl⟩
    | _ => exfalso; simp_all; done
  | null ht =>
    cases h2 with
    | null ht' =>
        exact one hin
    | _ => exfalso; simp_all; done
  | grade ht hg ho hQ =>
    cases h2 with
    | grade ht' hg' ho' hQ' =>
        obtain ⟨h3, h4⟩ := one hin
        have pP := hp _ List.mem_cons_self
        have pP' := hp' _ List.mem_cons_self
        dsimp only at h3 h4 pP pP'
        rw [gradeOf_unique ht ho' ho] at hQ'
        exact ⟨graded_dimmer ho.1 (ha.grade ht _ ho) h3 pP pP' hL hL' hQ hQ', h4⟩
    | _ => exfalso; simp_all; done
  | gradeOff ht hg =>
    cases h2 with
    | gradeOff ht' hg' =>
        exact one hin
    | _ => exfalso; simp_all; done
  | transform ht he hd hdesc =>
    cases h2 with
    | transform ht' he' hd' hdesc' =>
        obtain ⟨h3, h4⟩ := one hin
        dsimp only at h3 h4
        refine ⟨h3, ?_⟩
        show _ ++ _ = _ ++ _
        rw [h4, transform_unique ht hd hdesc hd' hdesc']
    | _ => exfalso; simp_all; done
  | lens ht he hd hdesc hcam =>
    cases h2 with
    | lens ht' he' hd' hdesc' hcam' =>
        obtain ⟨h3, h4⟩ := one hin
        dsimp only at h3 h4
        refine ⟨h3, ?_⟩
        show _ ++ _ = _ ++ _
        rw [h4, lens_unique ht hd hdesc hcam hd' hdesc' hcam']
    | _ => exfalso; simp_all; done
  | off ht he =>
    cases h2 with
    | off ht' he' =>
        exact one hin
    | _ => exfalso; simp_all; done
  | resampleIdle ht he hf =>
    cases h2 with
    | resampleIdle ht' he' hf' =>
        exact one hin
    | _ => exfalso; simp_all; done
  | resample ht he hf hi hpick hs hc4 hw hh hQ =>
    cases h2 with
    | resample ht' he' hf' hi' hpick' hs' hc4' hw' hh' hQ' =>
        obtain ⟨h3, h4⟩ := one hin
        have w1 := whole_of_proper (hp _ List.mem_cons_self)
        have w2 := whole_of_proper (hp' _ List.mem_cons_self)
        obtain ⟨f, hf⟩ := looks_picked (black := zero false) (white := ofInt 1) (by decide +kernel) hpick w1
          hw hh hQ
        obtain ⟨-, -, c1⟩ := hf hpick (fun _ _ _ _ _ _ _ => rfl) (sheet_refl _) w1 hQ
        obtain ⟨a2, -, c2⟩ := hf hpick' hl.resample h3.sheet w2 hQ'
        exact ⟨looks_dimmer h3 c1 c2 a2, h4⟩
    | _ => exfalso; simp_all; done
  | crop ht he hb hR hs hv hQ =>
    cases h2 with
    | crop ht' he' hb' hR' hs' hv' hQ' =>
        obtain ⟨h3, w1, w2, -⟩ := dimmer_rests hl (one hin) (hp _ List.mem_cons_self)
          (hp' _ List.mem_cons_self) hR hR'
        refine ⟨settled_dimmer hL hL' ⟨hQ'.data.trans hQ.data.symm, by rw [hQ.display, hQ'.display, h3.sheet.display],
          by rw [hQ.channels, hQ'.channels, h3.sheet.channels],
          by rw [hQ.space, hQ'.space, h3.sheet.space]⟩ fun x y hxy => ?_, rfl⟩
        dsimp only at hxy
        have hxy' : Has (cropWindow n) x y := hQ.data ▸ hxy
        have b := hQ'.pixels x y hxy'
        dsimp only
        rw [hQ.channels]
        rw [h3.sheet.channels] at b
        refine ⟨_, _, hQ.pixels x y hxy', b, whole_pixel w1 x y, (whole_pixel w2 x y).trans h3.sheet.channels,
          fun c hc _ _ => ?_, ?_⟩
        · exact value_getD _ x y c ▸ value_getD _ x y c ▸ h3.colours x y c hc
        · exact value_getD _ x y 3 ▸ value_getD _ x y 3 ▸ h3.alpha x y
    | _ => exfalso; simp_all; done
  | @merge K₁ K₂ A B Q ht he hm hA hB hd ca cb hv hQ =>
    cases h2 with
    | @merge K₁' K₂' A' B' Q' ht' he' hm' hA' hB' hd' ca' cb' hv' hQ' =>
        obtain ⟨a, b⟩ := List.forall₂_cons.mp hin
        obtain ⟨kA, wA, wA', nA, oA⟩ := dimmer_rests hl a (hp _ List.mem_cons_self) (hp' _ List.mem_cons_self) hA hA'
        obtain ⟨kB, wB, wB', nB, -⟩ := dimmer_rests hl (one b) (hp _ (List.mem_cons_of_mem _ List.mem_cons_self))
          (hp' _ (List.mem_cons_of_mem _ List.mem_cons_self)) hB hB'
        refine ⟨settled_dimmer hL hL' ⟨by rw [hQ.data, hQ'.data, kA.sheet.data, kB.sheet.data],
          by rw [hQ.display, hQ'.display, kB.sheet.display],
          by rw [hQ.channels, hQ'.channels, kB.sheet.channels], by rw [hQ.space, hQ'.space]⟩
          fun x y hxy => ?_, rfl⟩
        have hxy' : Has _ x y := hxy
        dsimp only at hxy'
        rw [hQ.data, ← kA.sheet.data, ← kB.sheet.data, ← hQ'.data] at hxy'
        obtain ⟨v, s1, l1, e1⟩ := hQ.pixels x y hxy
        obtain ⟨v', s2, l2, e2⟩ := hQ'.pixels x y hxy'
        rw [kB.sheet.channels] at s2 l2 e2
        dsimp only
        rw [hQ.channels]
        have g : ∀ c, c < B.channels → v.getD c 0 = blend (MergeImageMode.ofI32 (n.getI32 "mode")) (n.getF32 "mix")
            (A.value x y) (B.value x y) c := by
          intro c hc
          rw [List.getD_eq_getElem?_getD, e1 c hc]; rfl
        have g' : ∀ c, c < B.channels → v'.getD c 0 = blend (MergeImageMode.ofI32 (n.getI32 "mode")) (n.getF32 "mix")
            (A'.value x y) (B'.value x y) c := by
          intro c hc
          rw [List.getD_eq_getElem?_getD, e2 c hc]; rfl
        refine ⟨v, v', s1, s2, l1, l2, fun c hc f f' => ?_, ?_⟩
        · rw [g c (by omega)] at f ⊢
          rw [g' c (by omega)] at f' ⊢
          exact blend_rises (ha.merge ht) (kA.colours x y c hc) (kB.colours x y c hc) (kA.alpha x y)
            (fun e => oA (hover ⟨ht, e⟩ _ List.mem_cons_self) x y)
            (fun e => ⟨nA (hmul ⟨ht, e⟩ _ List.mem_cons_self) x y c hc,
              nB (hmul ⟨ht, e⟩ _ (List.mem_cons_of_mem _ List.mem_cons_self)) x y c hc⟩) f f'
        · rcases Nat.lt_or_ge 3 B.channels with h3 | h3
          · rw [g 3 h3, g' 3 h3]
            have eA : A'.value x y ((3 : Nat) : Int) = A.value x y ((3 : Nat) : Int) := kA.alpha x y
            have eB : B'.value x y ((3 : Nat) : Int) = B.value x y ((3 : Nat) : Int) := kB.alpha x y
            generalize MergeImageMode.ofI32 (n.getI32 "mode") = mode
            cases mode with
            | over =>
              show A'.value x y ((3 : Nat) : Int) + B'.value x y ((3 : Nat) : Int) *
                  ((1 - A'.value x y ((3 : Nat) : Int)) * _) =
                A.value x y ((3 : Nat) : Int) + B.value x y ((3 : Nat) : Int) *
                  ((1 - A.value x y ((3 : Nat) : Int)) * _)
              rw [eA, eB]
            | add =>
              show A'.value x y ((3 : Nat) : Int) + B'.value x y ((3 : Nat) : Int) * _ =
                A.value x y ((3 : Nat) : Int) + B.value x y ((3 : Nat) : Int) * _
              rw [eA, eB]
            | multiply =>
              show A'.value x y ((3 : Nat) : Int) * (B'.value x y ((3 : Nat) : Int) * _) =
                A.value x y ((3 : Nat) : Int) * (B.value x y ((3 : Nat) : Int) * _)
              rw [eA, eB]
            | uninitialized => rfl
          · rw [List.getD_eq_getElem?_getD, List.getD_eq_getElem?_getD,
              List.getElem?_eq_none (by omega), List.getElem?_eq_none (by omega)]
    | _ => exfalso; simp_all; done
  | @viewer P Q ds t ht he hb hc hs hty hQ =>
    cases h2 with
    | viewer ht' he' hb' hc' hs' hty' hQ' =>
        obtain ⟨h3, h4⟩ := one hin
        have pP := hp _ List.mem_cons_self
        have pP' := hp' _ List.mem_cons_self
        dsimp only at h3 h4 pP pP'
        have := (hty .f32).symm.trans (hty' .f32)
        subst this
        refine ⟨?_, h4⟩
        refine settled_dimmer hL hL' ⟨by rw [hQ.data, hQ'.data, h3.sheet.data],
          by rw [hQ.display, hQ'.display, h3.sheet.display],
          by rw [hQ.channels, hQ'.channels, h3.sheet.channels], by rw [hQ.space, hQ'.space]⟩
          fun x y hxy => ?_
        dsimp only at hxy
        rw [hQ.data] at hxy
        have hxy' := hxy
        rw [← h3.sheet.data] at hxy'
        have b := hQ'.pixels x y hxy'
        rw [h3.sheet.channels] at b
        have l1 := (pP.plain x y hxy).1
        have l2 := (pP'.plain x y hxy').1.trans h3.sheet.channels
        have c3 := pP.channels
        dsimp only
        rw [hQ.channels]
        refine ⟨_, _, hQ.pixels x y hxy, b, by rw [List.length_map, l1], by rw [List.length_map, l2],
          fun c hc _ _ => ?_, ?_⟩
        · have k := h3.colours x y c hc
          rw [value_in hxy, value_in hxy', List.getD_eq_getElem?_getD, List.getD_eq_getElem?_getD,
            List.getElem?_eq_getElem (by omega), List.getElem?_eq_getElem (by omega)] at k
          rw [List.getD_eq_getElem?_getD, List.getD_eq_getElem?_getD, List.getElem?_map,
            List.getElem?_map, List.getElem?_eq_getElem (by omega), List.getElem?_eq_getElem (by omega)]
          exact inType_rises k
        · rcases Nat.lt_or_ge 3 P.channels with k3 | k3
          · have k := h3.alpha x y
            have k' := ((value_in hxy' 3).symm.trans k).trans (value_in hxy 3)
            rw [List.getD_eq_getElem?_getD, List.getD_eq_getElem?_getD,
              List.getElem?_eq_getElem (by omega), List.getElem?_eq_getElem (by omega)] at k'
            rw [List.getD_eq_getElem?_getD, List.getD_eq_getElem?_getD, List.getElem?_map,
              List.getElem?_map, List.getElem?_eq_getElem (by omega), List.getElem?_eq_getElem (by omega)]
            exact congrArg (inType F16 _) k'
          · rw [List.getD_eq_getElem?_getD, List.getD_eq_getElem?_getD,
              List.getElem?_eq_none (by rw [List.length_map]; omega),
              List.getElem?_eq_none (by rw [List.length_map]; omega)]
    | _ => exfalso; simp_all; done
  | viewerSpace ht he hb =>
    cases h2 with
    | viewerSpace ht' he' hb' =>
        exact one hin
    | _ => exfalso; simp_all; done
  | viewerOff ht he hb =>
    cases h2 with
    | viewerOff ht' he' hb' =>
        exact one hin
    | _ => exfalso; simp_all; done
  | write ht he hx =>
    cases h2 with
    | write ht' he' hx' =>
        exact one hin
    | _ => exfalso; simp_all; done
  | writeOff ht he hx =>
    cases h2 with
    | writeOff ht' he' hx' =>
        exact one hin
    | _ => exfalso; simp_all; done

/-- Converting pixels to floats keeps the order. -/
theorem convert_rises (t : DType) : ∃ f : Elem F32 F16 t → F32,
    (∀ x y, NotBrighter t x y → NotAbove (f x) (f y)) ∧
    ∀ (size : BlockSize) (data : List (Elem F32 F16 t)),
      (⟨size, ⟨t, data⟩⟩ : PixelBlock F32 F16).convert (.known .f32) =
        .ok (floatImage (H := F16) size (data.map f)) := by
  cases t
  case f32 =>
    refine ⟨id, fun x y h => h, fun size data => ?_⟩
    refine (C18_convert_same (⟨size, ⟨.f32, data⟩⟩ : PixelBlock F32 F16)).trans ?_
    exact congrArg (fun l : List F32 => Except.ok (floatImage (H := F16) size l)) (List.map_id data).symm
  all_goals
    refine ⟨convElem _ .f32, fun x y h => to_single h, fun size data => ?_⟩
    unfold PixelBlock.convert DataBlock.convert
    rfl

/-- C145: images of linear light with the same alpha, of which no stored colour is brighter, are read
as pictures of which no colour is brighter. -/
theorem C145_file {lib lib' : NodeLib F32 F16} {path : Bytes} {P P' : Picture F32}
    (h : DimmerFile lib lib' path) (hP : IsFile lib path P) (hP' : IsFile lib' path P')
    (p1 : Proper P) (p2 : Proper P') : Dimmer P P' := by
  have same := C136_file h.same hP hP' p1 p2
  obtain ⟨spec, t, k, v, -, h2, h3, h4, h5, h6, h7, h8, h9, h10, ⟨raw, r1, r2, -⟩, h12, h13⟩ := hP
  obtain ⟨spec', t', k', v', -, i2, i3, i4, i5, i6, i7, i8, i9, i10, ⟨raw', s1, s2, -⟩, i12, i13⟩ := hP'
  have := Option.some.inj ((h2.symm.trans h.same.header).trans i2)
  subst this
  have := h4.symm.trans i4
  injection this with this
  subst this
  have hl := h.same.linear spec h2
  have hc : P.channels = P'.channels := by omega
  have hd : P.data = P'.data := h7.trans i7.symm
  rw [← hc, ← hd] at i10 s1 i12
  have : k = k' := by omega
  subst this
  have := r2 hl
  subst this
  have := s2 hl
  subst this
  have sheet : SameSheet P P' := ⟨hd.symm, same.display.symm, hc.symm, same.space.symm⟩
  refine ⟨sheet, fun x y c hc3 => ?_, fun x y => (sameIn_value same rfl x y).symm⟩
  by_cases hx : Has P.data x y
  · have a := h13 x y hx
    have b := i13 x y (hd ▸ hx)
    rw [← hc, ← hd] at b
    have hcc : c < P.channels := by omega
    obtain ⟨-, e⟩ := stored_values p1.channels (pixelAt_length p1.size h12 hx) (p1.plain x y hx).2 a
    obtain ⟨-, e'⟩ := stored_values p1.channels (pixelAt_length p1.size i12 hx)
      (p2.plain x y (hd ▸ hx)).2 b
    have e := e c hcc
    have e' := e' c hcc
    rw [value_in hx, value_in (hd ▸ hx)]
    refine notAbove_same ?_ e e'
    rw [List.getD_eq_getElem?_getD, List.getD_eq_getElem?_getD,
      pixelAt_channel p1.size h12 hx hcc, pixelAt_channel p1.size i12 hx hcc]
    obtain ⟨f, hup, hf⟩ := convert_rises t
    rw [hf] at r1 s1
    have q1 : List.map f _ = v := congrArg (fun b : PixelBlock F32 F16 => match b with
      | ⟨_, ⟨.f32, d⟩⟩ => d | _ => []) (Except.ok.inj r1)
    have q2 : List.map f _ = v' := congrArg (fun b : PixelBlock F32 F16 => match b with
      | ⟨_, ⟨.f32, d⟩⟩ => d | _ => []) (Except.ok.inj s1)
    have hs : sizeFor P.data P.channels = ⟨spec.width, spec.height, P.channels⟩ := by
      rw [h7]; unfold sizeFor; dsimp only; rw [BlockSize.mk.injEq]
      exact ⟨by omega, by omega, rfl⟩
    have there : ∀ l : List F32, (l.length : Int) = elements (sizeFor P.data P.channels) →
        ∃ r, some r = channelAt (sizeFor P.data P.channels) l (x - P.data.minX) (y - P.data.minY) c :=
      fun l hl => ⟨_, ((List.getElem?_eq_getElem (by
        have := pixelAt_length p1.size hl hx
        omega)).symm.trans (pixelAt_channel p1.size hl hx hcc))⟩
    obtain ⟨_, some1⟩ := there v h12
    obtain ⟨_, some2⟩ := there v' i12
    obtain ⟨g1, g2, g3, g4⟩ := hx
    rw [h7] at g1 g2 g3 g4
    dsimp only at g1 g2 g3 g4
    have := h.colours spec t h2 h4 P.channels (List.replicate k (whiteElem t))
      (x - (spec.x + spec.fullX)) (y - (spec.y + spec.fullY)) c (by omega) (by omega) (by omega)
      (by omega) (by exact_mod_cast hcc) hc3
    unfold channelAt at this some1 some2 ⊢
    rw [← q1, List.getElem?_map, hs, h7] at some1 ⊢
    rw [← q2, List.getElem?_map, hs, h7] at some2
    rw [← q2, List.getElem?_map, hs]
    dsimp only at some1 some2 ⊢
    obtain ⟨p, hp, -⟩ := Option.map_eq_some_iff.mp some1.symm
    obtain ⟨q, hq, -⟩ := Option.map_eq_some_iff.mp some2.symm
    rw [hp, hq]
    exact hup p q (this p q hp hq)
  · rw [value_out hx, value_out (hd ▸ hx)]
    exact notAbove_self plain_zero.1

/-- C145: sources that are nowhere brighter make pictures that are nowhere brighter, in single
precision with all rounding, as long as all pictures are made of ordinary numbers. -/
theorem C145_pictures {lib lib' : NodeLib F32 F16} (hl : SameTools lib lib')
    {srt : EdgeSort} {g : Graph (Node F32) (Stream F32 F16)} (hg : Sound g) {start : Nat}
    (hs : g.graph.contains start = true) {order d : List Nat}
    (hi : SInv g.graph start order ⟨[], d⟩) (ht : Topo g.graph order) {frame : F32}
    {pic pic' : Nat → Layer F32} (hp : Pictures lib srt g start frame pic)
    (hp' : Pictures lib' srt g start frame pic')
    (ho : ∀ i, Upstream g.graph start i → Proper (pic i).still ∧ Proper (pic' i).still)
    (hn : ∀ i n, Upstream g.graph start i → g.nodes[i]? = some n → Rises n)
    (hover : ∀ i n, Upstream g.graph start i → g.nodes[i]? = some n → MergesBy .over n →
      ∀ j, Upstream g.graph start j → AtMostOpaque (pic j).still)
    (hmul : ∀ i n, Upstream g.graph start i → g.nodes[i]? = some n → MergesBy .multiply n →
      ∀ j, Upstream g.graph start j → NotNegative (pic j).still)
    (hr : ∀ i n, Upstream g.graph start i → g.nodes[i]? = some n → n.attrs.nodeType = .readImage →
      filePath lib n frame = filePath lib' n frame ∧ DimmerFile lib lib' (filePath lib n frame)) :
    ∀ i, Upstream g.graph start i → DimmerLayer (pic i) (pic' i) := by
  have key : ∀ k i, order.length - order.idxOf i ≤ k → Upstream g.graph start i →
      DimmerLayer (pic i) (pic' i) := by
    intro k
    induction k with
    | zero =>
      intro i hk hu
      have := List.idxOf_lt_length_of_mem ((hi.final_mem i).mpr hu)
      omega
    | succ k ih =>
      intro i hk hu
      have hlive := hg.upstream_live hs hu
      obtain ⟨n, hni⟩ : ∃ n, g.nodes[i]? = some n := by
        exact ⟨_, List.getElem?_eq_getElem (hg.live i hlive)⟩
      have a := hp i n _ hu hni (hg.direct srt hlive)
      have b := hp' i n _ hu hni (hg.direct srt hlive)
      have up : ∀ u, u ∈ _ → Upstream g.graph start u := fun u hmem =>
        .step hu ((hg.mem_parents srt).mp hmem).1
      refine makes_dimmer hl (hn i n hu hni) a b ?_ ?_ ?_ (ho i hu).1 (ho i hu).2 ?_ ?_ ?_
      · rw [List.forall₂_map_left_iff, List.forall₂_map_right_iff, List.forall₂_same]
        intro u hmem
        obtain ⟨hf, hne⟩ := (hg.mem_parents srt).mp hmem
        have := ht i ((hi.final_mem i).mpr hu) u hf hne
        have h2 := List.idxOf_lt_length_of_mem ((hi.final_mem u).mpr (.step hu hf))
        exact ih u (by omega) (.step hu hf)
      · intro K hK
        obtain ⟨u, hu', rfl⟩ := List.mem_map.mp hK
        exact (ho u (up u hu')).1
      · intro K hK
        obtain ⟨u, hu', rfl⟩ := List.mem_map.mp hK
        exact (ho u (up u hu')).2
      · intro hm K hK
        obtain ⟨u, hu', rfl⟩ := List.mem_map.mp hK
        exact hover i n hu hni hm u (up u hu')
      · intro hm K hK
        obtain ⟨u, hu', rfl⟩ := List.mem_map.mp hK
        exact hmul i n hu hni hm u (up u hu')
      · intro hnt
        obtain ⟨e, hsf⟩ := hr i n hu hni hnt
        have fa := read_isFile hnt a
        have fb := read_isFile hnt b
        rw [← e] at fb
        exact C145_file hsf fa fb (ho i hu).1 (ho i hu).2
  exact fun i hu => key _ i (Nat.le_refl _) hu

/-- C145: two executions of a graph over disks of which the first one has images that are nowhere
brighter put out pictures of which the first one is nowhere brighter, with the same alpha and the
same deformers waiting. -/
theorem C145_execution (p : Profile) (lib lib' : NodeLib F32 F16)
    (hl : SameTools lib lib') (srt : EdgeSort)
    {g : Graph (Node F32) (Stream F32 F16)} {r r' : Bool} (h : Reach (nodeSem p lib) srt r g)
    (h' : Reach (nodeSem p lib') srt r' g)
    {id start : Nat} (hid : At g id start) (hs : g.graph.contains start = true)
    {frames : List F32} {frame : F32} (hlast : frames.getLast? = some frame)
    {pic pic' : F32 → Nat → Layer F32}
    (hp : ∀ fr ∈ frames, Pictures lib srt g start fr (pic fr))
    (hp' : ∀ fr ∈ frames, Pictures lib' srt g start fr (pic' fr))
    (ho : ∀ i, Upstream g.graph start i →
      Proper (pic frame i).still ∧ Proper (pic' frame i).still)
    (hn : ∀ i n, Upstream g.graph start i → g.nodes[i]? = some n → Rises n)
    (hover : ∀ i n, Upstream g.graph start i → g.nodes[i]? = some n → MergesBy .over n →
      ∀ j, Upstream g.graph start j → AtMostOpaque (pic frame j).still)
    (hmul : ∀ i n, Upstream g.graph start i → g.nodes[i]? = some n → MergesBy .multiply n →
      ∀ j, Upstream g.graph start j → NotNegative (pic frame j).still)
    (hr : ∀ i n, Upstream g.graph start i → g.nodes[i]? = some n → n.attrs.nodeType = .readImage →
      filePath lib n frame = filePath lib' n frame ∧ DimmerFile lib lib' (filePath lib n frame))
    {w1 w2 w3 w4 : World F32 F16} (hw : IsOff w1) (hw' : IsOff w3) {fuel fuel' : Nat}
    {st st' : ExecuteStatus} {g1 g2 : Graph (Node F32) (Stream F32 F16)}
    (hx : g.execute (nodeSem p lib) srt fuel id frames w1 = .ok (st, g1, w2))
    (hx' : g.execute (nodeSem p lib') srt fuel' id frames w3 = .ok (st', g2, w4)) :
    ∃ P P', Still lib.bake.color g1.output P ∧ Still lib'.bake.color g2.output P' ∧
      Dimmer P P' ∧ g1.output.deformers.filter (fun d => d.enable = 1) =
        g2.output.deformers.filter (fun d => d.enable = 1) := by
  obtain ⟨order, d, e, hi⟩ := order_of_reach h hs
  have ht := execute_topo h.inv.sound hid hs (fun e => by rw [e] at hlast; cases hlast) hx e hi
  have hf : frame ∈ frames := List.mem_of_getLast? hlast
  obtain ⟨-, -, a⟩ := C87_graph_returns_partial p lib srt h hid hs hlast hp hw hx
  obtain ⟨-, -, b⟩ := C87_graph_returns_partial p lib' srt h' hid hs hlast hp' hw' hx'
  obtain ⟨c1, c2⟩ := C145_pictures hl h.inv.sound hs hi ht (hp frame hf) (hp' frame hf) ho hn hover
    hmul hr start .refl
  exact ⟨_, _, a.1, b.1, c1, (a.2.trans c2).trans b.2.symm⟩

end
/-! ### Examples -/

attribute [local instance] IeeeConvertExamples.someLibm

theorem half_below {b b' : Bool} (h : b = true → b' = true) :
    ∀ c (p q : F16), c < 3 → (redPixel b)[c]? = some p → (redPixel b')[c]? = some q →
      NotAbove (f := half16) p q := by
  intro c p q hc hp hq
  have key : ∀ b b' : Bool, (b = true → b' = true) → ∀ c : Fin 3, ∃ p q : F16,
      (redPixel b)[c.val]? = some p ∧ (redPixel b')[c.val]? = some q ∧ isNan p = false ∧
        isNan q = false ∧ p.key ≤ q.key := by
    have : ∀ b b' : Bool, (b = true → b' = true) → ∀ c : Fin 3,
        ∃ h : c.val < (redPixel b).length, ∃ h' : c.val < (redPixel b').length,
          isNan (redPixel b)[c.val] = false ∧ isNan (redPixel b')[c.val] = false ∧
          (redPixel b)[c.val].key ≤ (redPixel b')[c.val].key := by decide +kernel
    intro b b' h c
    obtain ⟨h1, h2, h3⟩ := this b b' h c
    exact ⟨_, _, List.getElem?_eq_getElem h1, List.getElem?_eq_getElem h2, h3⟩
  obtain ⟨p', q', h1, h2, h3, h4, h5⟩ := key b b' h ⟨c, hc⟩
  cases Option.some.inj (hp.symm.trans h1)
  cases Option.some.inj (hq.symm.trans h2)
  exact (notAbove_iff inf_pos_half).mpr ⟨h3, h4, h5⟩

/-- A file without red is nowhere brighter. -/
theorem wide_dimmer (path : Bytes) :
    DimmerFile (halfFiles (redPixel false)) (halfFiles (redPixel true)) path := by
  have w := wide_same false true path
  refine ⟨⟨w.header, w.linear, fun spec t h1 h2 channels init x y c k1 k2 k3 k4 k5 k6 =>
    w.values spec t h1 h2 channels init x y c k1 k2 k3 k4 k5 (by omega)⟩, ?_⟩
  intro spec t h1 h2 channels init x y c k1 k2 k3 k4 k5 k6 p q hp hq
  cases h1
  cases h2
  have hy : y = 0 := by change y < 1 at k4; omega
  have hx : x = 0 := by change x < 1 at k2; omega
  subst hy hx
  have hc : ((0 * 1 + 0) * channels + (c : Int)).toNat = c := by omega
  have there : ∀ b (r : F16) (l : List F16), (fillWith (redPixel b) l)[((0 * 1 + 0) * channels + (c : Int)).toNat]? = some r →
      (redPixel b)[c]? = some r := by
    intro b r l h
    rw [hc] at h
    have hl : c < (fillWith (redPixel b) l).length := by
      by_contra hn
      rw [List.getElem?_eq_none (by omega)] at h
      cases h
    rw [fillWith_length] at hl
    unfold fillWith at h
    rw [List.getElem?_append_left (by
      rw [List.length_take]; exact lt_min hl (by show c < 4; omega)), List.getElem?_take_of_lt hl] at h
    exact h
  exact half_below (by simp) c p q k6 (there false p init hp) (there true q init hq)

theorem wide_rises : ∀ (i : Nat) (n : Node F32), readWide.nodes[i]? = some n → Rises n ∧ ∀ m, ¬ MergesBy m n := by
  intro i n hn
  rcases i with _ | _ | i
  · cases hn; exact ⟨⟨by rintro ⟨⟩, by rintro ⟨⟩⟩, by rintro m ⟨⟨⟩, -⟩⟩
  · cases hn; exact ⟨⟨by rintro ⟨⟩, by rintro ⟨⟩⟩, by rintro m ⟨⟨⟩, -⟩⟩
  · cases hn

/-- The hypotheses of C145 are met: reading and cropping a file with and without red. -/
example : ∃ g1 w1 g2 w2 P P',
    readWide.execute (nodeSem .debug (halfFiles (redPixel false))) insSort 20 2 [1] copyWorld =
      .ok (.success, g1, w1) ∧
    readWide.execute (nodeSem .debug (halfFiles (redPixel true))) insSort 20 2 [1] copyWorld =
      .ok (.success, g2, w2) ∧
    Still (halfFiles (redPixel false)).bake.color g1.output P ∧
    Still (halfFiles (redPixel true)).bake.color g2.output P' ∧ Dimmer P P' := by
  obtain ⟨g1, w1, e1⟩ : ∃ g1 w1, readWide.execute (nodeSem .debug (halfFiles (redPixel false))) insSort
      20 2 [1] copyWorld = .ok (.success, g1, w1) := ⟨_, _, rfl⟩
  obtain ⟨g2, w2, e2⟩ : ∃ g1 w1, readWide.execute (nodeSem .debug (halfFiles (redPixel true))) insSort
      20 2 [1] copyWorld = .ok (.success, g1, w1) := ⟨_, _, rfl⟩
  obtain ⟨P, P', h1, h2, h3, -⟩ := C145_execution .debug _ _ (half_tools _ _)
    insSort (readWide_reach (redPixel false)) (readWide_reach (redPixel true)) readWide_at rfl
    (frames := [1]) (frame := 1) rfl
    (pic := fun _ => wideLayers false) (pic' := fun _ => wideLayers true)
    (fun fr _ => wide_pictures false fr) (fun fr _ => wide_pictures true fr)
    (fun i _ => ⟨wide_proper false i, wide_proper true i⟩)
    (fun i n _ hn => (wide_rises i n hn).1)
    (fun i n _ hn hm => absurd hm ((wide_rises i n hn).2 _))
    (fun i n _ hn hm => absurd hm ((wide_rises i n hn).2 _))
    (fun i n _ _ _ => ⟨rfl, wide_dimmer _⟩) ⟨rfl, rfl⟩ ⟨rfl, rfl⟩ e1 e2
  exact ⟨g1, w1, g2, w2, P, P', e1, e2, h1, h2, h3⟩

/-- The hypotheses of C145 are met by merges: half covering red over black, and over white. -/
example : NotAbove (blend .over 1 (fun c => if c = 0 ∨ c = 3 then oneHalf else 0) (fun c => if c = 3 then 1 else 0) 1)
    (blend .over 1 (fun c => if c = 0 ∨ c = 3 then oneHalf else 0) (fun _ => 1) 1) := by
  have le : ∀ {x y : F32}, isNan x = false → isNan y = false → x.key ≤ y.key → NotAbove x y :=
    fun h1 h2 h3 => (notAbove_iff inf_pos_single).mpr ⟨h1, h2, h3⟩
  refine blend_rises (le (by decide +kernel) (by decide +kernel) (by decide +kernel))
    (le (by decide +kernel) (by decide +kernel) (by decide +kernel))
    (le (by decide +kernel) (by decide +kernel) (by decide +kernel)) rfl
    (fun _ => le (by decide +kernel) (by decide +kernel) (by decide +kernel)) (by rintro ⟨⟩) ?_ ?_ <;>
    (unfold IsFinite; decide +kernel)

/-- The picture of one pixel is dimmer than that of another one. -/
theorem pixel_dimmer {u v : List F32} (hu : u.length = 4) (hv : v.length = 4)
    (h : ∀ c (h : c < 4), isNan (u[c]'(by omega)) = false ∧ isNan (v[c]'(by omega)) = false ∧
      (u[c]'(by omega)).key ≤ (v[c]'(by omega)).key) (h3 : v[3]? = u[3]?) :
    Dimmer (pixelPicture u) (pixelPicture v) := by
  refine ⟨⟨rfl, rfl, rfl, rfl⟩, fun x y c hc => ?_, fun x y => ?_⟩
  · by_cases hx : Has (pixelPicture u).data x y
    · rw [value_in hx, value_in (P := pixelPicture v) hx]
      show NotAbove (u.getD c 0) (v.getD c 0)
      rw [List.getD_eq_getElem _ _ (by omega), List.getD_eq_getElem _ _ (by omega)]
      exact (notAbove_iff inf_pos_single).mpr (h c (by omega))
    · rw [value_out hx, value_out (P := pixelPicture v) hx]
      exact notAbove_self plain_zero.1
  · by_cases hx : Has (pixelPicture u).data x y
    · refine (value_in (P := pixelPicture v) (c := 3) hx).trans (.trans ?_ (value_in (c := 3) hx).symm)
      show v.getD 3 0 = u.getD 3 0
      rw [List.getD_eq_getElem?_getD, List.getD_eq_getElem?_getD, h3]
    · exact (value_out (P := pixelPicture v) (c := 3) hx).trans (value_out (c := 3) hx).symm

/-- C145 is false for layers that are more than opaque: what is below such a layer is taken away
from it, so that white there is darker than black. -/
theorem C145_counterexample_opaque : ∃ A B B' Q Q' : Picture F32, Dimmer B B' ∧
    IsMerged .over 1 A B Q ∧ IsMerged .over 1 A B' Q' ∧ ¬ Dimmer Q Q' := by
  refine ⟨pixelPicture [1, 1, 1, add 1 1], pixelPicture [0, 0, 0, 1], pixelPicture [1, 1, 1, 1],
    pixelPicture [1, 1, 1, 1], pixelPicture [0, 0, 0, 1], pixel_dimmer rfl rfl (by decide +kernel) rfl,
    pixel_merged (by decide +kernel), pixel_merged (by decide +kernel), fun h => ?_⟩
  have := ((notAbove_iff inf_pos_single).mp (h.colours 0 0 0 (by decide))).2.2
  revert this
  decide +kernel

/-- C145 is false for colours below black: multiplied with one, white is darker than black. -/
theorem C145_counterexample_negative : ∃ A B B' Q Q' : Picture F32, Dimmer B B' ∧
    IsMerged .multiply 1 A B Q ∧ IsMerged .multiply 1 A B' Q' ∧ ¬ Dimmer Q Q' := by
  refine ⟨pixelPicture [sub 0 1, 1, 1, 1], pixelPicture [0, 0, 0, 1], pixelPicture [1, 1, 1, 1],
    pixelPicture [0, 0, 0, 1], pixelPicture [sub 0 1, 1, 1, 1],
    pixel_dimmer rfl rfl (by decide +kernel) rfl,
    pixel_merged (by decide +kernel), pixel_merged (by decide +kernel), fun h => ?_⟩
  have := ((notAbove_iff inf_pos_single).mp (h.colours 0 0 0 (by decide))).2.2
  revert this
  decide +kernel

end OCG.Props
