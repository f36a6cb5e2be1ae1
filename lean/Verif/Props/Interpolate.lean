import Verif.Spec.Interpolate
import Verif.Props.PictureResample
import Mathlib.Algebra.Field.ZMod
/-
Property C143: what a resample node shows is made of what its input shows.
-/

namespace OCG.Props

open BlockSpec BBoxSpec ImageSpecs PixelSpec ColorSpec PictureSpec OiioSpec
open ComputeSpec CacheSpec

section
variable {F H : Type} [FloatLike F] [FloatConst F] [FloatBits F] [HalfLike F H]

/-- What the node does with the buffer. -/
theorem interpolated_run (p : Profile) (lib : NodeLib F H) (n : Node F) (frame : F) (mode : Mode)
    (s prev : Stream F H) (w : World F H) (ht : n.attrs.nodeType = .resampleImage)
    (he : n.getI32 "enable" = 1) (hf : n.getI32 "factor" ≠ 0) (hi : n.getI32 "interpolate" ≠ 0)
    (hw : IsOff w) {blend : Blend F} (hblend : Blends lib.oiio blend) {ch : Nat} {data : List F}
    (hb : s.pixelBlock = ⟨sizeFor s.dataWindow ch, ⟨.f32, data⟩⟩) (p4 : ch = 1 ∨ ch = 3 ∨ ch = 4)
    (p5 : ValidSize (sizeFor s.dataWindow ch))
    (hlen : (data.length : Int) = elements (sizeFor s.dataWindow ch)) :
    ∃ (W T : Int) (d : List F) (hash : Nat) (w' : World F H),
      n.run p lib frame mode [s] prev w = .ok (.valid, { s with
        hash := hash, displayWindow := ⟨0, 0, W, T⟩, dataWindow := ⟨0, 0, W, T⟩
        pixelBlock := ⟨⟨W, T, ch⟩, ⟨.f32, d⟩⟩ }, w') ∧ IsOff w' ∧ w'.writes = w.writes ∧
      ScaledTo (s.dataWindow.maxX - s.dataWindow.minX) (n.getI32 "factor") W ∧
      ScaledTo (s.dataWindow.maxY - s.dataWindow.minY) (n.getI32 "factor") T ∧
      ValidSize ⟨W, T, ch⟩ ∧ (d.length : Int) = elements ⟨W, T, ch⟩ ∧
      ∀ x y, 0 ≤ x → x < W → 0 ≤ y → y < T → pixelAt ⟨0, 0, W, T⟩ ch d x y =
        blend ch (s.dataWindow.maxX - s.dataWindow.minX) (s.dataWindow.maxY - s.dataWindow.minY) W T
          (pixelAt ⟨0, 0, s.dataWindow.maxX - s.dataWindow.minX,
            s.dataWindow.maxY - s.dataWindow.minY⟩ ch data) x y := by
  obtain ⟨id, st, attrs⟩ := n
  cases attrs <;> simp only [NodeAttrs.nodeType, reduceCtorEq] at ht
  rename_i a
  simp only [attr_eval] at he hf hi ⊢
  obtain ⟨state, shash, disp, dw, cm, ispec, block, defs, ops⟩ := s
  dsimp only at hb p5 hlen ⊢
  subst hb
  obtain ⟨w1, w2, -⟩ := C64_length lib.oiio (dw.maxX - dw.minX) a.factor
  obtain ⟨k1, k2, -⟩ := C64_length lib.oiio (dw.maxY - dw.minY) a.factor
  have sw := C64_length lib.oiio (dw.maxX - dw.minX) a.factor
  have sh := C64_length lib.oiio (dw.maxY - dw.minY) a.factor
  have hbc : blockChannels .f32 (ch : Int) = ch := by
    unfold blockChannels
    rw [if_pos rfl]
  have hv : ValidSize ⟨resampleLength lib.oiio (dw.maxX - dw.minX) a.factor,
      resampleLength lib.oiio (dw.maxY - dw.minY) a.factor, ch⟩ := by
    refine ⟨by dsimp only; omega, by dsimp only; omega, by dsimp only; omega, ?_⟩
    dsimp only
    generalize resampleLength lib.oiio (dw.maxX - dw.minX) a.factor = k at *
    generalize resampleLength lib.oiio (dw.maxY - dw.minY) a.factor = b at *
    have h3 : k * b ≤ 16384 * 16384 := Int.mul_le_mul w2 k2 (by omega) (by omega)
    have h5 : k * b * ch ≤ 16384 * 16384 * 4 :=
      Int.mul_le_mul h3 (by omega) (by omega) (by omega)
    omega
  obtain ⟨⟨ab, asp, adisp, adw⟩, d, e1, e2, e3⟩ := allocate_ok (F := F) (H := H) p
    { x := 0, y := 0, width := resampleLength lib.oiio (dw.maxX - dw.minX) a.factor
      height := resampleLength lib.oiio (dw.maxY - dw.minY) a.factor, fullX := 0, fullY := 0
      fullWidth := resampleLength lib.oiio (dw.maxX - dw.minX) a.factor
      fullHeight := resampleLength lib.oiio (dw.maxY - dw.minY) a.factor
      numChannels := ch
      format := .known .f32
      colorSpace := [], gamma := 1, pixelAspect := 1, orientation := 0, unassociatedAlpha := 0
      dither := 0 } Image.empty .f32 rfl (by dsimp only; omega)
    (by dsimp only; omega) (by rw [hbc]; exact hv) (by dsimp only; omega) (by dsimp only; omega)
    (by dsimp only; omega) (by dsimp only; omega)
  dsimp only at e2 e3
  rw [hbc] at e2 e3
  subst e2
  have hok := hblend.pixels (dw.maxX - dw.minX) (dw.maxY - dw.minY)
    (resampleLength lib.oiio (dw.maxX - dw.minX) a.factor)
    (resampleLength lib.oiio (dw.maxY - dw.minY) a.factor) ch data d p5 hlen hv e3
  rw [show (⟨dw.maxX - dw.minX, dw.maxY - dw.minY, (ch : Int)⟩ : BlockSize) =
    sizeFor dw ch from rfl] at hok
  have eR : oiioResample p lib.oiio ⟨⟨sizeFor dw ch, ⟨.f32, data⟩⟩, ispec, disp,
      dw⟩ Image.empty a.factor true = .ok
      ((lib.oiio.resample (sizeFor dw ch) ⟨.f32, data⟩ true
        (resampleLength lib.oiio (dw.maxX - dw.minX) a.factor)
        (resampleLength lib.oiio (dw.maxY - dw.minY) a.factor) .f32 d).1,
      ⟨⟨⟨resampleLength lib.oiio (dw.maxX - dw.minX) a.factor,
        resampleLength lib.oiio (dw.maxY - dw.minY) a.factor, ch⟩, ⟨.f32,
        (lib.oiio.resample (sizeFor dw ch) ⟨.f32, data⟩ true
        (resampleLength lib.oiio (dw.maxX - dw.minX) a.factor)
        (resampleLength lib.oiio (dw.maxY - dw.minY) a.factor) .f32 d).2⟩⟩, asp, adisp,
        adw⟩) := Res.bind_ok.mpr ⟨_, e1, rfl⟩
  have hdl : ((lib.oiio.resample (sizeFor dw ch) ⟨.f32, data⟩ true
        (resampleLength lib.oiio (dw.maxX - dw.minX) a.factor)
        (resampleLength lib.oiio (dw.maxY - dw.minY) a.factor) .f32 d).2.length : Int) =
      elements ⟨resampleLength lib.oiio (dw.maxX - dw.minX) a.factor,
        resampleLength lib.oiio (dw.maxY - dw.minY) a.factor, ch⟩ := by
    rw [lib.oiio.resample_length]; exact e3
  obtain ⟨hflag, hok⟩ := hok
  rw [hflag] at eR
  generalize (lib.oiio.resample (sizeFor dw ch) ⟨.f32, data⟩ true
        (resampleLength lib.oiio (dw.maxX - dw.minX) a.factor)
        (resampleLength lib.oiio (dw.maxY - dw.minY) a.factor) .f32 d).2 = d' at eR hok hdl
  clear hflag
  generalize resampleLength lib.oiio (dw.maxX - dw.minX) a.factor = W at *
  generalize resampleLength lib.oiio (dw.maxY - dw.minY) a.factor = T at *
  have eR' : resampleProcess p lib ⟨state, shash, disp, dw, cm, ispec,
      ⟨sizeFor dw ch, ⟨.f32, data⟩⟩, defs, ops⟩ a.factor true = _ := eR
  obtain ⟨-, -, d3, d4⟩ := C64_dimensions p lib.oiio _ _ _ _ _ _ eR
  dsimp only at d3 d4
  subst d4 d3
  have hmake : (do
      let (ok, image) ← resampleProcess p lib ⟨state, shash, disp, dw, cm, ispec,
        ⟨sizeFor dw ch, ⟨.f32, data⟩⟩, defs, ops⟩ a.factor (decide (a.interpolate ≠ 0))
      .ok (image, if ok = false then NodeStatus.error else NodeStatus.valid) :
        Res (Image F H × NodeStatus)) = .ok (⟨⟨⟨W, T, ch⟩, ⟨.f32, d'⟩⟩, asp, ⟨0, 0, W, T⟩,
          ⟨0, 0, W, T⟩⟩, NodeStatus.valid) := by
    rw [decide_eq_true hi, eR']
    rfl
  obtain ⟨w', e, ho, hwr⟩ := lookup_off_mpr (p := p) (u := decide (a.useCache ≠ 0))
    (key := Node.hash lib.hash lib.shell ⟨id, st, .resampleImage a⟩ frame [shash])
    (hit := NodeStatus.valid) hw hmake
  refine ⟨W, T, d', Node.hash lib.hash lib.shell ⟨id, st, .resampleImage a⟩ frame [shash], w', ?_, ho,
    hwr, sw, sh, hv, hdl, hok⟩
  simp only [Node.run, ResampleImageAttrs.compute]
  rw [if_neg (by rw [he]; simp)]
  refine Res.bind_ok.mpr ⟨(), by simp [ensure], ?_⟩
  rw [if_pos hf]
  exact Res.bind_ok.mpr ⟨_, e, rfl⟩

/-- C143 (partial): a resample node that is switched on and interpolates blends the pixels of the
picture its input shows, for colours that are fair to blending.  Missing: other colours, for which
it is false (`C143_counterexample`); pixels that are not stored as floats in linear light. -/
theorem C143_interpolated_partial (p : Profile) (lib : NodeLib F H) (n : Node F) (frame : F) (mode : Mode)
    (s prev : Stream F H) (w : World F H) (ht : n.attrs.nodeType = .resampleImage)
    (he : n.getI32 "enable" = 1) (hf : n.getI32 "factor" ≠ 0) (hi : n.getI32 "interpolate" ≠ 0)
    (hw : IsOff w) {blend : Blend F} (hblend : Blends lib.oiio blend) {P : Picture F}
    (hP : Still lib.bake.color s P) (hl : P.space = colorSpaceLinear)
    (hc : s.pixelBlock.block.dtype = .f32)
    (hfair : Fair blend P.channels s.colorMatrix s.colorOps)
    (hx : scaled (P.data.maxX - P.data.minX) (n.getI32 "factor") < 2147483648)
    (hy : scaled (P.data.maxY - P.data.minY) (n.getI32 "factor") < 2147483648) :
    ∃ out w', n.run p lib frame mode [s] prev w = .ok (.valid, out, w') ∧ IsOff w' ∧
      w'.writes = w.writes ∧ out.deformers = s.deformers ∧
      (∃ Q, IsInterpolated blend (n.getI32 "factor") P Q) ∧
      ∀ Q, IsInterpolated blend (n.getI32 "factor") P Q → Still lib.bake.color out Q := by
  obtain ⟨v, ⟨raw, eraw, hlin, -⟩, hvl, hpx⟩ := hP.pixels
  have hvr := hlin (hP.space.trans hl)
  subst hvr
  obtain ⟨state, shash, disp, dw, cm, ispec, ⟨size, ⟨t, data⟩⟩, defs, ops⟩ := s
  obtain ⟨p1, p2, p3, p4, p5, -⟩ := hP
  dsimp only at p1 p2 p3 hc eraw hpx hvl hfair
  subst p1 p2
  subst hc
  have e0 := Except.ok.inj ((C18_convert_same (⟨size, ⟨.f32, data⟩⟩ : PixelBlock F H)).symm.trans eraw)
  have hsize : size = sizeFor P.data P.channels := congrArg PixelBlock.size e0
  have hdata : data = v := by
    injection e0 with e1 e2
    injection e2
  subst hdata hsize
  have hlen : (data.length : Int) = elements (sizeFor P.data P.channels) := hvl
  obtain ⟨W, T, d', hash, w', e, ho, hwr, sw, sh, hv, hdl, hok⟩ := interpolated_run p lib n frame mode
    ⟨state, shash, P.display, P.data, cm, ispec, ⟨sizeFor P.data P.channels, ⟨.f32, data⟩⟩, defs, ops⟩
    prev w ht he hf hi hw hblend (ch := P.channels) (data := data) rfl p4 p5 hlen
  dsimp only at e sw sh hok
  refine ⟨_, w', e, ho, hwr, rfl, ?_, ?_⟩
  · exact ⟨⟨⟨0, 0, W, T⟩, ⟨0, 0, W, T⟩, P.channels, P.space,
      blend P.channels (P.data.maxX - P.data.minX) (P.data.maxY - P.data.minY) W T
        (fun i j => P.at_ (P.data.minX + i) (P.data.minY + j))⟩,
      ⟨⟨rfl, rfl⟩, sw, sh, rfl, rfl, rfl, fun x y _ => rfl⟩⟩
  · rintro ⟨⟨q0, q1, q2, q3⟩, display, channels, space, at_⟩ ⟨⟨o1, o2⟩, hq1, hq2, hq3, hq4, hq5, hq6⟩
    simp only at o1 o2 hq1 hq2 hq3 hq4 hq5 hq6
    have g1 : 0 < P.data.maxX - P.data.minX := p5.1
    have g2 : 0 < P.data.maxY - P.data.minY := p5.2.1
    have f1 := scaledTo_unique (by omega) hx sw hq1
    have f2 := scaledTo_unique (by omega) hy sh hq2
    subst o1 o2 f1 f2 hq3 hq4 hq5
    have hsz : sizeFor (⟨0, 0, W, T⟩ : BBox) (P.channels : Int) = ⟨W, T, P.channels⟩ := by
      unfold sizeFor
      rw [Int.sub_zero, Int.sub_zero]
    refine ⟨rfl, rfl, p3, p4, ?_, d', ⟨d', ?_, fun _ => rfl, fun h => ?_⟩, ?_, ?_⟩
    · rw [hsz]; exact hv
    · rw [hsz]; exact C18_convert_same (⟨_, ⟨.f32, d'⟩⟩ : PixelBlock F H)
    · exact absurd (p3.trans hl) h
    · rw [hsz]; exact hdl
    · intro x y hxy
      dsimp only at hxy ⊢
      rw [hq6 x y hxy]
      obtain ⟨x0, x1, y0, y1⟩ : 0 ≤ x ∧ x < W ∧ 0 ≤ y ∧ y < T := by
        unfold Has at hxy; dsimp only at hxy; omega
      have hb := hok x y x0 x1 y0 y1
      change pixelAt ⟨0, 0, W, T⟩ P.channels d' x y = _ at hb
      refine Eq.mpr (congrArg (fun l : List F => Graded P.channels cm ops l (blend P.channels
        (P.data.maxX - P.data.minX) (P.data.maxY - P.data.minY) W T
        (fun i j => P.at_ (P.data.minX + i) (P.data.minY + j)) x y)) hb) ?_
      refine hfair _ _ _ _ _ _ g1 g2 (fun i j i0 i1 j0 j1 => ?_) x y x0 x1 y0 y1
      have key : pixelAt ⟨0, 0, P.data.maxX - P.data.minX, P.data.maxY - P.data.minY⟩ P.channels data i j =
          pixelAt P.data P.channels data (P.data.minX + i) (P.data.minY + j) := by
        unfold pixelAt
        simp only [Int.sub_zero, add_sub_cancel_left]
      have hin : Has P.data (P.data.minX + i) (P.data.minY + j) := by unfold Has; omega
      have hl : (pixelAt (F := F) P.data P.channels data (P.data.minX + i)
        (P.data.minY + j)).length = P.channels :=
        pixelAt_length (F := F) p5 hlen hin
      exact ⟨(congrArg (List.length (α := F)) key).trans hl,
        Eq.mpr (congrArg (fun l : List F => Graded P.channels cm ops l
          (P.at_ (P.data.minX + i) (P.data.minY + j))) key) (hpx _ _ hin)⟩

end

section
variable {F : Type} [Field F] [LinearOrder F] [FloatOps F]

/-- The value of a straight line in every channel. -/
def line (n : Nat) (a b : Nat → F) (u : List F) : List F :=
  (List.range n).map fun k => a k * u.getD k 0 + b k

/-- The pixels are changed by a straight line in every channel. -/
def Lines (n : Nat) (T : List F → List F → Prop) : Prop :=
  ∃ a b : Nat → F, ∀ u v, u.length = n → (T u v ↔ v = line n a b u)

omit [LinearOrder F] [FloatOps F] in
theorem line_get {n k : Nat} (a b : Nat → F) (u : List F) (hk : k < n) :
    (line n a b u).getD k 0 = a k * u.getD k 0 + b k := by
  unfold line
  rw [List.getD_eq_getElem?_getD, List.getElem?_map, List.getElem?_range hk]
  rfl

omit [LinearOrder F] [FloatOps F] in
theorem line_length (n : Nat) (a b : Nat → F) (u : List F) : (line n a b u).length = n := by
  simp [line]

omit [LinearOrder F] [FloatOps F] in
theorem eq_line {n : Nat} {a b : Nat → F} {u v : List F} (hv : v.length = n)
    (h : ∀ k, k < n → v.getD k 0 = a k * u.getD k 0 + b k) : v = line n a b u := by
  refine List.ext_getElem (by rw [hv, line_length]) fun k h1 h2 => ?_
  have hk : k < n := by omega
  have := h k hk
  rw [← line_get a b u hk, List.getD_eq_getElem _ _ h1, List.getD_eq_getElem _ _ h2] at this
  exact this

omit [LinearOrder F] [FloatOps F] in
theorem line_self {n : Nat} {u : List F} (hu : u.length = n) :
    u = line n (fun _ => 1) (fun _ => 0) u := eq_line hu fun k _ => by ring

theorem straight_value (hpow : ∀ x : F, FloatOps.powf x 1 = x) {op : GradeOp F} (hs : Straight op)
    {n k : Nat} (hn : Channels n) (hk : k < n) : ∃ a b : F, ∀ p,
    gradeValue (values op (channelOf n k)) (decide (op.reverse ≠ 0))
      (FloatLike.ofInt (processes op (channelOf n k)) * op.mix) p = a * p + b := by
  have hr : decide (op.reverse ≠ 0) = false := decide_eq_false (by
    have := hs.forward
    exact fun h => h this)
  rw [hr]
  rcases hs.gamma _ (channelOf_lt hn hk) with h | h
  · refine ⟨1, 0, fun p => ?_⟩
    rw [h]
    unfold gradeValue
    have : (FloatLike.ofInt 0 : F) = 0 := by rw [ofInt_eq]; simp
    rw [this]
    ring
  · generalize FloatLike.ofInt (processes op (channelOf n k)) * op.mix = m
    refine ⟨slope (values op (channelOf n k)) * m + (1 - m), shift (values op (channelOf n k)) * m,
      fun p => ?_⟩
    unfold gradeValue
    rw [gradeSingle_forward]
    have hg : gammaOf (values op (channelOf n k)) = 1 := h
    rw [hg, div_one]
    change FloatOps.powf _ 1 * m + _ = _
    rw [hpow]
    ring

theorem lines_op (hpow : ∀ x : F, FloatOps.powf x 1 = x) {op : GradeOp F} (hs : Straight op)
    {n : Nat} (hn : Channels n) : Lines n (fun u v => op.applySlice u n = .ok v) := by
  by_cases hw : HasWork op
  · choose a b hab using fun k : {k // k < n} => straight_value hpow hs hn k.2
    refine ⟨fun k => if h : k < n then a ⟨k, h⟩ else 0, fun k => if h : k < n then b ⟨k, h⟩ else 0,
      fun u v hu => ?_⟩
    have hpos : 0 < n := by rcases hn with rfl | rfl | rfl <;> decide
    obtain ⟨out, h1, h2, h3⟩ := grade_values op hw hn u
    dsimp only
    rw [h1]
    have : out = line n (fun k => if h : k < n then a ⟨k, h⟩ else 0)
        (fun k => if h : k < n then b ⟨k, h⟩ else 0) u := by
      refine eq_line (h2.trans hu) fun k hk => ?_
      obtain ⟨p, h4, h5⟩ := h3 0 k (by rw [hu, Nat.div_self hpos]; omega) hk
      rw [Nat.zero_mul, Nat.zero_add] at h4 h5
      rw [List.getD_eq_getElem?_getD, h5, List.getD_eq_getElem?_getD, h4, dif_pos hk, dif_pos hk]
      exact hab ⟨k, hk⟩ p
    rw [← this, Except.ok.injEq]
    exact eq_comm
  · refine ⟨fun _ => 1, fun _ => 0, fun u v hu => ?_⟩
    dsimp only
    rw [applySlice_idle hw u n, ← line_self hu, Except.ok.injEq]
    exact eq_comm

theorem lines_carried (hpow : ∀ x : F, FloatOps.powf x 1 = x) {n : Nat} (hn : Channels n) :
    ∀ ops : List (GradeOp F), (∀ op ∈ ops, op.getI32 "enable" = 1 → Straight op) →
      Lines n (Carried n ops) := by
  intro ops
  induction ops with
  | nil =>
    intro _
    refine ⟨fun _ => 1, fun _ => 0, fun u v hu => ?_⟩
    rw [← line_self hu]
    constructor
    · intro h; cases h; rfl
    · rintro rfl; exact .nil _
  | cons op ops ih =>
    intro h
    obtain ⟨a, b, hab⟩ := ih fun o ho => h o (List.mem_cons_of_mem _ ho)
    by_cases he : op.getI32 "enable" = 1
    · obtain ⟨a', b', hab'⟩ := lines_op hpow (h op List.mem_cons_self he) hn
      refine ⟨fun k => a k * a' k, fun k => a k * b' k + b k, fun u v hu => ?_⟩
      have e : line n (fun k => a k * a' k) (fun k => a k * b' k + b k) u =
          line n a b (line n a' b' u) := by
        refine eq_line (line_length _ _ _ _) (fun k hk => ?_) |>.symm
        rw [line_get _ _ _ hk, line_get _ _ _ hk]
        ring
      rw [e]
      constructor
      · intro hc
        cases hc with
        | skip hne _ => exact absurd he hne
        | step _ h1 h2 =>
          rw [(hab' _ _ hu).mp h1] at h2
          exact (hab _ _ (line_length _ _ _ _)).mp h2
      · intro hv
        exact .step he ((hab' _ _ hu).mpr rfl) ((hab _ _ (line_length _ _ _ _)).mpr hv)
    · refine ⟨a, b, fun u v hu => ?_⟩
      rw [← hab u v hu]
      constructor
      · intro hc
        cases hc with
        | skip _ h2 => exact h2
        | step h1 _ _ => exact absurd h1 he
      · exact .skip he

omit [LinearOrder F] [FloatOps F] in
/-- The weighted mean of a straight line. -/
theorem mean_line (l : List ((Int × Int) × F)) (hl : (l.map Prod.snd).sum = 1) (v : Int → Int → F)
    (a b : F) : (l.map fun e => e.2 * (a * v e.1.1 e.1.2 + b)).sum =
      a * (l.map fun e => e.2 * v e.1.1 e.1.2).sum + b := by
  have : ∀ l : List ((Int × Int) × F), (l.map fun e => e.2 * (a * v e.1.1 e.1.2 + b)).sum =
      a * (l.map fun e => e.2 * v e.1.1 e.1.2).sum + b * (l.map Prod.snd).sum := by
    intro l
    induction l with
    | nil => simp
    | cons e l ih => simp only [List.map_cons, List.sum_cons, ih]; ring
  rw [this, hl, mul_one]

/-- C143: in exact arithmetic, grades that are straight lines are fair to blending by weighted
means; in particular no grade at all is. -/
theorem C143_fair (hpow : ∀ x : F, FloatOps.powf x 1 = x) {weights : Weights F} (hw : IsMean weights)
    {n : Nat} (hn : n = 1 ∨ n = 3 ∨ n = 4) (ops : List (GradeOp F))
    (hs : ∀ op ∈ ops, op.getI32 "enable" = 1 → Straight op) :
    Fair (meanBlend weights) n Mat4.identity ops := by
  have hn' : Channels n := by unfold Channels; omega
  obtain ⟨a, b, hab⟩ := lines_carried hpow hn' ops hs
  have graded : ∀ u v : List F, Graded n Mat4.identity ops u v ↔ Carried n ops u v := by
    intro u v
    unfold Graded
    rw [show (Mat4.identity : Mat4 F) = (fun i j => if i = j then (1 : F) else 0) by
      funext i j; fin_cases i <;> fin_cases j <;> rfl,
      C57_identity hn' u]
    constructor
    · rintro ⟨mid, h1, h2⟩
      cases h1
      exact h2
    · exact fun h => ⟨u, rfl, h⟩
  intro w h w' h' f g w0 h0 hfg x y x0 x1 y0 y1
  have hl : ∀ k : Int → Int → List F, (meanBlend weights n w h w' h' k x y).length = n := by
    intro k; simp [meanBlend]
  rw [graded, hab _ _ (hl _)]
  refine eq_line (hl _) fun k hk => ?_
  have get : ∀ k' : Int → Int → List F, (meanBlend weights n w h w' h' k' x y).getD k 0 =
      ((weights w h w' h' x y).map fun e => e.2 * (k' e.1.1 e.1.2).getD k 0).sum := by
    intro k'
    unfold meanBlend
    rw [List.getD_eq_getElem?_getD, List.getElem?_map, List.getElem?_range hk]
    rfl
  rw [get, get, ← mean_line _ (hw.one w h w' h' x y w0 h0 x0 x1 y0 y1)
    (fun i j => (f i j).getD k 0)]
  congr 1
  refine List.map_congr_left fun e he => ?_
  obtain ⟨i0, i1, j0, j1⟩ := hw.inside w h w' h' x y w0 h0 x0 x1 y0 y1 e he
  obtain ⟨l1, l2⟩ := hfg _ _ i0 i1 j0 j1
  rw [(hab _ _ l1).mp ((graded _ _).mp l2), line_get _ _ _ hk]

end

/-! ### Examples -/

section
variable {F H : Type} [Field F]

/-- Resampling float images by weighted means. -/
def meanAll (weights : Weights F) (size : BlockSize) (block : DataBlock F H) (w h : Int) (t : DType)
    (old : List (Elem F H t)) : Bool × List (Elem F H t) :=
  match block, t, old with
  | ⟨.f32, data⟩, .f32, old => (true, List.mapIdx (α := F) (fun k _ =>
      ((weights size.width size.height w h ((k : Int) / size.numChannels % w)
        ((k : Int) / size.numChannels / w)).map fun e => e.2 * List.getD (α := F) data
          ((e.1.2 * size.width + e.1.1) * size.numChannels + (k : Int) % size.numChannels).toNat
          0).sum) old)
  | _, _, old => (false, old)

theorem meanAll_length (weights : Weights F) (size : BlockSize) (block : DataBlock F H) (w h : Int)
    (t : DType) (old : List (Elem F H t)) :
    (meanAll weights size block w h t old).2.length = old.length := by
  obtain ⟨t', data⟩ := block
  cases t' <;> cases t <;> first | rfl | exact List.length_mapIdx

theorem pixelAt_getD {w h x y : Int} {n c : Nat} (data : List F) (hc : c < n) (x0 : 0 ≤ x) (y0 : 0 ≤ y)
    (hw : 0 ≤ w) :
    (pixelAt ⟨0, 0, w, h⟩ n data x y).getD c 0 =
      data.getD ((y * w + x) * (n : Int) + (c : Int)).toNat 0 := by
  unfold pixelAt pixel
  simp only [Int.sub_zero]
  obtain ⟨k, hk⟩ := Int.eq_ofNat_of_zero_le (Int.add_nonneg (Int.mul_nonneg y0 hw) x0)
  rw [hk, Int.toNat_natCast]
  have : (((k : Int) * (n : Int) + (c : Int)).toNat) = k * n + c := by
    exact_mod_cast Int.toNat_natCast (k * n + c)
  rw [List.getD_eq_getElem?_getD, List.getElem?_take_of_lt hc, List.getElem?_drop,
    List.getD_eq_getElem?_getD]
  exact congrArg (fun i => (data[i]?).getD 0) this.symm

variable [FloatLike F]

/-- A library that resamples by weighted means meets the assumption. -/
theorem blends_mean {oiio : Oiio F H} {weights : Weights F} (hw : IsMean weights)
    (h : ∀ size block w h t old, oiio.resample size block true w h t old =
      meanAll weights size block w h t old) : Blends oiio (meanBlend weights) := by
  constructor
  · intro n w h w' h' f g w0 h0 hfg x y x0 x1 y0 y1
    unfold meanBlend
    refine List.map_congr_left fun c _ => congrArg List.sum (List.map_congr_left fun e he => ?_)
    obtain ⟨a1, a2, a3, a4⟩ := hw.inside w h w' h' x y w0 h0 x0 x1 y0 y1 e he
    rw [hfg _ _ a1 a2 a3 a4]
  · intro w b w' b' n data old hs hd hv ho
    have w0 : 0 < w := hs.1
    have b0 : 0 < b := hs.2.1
    obtain ⟨new, hnew⟩ : ∃ new : List F, new = List.mapIdx (α := F) (fun k _ =>
      ((weights w b w' b' ((k : Int) / n % w') ((k : Int) / n / w')).map fun e =>
        e.2 * List.getD (α := F) data ((e.1.2 * w + e.1.1) * n + (k : Int) % n).toNat 0).sum) old :=
      ⟨_, rfl⟩
    have e : oiio.resample ⟨w, b, n⟩ ⟨.f32, data⟩ true w' b' .f32 old = (true, new) :=
      (h _ _ _ _ _ _).trans (congrArg (Prod.mk true) hnew.symm)
    refine ⟨congrArg Prod.fst e, fun x y x0 x1 y0 y1 => ?_⟩
    refine (congrArg (fun l : List F => pixelAt ⟨0, 0, w', b'⟩ n l x y) (congrArg Prod.snd e)).trans ?_
    dsimp only
    have hlen : new.length = old.length := by rw [hnew]; exact List.length_mapIdx
    have hl2 : (pixelAt ⟨0, 0, w', b'⟩ n new x y).length = n := by
      refine pixelAt_length (by simpa [sizeFor] using hv) ?_ ⟨x0, x1, y0, y1⟩
      rw [hlen]
      simpa [sizeFor] using ho
    refine List.ext_getElem (hl2.trans (by simp [meanBlend])) fun c h1 h2 => ?_
    have hc : c < n := by rw [hl2] at h1; exact h1
    rw [← List.getD_eq_getElem _ 0 h1, ← List.getD_eq_getElem _ 0 h2, pixelAt_getD _ hc x0 y0 (by omega)]
    have get : (meanBlend weights n w b w' b' (pixelAt ⟨0, 0, w, b⟩ n data) x y).getD c 0 =
        ((weights w b w' b' x y).map fun e =>
          e.2 * (pixelAt ⟨0, 0, w, b⟩ n data e.1.1 e.1.2).getD c 0).sum := by
      unfold meanBlend
      rw [List.getD_eq_getElem?_getD, List.getElem?_map, List.getElem?_range hc]
      rfl
    rw [get]
    have c0 : (0 : Int) ≤ (c : Int) := Int.natCast_nonneg c
    have c1 : (c : Int) < n := by exact_mod_cast hc
    have k0 : 0 ≤ y * w' + x := Int.add_nonneg (Int.mul_nonneg y0 (by omega)) x0
    have k1 : 0 ≤ (y * w' + x) * n + c := Int.add_nonneg (Int.mul_nonneg k0 (by omega)) c0
    have k2 : ((y * w' + x) * n + c).toNat < old.length := by
      have : (old.length : Int) = w' * b' * n := ho
      have h3 : (y + 1) * w' ≤ b' * w' := Int.mul_le_mul_of_nonneg_right (by omega) (by omega)
      have h4 : (y * w' + x + 1) * n ≤ w' * b' * n :=
        Int.mul_le_mul_of_nonneg_right (by rw [Int.mul_comm w' b']; rw [Int.add_mul] at h3; omega)
          (by omega)
      rw [Int.add_mul] at h4
      omega
    rw [hnew, List.getD_eq_getElem?_getD, List.getElem?_mapIdx, List.getElem?_eq_getElem k2]
    show List.sum _ = _
    rw [Int.toNat_of_nonneg k1, (decode c0 c1).1, (decode c0 c1).2, (decode x0 x1).1, (decode x0 x1).2]
    refine congrArg List.sum (List.map_congr_left fun e he => ?_)
    obtain ⟨a1, a2, a3, a4⟩ := hw.inside w b w' b' x y w0 b0 x0 x1 y0 y1 e he
    rw [pixelAt_getD _ hc a1 a3 (by omega)]

end

section

instance : Fact (Nat.Prime 7) := ⟨by decide⟩

/-- The numbers modulo 7, with their usual order. -/
@[instance_reducible] def zOrder : LinearOrder (ZMod 7) := inferInstanceAs (LinearOrder (Fin 7))

/-- Powers in the numbers modulo 7: to the first power, and squares. -/
@[instance_reducible] def zOps : FloatOps (ZMod 7) where
  toI32 _ := 0
  toU8 _ := 0
  toU16 _ := 0
  powf x p := if p = 1 then x else x * x
  round x := x
  floor x := x
  ceil x := x
  sin _ := 0
  cos _ := 1

@[instance_reducible] def zPi : FloatConst (ZMod 7) := ⟨3⟩

@[instance_reducible] def zBits : FloatBits (ZMod 7) where
  toBits x := x.val
  toBits_lt x := lt_trans (ZMod.val_lt x) (by decide)
  toBits_inj _ _ h := ZMod.val_injective 7 h

@[instance_reducible] def zHalf : HalfLike (ZMod 7) (ZMod 7) := ⟨id, id⟩

attribute [local instance] zOrder zOps zPi zBits zHalf

/-- The mean of two neighbours; 4 is one half. -/
def zWeights : Weights (ZMod 7) := fun w h w' h' x y =>
  [((pickLeft w w' x, pickLeft h h' y), 4),
   ((min (pickLeft w w' x + 1) (w - 1), pickLeft h h' y), 4)]

theorem zMean : IsMean zWeights := by
  constructor
  · intro w h w' h' x y w0 h0 x0 x1 y0 y1 e he
    obtain ⟨a1, a2⟩ := pickLeft_range w0 x0 x1
    obtain ⟨a3, a4⟩ := pickLeft_range h0 y0 y1
    rcases List.mem_cons.mp he with rfl | he
    · exact ⟨a1, a2, a3, a4⟩
    · cases List.mem_singleton.mp he
      dsimp only
      omega
  · intros; rfl

/-- Libraries that resample by means. -/
def zLib : NodeLib (ZMod 7) (ZMod 7) where
  hash bs := bs.sum % 2 ^ 64
  shell _ := none
  pathKind _ := .missing
  bake := { color := ⟨fun px _ _ _ _ _ _ _ => (true, px)⟩,
            deform := ⟨fun _ => none, ⟨fun _ x y => (x, y), fun _ x y => (x, y), fun _ b => b,
              fun _ b => b⟩⟩ }
  lensAccepts _ := true
  oiio := {
    header _ := none
    pixels _ _ _ _ old := old
    hasWriter _ := true
    stores _ := false
    resample size block _ w h t old := meanAll zWeights size block w h t old
    toInt q := if 0 ≤ q then q.floor else q.ceil
    pixels_length _ _ _ _ _ := rfl
    resample_length size block _ w h t old := meanAll_length zWeights size block w h t old
    toInt_fits _ _ _ := rfl }

/-- A node that halves the size. -/
def halfNode : Node (ZMod 7) := ⟨1, .uninitialized,
  .resampleImage { ResampleImageAttrs.new with enable := 1, factor := -1, interpolate := 1 }⟩

/-- A black and a brighter pixel (twice two rows), and a grade waiting. -/
def mixPixels (op : GradeOp (ZMod 7)) : Stream (ZMod 7) (ZMod 7) :=
  { (Stream.new : Stream (ZMod 7) (ZMod 7)) with
    displayWindow := ⟨0, 0, 2, 2⟩, dataWindow := ⟨0, 0, 2, 2⟩
    pixelBlock := ⟨⟨2, 2, 1⟩, ⟨.f32, ([0, 2, 0, 2] : List (ZMod 7))⟩⟩
    colorOps := [op] }

def zWorld : World (ZMod 7) (ZMod 7) := ⟨.withCapacity 0, []⟩

theorem zWorld_off : IsOff zWorld := ⟨rfl, rfl⟩

/-- What the two pixels show, if the grade makes `v` of the brighter one. -/
def mixPicture (v : ZMod 7) : Picture (ZMod 7) :=
  ⟨⟨0, 0, 2, 2⟩, ⟨0, 0, 2, 2⟩, 1, colorSpaceLinear, fun x _ => if x = 0 then [0] else [v]⟩

/-- A grade with the same values in all channels. -/
def zGrade (multiply gamma : ZMod 7) : GradeOp (ZMod 7) :=
  { (GradeOp.new : GradeOp (ZMod 7)) with
    multiplyR := multiply, multiplyG := multiply, multiplyB := multiply, multiplyA := multiply
    gammaR := gamma, gammaG := gamma, gammaB := gamma, gammaA := gamma
    processA := 1 }

/-- The picture of half the size. -/
def halfPicture (v : ZMod 7) : Picture (ZMod 7) :=
  ⟨⟨0, 0, 1, 1⟩, ⟨0, 0, 1, 1⟩, 1, colorSpaceLinear, fun _ _ => [v]⟩

theorem two_still {m g v : ZMod 7} (h0 : (zGrade m g).applySlice [0] 1 = .ok [0])
    (h2 : (zGrade m g).applySlice [2] 1 = .ok [v]) :
    Still zLib.bake.color (mixPixels (zGrade m g)) (mixPicture v) := by
  refine ⟨rfl, rfl, rfl, .inl rfl, (by show ValidSize ⟨2, 2, 1⟩; unfold ValidSize; decide), [0, 2, 0, 2], ⟨[0, 2, 0, 2], rfl, fun _ => rfl,
    fun h => absurd rfl h⟩, rfl, ?_⟩
  intro x y h
  have key : ∀ x y : Fin 2, applyColorMatrix (pixelAt ⟨0, 0, 2, 2⟩ 1 ([0, 2, 0, 2] : List (ZMod 7)) x y)
      1 (Mat4.identity : Mat4 (ZMod 7)) = .ok (if x = 0 then [0] else [2]) := by decide +kernel
  have hxy : (x = 0 ∨ x = 1) ∧ (y = 0 ∨ y = 1) := by
    obtain ⟨a, b, c, d⟩ := h
    change 0 ≤ x at a
    change x < 2 at b
    change 0 ≤ y at c
    change y < 2 at d
    omega
  obtain ⟨rfl | rfl, rfl | rfl⟩ := hxy
  · exact ⟨[0], key 0 0, .step rfl h0 (.nil _)⟩
  · exact ⟨[0], key 0 1, .step rfl h0 (.nil _)⟩
  · exact ⟨[2], key 1 0, .step rfl h2 (.nil _)⟩
  · exact ⟨[2], key 1 1, .step rfl h2 (.nil _)⟩

theorem scaled_half : scaled 2 (-1) = 1 := by unfold scaled; norm_num

theorem scaledTo_half {n : Int} (h : ScaledTo 2 (-1) n) : n = 1 := by
  have h1 := h.inside (by rw [scaled_half]) (by rw [scaled_half]; norm_num)
  rw [scaled_half] at h1
  have h2 : (n : Rat) ≤ (1 : Int) := by exact_mod_cast h1.1
  have h3 : ((1 : Int) : Rat) < ((n + 1 : Int) : Rat) := by push_cast; exact h1.2
  have h4 := Rat.intCast_le_intCast.mp h2
  have h5 := Rat.intCast_lt_intCast.mp h3
  omega

theorem half_scaled : ScaledTo 2 (-1) 1 := by
  obtain ⟨W, T, d, hash, w', -, -, -, h, -⟩ := interpolated_run .debug zLib halfNode 1 modeAll
    (mixPixels (zGrade 1 1)) .new zWorld rfl rfl (by decide) (by decide) zWorld_off
    (blends_mean zMean fun _ _ _ _ _ _ => rfl) (ch := 1) (data := [0, 2, 0, 2]) rfl (.inl rfl)
    (by unfold ValidSize; decide) rfl
  have h' : ScaledTo 2 (-1) W := h
  rw [scaledTo_half h'] at h'
  exact h'

theorem half_mean {v u : ZMod 7} (h : 4 * v = u) :
    IsInterpolated (meanBlend zWeights) (halfNode.getI32 "factor") (mixPicture v) (halfPicture u) := by
  refine ⟨⟨rfl, rfl⟩, half_scaled, half_scaled, rfl, rfl, rfl, fun x y hxy => ?_⟩
  obtain ⟨rfl, rfl⟩ := has_one hxy
  subst h
  revert v
  decide +kernel

/-- With a grade that doubles waiting, the node shows the mean of the doubled pixels. -/
example : ∃ out w', halfNode.run .debug zLib 1 modeAll [mixPixels (zGrade 2 1)] .new zWorld =
    .ok (.valid, out, w') ∧ Still zLib.bake.color out (halfPicture 2) := by
  have hs : ∀ op ∈ [zGrade 2 1], op.getI32 "enable" = 1 → Straight op := by
    intro op ho _
    cases List.mem_singleton.mp ho
    refine ⟨rfl, fun c hc => .inr ?_⟩
    have : c = 0 ∨ c = 1 ∨ c = 2 ∨ c = 3 := by omega
    rcases this with rfl | rfl | rfl | rfl <;> rfl
  obtain ⟨out, w', e, -, -, -, -, h⟩ := C143_interpolated_partial .debug zLib halfNode 1 modeAll
    (mixPixels (zGrade 2 1)) .new zWorld rfl rfl (by decide) (by decide) zWorld_off
    (blends_mean zMean fun _ _ _ _ _ _ => rfl) (two_still (v := 4) (by decide +kernel) (by decide +kernel))
    rfl rfl (C143_fair (fun x => if_pos rfl) zMean (.inl rfl) _ hs)
    (by show scaled 2 (-1) < _; rw [scaled_half]; norm_num)
    (by show scaled 2 (-1) < _; rw [scaled_half]; norm_num)
  exact ⟨out, w', e, h _ (half_mean (by decide +kernel))⟩

/-- C143 fails for other colours: with a grade waiting that squares, the node shows the square of
the mean and not the mean of the squares. -/
theorem C143_counterexample : ∃ (s out : Stream (ZMod 7) (ZMod 7)) (P Q : Picture (ZMod 7))
    (w' : World (ZMod 7) (ZMod 7)), Blends zLib.oiio (meanBlend zWeights) ∧
    Still zLib.bake.color s P ∧ P.space = colorSpaceLinear ∧ s.pixelBlock.block.dtype = .f32 ∧
    halfNode.run .debug zLib 1 modeAll [s] .new zWorld = .ok (.valid, out, w') ∧
    IsInterpolated (meanBlend zWeights) (halfNode.getI32 "factor") P Q ∧
    ¬ Still zLib.bake.color out Q := by
  obtain ⟨W, T, d, hash, w', e, -, -, hW, hT, -, hd, hpx⟩ := interpolated_run .debug zLib halfNode 1
    modeAll (mixPixels (zGrade 1 4)) .new zWorld rfl rfl (by decide) (by decide) zWorld_off
    (blends_mean zMean fun _ _ _ _ _ _ => rfl) (ch := 1) (data := [0, 2, 0, 2]) rfl (.inl rfl)
    (by unfold ValidSize; decide) rfl
  have eW : W = 1 := scaledTo_half hW
  have eT : T = 1 := scaledTo_half hT
  subst eW eT
  refine ⟨_, _, mixPicture 4, halfPicture 2, w', blends_mean zMean fun _ _ _ _ _ _ => rfl,
    two_still (m := 1) (g := 4) (by decide +kernel) (by decide +kernel), rfl, rfl, e,
    half_mean (by decide +kernel), ?_⟩
  rintro ⟨-, -, -, -, -, v, ⟨raw, h1, h2, -⟩, hl, h3⟩
  have hvr := h2 rfl
  subst hvr
  have e0 := Except.ok.inj ((C18_convert_same (⟨⟨1, 1, 1⟩, ⟨.f32, d⟩⟩ :
    PixelBlock (ZMod 7) (ZMod 7))).symm.trans h1)
  have hdata : d = v := by
    injection e0 with e1 e2
    injection e2
  subst hdata
  have h4 := h3 0 0 ⟨by decide, by decide, by decide, by decide⟩
  have h5 : pixelAt ⟨0, 0, 1, 1⟩ 1 d 0 0 = [1] :=
    (hpx 0 0 (by decide) (by decide) (by decide) (by decide)).trans (by decide +kernel)
  obtain ⟨mid, h6, h7⟩ := h4
  have h8 : applyColorMatrix (pixelAt ⟨0, 0, 1, 1⟩ 1 d 0 0) 1 (Mat4.identity : Mat4 (ZMod 7)) =
    .ok mid := h6
  rw [h5] at h8
  have h9 : applyColorMatrix [1] 1 (Mat4.identity : Mat4 (ZMod 7)) = .ok [1] := by decide +kernel
  cases Except.ok.inj (h9.symm.trans h8)
  have h10 : (zGrade 1 4).applySlice [1] 1 = .ok [1] := by decide +kernel
  have h11 : ColorSpec.Carried 1 [zGrade 1 4] [1] [2] := h7
  cases h11 with
  | skip h _ => exact h rfl
  | step _ ha hb =>
    cases Except.ok.inj (h10.symm.trans ha)
    generalize hx : ([2] : List (ZMod 7)) = x at hb
    cases hb
    exact absurd hx (by decide +kernel)

end
end OCG.Props
