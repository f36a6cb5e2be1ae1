import Verif.Proofs.SafeBake
import Verif.Proofs.SafeRule
import Verif.Props.RealNodes
import Verif.Props.IeeeWindow
import Verif.Props.IeeeLut
/-
Property C106: reasonable use of the library does not crash.
-/

namespace OCG.Props

open SafeSpec GraphSpec SizedSpec PictureSpec

section
variable {F H : Type} [FloatLike F] [HalfLike F H] [FloatConst F] [FloatBits F]

omit [HalfLike F H] [FloatConst F] [FloatBits F] in
theorem new_stream_tidy {l : Limits} (hl : l.Workable) : TidyStream l (Stream.new : Stream F H) := by
  have h1 := hl.low
  have h2 := hl.high
  have hw : Within l ⟨0, 0, 4, 4⟩ := by constructor <;> dsimp only <;> omega
  exact ⟨⟨hw, hw, .inl rfl, rfl, rfl, rfl⟩, fun d h => by cases h⟩

/-- A safe node that gets tidy streams returns a tidy stream and keeps the world tidy; only
resampling fails. -/
theorem run_safe (p : Profile) {lib : NodeLib F H} (hk : KeepsLength lib.bake.color)
    {l : Limits} (hl : l.Workable) (hf : WholeNumbers F l) {n : Node F} {frame : F} {mode : Mode}
    {inputs : List (Stream F H)} {prev : Stream F H} {w : World F H}
    (hn : SafeNode p lib l frame n inputs.length) (hi : ∀ s ∈ inputs, TidyStream l s)
    (hp : TidyStream l prev) (hw : TidyWorld p l w) :
    ∃ st out w', n.run p lib frame mode inputs prev w = .ok (st, out, w') ∧ TidyStream l out ∧
      TidyWorld p l w' ∧ (Fails st → n.attrs.nodeType = .resampleImage) := by
  obtain ⟨id, s, attrs⟩ := n
  have h0 := new_stream_tidy (F := F) (H := H) hl
  have hm : TidyStream l (match inputs with
      | [] => (.new : Stream F H)
      | input :: _ => input) := by
    cases inputs with
    | nil => exact h0
    | cons i l => exact hi i List.mem_cons_self
  have nf1 : ∀ {P : Prop}, Fails .valid → P := fun h => by revert h; unfold Fails; simp
  have nf2 : ∀ {P : Prop}, Fails .warning → P := fun h => by revert h; unfold Fails; simp
  have nf3 : ∀ {P : Prop} {c : Prop} [Decidable c],
      Fails (if c then .warning else .valid) → P := by
    intro P c _ h
    split at h
    · exact nf2 h
    · exact nf1 h
  cases attrs <;> simp only [Node.run]
  case null a =>
    cases inputs with
    | nil => exact ⟨_, _, _, rfl, h0, hw, nf2⟩
    | cons i l => exact ⟨_, _, _, rfl, hi _ List.mem_cons_self, hw, nf1⟩
  case readImage a =>
    unfold ReadImageAttrs.compute
    split
    · split
      · exact ⟨_, _, _, rfl, h0, hw, nf2⟩
      · rename_i hen
        dsimp only
        split
        · exact ⟨_, _, _, rfl, h0, hw, nf2⟩
        · rename_i hk
          obtain ⟨spec, hs1, hs2⟩ := hn hen hk
          obtain ⟨im, e, ht⟩ := readImage_ok p hl hs1 hs2
          obtain ⟨w', i, x, e1, k1, k2, -⟩ := lookup_ok hl hw (P := fun _ => True) trivial
            (hit := ()) (a.useCache ≠ 0) _ (make := (do
              let image ← readImage p lib.oiio (filePath lib ⟨id, s, .readImage a⟩ frame)
              .ok (image, ()))) ⟨im, (), by rw [e]; rfl, ht, trivial⟩
          refine ⟨_, _, _, Res.bind_ok.mpr ⟨_, e1, rfl⟩, ⟨k2, fun d h => by cases h⟩, k1, nf1⟩
        · split
          · exact ⟨_, _, _, rfl, ⟨h0.pixels, h0.deformers⟩, hw, nf1⟩
          · exact ⟨_, _, _, rfl, hp, hw, nf1⟩
    · exact ⟨_, _, _, rfl, hp, hw, nf1⟩
  case writeImage a =>
    unfold WriteImageAttrs.compute
    split
    · exact ⟨_, _, _, rfl, h0, hw, nf1⟩
    · rename_i hen
      cases inputs with
      | nil => exact ⟨_, _, _, rfl, h0, hw, nf2⟩
      | cons i il =>
        have h1 := hi _ List.mem_cons_self
        dsimp only
        split
        · exact ⟨_, _, _, rfl, h1, hw, nf1⟩
        · rename_i hex
          have hcr := hn hen hex
          obtain ⟨⟨fl, job⟩, e⟩ : ∃ r, writeProcess p lib i a.filePath frame
              (DataType.ofI32 a.pixelDataType) (CropOnWrite.ofI32 a.cropOnWrite) a.compression =
              .ok r := by
            unfold writeProcess
            dsimp only
            obtain ⟨b, e1, t1, t2, -, -⟩ := bake_ok p hk hl hf (option := .all) (by simp)
              (b := i.toBake) h1.deformers h1.pixels i.imageSpec.colorSpace
              (writeColorSpace (Path.expandString lib.shell a.filePath (frameNum frame)))
              (bakeType (DataType.ofI32 a.pixelDataType) i.pixelBlock)
            obtain ⟨c, e2⟩ : ∃ c, writeCrop (Path.expandString lib.shell a.filePath
                (frameNum frame)) (CropOnWrite.ofI32 a.cropOnWrite) = .ok c := by
              change CropOnWrite.ofI32 a.cropOnWrite ≠ .uninitialized at hcr
              cases hq : CropOnWrite.ofI32 a.cropOnWrite with
              | uninitialized => exact absurd hq hcr
              | disable => exact ⟨_, rfl⟩
              | enable => exact ⟨_, rfl⟩
              | auto => exact ⟨_, rfl⟩
            obtain ⟨r, e3⟩ := writeImage_ok p hl lib.oiio
              (image := ⟨b.block, b.spec, i.displayWindow, b.dataWindow⟩) t1
              (Path.expandString lib.shell a.filePath (frameNum frame)) c a.compression
            exact ⟨r, Res.bind_ok.mpr ⟨b, e1, Res.bind_ok.mpr ⟨c, e2, e3⟩⟩⟩
          exact ⟨_, _, _, Res.bind_ok.mpr ⟨_, e, rfl⟩, h1, ⟨hw.images, hw.count, hw.capacity⟩, nf1⟩
  case grade a =>
    unfold GradeAttrs.compute
    dsimp only
    split
    · exact ⟨_, _, _, rfl, ⟨hm.pixels, hm.deformers⟩, hw, nf3⟩
    · exact ⟨_, _, _, rfl, hm, hw, nf3⟩
  case lensDistort a =>
    have hn' : a.enable ≠ 1 := hn
    unfold LensDistortAttrs.compute
    dsimp only
    rw [if_neg hn']
    exact ⟨_, _, _, rfl, ⟨hm.pixels, hm.deformers⟩, hw, nf3⟩
  case transform a =>
    unfold TransformAttrs.compute
    dsimp only
    refine ⟨_, _, _, rfl, ?_, hw, nf3⟩
    by_cases ha : a.enable = 1
    · simp only [if_pos ha]
      refine ⟨hm.pixels, fun d h hd => ?_⟩
      rcases List.mem_append.mp h with h | h
      · exact hm.deformers d h hd
      · exact ⟨_, List.mem_singleton.mp h⟩
    · simp only [if_neg ha]
      exact ⟨hm.pixels, hm.deformers⟩
  case mergeImage a =>
    unfold MergeImageAttrs.compute
    split
    · exact ⟨_, _, _, rfl, h0, hw, nf2⟩
    · cases inputs with
      | nil => exact ⟨_, _, _, rfl, h0, hw, nf2⟩
      | cons i il =>
        have h1 := hi _ List.mem_cons_self
        have key : ∀ inB : Stream F H, TidyStream l inB → ∃ w' im', lookup p (a.useCache ≠ 0) w
            (Node.hash lib.hash lib.shell ⟨id, s, .mergeImage a⟩ frame
              ((i :: il).map (·.hash))) () (do
                let image ← mergeProcess p lib i inB (MergeImageMode.ofI32 a.mode) a.mix
                .ok (image, ())) = .ok (w', im', ()) ∧
            TidyWorld p l w' ∧ Tidy l im'.pixelBlock im'.dataWindow im'.displayWindow := by
          intro inB h2
          obtain ⟨im, e, ht⟩ : ∃ im, mergeProcess p lib i inB (MergeImageMode.ofI32 a.mode) a.mix =
              .ok im ∧ Tidy l im.pixelBlock im.dataWindow im.displayWindow := by
            unfold mergeProcess
            obtain ⟨ba, e1, t1, t2, -, t3⟩ := bake_ok p hk hl hf (option := .all) (by simp)
              (b := i.toBake) h1.deformers h1.pixels i.imageSpec.colorSpace colorSpaceLinear
              (.known .f32)
            obtain ⟨bb, e2, u1, u2, -, u3⟩ := bake_ok p hk hl hf (option := .all) (by simp)
              (b := inB.toBake) h2.deformers h2.pixels inB.imageSpec.colorSpace colorSpaceLinear
              (.known .f32)
            have t3' := DataType.known.inj (t3 (by simp))
            have u3' := DataType.known.inj (u3 (by simp))
            have u2' : bb.dataWindow = inB.dataWindow := u2
            rw [u2'] at u1
            have hlo := hl.low
            have hhi := hl.high
            have hone : Within l ⟨0, 0, 1, 1⟩ := by constructor <;> dsimp only <;> omega
            obtain ⟨f, r, e3, t⟩ := mergeImages_ok p hl
              (a := ⟨ba.block, ba.spec, i.displayWindow, ba.dataWindow⟩)
              (b := ⟨bb.block, bb.spec, inB.displayWindow, inB.dataWindow⟩)
              (out := ⟨.constantPixel 0 0 0 1, .new, ⟨0, 0, 1, 1⟩, ⟨0, 0, 1, 1⟩⟩) t1 u1
              ⟨hone, hone, .inr rfl, rfl, rfl, rfl⟩ t3'.symm u3'.symm
              (MergeImageMode.ofI32 a.mode) a.mix
            exact ⟨r, Res.bind_ok.mpr ⟨_, e1, Res.bind_ok.mpr ⟨_, e2,
              Res.bind_ok.mpr ⟨_, e3, rfl⟩⟩⟩, t⟩
          obtain ⟨w', im', x, e1, k1, k2, -⟩ := lookup_ok hl hw (P := fun _ => True) trivial
            (hit := ()) (a.useCache ≠ 0)
            (Node.hash lib.hash lib.shell ⟨id, s, .mergeImage a⟩ frame
              ((i :: il).map (·.hash))) (make := (do
                let image ← mergeProcess p lib i inB (MergeImageMode.ofI32 a.mode) a.mix
                .ok (image, ()))) ⟨im, (), by rw [e]; rfl, ht, trivial⟩
          exact ⟨_, _, e1, k1, k2⟩
        cases il with
        | nil =>
          obtain ⟨w', im', e1, k1, k2⟩ := key _ h0
          exact ⟨_, _, _, Res.bind_ok.mpr ⟨_, e1, rfl⟩, ⟨k2, fun d h => by cases h⟩, k1, nf3⟩
        | cons b _ =>
          obtain ⟨w', im', e1, k1, k2⟩ := key b (hi b (by simp))
          exact ⟨_, _, _, Res.bind_ok.mpr ⟨_, e1, rfl⟩, ⟨k2, fun d h => by cases h⟩, k1, nf3⟩
  case cropImage a =>
    unfold CropImageAttrs.compute
    cases inputs with
    | nil => exact ⟨_, _, _, rfl, h0, hw, nf2⟩
    | cons i il =>
      have h1 := hi _ List.mem_cons_self
      dsimp only
      split
      · exact ⟨_, _, _, rfl, h1, hw, nf1⟩
      · rename_i hen
        obtain ⟨hb, hwin⟩ := hn (by simpa using hen : a.enable = 1)
        change a.blackOutside ≠ 1 at hb
        change Within l ⟨a.windowMinX, a.windowMinY, a.windowMaxX, a.windowMaxY⟩ at hwin
        obtain ⟨im, st, e, ht, hd⟩ : ∃ im st, cropProcess p lib i
            ⟨a.windowMinX, a.windowMinY, a.windowMaxX, a.windowMaxY⟩ (a.reformat = 1)
            (a.blackOutside = 1) (a.intersect = 1) = .ok (im, st) ∧
            Tidy l im.pixelBlock im.dataWindow im.displayWindow ∧
            ∀ d ∈ st.deformers, d.enable = 1 → ∃ t, d = .transform t := by
          unfold cropProcess
          obtain ⟨b, e1, t1, t2, t3, -⟩ := bake_ok p hk hl hf (option := .all) (by simp)
            (b := i.toBake) h1.deformers h1.pixels i.imageSpec.colorSpace colorSpaceLinear
            (.known .f32)
          obtain ⟨out, e2, t⟩ := cropImage_ok p hl
            (image := ⟨b.block, b.spec, i.displayWindow, b.dataWindow⟩) t1 hwin (a.reformat = 1)
            (a.intersect = 1)
          rw [decide_eq_false hb]
          exact ⟨out, b.stream, Res.bind_ok.mpr ⟨_, e1, Res.bind_ok.mpr ⟨_, e2, rfl⟩⟩, t,
            fun d h => h1.deformers d (t3 d h)⟩
        obtain ⟨w', im', x, e1, k1, k2, k3⟩ := lookup_ok hl hw
          (P := fun st : Stream F H => ∀ d ∈ st.deformers, d.enable = 1 → ∃ t, d = .transform t)
          h1.deformers (a.useCache ≠ 0)
          (Node.hash lib.hash lib.shell ⟨id, s, .cropImage a⟩ frame
            ((i :: il).map (·.hash))) ⟨im, st, e, ht, hd⟩
        exact ⟨_, _, _, Res.bind_ok.mpr ⟨_, e1, rfl⟩, ⟨k2, k3⟩, k1, nf1⟩
  case viewer a =>
    unfold ViewerAttrs.compute
    split
    · exact ⟨_, _, _, rfl, hp, hw, nf1⟩
    · rename_i hen
      have key : ∀ i : Stream F H, TidyStream l i → ∃ w' im' st,
          lookup p (a.useCache ≠ 0) w
            (Node.hash lib.hash lib.shell ⟨id, s, .viewer a⟩ frame (inputs.map (·.hash))) i
            (viewerProcess p lib i (if decide (a.cropToFormat ≠ 0) then .all
              else BakeOption.ofI32 a.bakeOption) (DataType.ofI32 a.bakePixelDataType)
              (decide (a.cropToFormat ≠ 0)) a.bakeColorSpace) = .ok (w', im', st) ∧
          TidyWorld p l w' ∧ Tidy l im'.pixelBlock im'.dataWindow im'.displayWindow ∧
          ∀ d ∈ st.deformers, d.enable = 1 → ∃ t, d = .transform t := by
        intro i hm
        have hop : (if decide (a.cropToFormat ≠ 0) then .all
            else BakeOption.ofI32 a.bakeOption) ≠ BakeOption.uninitialized := by
          have := hn (by show a.enable ≠ 0; omega)
          change BakeOption.ofI32 a.bakeOption ≠ .uninitialized ∨ a.cropToFormat ≠ 0 at this
          by_cases hc : a.cropToFormat ≠ 0
          · simp [hc]
          · rw [if_neg (by simpa using hc)]
            exact this.resolve_right hc
        generalize (if decide (a.cropToFormat ≠ 0) then .all
            else BakeOption.ofI32 a.bakeOption) = option at hop ⊢
        obtain ⟨im, st, e, ht, hd⟩ : ∃ im st, viewerProcess p lib i option
            (DataType.ofI32 a.bakePixelDataType) (decide (a.cropToFormat ≠ 0)) a.bakeColorSpace =
              .ok (im, st) ∧
            Tidy l im.pixelBlock im.dataWindow im.displayWindow ∧
            ∀ d ∈ st.deformers, d.enable = 1 → ∃ t, d = .transform t := by
          unfold viewerProcess
          obtain ⟨b, e1, t1, t2, t3, -⟩ := bake_ok p hk hl hf hop
            (b := i.toBake) hm.deformers hm.pixels i.imageSpec.colorSpace a.bakeColorSpace
            (DataType.ofI32 a.bakePixelDataType)
          have hd : ∀ d ∈ b.stream.deformers, d.enable = 1 → ∃ t, d = .transform t :=
            fun d h => hm.deformers d (t3 d h)
          cases decide (a.cropToFormat ≠ 0) with
          | true =>
            obtain ⟨out, e2, t⟩ := cropImage_ok p hl
              (image := ⟨b.block, b.spec, i.displayWindow, b.dataWindow⟩) t1
              hm.pixels.displayFits true false
            exact ⟨out, b.stream, Res.bind_ok.mpr ⟨_, e1, Res.bind_ok.mpr ⟨_, e2, rfl⟩⟩, t, hd⟩
          | false =>
            exact ⟨_, b.stream, Res.bind_ok.mpr ⟨_, e1, Res.bind_ok.mpr ⟨_, rfl, rfl⟩⟩, t1, hd⟩
        obtain ⟨w', im', x, e1, k1, k2, k3⟩ := lookup_ok hl hw
          (P := fun st : Stream F H => ∀ d ∈ st.deformers, d.enable = 1 → ∃ t, d = .transform t)
          hm.deformers (a.useCache ≠ 0)
          (Node.hash lib.hash lib.shell ⟨id, s, .viewer a⟩ frame
            (inputs.map (·.hash))) ⟨im, st, e, ht, hd⟩
        exact ⟨_, _, _, e1, k1, k2, k3⟩
      cases inputs with
      | nil =>
        obtain ⟨w', im', st, e1, k1, k2, k3⟩ := key _ h0
        dsimp only
        split
        · refine ⟨_, _, _, Res.bind_ok.mpr ⟨_, e1, rfl⟩, ⟨k2, ?_⟩, k1, nf1⟩
          intro d h
          dsimp only at h
          by_cases hb : (if decide (a.cropToFormat ≠ 0) = true then .all
              else BakeOption.ofI32 a.bakeOption) = BakeOption.all
          · rw [if_pos hb] at h
            cases h
          · rw [if_neg hb] at h
            exact k3 d h
        · exact ⟨_, _, _, rfl, hm, hw, nf1⟩
      | cons i il =>
        obtain ⟨w', im', st, e1, k1, k2, k3⟩ := key i hm
        dsimp only
        split
        · refine ⟨_, _, _, Res.bind_ok.mpr ⟨_, e1, rfl⟩, ⟨k2, ?_⟩, k1, nf1⟩
          intro d h
          dsimp only at h
          by_cases hb : (if decide (a.cropToFormat ≠ 0) = true then .all
              else BakeOption.ofI32 a.bakeOption) = BakeOption.all
          · rw [if_pos hb] at h
            cases h
          · rw [if_neg hb] at h
            exact k3 d h
        · exact ⟨_, _, _, rfl, hm, hw, nf1⟩
  case resampleImage a =>
    unfold ResampleImageAttrs.compute
    cases inputs with
    | nil => exact ⟨_, _, _, rfl, h0, hw, nf2⟩
    | cons i il =>
      have h1 := hi _ List.mem_cons_self
      dsimp only
      split
      · exact ⟨_, _, _, rfl, h1, hw, nf1⟩
      · rename_i hen
        obtain ⟨hone, hup, hdown⟩ := hn (by simpa using hen : a.enable = 1)
        rw [ensure_ok (by
          rcases hone with h | h
          · exact .inl h
          · right
            simpa using h)]
        simp only [bind, Except.bind]
        split
        · rename_i hne
          obtain ⟨f, im, e, ht⟩ := oiioResample_ok p hl lib.oiio
            (src := ⟨i.pixelBlock, i.imageSpec, i.displayWindow, i.dataWindow⟩) h1.pixels .empty
            hne hup hdown (a.interpolate ≠ 0)
          obtain ⟨w', im', x, e1, k1, k2, -⟩ := lookup_ok hl hw (P := fun _ => True) trivial
            (hit := NodeStatus.valid) (a.useCache ≠ 0)
            (Node.hash lib.hash lib.shell ⟨id, s, .resampleImage a⟩ frame
              ((i :: il).map (·.hash))) (make := (do
                let (ok, image) ← resampleProcess p lib i a.factor (a.interpolate ≠ 0)
                .ok (image, if ok = false then NodeStatus.error else NodeStatus.valid)))
            ⟨im, _, Res.bind_ok.mpr ⟨(f, im), e, rfl⟩, ht, trivial⟩
          exact ⟨_, _, _, Res.bind_ok.mpr ⟨_, e1, rfl⟩, ⟨k2, h1.deformers⟩, k1, fun _ => rfl⟩
        · exact ⟨_, _, _, rfl, h1, hw, nf1⟩

omit [HalfLike F H] [FloatConst F] [FloatBits F] in
theorem SafeNode.same {p : Profile} {lib : NodeLib F H} {l : Limits} {frame : F} {n n' : Node F}
    {k : Nat} (hR : SameNode n n') (h : SafeNode p lib l frame n k) :
    SafeNode p lib l frame n' k := by
  obtain ⟨id, st, attrs⟩ := n
  obtain ⟨id', st', attrs'⟩ := n'
  obtain ⟨rfl, rfl⟩ := hR
  exact h

/-- A safe node answers when asked what it needs. -/
theorem safe_validates {p : Profile} {lib : NodeLib F H} {l : Limits} {frame : F} {n : Node F}
    {k : Nat} (h : SafeNode p lib l frame n k) : ValidatesAt (nodeSem p lib) n := by
  intro mode hash ins
  suffices hs : ∃ modes, (nodeSem p lib).validate n mode hash ins = .ok modes by
    obtain ⟨modes, e⟩ := hs
    exact ⟨modes, e, nodeSem_lengths p lib n mode hash ins modes e⟩
  obtain ⟨id, st, attrs⟩ := n
  cases attrs
  case viewer a =>
    change a.enable ≠ 0 → BakeOption.ofI32 a.bakeOption ≠ .uninitialized ∨ a.cropToFormat ≠ 0 at h
    cases ins with
    | nil => exact ⟨_, rfl⟩
    | cons b il =>
      show ∃ modes, a.validate mode (b :: il) = .ok modes
      unfold ViewerAttrs.validate
      dsimp only
      by_cases he : a.enable = 0
      · rw [if_pos he]
        exact ⟨_, rfl⟩
      · rw [if_neg he]
        have hop := h he
        by_cases hc : a.cropToFormat ≠ 0
        · rw [decide_eq_true hc]
          cases BakeOption.ofI32 a.bakeOption <;> exact ⟨_, rfl⟩
        · rw [decide_eq_false hc]
          have ho := hop.resolve_right hc
          cases hb : BakeOption.ofI32 a.bakeOption with
          | uninitialized => exact absurd hb ho
          | _ => exact ⟨_, rfl⟩
  case mergeImage a => exact ⟨_, rfl⟩
  all_goals exact ⟨_, rfl⟩

/-- A safe execution from a tidy world. -/
theorem execution_safe (p : Profile) {lib : NodeLib F H} (srt : EdgeSort)
    (hk : KeepsLength lib.bake.color) {l : Limits} (hl : l.Workable) (hf : WholeNumbers F l)
    {g : Graph (Node F) (Stream F H)} {id : Nat} {frames : List F}
    (h : SafeExecution p lib srt l g id frames) {w : World F H} (hw : TidyWorld p l w)
    (ho : TidyStream l g.output) :
    ∃ enough, ∀ fuel, enough ≤ fuel → ∃ st g' w',
      g.execute (nodeSem p lib) srt fuel id frames w = .ok (st, g', w') ∧ TidyWorld p l w' ∧
      TidyStream l g'.output ∧
      (st = .success ∨ ∃ start i n, At g id start ∧ Upstream g.graph start i ∧
        g.nodes[i]? = some n ∧ n.attrs.nodeType = .resampleImage) := by
  obtain ⟨⟨r, hr⟩, start, hid, hs, ⟨L, hL⟩, hn⟩ := h
  obtain ⟨order, d, e, hi, ht⟩ := leveled_topo srt hr.inv.ends (contains_lt_bound hs) L hL
  have hg : Sound g := hr.inv.sound
  refine ⟨(order.length + 1) ^ order.length + 1, fun fuel hfu => ?_⟩
  cases frames with
  | nil =>
    refine ⟨.success, { g with state := .clean, status := .success }, w, ?_, hw, ho, .inl rfl⟩
    unfold Graph.execute
    rw [find_at.mpr hid]
    dsimp only
    simp only [e, bind, Except.bind, Graph.frameLoop]
  | cons fr0 rest =>
    obtain ⟨st, g', w', e1, -, e3, e4, e5⟩ := execute_safe (sem := nodeSem p lib) (R := SameNode)
      (May := fun n => n.attrs.nodeType = .resampleImage) (Good := TidyWorld p l)
      (Sh := TidyStream l) (frames := fr0 :: rest) hg hid hs (fun n => ⟨rfl, rfl⟩)
      (fun i hu n0 n h0 hR => safe_validates (SafeNode.same hR
        (hn i n0 _ hu h0 (hg.direct srt (hg.upstream_live hs hu)) fr0 List.mem_cons_self)))
      e hi ht (fuel := fuel) (by omega) (by
        intro fr hfr i m n0 n vals prev c hu h0 hR hlen hvals hprev hc
        have hsn := SafeNode.same hR
          (hn i n0 _ hu h0 (hg.direct srt (hg.upstream_live hs hu)) fr hfr)
        rw [← hlen] at hsn
        obtain ⟨st, out, w', e, k1, k2, k3⟩ := run_safe p hk hl hf (mode := m) hsn hvals hprev hc
        exact ⟨{ n with status := st }, st, out, w',
          by simp only [nodeSem, e, bind, Except.bind], hR, k1, k2, fun h => by
            show n0.attrs.nodeType = _
            rw [hR.2]
            exact k3 h⟩) ho hw
    refine ⟨st, g', w', e1, e3, e4, e5.imp (fun h => h) ?_⟩
    rintro ⟨i, n, h1, h2, h3⟩
    exact ⟨start, i, n, hid, h1, h2, h3⟩

omit [FloatLike F] [HalfLike F H] [FloatConst F] [FloatBits F] in
theorem setCapacity_tidy {p : Profile} {l : Limits} {w : World F H} (hw : TidyWorld p l w) {n : Nat}
    (hn : SafeCapacity p l n) :
    ∃ c, w.cache.setCapacity Image.sizeBytes p n = .ok c ∧ TidyWorld p l { w with cache := c } := by
  have hlim : n < allocLimit := by rw [allocLimit_eq]; exact hn.1
  obtain ⟨c, o, hs⟩ := Cache.step_ok (p := p) (size := Image.sizeBytes) w.cache (.setCapacity n)
    ⟨false, true⟩ rfl hw.count hlim
  simp only [Cache.step, bind, Except.bind] at hs
  cases hi : w.cache.setCapacity Image.sizeBytes p n with
  | error e => rw [hi] at hs; cases hs
  | ok c' =>
    have hx := Cache.exact_step (p := p) w.cache c' (.setCapacity n) none ⟨true, true⟩ rfl hw.count hlim
      (by simp [Cache.step, bind, Except.bind, hi])
    refine ⟨c', rfl, hw.images.setCapacity hi, hx, ?_⟩
    obtain ⟨d, _, rfl⟩ := Cache.setCapacity_shape w.cache c' n hi
    exact hn

/-! ### Lookup tables -/

omit [FloatConst F] [FloatBits F] in
/-- The identity table of a reasonable size. -/
theorem safeLut_block {p : Profile} {l : Limits} (hl : l.Workable) {n : Nat}
    (h : SafeLut F p l n) :
    ∃ (b b' : PixelBlock F H),
      PixelBlock.new (F := F) (H := H) p ⟨((n * n : Nat) : Int), (n : Int), 3⟩ (.known .f32) =
        .ok b ∧
      b.updateF32 (fun px => identityLut p px n 3) = .ok b' ∧ b'.block.dtype = .f32 ∧
      Tidy l b' ⟨0, 0, ((n * n : Nat) : Int), n⟩ ⟨0, 0, ((n * n : Nat) : Int), n⟩ := by
  obtain ⟨hw, -⟩ := h
  have hv := hw.valid hl (n := 3) (.inl rfl)
  have hn1 : 1 ≤ n := by have := hw.tall; dsimp only at this; omega
  have e : (((n * n : Nat) : Int) * (n : Int)) * 3 = ((n * n * n * 3 : Nat) : Int) := by
    push_cast; rfl
  have hv' : BlockSpec.ValidSize ⟨((n * n : Nat) : Int), (n : Int), 3⟩ := by
    simpa only [ImageSpecs.sizeFor, sub_zero] using hv
  have hsz : n * n * n * 3 ≤ 2147483647 := by
    have h4 : ((n * n : Nat) : Int) * (n : Int) * 3 ≤ 2147483647 := hv'.2.2.2
    rw [e] at h4
    omega
  have el : (BlockSpec.elements ⟨((n * n : Nat) : Int), (n : Int), 3⟩).toNat = n * n * n * 3 := by
    unfold BlockSpec.elements
    dsimp only
    rw [e]
    omega
  have hnew : PixelBlock.new (F := F) (H := H) p ⟨((n * n : Nat) : Int), (n : Int), 3⟩
      (.known .f32) = .ok (BlockSpec.floatImage ⟨((n * n : Nat) : Int), (n : Int), 3⟩
        (List.replicate (n * n * n * 3) 0)) := by
    rw [← el]
    unfold PixelBlock.new
    exact Res.bind_ok.mpr ⟨_, size_eq p _ hv', rfl⟩
  obtain ⟨out, e1, e2, -⟩ := C58_entries (F := F) p n hsz (List.replicate (n * n * n * 3) 0)
    (by simp)
  refine ⟨_, BlockSpec.floatImage ⟨((n * n : Nat) : Int), (n : Int), 3⟩ out, hnew, ?_, rfl, ?_⟩
  · unfold PixelBlock.updateF32
    exact Res.bind_ok.mpr ⟨_, rfl, Res.bind_ok.mpr ⟨_, e1, rfl⟩⟩
  · refine ⟨hw, hw, .inl rfl, ?_, ?_, ?_⟩
    · show ((n * n : Nat) : Int) = _
      dsimp only
      omega
    · show (n : Int) = _
      dsimp only
      omega
    · show ((out.length : Nat) : Int) = _
      rw [e2]
      dsimp only [BlockSpec.floatImage]
      rw [sub_zero, sub_zero, e]

omit [FloatConst F] [FloatBits F] in
theorem transformLut_made {p : Profile} {lib : ColorLib F} (hk : KeepsLength lib) {l : Limits}
    (hl : l.Workable) {n : Nat} (h : SafeLut F p l n) (src dst : Bytes) :
    ∃ i : Image F H, generateTransformLut p lib n 3 src dst = .ok i ∧
      Tidy l i.pixelBlock i.dataWindow i.displayWindow := by
  obtain ⟨b, b', e1, e2, -, ht⟩ := safeLut_block (H := H) hl h
  obtain ⟨b2, spec, e3, k1, -, k3⟩ := bakeColorspace_ok hk b'
    { (ImageSpec.new : ImageSpec F) with colorSpace := src } src dst
  refine ⟨⟨b2, spec, ⟨0, 0, ((n * n : Nat) : Int), n⟩, ⟨0, 0, ((n * n : Nat) : Int), n⟩⟩, ?_,
    ht.same k1 k3⟩
  unfold generateTransformLut
  exact Res.bind_ok.mpr ⟨_, h.2, Res.bind_ok.mpr ⟨_, e1, Res.bind_ok.mpr ⟨_, e2,
    Res.bind_ok.mpr ⟨_, e3, rfl⟩⟩⟩⟩

omit [FloatConst F] [FloatBits F] in
theorem opsLut_made {p : Profile} {l : Limits} (hl : l.Workable) {n : Nat} (h : SafeLut F p l n)
    (ops : List (GradeOp F)) :
    ∃ i : Image F H, generateOpsLut p n 3 ops = .ok i ∧
      Tidy l i.pixelBlock i.dataWindow i.displayWindow := by
  obtain ⟨b, b', e1, e2, hd, ht⟩ := safeLut_block (H := H) hl h
  obtain ⟨b2, e3, k1, -, k3⟩ := bakeStreamColorgrade_ok hd ht.channels
    { (Stream.new : Stream F H) with colorMatrix := Mat4.identity, colorOps := ops }
  obtain ⟨b3, e4, e5⟩ := Res.bind_ok.mp e3
  cases e5
  refine ⟨⟨b2, { (ImageSpec.new : ImageSpec F) with colorSpace := colorSpaceLinear },
    ⟨0, 0, ((n * n : Nat) : Int), n⟩, ⟨0, 0, ((n * n : Nat) : Int), n⟩⟩, ?_, ht.same k1 k3⟩
  unfold generateOpsLut
  exact Res.bind_ok.mpr ⟨_, h.2, Res.bind_ok.mpr ⟨_, e1, Res.bind_ok.mpr ⟨_, e2,
    Res.bind_ok.mpr ⟨_, e4, rfl⟩⟩⟩⟩

omit [FloatLike F] [HalfLike F H] [FloatConst F] [FloatBits F] in
theorem cached_tidy {p : Profile} {l : Limits} (hl : l.Workable) {w : World F H}
    (hw : TidyWorld p l w) (key : Nat) {make : Res (Image F H)}
    (hm : ∃ i, make = .ok i ∧ Tidy l i.pixelBlock i.dataWindow i.displayWindow) :
    ∃ c i, cached p w.cache key make = .ok (c, i) ∧ TidyWorld p l { w with cache := c } ∧
      Tidy l i.pixelBlock i.dataWindow i.displayWindow := by
  obtain ⟨i, rfl, hi⟩ := hm
  obtain ⟨w', i', x, e, h1, h2, -⟩ := lookup_ok hl hw (P := fun _ : Unit => True) (hit := ())
    trivial true key (make := .ok (i, ())) ⟨i, (), rfl, hi, trivial⟩
  unfold lookup at e
  rw [if_pos rfl] at e
  unfold cached
  split at e
  · rename_i hg
    cases e
    rw [hg]
    exact ⟨_, _, rfl, h1, h2⟩
  · rename_i c hg
    rw [hg]
    simp only [bind, Except.bind] at e ⊢
    split at e
    · cases e
    · rename_i c' hc
      cases e
      exact ⟨c', i, rfl, h1, h2⟩

/-- After reasonable use everything is tidy. -/
theorem session_tidy (p : Profile) {lib : NodeLib F H} (srt : EdgeSort)
    (hk : KeepsLength lib.bake.color) {l : Limits} (hl : l.Workable) (hf : WholeNumbers F l)
    {w : World F H} {outs : List (Stream F H)} (h : SafeSession p lib srt l w outs) :
    TidyWorld p l w ∧ ∀ s ∈ outs, TidyStream l s := by
  induction h with
  | start capacity hc =>
    refine ⟨⟨Cache.good_empty _ rfl, Cache.exact_init _ ?_, hc⟩, ?_⟩
    · rw [allocLimit_eq]; exact hc.1
    · intro s hs
      rw [List.mem_singleton.mp hs]
      exact new_stream_tidy hl
  | capacity n c _ hc e ih =>
    obtain ⟨c', e', ht⟩ := setCapacity_tidy ih.1 hc
    rw [e] at e'
    cases e'
    exact ⟨ht, ih.2⟩
  | execute w' fuel g g' id frames status _ hg hx e ih =>
    obtain ⟨enough, hen⟩ := execution_safe p srt hk hl hf hx ih.1 (ih.2 _ hg)
    obtain ⟨st, g1, w1, e1, k1, k2, -⟩ := hen (max fuel enough) (Nat.le_max_right ..)
    rw [execute_more (Nat.le_max_left fuel enough) e] at e1
    cases e1
    refine ⟨k1, fun s hs => ?_⟩
    rcases List.mem_cons.mp hs with rfl | hs
    · exact k2
    · exact ih.2 s hs
  | transformLut src dst n c i _ hn e ih =>
    obtain ⟨c', i', e', ht, -⟩ := cached_tidy hl ih.1
      (lib.hash (hashBytes (transformLutItems src dst n))) (transformLut_made hk hl hn src dst)
    unfold getTransformLut at e
    rw [e] at e'
    cases e'
    exact ⟨ht, ih.2⟩
  | opsLut s n c i _ hn e ih =>
    obtain ⟨c', i', e', ht, -⟩ := cached_tidy hl ih.1
      (lib.hash (hashBytes (opsLutItems (colorOpsHash lib.hash s.colorOps) n 3)))
      (opsLut_made hl hn s.colorOps)
    unfold getOpsLut at e
    rw [e] at e'
    cases e'
    exact ⟨ht, ih.2⟩

/-- C106: reasonable use does not crash.  In both builds, with any number of graphs that share one
cache: an execution of a node whose upstream nodes are all safe returns, and it succeeds unless
OpenImageIO could not resample a picture.  Afterwards the session is again one of reasonable use,
so the next execution of any such graph returns as well.  Missing: lens distortion and the other
settings that `SafeNode` leaves out. -/
theorem C106_no_crash_partial (p : Profile) {lib : NodeLib F H} (srt : EdgeSort)
    (hk : KeepsLength lib.bake.color) {l : Limits} (hl : l.Workable) (hf : WholeNumbers F l)
    {w : World F H} {outs : List (Stream F H)} (h : SafeSession p lib srt l w outs)
    {g : Graph (Node F) (Stream F H)} (hg : g.output ∈ outs) {id : Nat} {frames : List F}
    (hx : SafeExecution p lib srt l g id frames) :
    ∃ enough, ∀ fuel, enough ≤ fuel → ∃ st g' w',
      g.execute (nodeSem p lib) srt fuel id frames w = .ok (st, g', w') ∧
      SafeSession p lib srt l w' (g'.output :: outs) ∧
      (st = .success ∨ ∃ start i n, At g id start ∧ Upstream g.graph start i ∧
        g.nodes[i]? = some n ∧ n.attrs.nodeType = .resampleImage) := by
  obtain ⟨hw, ho⟩ := session_tidy p srt hk hl hf h
  obtain ⟨enough, hen⟩ := execution_safe p srt hk hl hf hx hw (ho _ hg)
  refine ⟨enough, fun fuel hfu => ?_⟩
  obtain ⟨st, g', w', e, -, -, k⟩ := hen fuel hfu
  exact ⟨st, g', w', e, .execute w' fuel g g' id frames st h hg hx e, k⟩

/-- C106: after reasonable use, the capacity of the cache can be set to any reasonable value. -/
theorem C106_capacity (p : Profile) {lib : NodeLib F H} (srt : EdgeSort)
    (hk : KeepsLength lib.bake.color) {l : Limits} (hl : l.Workable) (hf : WholeNumbers F l)
    {w : World F H} {outs : List (Stream F H)} (h : SafeSession p lib srt l w outs) {n : Nat}
    (hn : SafeCapacity p l n) :
    ∃ c, w.cache.setCapacity Image.sizeBytes p n = .ok c ∧
      SafeSession p lib srt l { w with cache := c } outs := by
  obtain ⟨c, e, -⟩ := setCapacity_tidy (session_tidy p srt hk hl hf h).1 hn
  exact ⟨c, e, .capacity n c h hn e⟩

/-- C106: after reasonable use, lookup tables of a reasonable size can be had, for any names and any
stream. -/
theorem C106_lut (p : Profile) {lib : NodeLib F H} (srt : EdgeSort)
    (hk : KeepsLength lib.bake.color) {l : Limits} (hl : l.Workable) (hf : WholeNumbers F l)
    {w : World F H} {outs : List (Stream F H)} (h : SafeSession p lib srt l w outs) {n : Nat}
    (hn : SafeLut F p l n) (src dst : Bytes) (s : Stream F H) :
    (∃ c i, getTransformLut p lib.hash lib.bake.color src dst n w.cache = .ok (c, i) ∧
      Tidy l i.pixelBlock i.dataWindow i.displayWindow ∧
      SafeSession p lib srt l { w with cache := c } outs) ∧
    ∃ c i, getOpsLut p lib.hash s n 3 w.cache = .ok (c, i) ∧
      Tidy l i.pixelBlock i.dataWindow i.displayWindow ∧
      SafeSession p lib srt l { w with cache := c } outs := by
  have hw := (session_tidy p srt hk hl hf h).1
  constructor
  · obtain ⟨c, i, e, -, ht⟩ := cached_tidy hl hw
      (lib.hash (hashBytes (transformLutItems src dst n))) (transformLut_made hk hl hn src dst)
    exact ⟨c, i, e, ht, .transformLut src dst n c i h hn e⟩
  · obtain ⟨c, i, e, -, ht⟩ := cached_tidy hl hw
      (lib.hash (hashBytes (opsLutItems (colorOpsHash lib.hash s.colorOps) n 3)))
      (opsLut_made hl hn s.colorOps)
    exact ⟨c, i, e, ht, .opsLut s n c i h hn e⟩

/-- C106: after reasonable use, all outputs and all cached pictures are tidy: their windows are
within the limits and not empty, and their blocks have all their values. -/
theorem C106_tidy (p : Profile) {lib : NodeLib F H} (srt : EdgeSort)
    (hk : KeepsLength lib.bake.color) {l : Limits} (hl : l.Workable) (hf : WholeNumbers F l)
    {w : World F H} {outs : List (Stream F H)} (h : SafeSession p lib srt l w outs) :
    (∀ s ∈ outs, TidyStream l s) ∧
    ∀ k i, (k, i) ∈ w.cache.lru → Tidy l i.pixelBlock i.dataWindow i.displayWindow :=
  ⟨(session_tidy p srt hk hl hf h).2, fun _ _ hi => (session_tidy p srt hk hl hf h).1.images _ hi⟩

end

section
open IeeeSpec
open Ieee hiding floor ceil round

/-- C106: single floats hold the whole numbers within all workable limits. -/
theorem C106_single_floats [Libm single32] {l : Limits} (hl : l.Workable) : WholeNumbers F32 l := by
  obtain ⟨b1, b2⟩ := hl.bound
  intro k h1 h2
  have hk : k.natAbs ≤ 2 ^ 24 := by omega
  obtain ⟨a, b⟩ := int_single hk
  constructor
  · show toRange (-2147483648) 2147483647 (Ieee.floor (ofInt k : F32)) = k
    rw [toRange_floor ok_single a, b, Int.floor_intCast]
    omega
  · show toRange (-2147483648) 2147483647 (Ieee.ceil (ofInt k : F32)) = k
    rw [toRange_ceil ok_single a, b, Int.ceil_intCast]
    omega

/-- C106: in single floats, all tables whose image is within workable limits have a reasonable
size. -/
theorem C106_single_luts [Libm single32] (p : Profile) {l : Limits} (hl : l.Workable) {n : Nat}
    (h : Within l ⟨0, 0, ((n * n : Nat) : Int), n⟩) : SafeLut F32 p l n := by
  obtain ⟨-, b2⟩ := hl.bound
  have h1 := h.tall
  have h2 := h.right
  dsimp only at h1 h2
  have hn : n ≤ 256 := by
    by_contra hc
    have : 257 * 257 ≤ n * n := Nat.mul_le_mul (by omega) (by omega)
    omega
  exact ⟨h, C58_single_size p n (by omega) hn⟩

/-- Tables of 64 steps. -/
example [Libm single32] (p : Profile) : SafeLut F32 p ⟨-4000, 16384⟩ 64 :=
  C106_single_luts p ⟨by decide, by decide, by decide⟩ (by constructor <;> decide)

/-- Limits that reach a good way to the left of the origin, and as far to the right as resampling
goes. -/
example [Libm single32] : (⟨-4000, 16384⟩ : Limits).Workable ∧ WholeNumbers F32 ⟨-4000, 16384⟩ :=
  have h : (⟨-4000, 16384⟩ : Limits).Workable := ⟨by decide, by decide, by decide⟩
  ⟨h, C106_single_floats h⟩

end

section
attribute [local instance] finFloat finBits finHalf finPi

/-- A picture of up to a hundred pixels a side. -/
def smallLimits : Limits := ⟨0, 100⟩

theorem smallLimits_workable : smallLimits.Workable := ⟨by decide, by decide, by decide⟩

theorem smallLimits_whole : WholeNumbers (Fin 256) smallLimits := by
  have h : ∀ k : Fin 101,
      FloatLike.toI32 (FloatLike.floor (FloatLike.ofInt (k.val : Int) : Fin 256)) = k.val ∧ FloatLike.toI32 (FloatLike.ceil (FloatLike.ofInt (k.val : Int) : Fin 256)) = k.val := by
    decide +kernel
  intro k h1 h2
  change 0 ≤ k at h1
  change k ≤ 100 at h2
  obtain ⟨m, rfl⟩ := Int.eq_ofNat_of_zero_le h1
  exact h ⟨m, by omega⟩

theorem readCrop_safe (p : Profile) (frames : List (Fin 256)) :
    SafeExecution p twoFiles insSort smallLimits readCrop 2 frames := by
  refine ⟨⟨false, .connect 1 2 0 (.add ⟨2, .uninitialized, .cropImage pixelCrop⟩
    (.add ⟨1, .uninitialized, .readImage readAttrs⟩ (.new .new) rfl) rfl) rfl⟩, 1, ?_, rfl,
    ⟨fun i => 1 - i, ?_⟩, ?_⟩
  · constructor
    · rfl
    · intro k hk
      revert hk
      revert k
      decide
  · rintro u v _ ⟨e, he, rfl, rfl⟩ _
    change e ∈ ([⟨0, 1, 0⟩] : List Edge) at he
    cases List.mem_singleton.mp he
    rfl
  · intro i n ins _ hn _ fr _
    rcases i with _ | _ | i
    · cases hn
      intro _ _
      exact ⟨plainFile 1, rfl, .inl rfl, by decide, by constructor <;> decide,
        by constructor <;> decide, by decide, by decide, by decide, by decide⟩
    · cases hn
      exact fun _ => ⟨by decide, by constructor <;> decide⟩
    · cases hn

/-- Executing a reader and a crop at three frames, with the cache. -/
example (p : Profile) : ∃ enough, ∀ fuel, enough ≤ fuel → ∃ st g' w',
    readCrop.execute (nodeSem p twoFiles) insSort fuel 2 [1, 2, 3] ⟨.withCapacity 160000, []⟩ =
      .ok (st, g', w') ∧ st = .success ∧
    ∃ c, w'.cache.setCapacity Image.sizeBytes p 0 = .ok c := by
  have h : SafeSession p twoFiles insSort smallLimits ⟨.withCapacity 160000, []⟩ [.new] :=
    .start 160000 ⟨by decide, .inr (.inr (by decide))⟩
  have hk : KeepsLength twoFiles.bake.color := fun _ _ _ _ _ _ _ _ => rfl
  obtain ⟨k, hen⟩ := C106_no_crash_partial p insSort hk smallLimits_workable smallLimits_whole h
    (g := readCrop) (by simp [readCrop]) (readCrop_safe p [1, 2, 3])
  refine ⟨k, fun fuel hf => ?_⟩
  obtain ⟨st, g', w', e, hs, hst⟩ := hen fuel hf
  obtain ⟨c, hc, -⟩ := C106_capacity p insSort hk smallLimits_workable smallLimits_whole hs
    (n := 0) ⟨by decide, .inr (.inl rfl)⟩
  refine ⟨st, g', w', e, hst.resolve_right ?_, c, hc⟩
  rintro ⟨start, i, n, -, -, hn, ht⟩
  rcases i with _ | _ | i <;> cases hn <;> cases ht

/-- Executing a reader and a crop after a table of its colour operations was asked for, and asking
for a table of a colour space afterwards. -/
example (p : Profile) : ∃ c i, getOpsLut p twoFiles.hash .new 2 3 (.withCapacity 160000) =
      .ok (c, i) ∧
    ∃ enough, ∀ fuel, enough ≤ fuel → ∃ st g' w',
      readCrop.execute (nodeSem p twoFiles) insSort fuel 2 [1, 2, 3] ⟨c, []⟩ = .ok (st, g', w') ∧
      ∃ c' i', getTransformLut p twoFiles.hash twoFiles.bake.color [1] [2] 2 w'.cache =
        .ok (c', i') := by
  have h : SafeSession p twoFiles insSort smallLimits ⟨.withCapacity 160000, []⟩ [.new] :=
    .start 160000 ⟨by decide, .inr (.inr (by decide))⟩
  have hk : KeepsLength twoFiles.bake.color := fun _ _ _ _ _ _ _ _ => rfl
  have hn : SafeLut (Fin 256) p smallLimits 2 := ⟨by constructor <;> decide, by
    cases p <;> decide +kernel⟩
  obtain ⟨c, i, e, -, h'⟩ := (C106_lut p insSort hk smallLimits_workable smallLimits_whole h hn
    [1] [2] .new).2
  refine ⟨c, i, e, ?_⟩
  obtain ⟨k, hen⟩ := C106_no_crash_partial p insSort hk smallLimits_workable smallLimits_whole h'
    (g := readCrop) (by simp [readCrop]) (readCrop_safe p [1, 2, 3])
  refine ⟨k, fun fuel hf => ?_⟩
  obtain ⟨st, g', w', e', hs, -⟩ := hen fuel hf
  obtain ⟨c', i', e2, -⟩ := (C106_lut p insSort hk smallLimits_workable smallLimits_whole hs hn
    [1] [2] .new).1
  exact ⟨st, g', w', e', c', i', e2⟩

/-- The crash of a computation. -/
def crashOf (r : Res (Computed (Fin 256) (Fin 256))) : Option Panic :=
  match r with
  | .ok _ => none
  | .error e => some e

theorem crashed {r : Res (Computed (Fin 256) (Fin 256))} {e : Panic} (h : crashOf r = some e) :
    r = .error e := by
  cases r with
  | ok x => simp [crashOf] at h
  | error x =>
    simp only [crashOf, Option.some.injEq] at h
    rw [h]

/-- C106: settings that `SafeNode` leaves out do crash: a writer that is told to crop by an unknown
number, a viewer that is told to bake by an unknown number, a crop that asks for black outside, and,
in debug builds, a resample with two inputs. -/
theorem C106_settings_matter :
    (nodeOf (.writeImage { WriteImageAttrs.new with
        enable := 1, execute := 1, cropOnWrite := 7 })).run .release finLib 1 modeAll [onePixel]
        .new noCache = .error .explicit ∧
    (nodeOf (.viewer { fullViewer with bakeOption := 7 })).run .release finLib 1 modeAll
        [onePixel] .new noCache = .error .explicit ∧
    (nodeOf (.cropImage { pixelCrop with blackOutside := 1, windowMaxX := 3 })).run .release finLib 1
        modeAll [onePixel] .new noCache = .error .assertion ∧
    (nodeOf (.resampleImage twiceSize)).run .debug finLib 1 modeAll [onePixel, onePixel] .new
        noCache = .error .assertion := by
  refine ⟨?_, ?_, ?_, ?_⟩ <;> apply crashed <;> decide +kernel

end

end OCG.Props
