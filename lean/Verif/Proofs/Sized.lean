import Verif.Proofs.Relate
import Verif.Proofs.CacheGood
import Verif.Spec.Sized
import Verif.Spec.Picture
/-
Every operation on pixels keeps the number of values that belongs to the size of the block.
-/

namespace OCG

theorem forFrom_keeps {σ : Type} {f : Nat → σ → Res σ} {P : σ → Prop}
    (hf : ∀ i s s', P s → f i s = .ok s' → P s') :
    ∀ (n i : Nat) (s s' : σ), P s → forFrom f n i s = .ok s' → P s' := by
  intro n
  induction n with
  | zero => intro i s s' h e; cases e; exact h
  | succ n ih =>
    intro i s s' h e
    obtain ⟨s1, e1, e2⟩ := Res.bind_ok.mp e
    exact ih _ _ _ (hf _ _ _ h e1) e2

theorem forRange_keeps {σ : Type} {f : Nat → σ → Res σ} {P : σ → Prop}
    (hf : ∀ i s s', P s → f i s = .ok s' → P s') {n : Nat} {s s' : σ} (h : P s)
    (e : forRange n f s = .ok s') : P s' := forFrom_keeps hf n 0 s s' h e

theorem forEach_keeps {σ α : Type} {f : α → σ → Res σ} {P : σ → Prop}
    (hf : ∀ a s s', P s → f a s = .ok s' → P s') :
    ∀ (l : List α) (s s' : σ), P s → forEach f l s = .ok s' → P s' := by
  intro l
  induction l with
  | nil => intro s s' h e; cases e; exact h
  | cons a l ih =>
    intro s s' h e
    obtain ⟨s1, e1, e2⟩ := Res.bind_ok.mp e
    exact ih _ _ (hf _ _ _ h e1) e2

theorem setAt_length {α : Type} {b b' : List α} {i : Nat} {v : α} (e : setAt b i v = .ok b') :
    b'.length = b.length := by
  unfold setAt at e
  split at e <;> cases e
  exact List.length_set

theorem writeFrom_length {F : Type} : ∀ {vs b b' : List F} {i : Nat},
    writeFrom b i vs = .ok b' → b'.length = b.length := by
  intro vs
  induction vs with
  | nil => intro b b' i e; cases e; rfl
  | cons v vs ih =>
    intro b b' i e
    obtain ⟨b1, e1, e2⟩ := Res.bind_ok.mp e
    rw [ih e2, setAt_length e1]

section
variable {F H : Type} [FloatLike F]

theorem pixelLoop_length {f : Vec4 F → Vec4 F} {n : Int} {px out : List F}
    (e : pixelLoop f n px = .ok out) : out.length = px.length := by
  unfold pixelLoop at e
  split at e
  · refine forRange_keeps (P := fun b => b.length = px.length) ?_ rfl e
    intro i s s' h e
    obtain ⟨a, -, e⟩ := Res.bind_ok.mp e
    rw [setAt_length e, h]
  · split at e
    · refine forRange_keeps (P := fun b => b.length = px.length) ?_ rfl e
      intro i s s' h e
      obtain ⟨_, -, e⟩ := Res.bind_ok.mp e
      obtain ⟨_, -, e⟩ := Res.bind_ok.mp e
      obtain ⟨_, -, e⟩ := Res.bind_ok.mp e
      obtain ⟨_, e1, e⟩ := Res.bind_ok.mp e
      obtain ⟨_, e2, e⟩ := Res.bind_ok.mp e
      rw [setAt_length e, setAt_length e2, setAt_length e1, h]
    · split at e
      · refine forRange_keeps (P := fun b => b.length = px.length) ?_ rfl e
        intro i s s' h e
        obtain ⟨_, -, e⟩ := Res.bind_ok.mp e
        obtain ⟨_, -, e⟩ := Res.bind_ok.mp e
        obtain ⟨_, -, e⟩ := Res.bind_ok.mp e
        obtain ⟨_, -, e⟩ := Res.bind_ok.mp e
        obtain ⟨_, e1, e⟩ := Res.bind_ok.mp e
        obtain ⟨_, e2, e⟩ := Res.bind_ok.mp e
        obtain ⟨_, e3, e⟩ := Res.bind_ok.mp e
        rw [setAt_length e, setAt_length e3, setAt_length e2, setAt_length e1, h]
      · cases e

theorem applyColorMatrix_length {px out : List F} {n : Int} {m : Mat4 F}
    (e : applyColorMatrix px n m = .ok out) : out.length = px.length := by
  unfold applyColorMatrix at e
  split at e
  · cases e
  · exact pixelLoop_length e

theorem applyColorOps_length {px out : List F} {n : Int} {ops : List (GradeOp F)}
    (e : applyColorOps ops px n = .ok out) : out.length = px.length := by
  unfold applyColorOps at e
  split at e
  · cases e
  split at e
  · cases e; rfl
  dsimp only at e
  split at e
  · cases e; rfl
  refine forEach_keeps (P := fun b => b.length = px.length) ?_ _ _ _ rfl e
  intro op b b' h e
  unfold GradeOp.applySlice at e
  dsimp only at e
  split at e
  · cases e; exact h
  · unfold applyColorGrade at e
    first
      | rw [pixelLoop_length e, h]
      | (split at e
         · cases e
         · rw [pixelLoop_length e, h])

/-- The block has the number of values computed from its size, and its width and height are those
computed from the window. -/
structure Sized (p : Profile) (b : PixelBlock F H) (window : BBox) : Prop where
  values : b.size.size p = .ok b.block.data.length
  width : window.width p = .ok b.size.width
  height : window.height p = .ok b.size.height

omit [FloatLike F] in
theorem asSliceF32_eq {b : PixelBlock F H} {px : List F} (e : b.asSliceF32 = .ok px) :
    b = ⟨b.size, ⟨.f32, px⟩⟩ := by
  obtain ⟨size, ⟨t, d⟩⟩ := b
  cases t <;> simp only [PixelBlock.asSliceF32] at e <;> cases e
  rfl

variable [HalfLike F H]

theorem convert_sized {b b' : PixelBlock F H} {t : DataType} (e : b.convert t = .ok b') :
    b'.size = b.size ∧ b'.block.data.length = b.block.data.length := by
  unfold PixelBlock.convert at e
  obtain ⟨d, e1, e⟩ := Res.bind_ok.mp e
  cases e
  refine ⟨rfl, ?_⟩
  unfold DataBlock.convert at e1
  split at e1
  · split at e1 <;> cases e1
    · rfl
    · exact List.length_map _
  · cases e1

theorem bakeColorspace_sized {lib : ColorLib F} (hk : PictureSpec.KeepsLength lib)
    {b b' : PixelBlock F H} {spec spec' : ImageSpec F} {src dst : Bytes}
    (e : bakeColorspace lib b spec src dst = .ok (b', spec')) :
    b'.size = b.size ∧ b'.block.data.length = b.block.data.length := by
  unfold bakeColorspace at e
  obtain ⟨c, e1, e⟩ := Res.bind_ok.mp e
  obtain ⟨h1, h2⟩ := convert_sized e1
  split at e
  · cases e; exact ⟨h1, h2⟩
  · obtain ⟨px, e2, e⟩ := Res.bind_ok.mp e
    have h3 := asSliceF32_eq e2
    cases e
    refine ⟨h1, ?_⟩
    rw [← h2, h3]
    exact hk _ _ _ _ _ _ _ _

theorem bakeStreamColorgrade_sized {b b' : PixelBlock F H} {s s' : Stream F H}
    (e : bakeStreamColorgrade b s = .ok (b', s')) :
    b'.size = b.size ∧ b'.block.data.length = b.block.data.length := by
  unfold bakeStreamColorgrade bakeColorgrade PixelBlock.updateF32 at e
  obtain ⟨c, e1, e⟩ := Res.bind_ok.mp e
  obtain ⟨px, e2, e1⟩ := Res.bind_ok.mp e1
  obtain ⟨px', e3, e1⟩ := Res.bind_ok.mp e1
  obtain ⟨px2, e4, e3⟩ := Res.bind_ok.mp e3
  have h3 := asSliceF32_eq e2
  cases e1
  cases e
  refine ⟨rfl, ?_⟩
  rw [h3]
  exact (applyColorOps_length e3).trans (applyColorMatrix_length e4)

theorem dataResize_sized {p : Profile} {b b' : PixelBlock F H} {size : BlockSize} {t : DataType}
    (e : b.dataResize p size t = .ok b') :
    b'.size = size ∧ size.size p = .ok b'.block.data.length := by
  unfold PixelBlock.dataResize at e
  obtain ⟨n, e1, e⟩ := Res.bind_ok.mp e
  obtain ⟨d, e2, e⟩ := Res.bind_ok.mp e
  cases e
  refine ⟨rfl, ?_⟩
  rw [e1]
  unfold DataBlock.dataResize at e2
  split at e2
  · split at e2 <;> cases e2
    · simp only [DataBlock.resizeList, List.length_append, List.length_take, List.length_replicate,
        Except.ok.injEq]
      omega
    · simp
  · cases e2

theorem copyRows_length {α : Type} {p : Profile} {nc : Int} {data crop diff : BBox} {src : List α} :
    ∀ {n : Nat} {y : Int} {dst dst' : List α},
      copyRows p nc data crop diff src n y dst = .ok dst' → dst'.length = dst.length := by
  intro n
  induction n with
  | zero => intro y dst dst' e; cases e; rfl
  | succ n ih =>
    intro y dst dst' e
    simp only [copyRows] at e
    iterate 18 obtain ⟨_, -, e⟩ := Res.bind_ok.mp e
    obtain ⟨d, e1, e⟩ := Res.bind_ok.mp e
    rw [ih e]
    unfold copyRange at e1
    split at e1 <;> cases e1
    simp only [List.length_append, List.length_take, List.length_drop]
    omega

theorem fromPixelBlock_sized {p : Profile} {b b' : PixelBlock F H} {data crop : BBox}
    (e : b.fromPixelBlock p data crop = .ok b') : Sized p b' crop := by
  unfold PixelBlock.fromPixelBlock at e
  obtain ⟨dw, -, e⟩ := Res.bind_ok.mp e
  split at e
  · cases e
  obtain ⟨dh, -, e⟩ := Res.bind_ok.mp e
  split at e
  · cases e
  obtain ⟨w, ew, e⟩ := Res.bind_ok.mp e
  obtain ⟨h, eh, e⟩ := Res.bind_ok.mp e
  obtain ⟨new, en, e⟩ := Res.bind_ok.mp e
  obtain ⟨area, -, e⟩ := Res.bind_ok.mp e
  have hnew : new.size = ⟨w, h, b.size.numChannels⟩ ∧
      (⟨w, h, b.size.numChannels⟩ : BlockSize).size p = .ok new.block.data.length := by
    unfold PixelBlock.new DataBlock.new at en
    obtain ⟨n, e1, en⟩ := Res.bind_ok.mp en
    obtain ⟨d, e2, en⟩ := Res.bind_ok.mp en
    cases e2
    cases en
    exact ⟨rfl, by rw [e1]; simp⟩
  split at e
  · cases e
    exact ⟨by rw [hnew.1, hnew.2], by rw [hnew.1]; exact ew, by rw [hnew.1]; exact eh⟩
  · obtain ⟨d, ed, e⟩ := Res.bind_ok.mp e
    cases e
    refine ⟨?_, ew, eh⟩
    dsimp only
    rw [hnew.2, copyRows_length ed, List.length_replicate]
    rfl

theorem cropImage_sized {p : Profile} {image out : Image F H} {crop : BBox}
    {reformat black intersect : Bool}
    (e : cropImage p image crop reformat black intersect = .ok out) :
    Sized p out.pixelBlock out.dataWindow := by
  unfold cropImage at e
  obtain ⟨data, -, e⟩ := Res.bind_ok.mp e
  obtain ⟨block, e1, e⟩ := Res.bind_ok.mp e
  obtain ⟨w, e2, e⟩ := Res.bind_ok.mp e
  obtain ⟨_, e3, e⟩ := Res.bind_ok.mp e
  obtain ⟨h, e4, e⟩ := Res.bind_ok.mp e
  obtain ⟨_, e5, e⟩ := Res.bind_ok.mp e
  cases e
  have k3 : w = block.size.width := by
    by_contra hc; unfold ensure at e3; rw [if_neg hc] at e3; cases e3
  have k5 : h = block.size.height := by
    by_contra hc; unfold ensure at e5; rw [if_neg hc] at e5; cases e5
  exact ⟨(fromPixelBlock_sized e1).values, by rw [e2, k3], by rw [e4, k5]⟩

theorem pixelsRemapCoords_sized {p : Profile} {display : BBox} {coords : List F}
    {src : PixelBlock F H} {srcWindow : BBox} {dst dst' : PixelBlock F H}
    (e : pixelsRemapCoords p display coords src srcWindow dst = .ok dst') :
    dst'.size = dst.size ∧ dst'.block.data.length = dst.block.data.length := by
  unfold pixelsRemapCoords at e
  obtain ⟨_, -, e⟩ := Res.bind_ok.mp e
  obtain ⟨_, -, e⟩ := Res.bind_ok.mp e
  obtain ⟨_, -, e⟩ := Res.bind_ok.mp e
  split at e
  · cases e; exact ⟨rfl, rfl⟩
  obtain ⟨px, ep, e⟩ := Res.bind_ok.mp e
  iterate 9 obtain ⟨_, -, e⟩ := Res.bind_ok.mp e
  obtain ⟨r, er, e⟩ := Res.bind_ok.mp e
  cases e
  refine ⟨rfl, ?_⟩
  rw [asSliceF32_eq ep]
  refine forRange_keeps (P := fun st : List F × Nat => st.1.length = px.length) ?_ rfl er
  intro dy s s' h e
  refine forRange_keeps (P := fun st : List F × Nat => st.1.length = px.length) ?_ h e
  intro dx s s' h e
  unfold remapStep at e
  dsimp only at e
  iterate 5 obtain ⟨_, -, e⟩ := Res.bind_ok.mp e
  obtain ⟨buf, e1, e⟩ := Res.bind_ok.mp e
  cases e
  exact (writeFrom_length e1).trans h

theorem applyDeformersToPixels_sized [FloatConst F] {p : Profile} {lib : DeformLib F}
    {ds : List (Deformer F)} {display : BBox} {src : PixelBlock F H} {srcWindow : BBox}
    {dst dst' : PixelBlock F H} {window : BBox} (h : Sized p src srcWindow)
    (e : applyDeformersToPixels p lib ds display src srcWindow dst = .ok (dst', window)) :
    Sized p dst' window := by
  unfold applyDeformersToPixels at e
  split at e
  · cases e; exact h
  dsimp only at e
  split at e
  · cases e; exact h
  obtain ⟨tmp, -, e⟩ := Res.bind_ok.mp e
  obtain ⟨w, ew, e⟩ := Res.bind_ok.mp e
  obtain ⟨h', eh, e⟩ := Res.bind_ok.mp e
  obtain ⟨d, ed, e⟩ := Res.bind_ok.mp e
  iterate 4 obtain ⟨_, -, e⟩ := Res.bind_ok.mp e
  obtain ⟨d2, e2, e⟩ := Res.bind_ok.mp e
  cases e
  obtain ⟨k1, k2⟩ := dataResize_sized ed
  obtain ⟨k3, k4⟩ := pixelsRemapCoords_sized e2
  exact ⟨by rw [k3, k1, k2, k4], by rw [k3, k1]; exact ew, by rw [k3, k1]; exact eh⟩

theorem Sized.same {p : Profile} {b b' : PixelBlock F H} {w : BBox} (h : Sized p b w)
    (e : b'.size = b.size ∧ b'.block.data.length = b.block.data.length) : Sized p b' w :=
  ⟨by rw [e.1, e.2]; exact h.values, by rw [e.1]; exact h.width, by rw [e.1]; exact h.height⟩

theorem bake_sized [FloatConst F] {p : Profile} {lib : BakeLib F}
    (hk : PictureSpec.KeepsLength lib.color) {option : BakeOption} {display : BBox}
    {b b' : Baked F H} {src dst : Bytes} {t : DataType} (h : Sized p b.block b.dataWindow)
    (e : bake p lib option display b src dst t = .ok b') : Sized p b'.block b'.dataWindow := by
  unfold bake at e
  cases option
  case uninitialized => cases e
  case nothing => cases e; exact h
  case colorSpace =>
    obtain ⟨⟨b1, s1⟩, e1, e⟩ := Res.bind_ok.mp e
    obtain ⟨b2, e2, e⟩ := Res.bind_ok.mp e
    cases e
    exact (h.same (bakeColorspace_sized hk e1)).same (convert_sized e2)
  case colorSpaceAndGrade =>
    obtain ⟨⟨b1, s1⟩, e1, e⟩ := Res.bind_ok.mp e
    obtain ⟨⟨b2, s2⟩, e2, e⟩ := Res.bind_ok.mp e
    obtain ⟨⟨b3, s3⟩, e3, e⟩ := Res.bind_ok.mp e
    obtain ⟨b4, e4, e⟩ := Res.bind_ok.mp e
    cases e
    exact (((h.same (bakeColorspace_sized hk e1)).same (bakeStreamColorgrade_sized e2)).same
      (bakeColorspace_sized hk e3)).same (convert_sized e4)
  case all =>
    obtain ⟨⟨b1, s1⟩, e1, e⟩ := Res.bind_ok.mp e
    obtain ⟨⟨b2, s2⟩, e2, e⟩ := Res.bind_ok.mp e
    obtain ⟨⟨b3, w3⟩, e3, e⟩ := Res.bind_ok.mp e
    obtain ⟨⟨b4, s4⟩, e4, e⟩ := Res.bind_ok.mp e
    obtain ⟨b5, e5, e⟩ := Res.bind_ok.mp e
    cases e
    have h3 := applyDeformersToPixels_sized
      ((h.same (bakeColorspace_sized hk e1)).same (bakeStreamColorgrade_sized e2)) e3
    exact (h3.same (bakeColorspace_sized hk e4)).same (convert_sized e5)

theorem mergeImages_sized {p : Profile} {mode : MergeImageMode} {a b out out' : Image F H} {mix : F}
    {flag : Bool} (h : Sized p out.pixelBlock out.dataWindow)
    (e : mergeImages p mode a b mix out = .ok (flag, out')) :
    Sized p out'.pixelBlock out'.dataWindow := by
  unfold mergeImages at e
  split at e
  · cases e; exact h
  obtain ⟨_, -, e⟩ := Res.bind_ok.mp e
  obtain ⟨_, -, e⟩ := Res.bind_ok.mp e
  obtain ⟨w, ew, e⟩ := Res.bind_ok.mp e
  obtain ⟨h', eh, e⟩ := Res.bind_ok.mp e
  obtain ⟨d, ed, e⟩ := Res.bind_ok.mp e
  obtain ⟨px, ep, e⟩ := Res.bind_ok.mp e
  obtain ⟨r, er, e⟩ := Res.bind_ok.mp e
  cases e
  obtain ⟨k1, k2⟩ := dataResize_sized ed
  have hl : d.block.data.length = px.length := by rw [asSliceF32_eq ep]; rfl
  have hr : r.1.length = px.length := by
    refine forRange_keeps (P := fun st : List F × Nat => st.1.length = px.length) ?_ rfl er
    intro dy s s' h e
    refine forRange_keeps (P := fun st : List F × Nat => st.1.length = px.length) ?_ h e
    intro dx s s' h e
    unfold mergeStep at e
    dsimp only at e
    iterate 3 obtain ⟨_, -, e⟩ := Res.bind_ok.mp e
    obtain ⟨buf, e1, e⟩ := Res.bind_ok.mp e
    cases e
    exact (writeFrom_length e1).trans h
  refine ⟨?_, ?_, ?_⟩
  · rw [k1, k2, hl]; exact congrArg _ hr.symm
  · dsimp only; rw [k1]; exact ew
  · dsimp only; rw [k1]; exact eh

theorem cint_eq {x y : Int} (e : cint x = .ok y) : y = x := by
  unfold cint i32 at e
  split at e <;> cases e
  rfl

theorem oiioAllocate_sized {p : Profile} {spec : FileSpec F} {image out : Image F H}
    (hw : InI32 spec.width) (hh : InI32 spec.height) (e : oiioAllocate p spec image = .ok out) :
    Sized p out.pixelBlock out.dataWindow := by
  unfold oiioAllocate at e
  obtain ⟨a1, e1, e⟩ := Res.bind_ok.mp e
  obtain ⟨a2, e2, e⟩ := Res.bind_ok.mp e
  obtain ⟨_, -, e⟩ := Res.bind_ok.mp e
  obtain ⟨_, -, e⟩ := Res.bind_ok.mp e
  obtain ⟨a3, e3, e⟩ := Res.bind_ok.mp e
  obtain ⟨a4, e4, e⟩ := Res.bind_ok.mp e
  obtain ⟨a5, e5, e⟩ := Res.bind_ok.mp e
  obtain ⟨a6, e6, e⟩ := Res.bind_ok.mp e
  obtain ⟨_, -, e⟩ := Res.bind_ok.mp e
  obtain ⟨_, -, e⟩ := Res.bind_ok.mp e
  obtain ⟨c, -, e⟩ := Res.bind_ok.mp e
  obtain ⟨d, ed, e⟩ := Res.bind_ok.mp e
  cases e
  obtain ⟨k1, k2⟩ := dataResize_sized ed
  have c1 := cint_eq e1
  have c2 := cint_eq e2
  have c3 := cint_eq e3
  have c4 := cint_eq e4
  have c5 := cint_eq e5
  have c6 := cint_eq e6
  refine ⟨?_, ?_, ?_⟩
  · dsimp only; rw [k1, k2]
  · dsimp only [BBox.width]; rw [k1, show a5 - a3 = spec.width by omega, i32_of hw]
  · dsimp only [BBox.height]; rw [k1, show a6 - a4 = spec.height by omega, i32_of hh]

theorem readImage_sized {p : Profile} {oiio : Oiio F H} (ho : SizedSpec.IntSizes oiio)
    {path : Bytes} {out : Image F H} (e : readImage p oiio path = .ok out) :
    Sized p out.pixelBlock out.dataWindow := by
  unfold readImage at e
  obtain ⟨⟨f, i⟩, e1, e⟩ := Res.bind_ok.mp e
  cases e
  have h0 : Sized p (Image.empty : Image F H).pixelBlock (Image.empty : Image F H).dataWindow :=
    ⟨rfl, rfl, rfl⟩
  unfold oiioRead at e1
  split at e1
  · cases e1; exact h0
  · rename_i spec hs
    split at e1
    · cases e1; exact h0
    · obtain ⟨a, ea, e1⟩ := Res.bind_ok.mp e1
      cases e1
      exact (oiioAllocate_sized (ho _ _ hs).1 (ho _ _ hs).2 ea).same
        ⟨rfl, oiio.pixels_length _ _ _ _ _⟩

theorem oiioResample_sized {p : Profile} {oiio : Oiio F H} {src dst out : Image F H} {factor : Int}
    {interpolate flag : Bool}
    (e : oiioResample p oiio src dst factor interpolate = .ok (flag, out)) :
    Sized p out.pixelBlock out.dataWindow := by
  unfold oiioResample at e
  dsimp only at e
  obtain ⟨a, ea, e⟩ := Res.bind_ok.mp e
  have hr : ∀ l, InI32 (resampleLength oiio l factor) := by
    intro l
    unfold resampleLength InI32
    omega
  cases e
  exact (oiioAllocate_sized (hr _) (hr _) ea).same ⟨rfl, oiio.resample_length _ _ _ _ _ _ _⟩

end

section
variable {F H : Type} [FloatLike F] [HalfLike F H]

theorem InI32.of_i32 {p : Profile} {x y : Int} (e : i32 p x = .ok y) : InI32 y := by
  unfold i32 at e
  split at e
  · cases e; assumption
  · cases p <;> cases e
    unfold wrapI32 InI32
    have h1 := Int.bmod_lt (x := x) (m := 4294967296) (by decide)
    have h2 := Int.le_bmod (x := x) (m := 4294967296) (by decide)
    omega

omit [HalfLike F H] in
theorem lutImageSize_int {p : Profile} (hF : ∀ x : F, InI32 (FloatLike.toI32 x)) {n c w h : Int}
    (hn : InI32 n) (e : lutImageSize F p n c = .ok (w, h)) : InI32 w ∧ InI32 h := by
  unfold lutImageSize at e
  split at e
  · cases e; exact ⟨hn, by decide⟩
  · split at e
    · cases e; exact ⟨hn, hn⟩
    · split at e
      · obtain ⟨a, e1, e⟩ := Res.bind_ok.mp e
        obtain ⟨b, -, e⟩ := Res.bind_ok.mp e
        obtain ⟨c, -, e⟩ := Res.bind_ok.mp e
        cases e
        exact ⟨.of_i32 e1, hF _⟩
      · cases e

omit [HalfLike F H] in
theorem identityLut_length {p : Profile} {img out : List F} {n c : Int}
    (e : identityLut p img n c = .ok out) : out.length = img.length := by
  unfold identityLut at e
  obtain ⟨_, -, e⟩ := Res.bind_ok.mp e
  dsimp only at e
  split at e
  · refine forRange_keeps (P := fun b => b.length = img.length) ?_ rfl e
    intro i s s' h e
    rw [setAt_length e, h]
  · obtain ⟨_, -, e⟩ := Res.bind_ok.mp e
    obtain ⟨_, -, e⟩ := Res.bind_ok.mp e
    refine forRange_keeps (P := fun b => b.length = img.length) ?_ rfl e
    intro i s s' h e
    obtain ⟨_, e1, e⟩ := Res.bind_ok.mp e
    obtain ⟨_, e2, e⟩ := Res.bind_ok.mp e
    rw [setAt_length e, setAt_length e2, setAt_length e1, h]

theorem updateF32_sized {b b' : PixelBlock F H} {f : List F → Res (List F)}
    (hf : ∀ px px', f px = .ok px' → px'.length = px.length) (e : b.updateF32 f = .ok b') :
    b'.size = b.size ∧ b'.block.data.length = b.block.data.length := by
  unfold PixelBlock.updateF32 at e
  obtain ⟨px, e2, e⟩ := Res.bind_ok.mp e
  obtain ⟨px', e3, e⟩ := Res.bind_ok.mp e
  cases e
  refine ⟨rfl, ?_⟩
  rw [asSliceF32_eq e2]
  exact hf _ _ e3

theorem new_sized {p : Profile} {b : PixelBlock F H} {w h c : Int} (hw : InI32 w) (hh : InI32 h)
    (e : PixelBlock.new p ⟨w, h, c⟩ (.known .f32) = .ok b) : Sized p b ⟨0, 0, w, h⟩ := by
  unfold PixelBlock.new DataBlock.new at e
  obtain ⟨n, e1, e⟩ := Res.bind_ok.mp e
  obtain ⟨d, e2, e⟩ := Res.bind_ok.mp e
  cases e2
  cases e
  refine ⟨?_, ?_, ?_⟩
  · dsimp only; rw [e1, List.length_replicate]
  · dsimp only [BBox.width]; rw [Int.sub_zero]; exact i32_of hw
  · dsimp only [BBox.height]; rw [Int.sub_zero]; exact i32_of hh

theorem transformLut_sized {p : Profile} {lib : ColorLib F} (hk : PictureSpec.KeepsLength lib)
    (hF : ∀ x : F, InI32 (FloatLike.toI32 x)) {n c : Int} (hn : InI32 n) {src dst : Bytes}
    {image : Image F H} (e : generateTransformLut p lib n c src dst = .ok image) :
    Sized p image.pixelBlock image.dataWindow := by
  unfold generateTransformLut at e
  obtain ⟨⟨w, h⟩, e1, e⟩ := Res.bind_ok.mp e
  obtain ⟨b1, e2, e⟩ := Res.bind_ok.mp e
  obtain ⟨b2, e3, e⟩ := Res.bind_ok.mp e
  obtain ⟨⟨b3, s⟩, e4, e⟩ := Res.bind_ok.mp e
  cases e
  obtain ⟨hw, hh⟩ := lutImageSize_int hF hn e1
  exact ((new_sized hw hh e2).same (updateF32_sized (fun _ _ => identityLut_length) e3)).same
    (bakeColorspace_sized hk e4)

theorem opsLut_sized {p : Profile} (hF : ∀ x : F, InI32 (FloatLike.toI32 x)) {n c : Int}
    (hn : InI32 n) {ops : List (GradeOp F)} {image : Image F H}
    (e : generateOpsLut p n c ops = .ok image) : Sized p image.pixelBlock image.dataWindow := by
  unfold generateOpsLut at e
  obtain ⟨⟨w, h⟩, e1, e⟩ := Res.bind_ok.mp e
  obtain ⟨b1, e2, e⟩ := Res.bind_ok.mp e
  obtain ⟨b2, e3, e⟩ := Res.bind_ok.mp e
  obtain ⟨b3, e4, e⟩ := Res.bind_ok.mp e
  cases e
  obtain ⟨hw, hh⟩ := lutImageSize_int hF hn e1
  refine ((new_sized hw hh e2).same (updateF32_sized (fun _ _ => identityLut_length) e3)).same
    (updateF32_sized ?_ e4)
  intro px px' e
  obtain ⟨_, e1, e⟩ := Res.bind_ok.mp e
  rw [applyColorOps_length e, applyColorMatrix_length e1]

end

section
variable {F H : Type}

/-- A lookup in a cache of sized images, where a miss makes a sized image. -/
theorem lookup_good {X : Type} {G : Nat → Image F H → Prop} {p : Profile} {u : Bool}
    {w w' : World F H} {key : Nat} {hit x : X} {make : Res (Image F H × X)} {i : Image F H}
    (hw : Cache.Good G w.cache) (hm : ∀ i x, make = .ok (i, x) → G key i)
    (e : lookup p u w key hit make = .ok (w', i, x)) : Cache.Good G w'.cache ∧ G key i := by
  unfold lookup at e
  split at e
  · obtain ⟨h1, h2⟩ := hw.get key
    split at e
    · rename_i c im hg
      rw [hg] at h1 h2
      cases e
      exact ⟨h1, h2 _ rfl⟩
    · rename_i c hg
      rw [hg] at h1
      obtain ⟨⟨i', x'⟩, e1, e⟩ := Res.bind_ok.mp e
      obtain ⟨c', e2, e⟩ := Res.bind_ok.mp e
      cases e
      exact ⟨h1.insert (hm _ _ e1) e2, hm _ _ e1⟩
  · obtain ⟨⟨i', x'⟩, e1, e⟩ := Res.bind_ok.mp e
    cases e
    exact ⟨hw, hm _ _ e1⟩

end
end OCG
