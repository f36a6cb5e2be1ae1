import Verif.Props.Picture
import Verif.Props.Oiio
/-
C64 for resample nodes.
-/

namespace OCG.Props

open BlockSpec OiioSpec ComputeSpec
open CacheSpec (IsOff lookup_off_mpr)

set_option linter.unusedSimpArgs false

section
variable {F H : Type} [FloatLike F] [HalfLike F H] [FloatConst F] [FloatBits F]

/-- C64 for resample nodes that are switched on: the image of the output is what OpenImageIO makes of
the image of the input, with the size given by the factor and the interpolation asked for; the node
fails if OpenImageIO does; everything waiting in the stream stays. -/
theorem C64_node (p : Profile) (lib : NodeLib F H) (n : Node F) (frame : F) (mode : Mode)
    (input prev : Stream F H) (w : World F H) (ht : n.attrs.nodeType = .resampleImage)
    (he : n.getI32 "enable" = 1) (hf : n.getI32 "factor" ≠ 0) (hw : IsOff w)
    (h1 : 1 ≤ input.pixelBlock.size.numChannels) (h7 : input.pixelBlock.size.numChannels ≤ 7) :
    ∃ st out w', n.run p lib frame mode [input] prev w = .ok (st, out, w') ∧ IsOff w' ∧
      w'.writes = w.writes ∧
      ScaledTo input.pixelBlock.size.width (n.getI32 "factor") out.pixelBlock.size.width ∧
      ScaledTo input.pixelBlock.size.height (n.getI32 "factor") out.pixelBlock.size.height ∧
      out.dataWindow = ⟨0, 0, out.pixelBlock.size.width, out.pixelBlock.size.height⟩ ∧
      out.displayWindow = out.dataWindow ∧
      out.pixelBlock.block.dtype = input.pixelBlock.block.dtype ∧
      (∃ old, (st, out.pixelBlock.block.data) =
        let r := lib.oiio.resample input.pixelBlock.size input.pixelBlock.block
          (decide (n.getI32 "interpolate" ≠ 0)) out.pixelBlock.size.width
          out.pixelBlock.size.height out.pixelBlock.block.dtype old
        (if r.1 then NodeStatus.valid else .error, r.2)) ∧
      out.imageSpec = input.imageSpec ∧ out.colorMatrix = input.colorMatrix ∧
      out.colorOps = input.colorOps ∧ out.deformers = input.deformers := by
  obtain ⟨id, st, attrs⟩ := n
  cases attrs <;> simp only [NodeAttrs.nodeType, reduceCtorEq] at ht
  rename_i a
  simp only [attr_eval] at he hf ⊢
  obtain ⟨flag, image, e, -, hd, -⟩ := C64_succeeds p lib.oiio
    ⟨input.pixelBlock, input.imageSpec, input.displayWindow, input.dataWindow⟩ .empty a.factor
    (decide (a.interpolate ≠ 0)) h1 h7
  obtain ⟨k1, k2, k3, k4⟩ := C64_dimensions _ _ _ _ _ _ _ _ e
  have hmade : ∃ old, (flag, image.pixelBlock.block.data) = lib.oiio.resample input.pixelBlock.size
      input.pixelBlock.block (decide (a.interpolate ≠ 0)) image.pixelBlock.size.width
      image.pixelBlock.size.height image.pixelBlock.block.dtype old := by
    unfold oiioResample at e
    dsimp only at e
    obtain ⟨b, e1, e⟩ := Res.bind_ok.mp e
    obtain ⟨-, -, -, m, -, h3⟩ := allocate_windows e1
    obtain ⟨_, -, h3⟩ := Res.bind_ok.mp h3
    obtain ⟨_, -, h3⟩ := Res.bind_ok.mp h3
    simp only [Except.ok.injEq] at h3
    simp only [Except.ok.injEq, Prod.mk.injEq] at e
    obtain ⟨e2, e3⟩ := e
    subst e2 e3
    refine ⟨b.pixelBlock.block.data, ?_⟩
    dsimp only
    rw [← h3]
  obtain ⟨w', e1, hw', hwr⟩ := lookup_off_mpr (p := p) (u := decide (a.useCache ≠ 0))
    (key := Node.hash lib.hash lib.shell ⟨id, st, .resampleImage a⟩ frame [input.hash])
    (make := do
      let (ok, image) ← resampleProcess p lib input a.factor (decide (a.interpolate ≠ 0))
      .ok (image, if ok = false then NodeStatus.error else NodeStatus.valid))
    (hit := NodeStatus.valid) hw (Res.bind_ok.mpr ⟨_, e, rfl⟩)
  obtain ⟨old, ho⟩ := hmade
  refine ⟨if flag = false then .error else .valid, { input with
      dataWindow := image.dataWindow, displayWindow := image.displayWindow
      pixelBlock := image.pixelBlock
      hash := Node.hash lib.hash lib.shell ⟨id, st, .resampleImage a⟩ frame [input.hash] },
    w', ?_, hw', hwr, k1, k2, k3, k4, hd, ⟨old, ?_⟩, rfl, rfl, rfl, rfl⟩
  · simp only [Node.run, ResampleImageAttrs.compute, he, hf, ne_eq, not_true_eq_false, if_false,
      not_false_eq_true, if_true, List.length_nil, or_true, ensure, List.map_cons, List.map_nil]
    simp only [bind, Except.bind, ne_eq, decide_not] at e1 ⊢
    rw [e1]
  · dsimp only
    rw [← ho]
    cases flag <;> rfl

end

section
attribute [local instance] finFloat finBits finHalf finPi

/-- A one-pixel image with a resampling to twice the size: the output is two pixels wide. -/
example : ∃ st out w', (nodeOf (.resampleImage twiceSize)).run .debug finLib 1 modeAll [onePixel]
    .new noCache = .ok (st, out, w') ∧
    ScaledTo 1 1 out.pixelBlock.size.width ∧
    out.displayWindow = ⟨0, 0, out.pixelBlock.size.width, out.pixelBlock.size.height⟩ := by
  obtain ⟨st, out, w', e, -, -, h1, -, h3, h4, -⟩ := C64_node .debug finLib
    (nodeOf (.resampleImage twiceSize)) 1 modeAll onePixel .new noCache rfl (by decide)
    (by decide) noCache_off (by decide) (by decide)
  exact ⟨st, out, w', e, h1, h4.trans h3⟩

/-- A resampling that fails gives the status Error. -/
example : ∃ out w', (nodeOf (.resampleImage twiceSize)).run .debug failingResample 1 modeAll
    [onePixel] .new noCache = .ok (.error, out, w') := by
  obtain ⟨st, out, w', e, -, -, -, -, -, -, -, ⟨old, h⟩, -⟩ := C64_node .debug failingResample
    (nodeOf (.resampleImage twiceSize)) 1 modeAll onePixel .new noCache rfl (by decide)
    (by decide) noCache_off (by decide) (by decide)
  cases h
  exact ⟨out, w', e⟩

end
end OCG.Props
