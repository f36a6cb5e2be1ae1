import Verif.Proofs.NodeHash
import Verif.Proofs.AttrEval
/-
C43 and C44: requested work and node hashes.
-/

namespace OCG.Props

set_option linter.unusedSimpArgs false
set_option linter.unusedVariables false

open AttrSpec HashSpec

/-! ### C44 -/

section
variable {F : Type} [FloatLike F] [FloatBits F]

/-- What two blocks of the same type must agree on, apart from the inputs. -/
structure SameAttrs (shell : Bytes → Option Bytes) (n n' : Node F) (frame frame' : F) : Prop where
  ints : ∀ name ∈ relevantI32 n, n.getI32 name = n'.getI32 name
  reals : ∀ name ∈ relevantF32 n, n.getF32 name = n'.getF32 name
  texts : ∀ name ∈ relevantStr n, n.getStr name = n'.getStr name
  file : UsesFile n → path shell n frame = path shell n' frame'

/-- A byte of a text. -/
abbrev Text (s : Bytes) : Prop := ∀ b ∈ s, b < 255

theorem text_decimal (fuel n : Nat) : Text (Path.digitsRev fuel n) := by
  induction fuel generalizing n with
  | zero => intro b hb; simp [Path.digitsRev] at hb
  | succ k ih =>
    intro b hb
    simp only [Path.digitsRev] at hb
    split at hb
    all_goals
      simp only [List.mem_cons, List.not_mem_nil, or_false] at hb
      first
        | omega
        | (rcases hb with hb | hb
           · omega
           · exact ih _ b hb)

theorem text_append {s t : Bytes} (hs : Text s) (ht : Text t) : Text (s ++ t) := by
  intro b hb
  rcases List.mem_append.mp hb with h | h
  · exact hs b h
  · exact ht b h

theorem text_padded (w : Nat) (frame : Int) : Text (Path.formatPadded w frame) := by
  have hd : Text (Path.decimal frame.natAbs) := by
    intro b hb
    exact text_decimal _ _ b (List.mem_reverse.mp hb)
  have hr : ∀ k, Text (List.replicate k 48) := fun k b hb => by
    rw [List.eq_of_mem_replicate hb]; decide
  unfold Path.formatPadded
  dsimp only
  split
  · intro b hb
    rcases List.mem_cons.mp hb with h | h
    · omega
    · exact text_append (hr _) hd b h
  · exact text_append (hr _) hd

theorem text_frame (c : Nat) (frame : Int) : Text (Path.frameString c frame) := by
  unfold Path.frameString
  split <;> first | exact text_padded _ _ | (intro b hb; simp at hb)

theorem text_expand {shell : Bytes → Option Bytes}
    (hshell : ∀ s t, Text s → shell s = some t → Text t) {s : Bytes} (hs : Text s) (frame : Int) :
    Text (Path.expandString shell s frame) := by
  have he : Text (Path.expandFilePath shell s) := by
    unfold Path.expandFilePath
    split
    · rename_i t ht; exact hshell s t hs ht
    · exact hs
  unfold Path.expandString
  dsimp only
  split
  · unfold Path.createExpanded
    refine text_append (text_append ?_ (text_frame _ _)) ?_
    · intro b hb; exact he b (List.mem_of_mem_take hb)
    · intro b hb; exact he b (List.mem_of_mem_drop hb)
  · exact he

variable (shell : Bytes → Option Bytes) (hshell : ∀ s t, Text s → shell s = some t → Text t)
variable (frame frame' : F) (i i' : Nat) (st st' : NodeStatus) (x y : List Nat)

omit [FloatBits F] in
theorem typed_i32 {n : Node F} (h : Typed n) (name : String) : InI32 (n.attrs.getI32 name) := by
  rw [← Node.getI32_eq]; exact h.1 name

omit [FloatBits F] in
theorem typed_str {n : Node F} (h : Typed n) (name : String) : Text (n.attrs.getStr name) := by
  rw [← Node.getStr_eq]; exact h.2 name

omit [FloatBits F] in
theorem cropImage_bytes (a b : CropImageAttrs) (ha : Typed (F := F) ⟨i, st, .cropImage a⟩)
    (hb : Typed (F := F) ⟨i', st', .cropImage b⟩)
    (h : hashBytes (a.hashItems) ++ x = hashBytes (b.hashItems) ++ y) :
    SameAttrs shell ⟨i, st, .cropImage a⟩ ⟨i', st', .cropImage b⟩ frame frame' ∧ x = y := by
  have ta := typed_i32 ha
  have tb := typed_i32 hb
  simp only [CropImageAttrs.hashItems, hashBytes_cons, List.append_assoc] at h
  rw [bytes_i32 (a := a.enable) (b := b.enable) (ta "enable") (tb "enable")] at h
  obtain ⟨h0, h⟩ := h
  rw [h0] at h
  by_cases he : b.enable = 0
  · simp only [he, if_true, if_false, hashBytes_nil, List.nil_append] at h
    refine ⟨⟨?_, ?_, ?_, ?_⟩, h⟩ <;>
      simp [relevantI32, relevantF32, relevantStr, UsesFile, attr_eval, h0, he]
  · simp only [he, if_true, if_false, hashBytes_append, hashBytes_cons, hashBytes_nil, List.append_assoc,
      List.nil_append, List.cons_append, bytes_f32] at h
    rw [bytes_i32 (a := a.windowMinX) (b := b.windowMinX) (ta "window_min_x") (tb "window_min_x"),
      bytes_i32 (a := a.windowMinY) (b := b.windowMinY) (ta "window_min_y") (tb "window_min_y"),
      bytes_i32 (a := a.windowMaxX) (b := b.windowMaxX) (ta "window_max_x") (tb "window_max_x"),
      bytes_i32 (a := a.windowMaxY) (b := b.windowMaxY) (ta "window_max_y") (tb "window_max_y"),
      bytes_i32 (a := a.reformat) (b := b.reformat) (ta "reformat") (tb "reformat"),
      bytes_i32 (a := a.blackOutside) (b := b.blackOutside) (ta "black_outside") (tb "black_outside"),
      bytes_i32 (a := a.intersect) (b := b.intersect) (ta "intersect") (tb "intersect")] at h
    refine ⟨⟨?_, ?_, ?_, ?_⟩, h.2.2.2.2.2.2.2⟩ <;>
      simp [relevantI32, relevantF32, relevantStr, UsesFile, attr_eval, h0, he, h]

theorem transform_bytes (a b : TransformAttrs F) (ha : Typed (F := F) ⟨i, st, .transform a⟩)
    (hb : Typed (F := F) ⟨i', st', .transform b⟩)
    (h : hashBytes (a.hashItems) ++ x = hashBytes (b.hashItems) ++ y) :
    SameAttrs shell ⟨i, st, .transform a⟩ ⟨i', st', .transform b⟩ frame frame' ∧ x = y := by
  have ta := typed_i32 ha
  have tb := typed_i32 hb
  simp only [TransformAttrs.hashItems, hashBytes_cons, List.append_assoc] at h
  rw [bytes_i32 (a := a.enable) (b := b.enable) (ta "enable") (tb "enable")] at h
  obtain ⟨h0, h⟩ := h
  rw [h0] at h
  by_cases he : b.enable = 0
  · simp only [he, if_true, if_false, hashBytes_nil, List.nil_append] at h
    refine ⟨⟨?_, ?_, ?_, ?_⟩, h⟩ <;>
      simp [relevantI32, relevantF32, relevantStr, UsesFile, attr_eval, h0, he]
  · simp only [he, if_true, if_false, hashBytes_append, hashBytes_cons, hashBytes_nil, List.append_assoc,
      List.nil_append, List.cons_append, bytes_f32] at h
    rw [bytes_i32 (a := a.invert) (b := b.invert) (ta "invert") (tb "invert")] at h
    simp only [bytes_f32] at h
    refine ⟨⟨?_, ?_, ?_, ?_⟩, h.2.2.2.2.2.2.2.2.2.2⟩ <;>
      simp [relevantI32, relevantF32, relevantStr, UsesFile, attr_eval, h0, he, h]

theorem mergeImage_bytes (a b : MergeImageAttrs F) (ha : Typed (F := F) ⟨i, st, .mergeImage a⟩)
    (hb : Typed (F := F) ⟨i', st', .mergeImage b⟩)
    (h : hashBytes (a.hashItems) ++ x = hashBytes (b.hashItems) ++ y) :
    SameAttrs shell ⟨i, st, .mergeImage a⟩ ⟨i', st', .mergeImage b⟩ frame frame' ∧ x = y := by
  have ta := typed_i32 ha
  have tb := typed_i32 hb
  simp only [MergeImageAttrs.hashItems, hashBytes_cons, List.append_assoc] at h
  rw [bytes_i32 (a := a.enable) (b := b.enable) (ta "enable") (tb "enable")] at h
  obtain ⟨h0, h⟩ := h
  rw [h0] at h
  by_cases he : b.enable = 1
  · simp only [he, if_true, if_false, hashBytes_append, hashBytes_cons, hashBytes_nil, List.append_assoc,
      List.nil_append, List.cons_append, bytes_f32] at h
    rw [bytes_i32 (a := a.mode) (b := b.mode) (ta "mode") (tb "mode")] at h
    simp only [bytes_f32] at h
    refine ⟨⟨?_, ?_, ?_, ?_⟩, h.2.2⟩ <;>
      simp [relevantI32, relevantF32, relevantStr, UsesFile, attr_eval, h0, he, h]
  · simp only [he, if_true, if_false, hashBytes_nil, List.nil_append] at h
    refine ⟨⟨?_, ?_, ?_, ?_⟩, h⟩ <;>
      simp [relevantI32, relevantF32, relevantStr, UsesFile, attr_eval, h0, he]

theorem lensDistort_bytes (a b : LensDistortAttrs F) (ha : Typed (F := F) ⟨i, st, .lensDistort a⟩)
    (hb : Typed (F := F) ⟨i', st', .lensDistort b⟩)
    (hdir : a.enable ≠ 0 → a.direction = b.direction)
    (h : hashBytes (a.hashItems) ++ x = hashBytes (b.hashItems) ++ y) :
    SameAttrs shell ⟨i, st, .lensDistort a⟩ ⟨i', st', .lensDistort b⟩ frame frame' ∧ x = y := by
  have ta := typed_i32 ha
  have tb := typed_i32 hb
  simp only [LensDistortAttrs.hashItems, hashBytes_cons, List.append_assoc] at h
  rw [bytes_i32 (a := a.enable) (b := b.enable) (ta "enable") (tb "enable")] at h
  obtain ⟨h0, h⟩ := h
  rw [h0] at h
  by_cases he : b.enable = 0
  · simp only [he, if_true, if_false, hashBytes_nil, List.nil_append] at h
    refine ⟨⟨?_, ?_, ?_, ?_⟩, h⟩ <;>
      simp [relevantI32, relevantF32, relevantStr, UsesFile, attr_eval, h0, he]
  · simp only [he, if_true, if_false, hashBytes_append, hashBytes_cons, hashBytes_nil, List.append_assoc,
      List.nil_append, List.cons_append, bytes_f32] at h
    refine ⟨⟨?_, ?_, ?_, ?_⟩, h.2.2.2.2.2.2.2⟩ <;>
      simp [relevantI32, relevantF32, relevantStr, UsesFile, attr_eval, h0, he, h, hdir]

omit [FloatBits F] in
theorem readImage_bytes (a b : ReadImageAttrs) (ha : Typed (F := F) ⟨i, st, .readImage a⟩)
    (hb : Typed (F := F) ⟨i', st', .readImage b⟩)
    (hshell : ∀ s t, Text s → shell s = some t → Text t)
    (hen : a.enable = 0 ∨ a.enable = 1)
    (h : hashBytes (a.hashItems shell frame) ++ x = hashBytes (b.hashItems shell frame') ++ y) :
    SameAttrs shell ⟨i, st, .readImage a⟩ ⟨i', st', .readImage b⟩ frame frame' ∧ x = y := by
  have ta := typed_i32 ha
  have tb := typed_i32 hb
  simp only [ReadImageAttrs.hashItems, hashBytes_cons, List.append_assoc] at h
  rw [bytes_i32 (a := a.enable) (b := b.enable) (ta "enable") (tb "enable")] at h
  obtain ⟨h0, h⟩ := h
  rw [h0] at h
  have sa := text_expand hshell (typed_str ha "file_path") (frameNum frame)
  have sb := text_expand hshell (typed_str hb "file_path") (frameNum frame')
  by_cases he : b.enable = 1
  · simp only [he, if_true] at h
    rw [bytes_str (s := Path.expandString shell a.filePath (frameNum frame))
      (t := Path.expandString shell b.filePath (frameNum frame')) sa sb] at h
    refine ⟨⟨?_, ?_, ?_, fun _ => ?_⟩, h.2⟩
    iterate 3 simp [relevantI32, relevantF32, relevantStr, attr_eval, h0]
    simpa only [path, attr_eval] using h.1
  · simp only [he, if_false, hashBytes_nil, List.nil_append] at h
    have he' : b.enable = 0 := by
      rcases hen with hen | hen
      · rw [← h0]; exact hen
      · exact absurd (h0 ▸ hen) he
    refine ⟨⟨?_, ?_, ?_, ?_⟩, h⟩ <;>
      simp [relevantI32, relevantF32, relevantStr, UsesFile, attr_eval, h0, he']

omit [FloatBits F] in
theorem writeImage_bytes (a b : WriteImageAttrs) (ha : Typed (F := F) ⟨i, st, .writeImage a⟩)
    (hb : Typed (F := F) ⟨i', st', .writeImage b⟩)
    (hshell : ∀ s t, Text s → shell s = some t → Text t)
    (hen : a.enable = 0 ∨ a.enable = 1)
    (h : hashBytes (a.hashItems shell frame) ++ x = hashBytes (b.hashItems shell frame') ++ y) :
    SameAttrs shell ⟨i, st, .writeImage a⟩ ⟨i', st', .writeImage b⟩ frame frame' ∧ x = y := by
  have ta := typed_i32 ha
  have tb := typed_i32 hb
  simp only [WriteImageAttrs.hashItems, hashBytes_cons, List.append_assoc] at h
  rw [bytes_i32 (a := a.enable) (b := b.enable) (ta "enable") (tb "enable")] at h
  obtain ⟨h0, h⟩ := h
  rw [h0] at h
  have sa := text_expand hshell (typed_str ha "file_path") (frameNum frame)
  have sb := text_expand hshell (typed_str hb "file_path") (frameNum frame')
  by_cases he : b.enable = 1
  · simp only [he, if_true] at h
    rw [bytes_str (s := Path.expandString shell a.filePath (frameNum frame))
      (t := Path.expandString shell b.filePath (frameNum frame')) sa sb] at h
    refine ⟨⟨?_, ?_, ?_, fun _ => ?_⟩, h.2⟩
    iterate 3 simp [relevantI32, relevantF32, relevantStr, attr_eval, h0]
    simpa only [path, attr_eval] using h.1
  · simp only [he, if_false, hashBytes_nil, List.nil_append] at h
    have he' : b.enable = 0 := by
      rcases hen with hen | hen
      · rw [← h0]; exact hen
      · exact absurd (h0 ▸ hen) he
    refine ⟨⟨?_, ?_, ?_, ?_⟩, h⟩ <;>
      simp [relevantI32, relevantF32, relevantStr, UsesFile, attr_eval, h0, he']

omit [FloatBits F] in
theorem resampleImage_bytes (a b : ResampleImageAttrs) (ha : Typed (F := F) ⟨i, st, .resampleImage a⟩)
    (hb : Typed (F := F) ⟨i', st', .resampleImage b⟩)
    (hlen : x.length = y.length)
    (h : hashBytes (a.hashItems) ++ x = hashBytes (b.hashItems) ++ y) :
    SameAttrs shell ⟨i, st, .resampleImage a⟩ ⟨i', st', .resampleImage b⟩ frame frame' ∧ x = y := by
  have ta := typed_i32 ha
  have tb := typed_i32 hb
  simp only [ResampleImageAttrs.hashItems, hashBytes_cons, List.append_assoc] at h
  rw [bytes_i32 (a := a.enable) (b := b.enable) (ta "enable") (tb "enable")] at h
  obtain ⟨h0, h⟩ := h
  rw [h0] at h
  by_cases he : b.enable = 1
  · simp only [he, if_true] at h
    by_cases hf : a.factor = 0 <;> by_cases hg : b.factor = 0
    · simp only [hf, hg, ne_eq, not_true_eq_false, if_false, hashBytes_nil, List.nil_append] at h
      refine ⟨⟨?_, ?_, ?_, ?_⟩, h⟩ <;>
        simp [relevantI32, relevantF32, relevantStr, UsesFile, attr_eval, h0, he, hf, hg]
    · exfalso
      simp only [hf, hg, ne_eq, not_true_eq_false, not_false_eq_true, if_true, if_false,
        hashBytes_nil, hashBytes_cons, List.nil_append] at h
      have := congrArg List.length h
      simp [HashItem.toBytes, leBytes_length] at this
      omega
    · exfalso
      simp only [hf, hg, ne_eq, not_true_eq_false, not_false_eq_true, if_true, if_false,
        hashBytes_nil, hashBytes_cons, List.nil_append] at h
      have := congrArg List.length h
      simp [HashItem.toBytes, leBytes_length] at this
      omega
    · simp only [hf, hg, ne_eq, not_false_eq_true, if_true, hashBytes_nil, hashBytes_cons,
        List.append_assoc, List.nil_append] at h
      rw [bytes_i32 (a := a.factor) (b := b.factor) (ta "factor") (tb "factor"),
      bytes_i32 (a := a.interpolate) (b := b.interpolate) (ta "interpolate") (tb "interpolate")] at h
      refine ⟨⟨?_, ?_, ?_, ?_⟩, h.2.2⟩ <;>
        simp [relevantI32, relevantF32, relevantStr, UsesFile, attr_eval, h0, he, hf, hg, h]
  · simp only [he, if_false, hashBytes_nil, List.nil_append] at h
    refine ⟨⟨?_, ?_, ?_, ?_⟩, h⟩ <;>
      simp [relevantI32, relevantF32, relevantStr, UsesFile, attr_eval, h0, he]

theorem ofI32_nothing (v : Int) : BakeOption.ofI32 v = .nothing ↔ v = 0 := by
  unfold BakeOption.ofI32
  split
  · simp_all
  · (repeat' split) <;> simp_all

omit [FloatBits F] in
theorem viewer_bytes (a b : ViewerAttrs) (ha : Typed (F := F) ⟨i, st, .viewer a⟩)
    (hb : Typed (F := F) ⟨i', st', .viewer b⟩)
    (hlen : x.length = y.length)
    (h : hashBytes (a.hashItems) ++ x = hashBytes (b.hashItems) ++ y) :
    SameAttrs shell ⟨i, st, .viewer a⟩ ⟨i', st', .viewer b⟩ frame frame' ∧ x = y := by
  have ta := typed_i32 ha
  have tb := typed_i32 hb
  simp only [ViewerAttrs.hashItems, hashBytes_cons, List.append_assoc] at h
  rw [bytes_i32 (a := a.enable) (b := b.enable) (ta "enable") (tb "enable")] at h
  obtain ⟨h0, h⟩ := h
  rw [h0] at h
  have sa := typed_str ha "bake_color_space"
  have sb := typed_str hb "bake_color_space"
  by_cases he : b.enable = 0
  · simp only [he, if_true, hashBytes_nil, List.nil_append] at h
    refine ⟨⟨?_, ?_, ?_, ?_⟩, h⟩ <;>
      simp [relevantI32, relevantF32, relevantStr, UsesFile, attr_eval, h0, he]
  · simp only [he, if_false] at h
    by_cases hf : a.bakeOption = 0 <;> by_cases hg : b.bakeOption = 0
    · simp only [ofI32_nothing, hf, hg, ne_eq, not_true_eq_false, if_false, hashBytes_nil,
        List.nil_append] at h
      refine ⟨⟨?_, ?_, ?_, ?_⟩, h⟩ <;>
        simp [relevantI32, relevantF32, relevantStr, UsesFile, attr_eval, h0, he, hf, hg]
    · exfalso
      simp only [ofI32_nothing, hf, hg, ne_eq, not_true_eq_false, not_false_eq_true, if_true,
        if_false, hashBytes_nil, hashBytes_cons, hashBytes_append, hashStr, List.nil_append] at h
      have := congrArg List.length h
      simp [HashItem.toBytes, leBytes_length] at this
      omega
    · exfalso
      simp only [ofI32_nothing, hf, hg, ne_eq, not_true_eq_false, not_false_eq_true, if_true,
        if_false, hashBytes_nil, hashBytes_cons, hashBytes_append, hashStr, List.nil_append] at h
      have := congrArg List.length h
      simp [HashItem.toBytes, leBytes_length] at this
      omega
    · simp only [ofI32_nothing, hf, hg, ne_eq, not_false_eq_true, if_true, hashBytes_nil,
        hashBytes_cons, hashBytes_append, List.append_assoc, List.nil_append] at h
      rw [bytes_i32 (a := a.bakeOption) (b := b.bakeOption) (ta "bake_option") (tb "bake_option"),
      bytes_i32 (a := a.cropToFormat) (b := b.cropToFormat) (ta "crop_to_format") (tb "crop_to_format"),
      bytes_i32 (a := a.bakePixelDataType) (b := b.bakePixelDataType) (ta "bake_pixel_data_type") (tb "bake_pixel_data_type"),
        bytes_str (s := a.bakeColorSpace) (t := b.bakeColorSpace) sa sb] at h
      refine ⟨⟨?_, ?_, ?_, ?_⟩, h.2.2.2.2⟩ <;>
        simp [relevantI32, relevantF32, relevantStr, UsesFile, attr_eval, h0, he, hf, hg, h]

theorem grade_bytes (a b : GradeAttrs F) (ha : Typed (F := F) ⟨i, st, .grade a⟩)
    (hb : Typed (F := F) ⟨i', st', .grade b⟩)
    (h : hashBytes (a.hashItems) ++ x = hashBytes (b.hashItems) ++ y) :
    SameAttrs shell ⟨i, st, .grade a⟩ ⟨i', st', .grade b⟩ frame frame' ∧ x = y := by
  have ta := typed_i32 ha
  have tb := typed_i32 hb
  simp only [GradeAttrs.hashItems, hashBytes_cons, List.append_assoc] at h
  rw [bytes_i32 (a := a.enable) (b := b.enable) (ta "enable") (tb "enable")] at h
  obtain ⟨h0, h⟩ := h
  rw [h0] at h
  by_cases he : b.enable = 0
  · simp only [he, if_true, hashBytes_nil, List.nil_append] at h
    refine ⟨⟨?_, ?_, ?_, ?_⟩, h⟩ <;>
      simp [relevantI32, relevantF32, relevantStr, UsesFile, attr_eval, h0, he]
  · simp only [he, if_false, hashBytes_append, hashBytes_cons, hashBytes_nil, List.append_assoc,
      List.nil_append, List.cons_append] at h
    rw [bytes_i32 (a := a.processR) (b := b.processR) (ta "process_r") (tb "process_r"),
      bytes_i32 (a := a.processG) (b := b.processG) (ta "process_g") (tb "process_g"),
      bytes_i32 (a := a.processB) (b := b.processB) (ta "process_b") (tb "process_b"),
      bytes_i32 (a := a.processA) (b := b.processA) (ta "process_a") (tb "process_a")] at h
    obtain ⟨hr, hg, hb', ha', h⟩ := h
    rw [hr, hg, hb', ha'] at h
    by_cases pr : b.processR = 0 <;> by_cases pg : b.processG = 0 <;>
      by_cases pb : b.processB = 0 <;> by_cases pa : b.processA = 0
    all_goals
      simp only [pr, pg, pb, pa, ne_eq, not_true_eq_false, not_false_eq_true, if_true, if_false,
        hashBytes_append, hashBytes_cons, hashBytes_nil, List.append_assoc, List.nil_append,
        List.cons_append, bytes_f32, or_true, true_or, or_self, or_false, false_or,
        bytes_i32 (a := a.reverse) (b := b.reverse) (ta "reverse") (tb "reverse"),
        bytes_i32 (a := a.clampBlack) (b := b.clampBlack) (ta "clamp_black") (tb "clamp_black"),
        bytes_i32 (a := a.clampWhite) (b := b.clampWhite) (ta "clamp_white") (tb "clamp_white"),
        bytes_i32 (a := a.premult) (b := b.premult) (ta "premult") (tb "premult")] at h
      refine ⟨⟨?_, ?_, ?_, ?_⟩, by simp only [h]⟩ <;>
        simp [relevantI32, relevantF32, relevantStr, UsesFile, attr_eval, gradeChannel, h0, he,
          hr, hg, hb', ha', pr, pg, pb, pa, h]

/-- The part of the hash that does not see an attribute it should: the direction of a lens
distortion, and the path of an enabled file node whose `enable` is not 1. -/
def Blind (n n' : Node F) : Prop :=
  (n.attrs.nodeType = .lensDistort ∧ n.getI32 "enable" ≠ 0 ∧
    n.getI32 "direction" ≠ n'.getI32 "direction") ∨
  ((n.attrs.nodeType = .readImage ∨ n.attrs.nodeType = .writeImage) ∧
    n.getI32 "enable" ≠ 0 ∧ n.getI32 "enable" ≠ 1)

/-- C44 (partial): if the same bytes are fed to the hasher for two node evaluations, then the
nodes have the same type and the same values of all attributes that matter, and the inputs have
the same hashes.  Missing: the direction of a lens distortion, file nodes with `enable` other
than 0 and 1, and viewer and resample nodes with different numbers of inputs; for those the
statement is false (see the counterexamples). -/
theorem C44_hash_covers_partial (shell : Bytes → Option Bytes)
    (hshell : ∀ s t, Text s → shell s = some t → Text t) (n n' : Node F) (frame frame' : F)
    (inputs inputs' : List Nat) (hn : Typed n) (hn' : Typed n')
    (hi : ∀ h ∈ inputs, h < 2 ^ 64) (hi' : ∀ h ∈ inputs', h < 2 ^ 64)
    (hblind : ¬ Blind n n')
    (hcount : n.attrs.nodeType = .viewer ∨ n.attrs.nodeType = .resampleImage →
      inputs.length = inputs'.length)
    (h : hashBytes (n.hashItems shell frame inputs) =
      hashBytes (n'.hashItems shell frame' inputs')) :
    SameWork shell n n' frame frame' inputs inputs' := by
  unfold Node.hashItems at h
  rw [hashBytes_cons, hashBytes_cons, bytes_type, hashBytes_append, hashBytes_append] at h
  obtain ⟨ht, h⟩ := h
  have hlen : inputs.length = inputs'.length →
      (hashBytes (inputs.map .u64)).length = (hashBytes (inputs'.map .u64)).length := by
    have : ∀ l : List Nat, (hashBytes (l.map .u64)).length = 8 * l.length := by
      intro l
      induction l with
      | nil => rfl
      | cons a l ih =>
        rw [List.map_cons, hashBytes_cons, List.length_append, ih, List.length_cons]
        simp only [HashItem.toBytes, leBytes_length]
        omega
    intro e
    rw [this, this, e]
  have key : SameAttrs shell n n' frame frame' ∧
      hashBytes (inputs.map .u64) = hashBytes (inputs'.map .u64) := by
    obtain ⟨i, st, a⟩ := n
    obtain ⟨i', st', b⟩ := n'
    simp only [Blind, not_or, not_and, not_not, attr_eval] at hblind
    simp only at h hcount ht
    cases a <;> cases b <;> first
      | (exfalso; simp only [attr_eval, reduceCtorEq] at ht; done)
      | skip
    case null.null a b =>
      refine ⟨⟨?_, ?_, ?_, ?_⟩, h⟩ <;>
        simp [relevantI32, relevantF32, relevantStr, UsesFile, attr_eval]
    case readImage.readImage a b =>
      refine readImage_bytes shell frame frame' i i' st st' _ _ a b hn hn' hshell ?_ h
      by_cases h0 : a.enable = 0
      · exact .inl h0
      · exact .inr (hblind.2 (.inl rfl) h0)
    case writeImage.writeImage a b =>
      refine writeImage_bytes shell frame frame' i i' st st' _ _ a b hn hn' hshell ?_ h
      by_cases h0 : a.enable = 0
      · exact .inl h0
      · exact .inr (hblind.2 (.inr rfl) h0)
    case grade.grade a b => exact grade_bytes shell frame frame' i i' st st' _ _ a b hn hn' h
    case lensDistort.lensDistort a b =>
      exact lensDistort_bytes shell frame frame' i i' st st' _ _ a b hn hn' (hblind.1 rfl) h
    case transform.transform a b =>
      exact transform_bytes shell frame frame' i i' st st' _ _ a b hn hn' h
    case mergeImage.mergeImage a b =>
      exact mergeImage_bytes shell frame frame' i i' st st' _ _ a b hn hn' h
    case cropImage.cropImage a b =>
      exact cropImage_bytes shell frame frame' i i' st st' _ _ a b hn hn' h
    case viewer.viewer a b =>
      exact viewer_bytes shell frame frame' i i' st st' _ _ a b hn hn'
        (hlen (hcount (.inl rfl))) h
    case resampleImage.resampleImage a b =>
      exact resampleImage_bytes shell frame frame' i i' st st' _ _ a b hn hn'
        (hlen (hcount (.inr rfl))) h
  obtain ⟨⟨h1, h2, h3, h4⟩, h5⟩ := key
  exact ⟨ht, h1, h2, h3, h4, bytes_inputs hi hi' h5⟩

/-- C44 (partial), for the hash values: unless the hash function collides on these two byte
streams, equal hashes mean equal work.  The same cases are missing as in `C44_hash_covers_partial`. -/
theorem C44_hash_value_covers_partial (hf : ByteHash)
    (shell : Bytes → Option Bytes) (hshell : ∀ s t, Text s → shell s = some t → Text t)
    (n n' : Node F) (frame frame' : F) (inputs inputs' : List Nat) (hn : Typed n) (hn' : Typed n')
    (hi : ∀ h ∈ inputs, h < 2 ^ 64) (hi' : ∀ h ∈ inputs', h < 2 ^ 64)
    (hblind : ¬ Blind n n')
    (hcount : n.attrs.nodeType = .viewer ∨ n.attrs.nodeType = .resampleImage →
      inputs.length = inputs'.length)
    (hcol : hf (hashBytes (n.hashItems shell frame inputs)) =
        hf (hashBytes (n'.hashItems shell frame' inputs')) →
      hashBytes (n.hashItems shell frame inputs) = hashBytes (n'.hashItems shell frame' inputs'))
    (h : n.hash hf shell frame inputs = n'.hash hf shell frame' inputs') :
    SameWork shell n n' frame frame' inputs inputs' :=
  C44_hash_covers_partial shell hshell n n' frame frame' inputs inputs' hn hn' hi hi' hblind hcount
    (hcol h)

/-- C44: nothing else enters the hash.  Two nodes that do the same work have the same hash,
whatever their identifiers and their other attributes. -/
theorem C44_only_work (hf : ByteHash) (shell : Bytes → Option Bytes) (n n' : Node F)
    (frame frame' : F) (inputs inputs' : List Nat)
    (h : SameWork shell n n' frame frame' inputs inputs') :
    n.hash hf shell frame inputs = n'.hash hf shell frame' inputs' := by
  obtain ⟨i, st, a⟩ := n
  obtain ⟨i', st', b⟩ := n'
  obtain ⟨ht, h1, h2, h3, h4, rfl⟩ := h
  have key : a.hashItems shell frame = b.hashItems shell frame' := by
    cases a <;> cases b <;> first
      | (exfalso; simp only [attr_eval, reduceCtorEq] at ht; done)
      | skip
    case null.null a b => rfl
    case readImage.readImage a b =>
      simp [relevantI32, attr_eval] at h1
      simp only [UsesFile, path, attr_eval] at h4
      simp only [NodeAttrs.hashItems, ReadImageAttrs.hashItems, h1]
      split
      · rename_i he
        rw [h4 ⟨by simp, by rw [h1, he]; decide⟩]
      · rfl
    case writeImage.writeImage a b =>
      simp [relevantI32, attr_eval] at h1
      simp only [UsesFile, path, attr_eval] at h4
      simp only [NodeAttrs.hashItems, WriteImageAttrs.hashItems, h1]
      split
      · rename_i he
        rw [h4 ⟨by simp, by rw [h1, he]; decide⟩]
      · rfl
    case grade.grade a b =>
      by_cases he : a.enable = 0
      · simp [relevantI32, attr_eval, he] at h1
        simp [NodeAttrs.hashItems, GradeAttrs.hashItems, he, ← h1]
      · by_cases pr : a.processR = 0 <;> by_cases pg : a.processG = 0 <;>
          by_cases pb : a.processB = 0 <;> by_cases pa : a.processA = 0
        all_goals
          simp [relevantI32, attr_eval, he, pr, pg, pb, pa] at h1
          simp [relevantF32, attr_eval, gradeChannel, he, pr, pg, pb, pa] at h2
          first
            | simp [NodeAttrs.hashItems, GradeAttrs.hashItems, he, pr, pg, pb, pa, ← h1, ← h2]
            | simp [NodeAttrs.hashItems, GradeAttrs.hashItems, he, pr, pg, pb, pa, ← h1]
    case lensDistort.lensDistort a b =>
      by_cases he : a.enable = 0
      · simp [relevantI32, attr_eval, he] at h1
        simp [NodeAttrs.hashItems, LensDistortAttrs.hashItems, he, ← h1]
      · simp [relevantI32, attr_eval, he] at h1
        simp [relevantF32, attr_eval, he] at h2
        simp [NodeAttrs.hashItems, LensDistortAttrs.hashItems, he, ← h1, ← h2]
    case transform.transform a b =>
      by_cases he : a.enable = 0
      · simp [relevantI32, attr_eval, he] at h1
        simp [NodeAttrs.hashItems, TransformAttrs.hashItems, he, ← h1]
      · simp [relevantI32, attr_eval, he] at h1
        simp [relevantF32, attr_eval, he] at h2
        simp [NodeAttrs.hashItems, TransformAttrs.hashItems, he, ← h1, ← h2]
    case mergeImage.mergeImage a b =>
      by_cases he : a.enable = 1
      · simp [relevantI32, attr_eval, he] at h1
        simp [relevantF32, attr_eval, he] at h2
        simp [NodeAttrs.hashItems, MergeImageAttrs.hashItems, he, ← h1, ← h2]
      · simp [relevantI32, attr_eval, he] at h1
        simp [NodeAttrs.hashItems, MergeImageAttrs.hashItems, he, ← h1]
    case cropImage.cropImage a b =>
      by_cases he : a.enable = 0
      · simp [relevantI32, attr_eval, he] at h1
        simp [NodeAttrs.hashItems, CropImageAttrs.hashItems, he, ← h1]
      · simp [relevantI32, attr_eval, he] at h1
        simp [NodeAttrs.hashItems, CropImageAttrs.hashItems, he, ← h1]
    case viewer.viewer a b =>
      by_cases he : a.enable = 0
      · simp [relevantI32, attr_eval, he] at h1
        simp [NodeAttrs.hashItems, ViewerAttrs.hashItems, he, ← h1]
      · by_cases hb : a.bakeOption = 0
        · simp [relevantI32, attr_eval, he, hb] at h1
          simp [NodeAttrs.hashItems, ViewerAttrs.hashItems, he, hb, ← h1, ofI32_nothing]
        · simp [relevantI32, attr_eval, he, hb] at h1
          simp [relevantStr, attr_eval, he, hb] at h3
          simp [NodeAttrs.hashItems, ViewerAttrs.hashItems, he, hb, ← h1, ← h3, ofI32_nothing]
    case resampleImage.resampleImage a b =>
      by_cases he : a.enable = 1
      · by_cases hb : a.factor = 0
        · simp [relevantI32, attr_eval, he, hb] at h1
          simp [NodeAttrs.hashItems, ResampleImageAttrs.hashItems, he, hb, ← h1]
        · simp [relevantI32, attr_eval, he, hb] at h1
          simp [NodeAttrs.hashItems, ResampleImageAttrs.hashItems, he, hb, ← h1]
      · simp [relevantI32, attr_eval, he] at h1
        simp [NodeAttrs.hashItems, ResampleImageAttrs.hashItems, he, ← h1]
  have ht' : a.nodeType = b.nodeType := ht
  unfold Node.hash Node.hashItems
  rw [key, ht']

/-- C44 is false for the direction of a lens distortion: it never enters the hash. -/
theorem C44_counterexample_direction (hf : ByteHash) (shell : Bytes → Option Bytes)
    (a : LensDistortAttrs F) (i : Nat) (st : NodeStatus) (d : Int) (frame : F)
    (inputs : List Nat) :
    (⟨i, st, .lensDistort { a with direction := d }⟩ : Node F).hash hf shell frame inputs =
      (⟨i, st, .lensDistort a⟩ : Node F).hash hf shell frame inputs := rfl

/-- C44 is false for the path of a read or write node with `enable` other than 0 and 1. -/
theorem C44_counterexample_path (hf : ByteHash) (shell : Bytes → Option Bytes)
    (a : ReadImageAttrs) (he : a.enable ≠ 1) (i : Nat) (st : NodeStatus) (path : Bytes)
    (frame frame' : F) (inputs : List Nat) :
    (⟨i, st, .readImage { a with filePath := path }⟩ : Node F).hash hf shell frame inputs =
      (⟨i, st, .readImage a⟩ : Node F).hash hf shell frame' inputs := by
  simp only [Node.hash, Node.hashItems, NodeAttrs.hashItems, ReadImageAttrs.hashItems, he, if_false]
  rfl

example : ({ ReadImageAttrs.new with enable := 2 } : ReadImageAttrs).enable ≠ 1 ∧
    UsesFile (⟨1, .valid, .readImage { ReadImageAttrs.new with enable := 2 }⟩ : Node F) := by
  refine ⟨by decide, .inl rfl, ?_⟩
  simp [attr_eval]

omit [FloatLike F] [FloatBits F] in
theorem leBytes_split (f k : Nat) (hf : f < 4294967296) (hk : k < 4294967296) :
    leBytes 8 (f + 4294967296 * k) = leBytes 4 f ++ leBytes 4 k := by
  simp only [leBytes, List.cons_append, List.nil_append]
  repeat' refine congrArg₂ List.cons (by omega) ?_
  rfl

/-- C44 is false for resample nodes with different numbers of inputs: the bytes of an input hash
can be read as the factor and the interpolation. -/
theorem C44_counterexample_resample (hf : ByteHash) (shell : Bytes → Option Bytes) (f k : Nat)
    (h0 : 0 < f) (h1 : f < 2147483648) (h2 : k < 2147483648) (i : Nat) (st : NodeStatus) (u : Int)
    (frame : F) (inputs : List Nat) :
    (⟨i, st, .resampleImage ⟨1, u, 0, k⟩⟩ : Node F).hash hf shell frame
        ((f + 4294967296 * k) :: inputs) =
      (⟨i, st, .resampleImage ⟨1, u, f, k⟩⟩ : Node F).hash hf shell frame inputs := by
  have hf0 : ((f : Nat) : Int) ≠ 0 := by omega
  simp only [Node.hash, Node.hashItems, NodeAttrs.hashItems, ResampleImageAttrs.hashItems, if_true,
    ne_eq, not_true_eq_false, if_false, hf0, not_false_eq_true, List.map_cons, List.cons_append,
    List.nil_append, hashBytes_cons]
  rw [show (HashItem.u64 (f + 4294967296 * k)).toBytes =
      (HashItem.i32 f).toBytes ++ (HashItem.i32 k).toBytes by
    simp only [HashItem.toBytes]
    rw [leBytes_split f k (by omega) (by omega)]
    rw [show ((f : Int) % 4294967296).toNat = f by omega,
      show ((k : Int) % 4294967296).toNat = k by omega], List.append_assoc]
  rfl

example : 0 < 2 ∧ 2 < 2147483648 ∧ 1 < 2147483648 := by decide

omit [FloatLike F] [FloatBits F] in
theorem typed_crop (F : Type) [FloatLike F] (i : Nat) (st : NodeStatus) (u : Int) :
    Typed (F := F) ⟨i, st, .cropImage ⟨1, u % 2, -3, 0, 20, 10, 0, 0, 1⟩⟩ := by
  constructor
  · intro name
    rw [Node.getI32_eq]
    simp only [NodeAttrs.getI32, CropImageAttrs.getI32]
    split <;> unfold InI32 <;> omega
  · intro name b hb
    rw [Node.getStr_eq] at hb
    exact absurd hb (by simp [NodeAttrs.getStr, CropImageAttrs.getStr])

-- Two crop nodes with other identifiers, states and cache settings: the hypotheses of the three
-- theorems hold and the hashes agree for every hash function.
example (hf : ByteHash) (frame : F) :
    let n : Node F := ⟨1, .valid, .cropImage ⟨1, 5 % 2, -3, 0, 20, 10, 0, 0, 1⟩⟩
    let n' : Node F := ⟨2, .uninitialized, .cropImage ⟨1, 4 % 2, -3, 0, 20, 10, 0, 0, 1⟩⟩
    Typed n ∧ Typed n' ∧ ¬ Blind n n' ∧ n ≠ n' ∧
      n.hash hf (fun _ => none) frame [77] = n'.hash hf (fun _ => none) frame [77] ∧
      SameWork (fun _ => none) n n' frame frame [77] [77] := by
  intro n n'
  have hb : ¬ Blind n n' := by
    simp [Blind, n, n', attr_eval]
  refine ⟨typed_crop F _ _ 5, typed_crop F _ _ 4, hb, by simp [n, n'], rfl, ?_⟩
  refine C44_hash_covers_partial _ (by simp) n n' frame frame [77] [77] (typed_crop F _ _ 5)
    (typed_crop F _ _ 4) (by simp) (by simp) hb (by simp) rfl

end

/-! ### C43 -/

section
variable {F α : Type}

theorem testBit_and_le (m k b : Nat) (h : (m &&& k).testBit b = true) : m.testBit b = true := by
  rw [Nat.testBit_and] at h
  exact (Bool.and_eq_true_iff.mp h).1

theorem first_shrinks (mode : Mode) (inputs : List α) :
    (validateFirst mode inputs).length = inputs.length ∧
    ∀ m ∈ validateFirst mode inputs, ∀ b, m.testBit b = true → mode.testBit b = true := by
  cases inputs with
  | nil => exact ⟨rfl, by simp [validateFirst]⟩
  | cons x rest =>
    refine ⟨by simp [validateFirst], ?_⟩
    intro m hm b hb
    simp only [validateFirst, List.mem_cons, List.mem_map] at hm
    rcases hm with rfl | ⟨_, _, rfl⟩ <;> exact testBit_and_le _ _ _ hb

theorem merge_shrinks (mode : Mode) (inputs : List α) :
    (validateMerge mode inputs).length = inputs.length ∧
    ∀ m ∈ validateMerge mode inputs, ∀ b, m.testBit b = true → mode.testBit b = true := by
  match inputs with
  | [] => exact ⟨rfl, by simp [validateMerge]⟩
  | [x] =>
    refine ⟨rfl, ?_⟩
    intro m hm b hb
    simp only [validateMerge, List.mem_singleton] at hm
    subst hm
    exact testBit_and_le _ _ _ hb
  | x :: y :: rest =>
    refine ⟨by simp [validateMerge], ?_⟩
    intro m hm b hb
    simp only [validateMerge, List.mem_cons, List.mem_map] at hm
    rcases hm with rfl | rfl | ⟨_, _, rfl⟩ <;> exact testBit_and_le _ _ _ hb

/-- A viewer that is disabled, or whose bake option is not one of the four and that does not
crop. -/
def OddViewer [FloatLike F] (n : Node F) : Prop :=
  n.attrs.nodeType = .viewer ∧
    (n.getI32 "enable" = 0 ∨
      ((n.getI32 "bake_option" < 0 ∨ 3 < n.getI32 "bake_option") ∧
        n.getI32 "crop_to_format" = 0))

/-- C43 (partial): one mode for each input, and no bit that was not requested from the node.
Missing: disabled viewers, and viewers with an invalid bake option, where it is false. -/
theorem C43_modes_shrink_partial [FloatLike F] (n : Node F) (mode : Mode) (inputs : List α)
    (hn : ¬ OddViewer n) :
    ∃ modes, n.validate mode inputs = .ok modes ∧ modes.length = inputs.length ∧
      ∀ m ∈ modes, ∀ b, m.testBit b = true → mode.testBit b = true := by
  obtain ⟨i, st, a⟩ := n
  cases a
  case viewer a =>
    simp only [OddViewer, attr_eval, true_and, not_or, not_and] at hn
    obtain ⟨h1, h2⟩ := hn
    cases inputs with
    | nil => exact ⟨[], rfl, rfl, by simp⟩
    | cons x rest =>
      have key : ∃ k : Nat, (ViewerAttrs.validate a mode (x :: rest)) =
          .ok ((mode &&& k) :: rest.map fun _ => mode &&& modeNone) := by
        unfold ViewerAttrs.validate
        dsimp only
        rw [if_neg h1]
        by_cases hc : a.cropToFormat = 0
        · have hr : ¬ (a.bakeOption < 0 ∨ 3 < a.bakeOption) := fun h => h2 h hc
          have : a.bakeOption = 0 ∨ a.bakeOption = 1 ∨ a.bakeOption = 2 ∨ a.bakeOption = 3 := by
            omega
          rcases this with e | e | e | e <;> rw [e] <;> simp only [hc] <;> exact ⟨_, rfl⟩
        · by_cases h0 : BakeOption.ofI32 a.bakeOption = .nothing
          · simp only [h0, ne_eq, not_true_eq_false, if_false]
            exact ⟨_, rfl⟩
          · simp only [h0, hc, ne_eq, not_false_eq_true, if_true, decide_true]
            exact ⟨_, rfl⟩
      obtain ⟨k, hk⟩ := key
      refine ⟨_, hk, by simp, ?_⟩
      intro m hm b hb
      simp only [List.mem_cons, List.mem_map] at hm
      rcases hm with rfl | ⟨_, _, rfl⟩ <;> exact testBit_and_le _ _ _ hb
  case mergeImage a => exact ⟨_, rfl, merge_shrinks mode inputs⟩
  all_goals exact ⟨_, rfl, first_shrinks mode inputs⟩

example [FloatLike F] : ¬ OddViewer (⟨1, .valid, .viewer { ViewerAttrs.new with bakeOption := 1 }⟩ : Node F) ∧
    (⟨1, .valid, .viewer { ViewerAttrs.new with bakeOption := 1 }⟩ : Node F).validate 13 [(), ()] =
      .ok [9, 0] := by
  refine ⟨?_, rfl⟩
  simp [OddViewer, attr_eval, ViewerAttrs.new]

/-- What a viewer carries out itself (0 pixels, 1 colours, 2 the colour space, 3 deformers), by its
bake option and whether it crops to the format. -/
def carriedOut (option crop : Int) : List Nat :=
  if option = 0 then []
  else if crop ≠ 0 then [0, 1, 2, 3]
  else if option = 1 then [2]
  else if option = 2 then [1, 2]
  else [0, 1, 2, 3]

/-- What a node asks from the inputs it uses. -/
def asksFor [FloatLike F] (n : Node F) (mode : Mode) (b : Nat) : Prop :=
  mode.testBit b = true ∧ (n.attrs.nodeType = .viewer →
    b ∉ carriedOut (n.getI32 "bake_option") (n.getI32 "crop_to_format"))

/-- The inputs a node uses: the first, and for a merge the first two. -/
def usesInput [FloatLike F] (n : Node F) (i : Nat) : Prop :=
  i = 0 ∨ (n.attrs.nodeType = .mergeImage ∧ i = 1)

theorem mask_bits (mode : Mode) (hm : mode < 16) (b : Nat) :
    ((mode &&& 15).testBit b = true ↔ mode.testBit b = true) ∧
    ((mode &&& 11).testBit b = true ↔ mode.testBit b = true ∧ b ≠ 2) ∧
    ((mode &&& 9).testBit b = true ↔ mode.testBit b = true ∧ b ≠ 1 ∧ b ≠ 2) ∧
    ((mode &&& 0).testBit b = true ↔ mode.testBit b = true ∧ b ≠ 0 ∧ b ≠ 1 ∧ b ≠ 2 ∧ b ≠ 3) := by
  by_cases hb : b < 4
  · have : ∀ m : Fin 16, ∀ b : Fin 4,
      ((m.val &&& 15).testBit b = true ↔ m.val.testBit b = true) ∧
      ((m.val &&& 11).testBit b = true ↔ m.val.testBit b = true ∧ b.val ≠ 2) ∧
      ((m.val &&& 9).testBit b = true ↔ m.val.testBit b = true ∧ b.val ≠ 1 ∧ b.val ≠ 2) ∧
      ((m.val &&& 0).testBit b = true ↔
        m.val.testBit b = true ∧ b.val ≠ 0 ∧ b.val ≠ 1 ∧ b.val ≠ 2 ∧ b.val ≠ 3) := by decide
    exact this ⟨mode, hm⟩ ⟨b, hb⟩
  · have h0 : mode.testBit b = false := Nat.testBit_lt_two_pow (lt_of_lt_of_le hm
      (Nat.pow_le_pow_right (n := 2) (by decide) (show 4 ≤ b by omega)))
    simp only [Nat.testBit_and, h0, Bool.false_and, Bool.false_eq_true, false_and, true_and,
      iff_self, and_self]

/-- C43, what exactly is requested: from the inputs that a node uses, what is requested from the
node without what a viewer carries out itself; from all other inputs nothing.  The same viewers are
missing. -/
theorem C43_requests_partial [FloatLike F] (n : Node F) (mode : Mode) (hm : mode < 16)
    (inputs : List α) (hn : ¬ OddViewer n) :
    ∃ modes, n.validate mode inputs = .ok modes ∧ modes.length = inputs.length ∧
      ∀ i m, modes[i]? = some m → ∀ b, m.testBit b = true ↔ usesInput n i ∧ asksFor n mode b := by
  have bits := mask_bits mode hm
  have none : ∀ b, (mode &&& modeNone).testBit b = true ↔ False := by
    intro b
    rw [show modeNone = 0 from rfl, Nat.and_zero, Nat.zero_testBit]
    simp
  have rest : ∀ (l : List α) (k m : Nat), (l.map fun _ => mode &&& modeNone)[k]? = some m →
      ∀ b, m.testBit b = true ↔ False := by
    intro l k m h b
    rw [List.getElem?_map] at h
    cases hk : l[k]? with
    | none => rw [hk] at h; cases h
    | some x =>
      rw [hk] at h
      cases h
      exact none b
  obtain ⟨id, st, a⟩ := n
  cases a
  case viewer a =>
    simp only [OddViewer, attr_eval, true_and, not_or, not_and] at hn
    obtain ⟨h1, h2⟩ := hn
    cases inputs with
    | nil => exact ⟨[], rfl, rfl, by simp⟩
    | cons x l =>
      have key : ∃ k : Nat, (ViewerAttrs.validate a mode (x :: l)) =
          .ok ((mode &&& k) :: l.map fun _ => mode &&& modeNone) ∧
          ∀ b, (mode &&& k).testBit b = true ↔ mode.testBit b = true ∧
            b ∉ carriedOut a.bakeOption a.cropToFormat := by
        unfold ViewerAttrs.validate
        dsimp only
        rw [if_neg h1]
        by_cases hc : a.cropToFormat = 0
        · have hr : ¬ (a.bakeOption < 0 ∨ 3 < a.bakeOption) := fun h => h2 h hc
          have : a.bakeOption = 0 ∨ a.bakeOption = 1 ∨ a.bakeOption = 2 ∨ a.bakeOption = 3 := by
            omega
          rcases this with e | e | e | e <;> rw [e] <;> simp only [hc]
          · exact ⟨15, rfl, fun b => by simpa [carriedOut] using (bits b).1⟩
          · exact ⟨11, rfl, fun b => by simpa [carriedOut] using (bits b).2.1⟩
          · exact ⟨9, rfl, fun b => by simpa [carriedOut] using (bits b).2.2.1⟩
          · exact ⟨0, rfl, fun b => by simpa [carriedOut] using (bits b).2.2.2⟩
        · by_cases h0 : a.bakeOption = 0
          · simp only [h0, BakeOption.ofI32, ne_eq, not_true_eq_false, if_false, if_true]
            exact ⟨15, rfl, fun b => by simpa [carriedOut] using (bits b).1⟩
          · have h0' : BakeOption.ofI32 a.bakeOption ≠ .nothing := by
              unfold BakeOption.ofI32
              rw [if_neg h0]
              split_ifs <;> nofun
            simp only [h0', hc, ne_eq, not_false_eq_true, if_true, decide_true]
            exact ⟨0, rfl, fun b => by simpa [carriedOut, h0, hc] using (bits b).2.2.2⟩
      obtain ⟨k, hk, hb⟩ := key
      refine ⟨_, hk, by simp, fun i m hi b => ?_⟩
      cases i with
      | zero =>
        cases hi
        rw [hb]
        simp [usesInput, asksFor, attr_eval]
      | succ i =>
        rw [rest l i m hi b]
        simp [usesInput, attr_eval]
  case mergeImage a =>
    refine ⟨_, rfl, (merge_shrinks mode inputs).1, fun i m hi b => ?_⟩
    match inputs, i with
    | [], _ => cases hi
    | [x], 0 => cases hi; rw [show modeAll = 15 from rfl, (bits b).1]; simp [usesInput, asksFor, attr_eval]
    | [x], i + 1 => cases hi
    | x :: y :: l, 0 => cases hi; rw [show modeAll = 15 from rfl, (bits b).1]; simp [usesInput, asksFor, attr_eval]
    | x :: y :: l, 1 => cases hi; rw [show modeAll = 15 from rfl, (bits b).1]; simp [usesInput, asksFor, attr_eval]
    | x :: y :: l, i + 2 =>
      rw [rest l i m hi b]
      simp [usesInput]
  all_goals
    refine ⟨_, rfl, (first_shrinks mode inputs).1, fun i m hi b => ?_⟩
    match inputs, i with
    | [], _ => cases hi
    | x :: l, 0 => cases hi; rw [show modeAll = 15 from rfl, (bits b).1]; simp [usesInput, asksFor, attr_eval]
    | x :: l, i + 1 =>
      rw [rest l i m hi b]
      simp [usesInput, attr_eval]

-- a viewer that bakes grades, and a merge with a surplus input
example [FloatLike F] :
    ¬ OddViewer (⟨1, .valid, .viewer { ViewerAttrs.new with bakeOption := 2 }⟩ : Node F) ∧
    (⟨1, .valid, .viewer { ViewerAttrs.new with bakeOption := 2 }⟩ : Node F).validate 15 [(), ()] =
      .ok [9, 0] ∧
    (⟨1, .valid, .mergeImage MergeImageAttrs.new⟩ : Node F).validate 15 [(), (), ()] =
      .ok [15, 15, 0] := by
  refine ⟨?_, rfl, rfl⟩
  simp [OddViewer, attr_eval, ViewerAttrs.new]

/-- C43 is false for a disabled viewer: it requests everything, whatever was requested. -/
theorem C43_counterexample_disabled (a : ViewerAttrs) (i : Nat) (st : NodeStatus)
    (he : a.enable = 0) (mode : Mode) (x : α) :
    (⟨i, st, .viewer a⟩ : Node F).validate mode [x] = .ok [modeAll] := by
  simp only [Node.validate, ViewerAttrs.validate, he, if_true]
  rfl

example : ({ ViewerAttrs.new with enable := 0 } : ViewerAttrs).enable = 0 ∧
    (⟨1, .valid, .viewer { ViewerAttrs.new with enable := 0 }⟩ : Node Int).validate modeNone [()] =
      .ok [15] := ⟨rfl, rfl⟩

/-- C43 is false for a viewer with an invalid bake option: it panics. -/
theorem C43_counterexample_option (a : ViewerAttrs) (i : Nat) (st : NodeStatus)
    (he : a.enable ≠ 0) (hc : a.cropToFormat = 0) (hb : a.bakeOption < 0 ∨ 3 < a.bakeOption)
    (mode : Mode) (x : α) (rest : List α) :
    (⟨i, st, .viewer a⟩ : Node F).validate mode (x :: rest) = .error .explicit := by
  have : BakeOption.ofI32 a.bakeOption = .uninitialized := by
    unfold BakeOption.ofI32
    rw [if_neg (by omega), if_neg (by omega), if_neg (by omega), if_neg (by omega)]
  simp only [Node.validate, ViewerAttrs.validate, he, if_false, hc, this, ne_eq, reduceCtorEq,
    not_false_eq_true, if_true, not_true_eq_false, decide_false]
  rfl

example : ({ ViewerAttrs.new with bakeOption := 7 } : ViewerAttrs).enable ≠ 0 ∧
    (⟨1, .valid, .viewer { ViewerAttrs.new with bakeOption := 7 }⟩ : Node Int).validate modeAll
      [()] = .error .explicit := ⟨by decide, rfl⟩

end
end OCG.Props
