import Verif.Model.ColorOps
import Verif.Spec.Pixels
import Mathlib.Tactic.Linarith
/-
The pixel loops apply a function to every pixel.
-/

namespace OCG

open PixelSpec

section
variable {F : Type}

theorem pixel_length {n : Nat} {buf : List F} {i : Nat} (h : i < buf.length / n) :
    (pixel n buf i).length = n := by
  have : (i + 1) * n ≤ buf.length := Nat.le_trans (Nat.mul_le_mul_right n h) (Nat.div_mul_le_self _ _)
  have e : (i + 1) * n = i * n + n := by rw [Nat.add_mul, Nat.one_mul]
  rw [e] at this
  unfold pixel
  rw [List.length_take, List.length_drop]
  omega

/-- A buffer is what is before a pixel, the pixel, and what is after. -/
theorem split_pixel (n : Nat) (buf : List F) (i : Nat) :
    buf = buf.take (i * n) ++ (pixel n buf i ++ buf.drop ((i + 1) * n)) := by
  unfold pixel
  have e : (i + 1) * n = i * n + n := by rw [Nat.add_mul, Nat.one_mul]
  rw [e, ← List.drop_drop, List.take_append_drop, List.take_append_drop]

/-- The buffer with one pixel replaced. -/
def putPixel (n : Nat) (buf : List F) (i : Nat) (v : List F) : List F :=
  buf.take (i * n) ++ (v ++ buf.drop ((i + 1) * n))

theorem loop_mapped (n : Nat) (hn : 0 < n) (g : List F → List F)
    (hg : ∀ v, v.length = n → (g v).length = n) (step : Nat → List F → Res (List F))
    (hstep : ∀ i buf, i < buf.length / n → step i buf = .ok (putPixel n buf i (g (pixel n buf i))))
    (buf : List F) :
    ∃ out, forRange (buf.length / n) step buf = .ok out ∧ Mapped n g buf out := by
  obtain ⟨out, h, h1, h2, h3⟩ := forRange_inv step
    (fun j s => s.length = buf.length ∧ (∀ i, i < j → pixel n s i = g (pixel n buf i)) ∧
      s.drop (j * n) = buf.drop (j * n)) (buf.length / n) buf ⟨rfl, by omega, by simp⟩ (by
    rintro j s hj ⟨h1, h2, h3⟩
    have hjs : j < s.length / n := by rw [h1]; exact hj
    refine ⟨_, hstep j s hjs, ?_⟩
    have hp : pixel n s j = pixel n buf j := by unfold pixel; rw [h3]
    have hl := hg _ (pixel_length hjs)
    have hjn : (j + 1) * n ≤ s.length :=
      Nat.le_trans (Nat.mul_le_mul_right n hjs) (Nat.div_mul_le_self _ _)
    have e : (j + 1) * n = j * n + n := by rw [Nat.add_mul, Nat.one_mul]
    have ht : (s.take (j * n)).length = j * n := by rw [List.length_take]; omega
    refine ⟨?_, ?_, ?_⟩
    · unfold putPixel
      rw [List.length_append, List.length_append, ht, hl, List.length_drop, ← h1]
      omega
    · intro i hi
      rcases Nat.lt_or_ge i j with hij | hij
      · rw [← h2 i hij]
        have hin : i * n + n ≤ j * n := by
          have := Nat.mul_le_mul_right n hij
          rw [Nat.succ_mul] at this
          exact this
        unfold pixel putPixel
        rw [List.drop_append_of_le_length (by omega), List.take_append_of_le_length (by
          rw [List.length_drop]; omega)]
        conv_rhs => rw [← List.take_append_drop (j * n) s]
        rw [List.drop_append_of_le_length (by omega), List.take_append_of_le_length (by
          rw [List.length_drop]; omega)]
      · have : i = j := by omega
        subst this
        rw [← hp]
        generalize g (pixel n s i) = w at hl
        unfold pixel putPixel
        rw [List.drop_append, ht, Nat.sub_self, List.drop_zero,
          List.drop_eq_nil_of_le (by omega), List.nil_append,
          List.take_append_of_le_length (by omega), List.take_of_length_le (by omega)]
    · unfold putPixel
      rw [List.drop_append, List.drop_append, ht, hl, List.drop_eq_nil_of_le (by omega),
        List.drop_eq_nil_of_le (by omega), List.nil_append, List.nil_append, List.drop_drop,
        show (j + 1) * n + ((j + 1) * n - j * n - n) = j * n + n by omega, ← List.drop_drop, h3,
        List.drop_drop, e])
  exact ⟨out, h, h1, h2, h3⟩

/-- The pixels of a buffer and its incomplete rest determine it. -/
theorem ext_pixels {n : Nat} (hn : 0 < n) {a b : List F} (hl : a.length = b.length)
    (hp : ∀ i, i < a.length / n → pixel n a i = pixel n b i)
    (hr : a.drop (a.length / n * n) = b.drop (a.length / n * n)) : a = b := by
  apply List.ext_getElem? ?_
  intro k
  rcases Nat.lt_or_ge k (a.length / n * n) with hk | hk
  · have hi : k / n < a.length / n := by
      rw [Nat.div_lt_iff_lt_mul hn]; exact hk
    have h := congrArg (fun l => l[k % n]?) (hp _ hi)
    have key : ∀ l : List F, (pixel n l (k / n))[k % n]? = l[k]? := by
      intro l
      unfold pixel
      rw [List.getElem?_take_of_lt (Nat.mod_lt _ hn), List.getElem?_drop, Nat.mul_comm,
        Nat.div_add_mod]
    simpa only [key] using h
  · have h := congrArg (fun l => l[k - a.length / n * n]?) hr
    simp only [List.getElem?_drop] at h
    rwa [Nat.add_sub_cancel' hk] at h

theorem PixelSpec.Mapped.unique {n : Nat} (hn : 0 < n) {g : List F → List F} {buf out out' : List F}
    (h : Mapped n g buf out) (h' : Mapped n g buf out') : out = out' := by
  refine ext_pixels hn (h.length.trans h'.length.symm) ?_ ?_
  · intro i hi
    rw [h.length] at hi
    rw [h.pixels i hi, h'.pixels i hi]
  · rw [h.length, h.rest, h'.rest]

theorem PixelSpec.Mapped.id {n : Nat} {g : List F → List F} {buf : List F}
    (hg : ∀ v, v.length = n → g v = v) : Mapped n g buf buf :=
  ⟨rfl, fun _ hi => (hg _ (pixel_length hi)).symm, rfl⟩

theorem PixelSpec.Mapped.comp {n : Nat} {g g' : List F → List F} {a b c : List F}
    (h : Mapped n g a b) (h' : Mapped n g' b c) : Mapped n (g' ∘ g) a c := by
  refine ⟨h'.length.trans h.length, ?_, ?_⟩
  · intro i hi
    rw [h'.pixels i (by rw [h.length]; exact hi), h.pixels i hi]
    rfl
  · have := h'.rest
    rw [h.length] at this
    rw [this, h.rest]

theorem PixelSpec.Mapped.congr {n : Nat} {g g' : List F → List F} {a b : List F}
    (h : Mapped n g a b) (hg : ∀ v, v.length = n → g v = g' v) : Mapped n g' a b :=
  ⟨h.length, fun i hi => by rw [h.pixels i hi, hg _ (pixel_length hi)], h.rest⟩

/-- A mapping that keeps every pixel keeps the buffer. -/
theorem PixelSpec.Mapped.eq_self {n : Nat} (hn : 0 < n) {g : List F → List F} {a b : List F}
    (h : Mapped n g a b) (hg : ∀ v, v.length = n → g v = v) : b = a :=
  h.unique hn (Mapped.id hg)

end

variable {F : Type} [FloatLike F]

/-- What happens to the values of one pixel with 1, 3 or 4 channels. -/
def onPixel (f : Vec4 F → Vec4 F) : List F → List F
  | [a] => [f (Xform.vec 1 1 1 a) 3]
  | [r, g, b] => [f (Xform.vec r g b 1) 0, f (Xform.vec r g b 1) 1, f (Xform.vec r g b 1) 2]
  | [r, g, b, a] =>
    [f (Xform.vec r g b a) 0, f (Xform.vec r g b a) 1, f (Xform.vec r g b a) 2,
      f (Xform.vec r g b a) 3]
  | v => v

theorem onPixel_length (f : Vec4 F → Vec4 F) (v : List F) : (onPixel f v).length = v.length := by
  unfold onPixel
  split <;> rfl

omit [FloatLike F] in
theorem list3 {v : List F} (h : v.length = 3) : ∃ a b c, v = [a, b, c] := by
  match v with
  | [a, b, c] => exact ⟨a, b, c, rfl⟩
  | [] | [_] | [_, _] | _ :: _ :: _ :: _ :: _ => simp at h

omit [FloatLike F] in
theorem list4 {v : List F} (h : v.length = 4) : ∃ a b c d, v = [a, b, c, d] := by
  match v with
  | [a, b, c, d] => exact ⟨a, b, c, d, rfl⟩
  | [] | [_] | [_, _] | [_, _, _] | _ :: _ :: _ :: _ :: _ :: _ => simp at h

theorem getAt_mid {α : Type} (A B : List α) (v : α) (k : Nat) (hk : k = A.length) :
    getAt (A ++ v :: B) k = .ok v := by
  subst hk
  unfold getAt
  simp

theorem setAt_mid {α : Type} (A B : List α) (v w : α) (k : Nat) (hk : k = A.length) :
    setAt (A ++ v :: B) k w = .ok (A ++ w :: B) := by
  subst hk
  unfold setAt
  simp

theorem step1_eq (f : Vec4 F → Vec4 F) (i : Nat) (buf : List F) (h : i < buf.length / 1) :
    pixelStep1 f i buf = .ok (putPixel 1 buf i (onPixel f (pixel 1 buf i))) := by
  have hl := pixel_length h
  obtain ⟨a, ha⟩ := List.length_eq_one_iff.mp hl
  have hA : i = (buf.take (i * 1)).length := by
    rw [List.length_take]; simp at h ⊢; omega
  unfold pixelStep1 putPixel
  rw [ha]
  have hs := split_pixel 1 buf i
  rw [ha] at hs
  generalize buf.take (i * 1) = A at *
  generalize buf.drop ((i + 1) * 1) = B at *
  rw [hs]
  simp only [List.cons_append, List.nil_append, onPixel]
  rw [getAt_mid A B a i hA]
  exact setAt_mid A B a _ i hA

theorem step3_eq (f : Vec4 F → Vec4 F) (i : Nat) (buf : List F) (h : i < buf.length / 3) :
    pixelStep3 f i buf = .ok (putPixel 3 buf i (onPixel f (pixel 3 buf i))) := by
  have hl := pixel_length h
  obtain ⟨r, g, b, hp⟩ := list3 hl
  have hA : i * 3 = (buf.take (i * 3)).length := by
    rw [List.length_take]; omega
  unfold pixelStep3 putPixel
  rw [hp]
  have hs := split_pixel 3 buf i
  rw [hp] at hs
  generalize buf.take (i * 3) = A at *
  generalize buf.drop ((i + 1) * 3) = B at *
  rw [hs]
  simp only [List.cons_append, List.nil_append, onPixel, Nat.add_zero]
  have s1 : ∀ x y z : F, A ++ x :: y :: z :: B = (A ++ [x]) ++ y :: z :: B := by simp
  have s2 : ∀ x y z : F, A ++ x :: y :: z :: B = (A ++ [x, y]) ++ z :: B := by simp
  rw [getAt_mid A _ r _ hA, s1, getAt_mid (A ++ [r]) _ g _ (by simp [hA]), ← s1, s2,
    getAt_mid (A ++ [r, g]) _ b _ (by simp [hA]), ← s2]
  dsimp only [bind, Except.bind]
  rw [setAt_mid A _ r _ _ hA]
  dsimp only
  rw [s1, setAt_mid (A ++ [_]) _ g _ _ (by simp [hA]), ← s1]
  dsimp only
  rw [s2, setAt_mid (A ++ [_, _]) _ b _ _ (by simp [hA]), ← s2]

theorem step4_eq (f : Vec4 F → Vec4 F) (i : Nat) (buf : List F) (h : i < buf.length / 4) :
    pixelStep4 f i buf = .ok (putPixel 4 buf i (onPixel f (pixel 4 buf i))) := by
  have hl := pixel_length h
  obtain ⟨r, g, b, a, hp⟩ := list4 hl
  have hA : i * 4 = (buf.take (i * 4)).length := by
    rw [List.length_take]; omega
  unfold pixelStep4 putPixel
  rw [hp]
  have hs := split_pixel 4 buf i
  rw [hp] at hs
  generalize buf.take (i * 4) = A at *
  generalize buf.drop ((i + 1) * 4) = B at *
  rw [hs]
  simp only [List.cons_append, List.nil_append, onPixel, Nat.add_zero]
  have s1 : ∀ x y z w : F, A ++ x :: y :: z :: w :: B = (A ++ [x]) ++ y :: z :: w :: B := by simp
  have s2 : ∀ x y z w : F, A ++ x :: y :: z :: w :: B = (A ++ [x, y]) ++ z :: w :: B := by simp
  have s3 : ∀ x y z w : F, A ++ x :: y :: z :: w :: B = (A ++ [x, y, z]) ++ w :: B := by simp
  rw [getAt_mid A _ r _ hA, s1, getAt_mid (A ++ [r]) _ g _ (by simp [hA]), ← s1, s2,
    getAt_mid (A ++ [r, g]) _ b _ (by simp [hA]), ← s2, s3,
    getAt_mid (A ++ [r, g, b]) _ a _ (by simp [hA]), ← s3]
  dsimp only [bind, Except.bind]
  rw [setAt_mid A _ r _ _ hA]
  dsimp only
  rw [s1, setAt_mid (A ++ [_]) _ g _ _ (by simp [hA]), ← s1]
  dsimp only
  rw [s2, setAt_mid (A ++ [_, _]) _ b _ _ (by simp [hA]), ← s2]
  dsimp only
  rw [s3, setAt_mid (A ++ [_, _, _]) _ a _ _ (by simp [hA]), ← s3]

/-- The channel counts that the pixel loops support. -/
def Channels (n : Nat) : Prop := n = 1 ∨ n = 3 ∨ n = 4

theorem pixelLoop_mapped (f : Vec4 F → Vec4 F) {n : Nat} (hn : Channels n) (buf : List F) :
    ∃ out, pixelLoop f n buf = .ok out ∧ Mapped n (onPixel f) buf out := by
  have hg : ∀ v : List F, v.length = n → (onPixel f v).length = n := by
    intro v hv; rw [onPixel_length, hv]
  rcases hn with rfl | rfl | rfl
  · exact loop_mapped 1 (by decide) _ hg _ (step1_eq f) buf
  · exact loop_mapped 3 (by decide) _ hg _ (step3_eq f) buf
  · exact loop_mapped 4 (by decide) _ hg _ (step4_eq f) buf

theorem pixelLoop_other (f : Vec4 F → Vec4 F) {n : Int} (hn : n ≠ 1 ∧ n ≠ 3 ∧ n ≠ 4)
    (buf : List F) : pixelLoop f n buf = .error .explicit := by
  unfold pixelLoop
  rw [if_neg hn.1, if_neg hn.2.1, if_neg hn.2.2]

end OCG
