import Verif.Props.IeeeMerge
/-
C57 in single floats: how exactly colour matrices are applied and combined.
-/

namespace OCG.Props

open Ieee IeeeSpec PixelSpec ColorSpec

/-- The number 2^127. -/
theorem huge_single : ∃ y : F32, IsFinite y ∧ |val y| = 2 ^ 127 := by
  refine ⟨⟨false, 0x7f000000, by decide⟩, by rw [finite_iff]; decide +kernel, ?_⟩
  rw [show val (⟨false, 0x7f000000, by decide⟩ : F32) = 2 ^ 127 by unfold val; norm_num]
  exact abs_of_pos (by positivity)

/-- A rounded number that is not too large. -/
theorem rounds_bounded {q : ℚ} {x : F32} (r : Rounds q x) {M : ℚ} (h : |q| ≤ M) (hM : M ≤ 2 ^ 127) :
    Within (M + (M / 2 ^ 24 + 1 / 2 ^ 150)) x ∧ |val x - q| ≤ M / 2 ^ 24 + 1 / 2 ^ 150 := by
  obtain ⟨y, hy, e⟩ := huge_single
  obtain ⟨f, -⟩ := r.finite hy (by rw [e]; exact h.trans hM)
  have k := single_error r f h
  refine ⟨⟨f, ?_⟩, k⟩
  rw [abs_le] at *
  constructor <;> linarith [k.1, k.2, h.1, h.2]

theorem product_bounded {A B : ℚ} {x y : F32} (hx : Within A x) (hy : Within B y)
    (hM : A * B ≤ 2 ^ 127) :
    Within (A * B + (A * B / 2 ^ 24 + 1 / 2 ^ 150)) (mul x y) ∧
      |val (mul x y) - val x * val y| ≤ A * B / 2 ^ 24 + 1 / 2 ^ 150 :=
  rounds_bounded (rounds_mul hx.1 hy.1) (by
    rw [abs_mul]
    exact mul_le_mul hx.2 hy.2 (abs_nonneg _) ((abs_nonneg _).trans hx.2)) hM

theorem sum_bounded {A B : ℚ} {x y : F32} (hx : Within A x) (hy : Within B y)
    (hM : A + B ≤ 2 ^ 127) :
    Within (A + B + ((A + B) / 2 ^ 24 + 1 / 2 ^ 150)) (add x y) ∧
      |val (add x y) - (val x + val y)| ≤ (A + B) / 2 ^ 24 + 1 / 2 ^ 150 :=
  rounds_bounded (rounds_add hx.1 hy.1) ((abs_add_le _ _).trans (add_le_add hx.2 hy.2)) hM

/-- Four products, added up. -/
theorem dot_bounded {K M : ℚ} {a b : Fin 4 → F32} (ha : ∀ j, Within K (a j))
    (hb : ∀ j, Within M (b j)) (h : K * M ≤ 2 ^ 120) :
    Within (5 * (K * M) + 1 / 2 ^ 147)
      (add (add (add (mul (a 0) (b 0)) (mul (a 1) (b 1))) (mul (a 2) (b 2))) (mul (a 3) (b 3))) ∧
    |val (add (add (add (mul (a 0) (b 0)) (mul (a 1) (b 1))) (mul (a 2) (b 2))) (mul (a 3) (b 3))) -
      ∑ j, val (a j) * val (b j)| ≤ K * M / 2 ^ 20 + 1 / 2 ^ 147 := by
  have hT : 0 ≤ K * M := mul_nonneg ((abs_nonneg _).trans (ha 0).2) ((abs_nonneg _).trans (hb 0).2)
  have p := fun j => product_bounded (ha j) (hb j) (h.trans (by norm_num))
  have bj := fun j => abs_mul (val (a j)) (val (b j)) ▸
    mul_le_mul (ha j).2 (hb j).2 (abs_nonneg _) ((abs_nonneg _).trans (ha j).2)
  rw [Fin.sum_univ_four]
  have p0 := p 0
  have p1 := p 1
  have p2 := p 2
  have p3 := p 3
  have b0 := bj 0
  have b1 := bj 1
  have b2 := bj 2
  have b3 := bj 3
  generalize K * M = T at *
  generalize val (a 0) * val (b 0) = t0 at *
  generalize val (a 1) * val (b 1) = t1 at *
  generalize val (a 2) * val (b 2) = t2 at *
  generalize val (a 3) * val (b 3) = t3 at *
  obtain ⟨s1, e1⟩ := sum_bounded p0.1 p1.1 (by linarith)
  obtain ⟨s2, e2⟩ := sum_bounded s1 p2.1 (by linarith)
  obtain ⟨s3, e3⟩ := sum_bounded s2 p3.1 (by linarith)
  have key : |val (add (add (add (mul (a 0) (b 0)) (mul (a 1) (b 1))) (mul (a 2) (b 2)))
      (mul (a 3) (b 3))) - (t0 + t1 + t2 + t3)| ≤ T / 2 ^ 20 + 1 / 2 ^ 147 := by
    have f0 := abs_le.mp p0.2
    have f1 := abs_le.mp p1.2
    have f2 := abs_le.mp p2.2
    have f3 := abs_le.mp p3.2
    have g1 := abs_le.mp e1
    have g2 := abs_le.mp e2
    have g3 := abs_le.mp e3
    rw [abs_le]
    constructor <;> linarith [f0.1, f0.2, f1.1, f1.2, f2.1, f2.2, f3.1, f3.2, g1.1, g1.2, g2.1, g2.2, g3.1, g3.2]
  refine ⟨⟨s3.1, ?_⟩, key⟩
  rw [abs_le] at *
  constructor <;> linarith [key.1, key.2, b0.1, b0.2, b1.1, b1.2, b2.1, b2.2, b3.1, b3.2]

/-- The colour `j` (red, green, blue, alpha) of pixel `i` of a buffer with `n` channels: a single
channel is alpha, and colours that are not there are 1. -/
def colour [Libm single32] (n : Nat) (buf : List F32) (i : Nat) (j : Fin 4) : F32 :=
  if n = 1 then (if j = 3 then buf.getD i 1 else 1)
  else if j.val < n then buf.getD (i * n + j.val) 1 else 1

section
variable [Libm single32]

theorem mulVec_bounded {K M : ℚ} {m : Mat4 F32} {v : Vec4 F32} (hm : ∀ i j, Within K (m i j))
    (hv : ∀ j, Within M (v j)) (h : K * M ≤ 2 ^ 120) (i : Fin 4) :
    Within (5 * (K * M) + 1 / 2 ^ 147) (Xform.mulVec m v i) ∧
    |val (Xform.mulVec m v i) - ∑ j, val (m i j) * val (v j)| ≤ K * M / 2 ^ 20 + 1 / 2 ^ 147 :=
  dot_bounded (hm i) hv h

theorem mul_bounded {K M : ℚ} {k m : Mat4 F32} (hk : ∀ i j, Within K (k i j))
    (hm : ∀ i j, Within M (m i j)) (h : K * M ≤ 2 ^ 120) (a b : Fin 4) :
    Within (5 * (K * M) + 1 / 2 ^ 147) (Xform.mul k m a b) ∧
    |val (Xform.mul k m a b) - ∑ j, val (k a j) * val (m j b)| ≤ K * M / 2 ^ 20 + 1 / 2 ^ 147 := by
  have := dot_bounded (a := k a) (b := fun j => m j b) (hk a) (fun j => hm j b) h
  exact this

theorem one_within {M : ℚ} (h : 1 ≤ M) : Within M (1 : F32) := by
  refine ⟨(one_spec ok_single).1, ?_⟩
  rw [show val (1 : F32) = 1 from one_val, abs_one]
  exact h

/-- The values of a pixel in a buffer that has it. -/
theorem colour_within {n : Nat} {buf : List F32} {M : ℚ} (h1 : 1 ≤ M) (hb : ∀ x ∈ buf, Within M x)
    (i : Nat) (j : Fin 4) : Within M (colour n buf i j) := by
  have g : ∀ k, Within M (buf.getD k 1) := fun k => by
    rw [List.getD_eq_getElem?_getD]
    cases e : buf[k]? with
    | none => exact one_within h1
    | some x => exact hb x (List.mem_of_getElem? e)
  unfold colour
  split
  · split
    · exact g _
    · exact one_within h1
  · split
    · exact g _
    · exact one_within h1

theorem onPixel_colour {n : Nat} (hn : Channels n) {buf : List F32} {i k : Nat}
    (hi : i < buf.length / n) (hk : k < n) (f : Vec4 F32 → Vec4 F32) :
    (onPixel f (pixel n buf i))[k]? =
      some (f (colour n buf i) ⟨channelOf n k, by
        unfold channelOf; rcases hn with rfl | rfl | rfl <;> split <;> omega⟩) := by
  have hl := pixel_length hi
  have g : ∀ j, j < n → (pixel n buf i).getD j 1 = buf.getD (i * n + j) 1 := by
    intro j hj
    unfold pixel
    rw [List.getD_eq_getElem?_getD, List.getD_eq_getElem?_getD, List.getElem?_take, if_pos hj,
      List.getElem?_drop]
  have h4 : ∀ j : Fin 4, j = 0 ∨ j = 1 ∨ j = 2 ∨ j = 3 := by omega
  rcases hn with rfl | rfl | rfl
  · obtain ⟨a, e⟩ := List.length_eq_one_iff.mp hl
    have h0 := g 0 (by omega)
    rw [e] at h0 ⊢
    have : colour 1 buf i = Xform.vec 1 1 1 a := by
      funext j
      simp at h0
      rcases h4 j with rfl | rfl | rfl | rfl <;> simp [colour, Xform.vec, h0]
    obtain rfl : k = 0 := by omega
    rw [this]
    rfl
  · obtain ⟨r, gr, b, e⟩ := list3 hl
    have h0 := g 0 (by omega)
    have h1 := g 1 (by omega)
    have h2 := g 2 (by omega)
    rw [e] at h0 h1 h2 ⊢
    have : colour 3 buf i = Xform.vec r gr b 1 := by
      funext j
      simp at h0 h1 h2
      rcases h4 j with rfl | rfl | rfl | rfl <;> simp [colour, Xform.vec, h0, h1, h2]
    rw [this]
    rcases (by omega : k = 0 ∨ k = 1 ∨ k = 2) with rfl | rfl | rfl <;> rfl
  · obtain ⟨r, gr, b, a, e⟩ := list4 hl
    have h0 := g 0 (by omega)
    have h1 := g 1 (by omega)
    have h2 := g 2 (by omega)
    have h3 := g 3 (by omega)
    rw [e] at h0 h1 h2 h3 ⊢
    have : colour 4 buf i = Xform.vec r gr b a := by
      funext j
      simp at h0 h1 h2 h3
      rcases h4 j with rfl | rfl | rfl | rfl <;> simp [colour, Xform.vec, h0, h1, h2, h3]
    rw [this]
    rcases (by omega : k = 0 ∨ k = 1 ∨ k = 2 ∨ k = 3) with rfl | rfl | rfl | rfl <;> rfl

/-- C57 in single floats: a colour matrix with entries of at most `K`, applied to values of at most
`M`, gives finite values, and each is the exact product of the matrix and the pixel up to a small
multiple of the precision of single floats. -/
theorem C57_single_accuracy (m : Mat4 F32) {n : Nat} (hn : Channels n) (buf : List F32) {K M : ℚ}
    (h1 : 1 ≤ M) (hm : ∀ i j, Within K (m i j)) (hb : ∀ x ∈ buf, Within M x) (h : K * M ≤ 2 ^ 120) :
    ∃ out, applyColorMatrix buf n m = .ok out ∧ out.length = buf.length ∧
      ∀ i k, i < buf.length / n → k < n → ∃ (q : F32) (c : Fin 4), out[i * n + k]? = some q ∧
        c.val = channelOf n k ∧ IsFinite q ∧
        |val q - ∑ j, val (m c j) * val (colour n buf i j)| ≤ K * M / 2 ^ 20 + 1 / 2 ^ 147 := by
  obtain ⟨out, e, hmap⟩ := C57_per_pixel m hn buf
  refine ⟨out, e, hmap.length, fun i k hi hk => ?_⟩
  have hp := onPixel_colour hn hi hk (Xform.mulVec m)
  rw [← hmap.pixels i hi] at hp
  have hq : out[i * n + k]? = (pixel n out i)[k]? := by
    unfold pixel
    rw [List.getElem?_take, if_pos hk, List.getElem?_drop]
  obtain ⟨w, err⟩ := mulVec_bounded hm (colour_within (n := n) h1 hb i) h
    ⟨channelOf n k, by unfold channelOf; rcases hn with rfl | rfl | rfl <;> split <;> omega⟩
  exact ⟨_, _, hq.trans hp, rfl, w.1, err⟩

omit [Libm single32] in
/-- The bounds of `mulVec_twice`, added up. -/
theorem twice_sums {K L M x y t t1 t2 : ℚ} (L0 : 0 ≤ L) (M0 : 0 ≤ M) (X0 : 0 ≤ L * (K * M))
    (x2 : |x - t1| ≤ L * (5 * (K * M) + 1 / 2 ^ 147) / 2 ^ 20 + 1 / 2 ^ 147)
    (x3 : |t1 - t| ≤ 4 * (L * (K * M / 2 ^ 20 + 1 / 2 ^ 147)))
    (y2 : |y - t2| ≤ (5 * (L * K) + 1 / 2 ^ 147) * M / 2 ^ 20 + 1 / 2 ^ 147)
    (y3 : |t2 - t| ≤ 4 * ((L * K / 2 ^ 20 + 1 / 2 ^ 147) * M)) :
    |x - y| ≤ K * L * M / 2 ^ 15 + (L + M + 1) / 2 ^ 144 := by
  have e1 : L * (5 * (K * M) + 1 / 2 ^ 147) / 2 ^ 20 =
      5 * (L * (K * M)) / 2 ^ 20 + L / 2 ^ 167 := by ring
  have e2 : (5 * (L * K) + 1 / 2 ^ 147) * M / 2 ^ 20 =
      5 * (L * (K * M)) / 2 ^ 20 + M / 2 ^ 167 := by ring
  have e3 : 4 * (L * (K * M / 2 ^ 20 + 1 / 2 ^ 147)) =
      4 * (L * (K * M)) / 2 ^ 20 + 4 * L / 2 ^ 147 := by ring
  have e4 : 4 * ((L * K / 2 ^ 20 + 1 / 2 ^ 147) * M) =
      4 * (L * (K * M)) / 2 ^ 20 + 4 * M / 2 ^ 147 := by ring
  have e5 : K * L * M = L * (K * M) := by ring
  rw [e1] at x2
  rw [e2] at y2
  rw [e3] at x3
  rw [e4] at y3
  rw [e5]
  clear e1 e2 e3 e4 e5
  generalize L * (K * M) = X at *
  rw [abs_le] at *
  constructor <;> linarith [x2.1, x2.2, x3.1, x3.2, y2.1, y2.2, y3.1, y3.2]

omit [Libm single32] in
theorem twice_sizes {K L M : ℚ} (K0 : 0 ≤ K) (L0 : 0 ≤ L) (M0 : 0 ≤ M) (bK : K ≤ 2 ^ 39)
    (bL : L ≤ 2 ^ 39) (bM : M ≤ 2 ^ 39) :
    K * M ≤ 2 ^ 120 ∧ L * K ≤ 2 ^ 120 ∧ L * (K * M) ≤ 2 ^ 117 := by
  have two : ∀ {A B : ℚ}, 0 ≤ B → A ≤ 2 ^ 39 → B ≤ 2 ^ 39 → A * B ≤ 2 ^ 78 := fun {A B} h a b =>
    calc A * B ≤ 2 ^ 39 * 2 ^ 39 := mul_le_mul a b h (by norm_num)
      _ = 2 ^ 78 := by norm_num
  have h78 : (2 : ℚ) ^ 78 ≤ 2 ^ 120 := by norm_num
  refine ⟨(two M0 bK bM).trans h78, (two K0 bL bK).trans h78, ?_⟩
  calc L * (K * M) ≤ 2 ^ 39 * 2 ^ 78 := mul_le_mul bL (two M0 bK bM) (mul_nonneg K0 M0) (by norm_num)
    _ = 2 ^ 117 := by norm_num

/-- Two matrices one after the other, and their product, on one pixel. -/
theorem mulVec_twice {K L M : ℚ} {m k : Mat4 F32} {v : Vec4 F32} (hm : ∀ i j, Within K (m i j))
    (hk : ∀ i j, Within L (k i j)) (hv : ∀ j, Within M (v j)) (bK : K ≤ 2 ^ 39) (bL : L ≤ 2 ^ 39)
    (bM : M ≤ 2 ^ 39) (i : Fin 4) :
    IsFinite (Xform.mulVec k (Xform.mulVec m v) i) ∧
    IsFinite (Xform.mulVec (Xform.mul k m) v i) ∧
    |val (Xform.mulVec k (Xform.mulVec m v) i) - val (Xform.mulVec (Xform.mul k m) v i)| ≤
      K * L * M / 2 ^ 15 + (L + M + 1) / 2 ^ 144 := by
  have K0 : 0 ≤ K := (abs_nonneg _).trans (hm 0 0).2
  have L0 : 0 ≤ L := (abs_nonneg _).trans (hk 0 0).2
  have M0 : 0 ≤ M := (abs_nonneg _).trans (hv 0).2
  obtain ⟨bKM, bLK, bX⟩ := twice_sizes K0 L0 M0 bK bL bM
  have X0 : 0 ≤ L * (K * M) := mul_nonneg L0 (mul_nonneg K0 M0)
  -- one after the other
  have w := mulVec_bounded hm hv bKM
  obtain ⟨x1, x2⟩ := mulVec_bounded hk (fun j => (w j).1) (by
    rw [mul_add]; linarith) i
  have x3 : |∑ j, val (k i j) * val (Xform.mulVec m v j) -
      ∑ j, val (k i j) * ∑ l, val (m j l) * val (v l)| ≤
      4 * (L * (K * M / 2 ^ 20 + 1 / 2 ^ 147)) := by
    rw [← Finset.sum_sub_distrib]
    refine (Finset.abs_sum_le_sum_abs _ _).trans ?_
    refine (Finset.sum_le_card_nsmul _ _ (L * (K * M / 2 ^ 20 + 1 / 2 ^ 147)) fun j _ => ?_).trans ?_
    · rw [← mul_sub, abs_mul]
      exact mul_le_mul (hk i j).2 (w j).2 (abs_nonneg _) L0
    · simp
  -- the product
  have pr : ∀ a b, Within (5 * (L * K) + 1 / 2 ^ 147) (Xform.mul k m a b) ∧
      |val (Xform.mul k m a b) - ∑ j, val (k a j) * val (m j b)| ≤ L * K / 2 ^ 20 + 1 / 2 ^ 147 :=
    mul_bounded hk hm bLK
  obtain ⟨y1, y2⟩ := mulVec_bounded (fun a b => (pr a b).1) hv (by
    rw [add_mul]; linarith) i
  have y3 : |∑ l, val (Xform.mul k m i l) * val (v l) -
      ∑ l, (∑ j, val (k i j) * val (m j l)) * val (v l)| ≤
      4 * ((L * K / 2 ^ 20 + 1 / 2 ^ 147) * M) := by
    rw [← Finset.sum_sub_distrib]
    refine (Finset.abs_sum_le_sum_abs _ _).trans ?_
    refine (Finset.sum_le_card_nsmul _ _ ((L * K / 2 ^ 20 + 1 / 2 ^ 147) * M) fun j _ => ?_).trans ?_
    · rw [← sub_mul, abs_mul]
      exact mul_le_mul (pr i j).2 (hv j).2 (abs_nonneg _) (by positivity)
    · simp
  have same : ∑ j, val (k i j) * ∑ l, val (m j l) * val (v l) =
      ∑ l, (∑ j, val (k i j) * val (m j l)) * val (v l) := by
    simp only [Finset.mul_sum, Finset.sum_mul, mul_assoc]
    exact Finset.sum_comm
  rw [same] at x3
  refine ⟨x1.1, y1.1, ?_⟩
  exact twice_sums L0 M0 X0 x2 x3 y2 y3

/-- C57 in single floats: on RGBA images, applying one matrix and then another gives the same, up to
a small multiple of the precision of single floats, as applying their product.  (Exactly the same it
is not, see `C57_counterexample_compose`.) -/
theorem C57_single_compose (m k : Mat4 F32) (buf : List F32) {K L M : ℚ}
    (hm : ∀ i j, Within K (m i j)) (hk : ∀ i j, Within L (k i j)) (hb : ∀ x ∈ buf, Within M x)
    (h1 : 1 ≤ M) (bK : K ≤ 2 ^ 39) (bL : L ≤ 2 ^ 39) (bM : M ≤ 2 ^ 39) :
    ∃ mid two one, applyColorMatrix buf 4 m = .ok mid ∧ applyColorMatrix mid 4 k = .ok two ∧
      applyColorMatrix buf 4 (Xform.mul k m) = .ok one ∧ two.length = buf.length ∧
      one.length = buf.length ∧
      ∀ i c, i < buf.length / 4 → c < 4 → ∃ p q : F32, two[i * 4 + c]? = some p ∧
        one[i * 4 + c]? = some q ∧ IsFinite p ∧ IsFinite q ∧
        |val p - val q| ≤ K * L * M / 2 ^ 15 + (L + M + 1) / 2 ^ 144 := by
  have hn : Channels 4 := .inr (.inr rfl)
  obtain ⟨mid, e1, m1⟩ := C57_per_pixel m hn buf
  obtain ⟨two, e2, m2⟩ := C57_per_pixel k hn mid
  obtain ⟨one, e3, m3⟩ := C57_per_pixel (Xform.mul k m) hn buf
  refine ⟨mid, two, one, e1, e2, e3, m2.length.trans m1.length, m3.length, fun i c hi hc => ?_⟩
  have get : ∀ (l : List F32), l[i * 4 + c]? = (pixel 4 l i)[c]? := fun l => by
    unfold pixel
    rw [List.getElem?_take, if_pos hc, List.getElem?_drop]
  have hi' : i < mid.length / 4 := by rw [m1.length]; exact hi
  have hmid : colour 4 mid i = Xform.mulVec m (colour 4 buf i) := by
    funext j
    have := onPixel_colour hn hi j.isLt (Xform.mulVec m)
    rw [← m1.pixels i hi] at this
    have hj : (⟨channelOf 4 j.val, by unfold channelOf; simp⟩ : Fin 4) = j := by
      apply Fin.ext; simp [channelOf]
    have h2 : mid[i * 4 + j.val]? = some (Xform.mulVec m (colour 4 buf i) j) := by
      rw [hj] at this
      rw [← this]
      unfold pixel
      rw [List.getElem?_take, if_pos j.isLt, List.getElem?_drop]
    unfold colour at *
    rw [if_neg (by decide), if_pos j.isLt, List.getD_eq_getElem?_getD, h2]
    rfl
  have ht := onPixel_colour hn hi' hc (Xform.mulVec k)
  have ho := onPixel_colour hn hi hc (Xform.mulVec (Xform.mul k m))
  rw [← m2.pixels i hi', ← get, hmid] at ht
  rw [← m3.pixels i hi, ← get] at ho
  obtain ⟨f1, f2, err⟩ := mulVec_twice hm hk (colour_within (n := 4) h1 hb i) bK bL bM
    ⟨channelOf 4 c, by unfold channelOf; simpa using hc⟩
  exact ⟨_, _, ht, ho, f1, f2, err⟩

end

/-! ### Examples -/

section Examples

attribute [local instance] exactPowf

theorem scaleTenth_within (i j : Fin 4) : Within 1 (scaleBy tenth i j) := by
  have h0 : Within 1 (zero false : F32) := ⟨by rw [finite_iff]; decide, by unfold val; norm_num⟩
  have h1 : Within 1 tenth := ⟨by rw [finite_iff]; decide +kernel, by
    unfold val tenth; norm_num [abs_le]⟩
  unfold scaleBy
  split
  · exact h1
  · exact h0

-- C57: the matrices of `C57_counterexample_compose`, which differ, differ by at most 1/4096.
example : ∃ two one : List F32,
    (applyColorMatrix [ofInt 5, ofInt 5, ofInt 5, ofInt 5] 4 (scaleBy tenth) >>=
        fun b => applyColorMatrix b 4 (scaleBy tenth)) = .ok two ∧
      applyColorMatrix [ofInt 5, ofInt 5, ofInt 5, ofInt 5] 4
        (Xform.mul (scaleBy tenth) (scaleBy tenth)) = .ok one ∧
      ∀ c, c < 4 → ∃ p q : F32, two[c]? = some p ∧ one[c]? = some q ∧ |val p - val q| ≤ 1 / 2 ^ 12 := by
  have h5 : ∀ x ∈ [ofInt 5, ofInt 5, ofInt 5, (ofInt 5 : F32)], Within 5 x := by
    have : Within 5 (ofInt 5 : F32) := by
      have e : (ofInt 5 : F32) = ⟨false, 0x40a00000, by decide⟩ := by decide +kernel
      rw [e]
      exact ⟨by rw [finite_iff]; decide +kernel, by unfold val; norm_num [abs_le]⟩
    simpa using this
  obtain ⟨mid, two, one, e1, e2, e3, -, -, h⟩ := C57_single_compose (scaleBy tenth) (scaleBy tenth)
    [ofInt 5, ofInt 5, ofInt 5, ofInt 5] scaleTenth_within scaleTenth_within h5 (by norm_num)
    (by norm_num) (by norm_num) (by norm_num)
  refine ⟨two, one, by rw [e1]; exact e2, e3, fun c hc => ?_⟩
  obtain ⟨p, q, h1, h2, -, -, h3⟩ := h 0 c (by decide) hc
  rw [Nat.zero_mul, Nat.zero_add] at h1 h2
  exact ⟨p, q, h1, h2, h3.trans (by norm_num)⟩

-- C57: scaling 5 by 0.1 gives the product of the two floats, up to 2^-17.
example : ∃ (out : List F32) (q : F32),
    applyColorMatrix [ofInt 5, ofInt 5, ofInt 5] 3 (scaleBy tenth) = .ok out ∧ out[0]? = some q ∧
      IsFinite q ∧ ∃ c : Fin 4, c.val = 0 ∧
        |val q - ∑ j, val (scaleBy tenth c j) * val (colour 3 [ofInt 5, ofInt 5, ofInt 5] 0 j)| ≤
          1 / 2 ^ 17 := by
  have h5 : ∀ x ∈ [ofInt 5, ofInt 5, (ofInt 5 : F32)], Within 5 x := by
    have : Within 5 (ofInt 5 : F32) := by
      have e : (ofInt 5 : F32) = ⟨false, 0x40a00000, by decide⟩ := by decide +kernel
      rw [e]
      exact ⟨by rw [finite_iff]; decide +kernel, by unfold val; norm_num [abs_le]⟩
    simpa using this
  obtain ⟨out, e, -, h⟩ := C57_single_accuracy (scaleBy tenth) (n := 3) (.inr (.inl rfl))
    [ofInt 5, ofInt 5, ofInt 5] (by norm_num) scaleTenth_within h5 (by norm_num)
  obtain ⟨q, c, h1, h2, h3, h4⟩ := h 0 0 (by decide) (by decide)
  exact ⟨out, q, e, h1, h3, c, h2, h4.trans (by norm_num)⟩

end Examples

end OCG.Props
