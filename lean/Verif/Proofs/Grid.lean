import Verif.Model.Remap
import Verif.Proofs.Writer
import Verif.Proofs.Block
/-
Loops over the rows and columns of an image that write one pixel at a time.
-/

namespace OCG

/-- The invariant rule for a loop over rows and columns, counting the pixels. -/
theorem grid_inv {σ : Type} (P : Nat → σ → Prop) (h w : Nat) (f : Nat → Nat → σ → Res σ) (s : σ)
    (h0 : P 0 s)
    (hs : ∀ y x s, y < h → x < w → P (y * w + x) s → ∃ s', f y x s = .ok s' ∧ P (y * w + x + 1) s') :
    ∃ s', forRange h (fun y s => forRange w (f y) s) s = .ok s' ∧ P (h * w) s' := by
  refine forRange_inv _ (fun y s => P (y * w) s) h s (by simpa using h0) ?_
  intro y s hy hP
  obtain ⟨s', e, h'⟩ := forRange_inv (f y) (fun x s => P (y * w + x) s) w s (by simpa using hP)
    (fun x s hx hP => hs y x s hy hx hP)
  refine ⟨s', e, ?_⟩
  have : (y + 1) * w = y * w + w := by rw [Nat.add_mul, Nat.one_mul]
  rw [this]
  exact h'

section
variable {F : Type}

theorem writeFrom_mid : ∀ (vs L R : List F), vs.length ≤ R.length →
    writeFrom (L ++ R) L.length vs = .ok (L ++ vs ++ R.drop vs.length) := by
  intro vs
  induction vs with
  | nil => intro L R _; simp [writeFrom]
  | cons v vs ih =>
    intro L R h
    match R, h with
    | [], h => simp at h
    | r :: R, h =>
      unfold writeFrom
      have e : setAt (L ++ r :: R) L.length v = .ok (L ++ v :: R) := by
        unfold setAt
        simp
      have := ih (L ++ [v]) R (by simpa using h)
      rw [e]
      simp only [bind, Except.bind]
      rw [show L ++ v :: R = L ++ [v] ++ R by simp,
        show L.length + 1 = (L ++ [v]).length by simp, this]
      simp

/-- The buffer after the first `k` pixels have been written. -/
def Painted (n : Nat) (g : Nat → List F) (buf0 : List F) (k : Nat) (buf : List F) : Prop :=
  buf = (List.range k).flatMap g ++ buf0.drop (k * n)

theorem Painted.start (n : Nat) (g : Nat → List F) (buf0 : List F) : Painted n g buf0 0 buf0 := by
  unfold Painted; simp

theorem Painted.step {n : Nat} {g : Nat → List F} {buf0 buf : List F} {k N : Nat}
    (hg : ∀ i < N, (g i).length = n) (hk : k < N) (hb : N * n ≤ buf0.length)
    (h : Painted n g buf0 k buf) {i : Nat} (hi : i = k * n) :
    ∃ buf', writeFrom buf i (g k) = .ok buf' ∧ Painted n g buf0 (k + 1) buf' := by
  unfold Painted at *
  have hl := length_flatMap_const g n k (fun i hi => hg i (by omega))
  have hkn : (k + 1) * n ≤ N * n := Nat.mul_le_mul_right n hk
  rw [Nat.add_mul, Nat.one_mul] at hkn
  have := writeFrom_mid (g k) ((List.range k).flatMap g) (buf0.drop (k * n)) (by
    rw [hg k hk, List.length_drop]; omega)
  rw [hl] at this
  refine ⟨_, by rw [h, hi]; exact this, ?_⟩
  rw [List.range_succ, List.flatMap_append, List.flatMap_singleton, hg k hk, List.drop_drop,
    Nat.add_mul, Nat.one_mul]

/-- A fully painted buffer of the right length. -/
theorem Painted.done {n : Nat} {g : Nat → List F} {buf0 buf : List F} {N : Nat}
    (hb : buf0.length = N * n) (h : Painted n g buf0 N buf) : buf = (List.range N).flatMap g := by
  unfold Painted at h
  rw [h, List.drop_eq_nil_of_le (by omega), List.append_nil]

end

/-- The pixels of a painted image. -/
theorem channelAt_flatMap {F : Type} (b : BlockSize) (hv : BlockSpec.ValidSize b)
    (g : Nat → List F) (hg : ∀ i < (b.width * b.height).toNat, (g i).length = b.numChannels.toNat)
    (x y c : Int) (h : BlockSpec.InBlock b x y) (h0 : 0 ≤ c) (h1 : c < b.numChannels) :
    BlockSpec.channelAt b ((List.range (b.width * b.height).toNat).flatMap g) x y c =
      (g (y * b.width + x).toNat)[c.toNat]? := by
  obtain ⟨hw, hh, hn, -⟩ := hv
  obtain ⟨a1, a2, a3, a4⟩ := h
  have r0 : 0 ≤ y * b.width := mul_nonneg a3 hw.le
  have r1 : (y + 1) * b.width ≤ b.height * b.width := mul_le_mul_of_nonneg_right (by omega) hw.le
  rw [add_mul, one_mul, mul_comm b.height] at r1
  unfold BlockSpec.channelAt
  have e : ((y * b.width + x) * b.numChannels + c).toNat =
      (y * b.width + x).toNat * b.numChannels.toNat + c.toNat := by
    have hq : 0 ≤ (y * b.width + x) * b.numChannels := mul_nonneg (by omega) hn.le
    rw [Int.toNat_add hq h0, Int.toNat_mul (by omega) hn.le]
  rw [e]
  exact getElem?_flatMap_const g b.numChannels.toNat _ _ _ hg (by omega) (by omega)

end OCG
