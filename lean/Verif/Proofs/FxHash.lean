import Verif.Model.FxHash
import Mathlib.Tactic.Linarith
import Mathlib.Tactic.Ring
import Mathlib.Tactic.NormNum
/-
Facts about `FxHasher`.
-/

namespace OCG

theorem rotl5_eq {h : Nat} (hh : h < 18446744073709551616) :
    rotl5 h = 32 * (h % 576460752303423488) + h / 576460752303423488 := by
  unfold rotl5
  rw [Nat.shiftLeft_eq, Nat.shiftRight_eq_div_pow]
  have e : h * 2 ^ 5 % 18446744073709551616 = 2 ^ 5 * (h % 576460752303423488) := by omega
  rw [e, ← Nat.two_pow_add_eq_or_of_lt (by omega)]

theorem rotl5_lt {h : Nat} (hh : h < 18446744073709551616) : rotl5 h < 18446744073709551616 := by
  rw [rotl5_eq hh]; omega

theorem rotl5_inj {h k : Nat} (hh : h < 18446744073709551616) (hk : k < 18446744073709551616)
    (e : rotl5 h = rotl5 k) : h = k := by
  rw [rotl5_eq hh, rotl5_eq hk] at e
  have h1 := Nat.div_add_mod h 576460752303423488
  have k1 := Nat.div_add_mod k 576460752303423488
  have h2 : h / 576460752303423488 < 32 := Nat.div_lt_of_lt_mul hh
  have k2 : k / 576460752303423488 < 32 := Nat.div_lt_of_lt_mul hk
  generalize h / 576460752303423488 = q at *
  generalize k / 576460752303423488 = q' at *
  generalize h % 576460752303423488 = r at *
  generalize k % 576460752303423488 = r' at *
  clear hh hk
  have e1 : q = q' ∧ r = r' := by clear h1 k1; omega
  rw [← h1, ← k1, e1.1, e1.2]

theorem xor_cancel_left {x v w : Nat} (e : x ^^^ v = x ^^^ w) : v = w := by
  have h : ∀ z, x ^^^ (x ^^^ z) = z := fun z => by
    rw [← Nat.xor_assoc, Nat.xor_self, Nat.zero_xor]
  rw [← h v, e, h w]

theorem xor_cancel_right {x v w : Nat} (e : v ^^^ x = w ^^^ x) : v = w := by
  rw [Nat.xor_comm v, Nat.xor_comm w] at e
  exact xor_cancel_left e

theorem xor_lt {x y : Nat} (hx : x < 18446744073709551616) (hy : y < 18446744073709551616) :
    x ^^^ y < 18446744073709551616 :=
  Nat.xor_lt_two_pow (n := 64) hx hy

theorem mulSeed_inj {x y : Nat} (hx : x < 18446744073709551616) (hy : y < 18446744073709551616)
    (e : x * fxSeed % 18446744073709551616 = y * fxSeed % 18446744073709551616) : x = y := by
  have h : ∀ z, z < 18446744073709551616 →
      (z * fxSeed % 18446744073709551616) * 2323857671730065597 % 18446744073709551616 = z := by
    intro z hz
    have hs : fxSeed * 2323857671730065597 = 18446744073709551616 * 739706870995725965 + 1 := by
      decide
    rw [Nat.mod_mul_mod, Nat.mul_assoc, hs]
    omega
  rw [← h x hx, e, h y hy]

theorem fxAdd_lt (h w : Nat) : fxAdd h w < 18446744073709551616 := Nat.mod_lt _ (by decide)

/-- What is equal after a step was equal before the multiplication. -/
theorem fxAdd_strip {h k v w : Nat} (hh : h < 18446744073709551616) (hk : k < 18446744073709551616)
    (hv : v < 18446744073709551616) (hw : w < 18446744073709551616)
    (e : fxAdd h v = fxAdd k w) : rotl5 h ^^^ v = rotl5 k ^^^ w :=
  mulSeed_inj (xor_lt (rotl5_lt hh) hv) (xor_lt (rotl5_lt hk) hw) e

theorem fxAdd_word {h v w : Nat} (hh : h < 18446744073709551616) (hv : v < 18446744073709551616)
    (hw : w < 18446744073709551616) (e : fxAdd h v = fxAdd h w) : v = w :=
  xor_cancel_left (fxAdd_strip hh hh hv hw e)

theorem fxAdd_state {h k w : Nat} (hh : h < 18446744073709551616) (hk : k < 18446744073709551616)
    (hw : w < 18446744073709551616) (e : fxAdd h w = fxAdd k w) : h = k :=
  rotl5_inj hh hk (xor_cancel_right (fxAdd_strip hh hk hw hw e))

theorem fold_lt : ∀ (l : List Nat) {h : Nat}, h < 18446744073709551616 →
    l.foldl fxAdd h < 18446744073709551616
  | [], _, hh => hh
  | w :: l, h, _ => fold_lt l (fxAdd_lt h w)

theorem fold_state : ∀ (l : List Nat), (∀ w ∈ l, w < 18446744073709551616) → ∀ {h k : Nat},
    h < 18446744073709551616 → k < 18446744073709551616 →
    l.foldl fxAdd h = l.foldl fxAdd k → h = k
  | [], _, _, _, _, _, e => e
  | w :: l, hl, h, k, hh, hk, e =>
    fxAdd_state hh hk (hl w (by simp))
      (fold_state l (fun v hv => hl v (by simp [hv])) (fxAdd_lt _ _) (fxAdd_lt _ _) e)

theorem xor_high {x v : Nat} {n : Nat} (hv : v < 2 ^ n) : (x ^^^ v) / 2 ^ n = x / 2 ^ n := by
  rw [← Nat.shiftRight_eq_div_pow, ← Nat.shiftRight_eq_div_pow, Nat.shiftRight_xor_distrib,
    Nat.shiftRight_eq_zero v n hv, Nat.xor_zero]

theorem zero_of_small {m a : Int} (h : -m < m * a ∧ m * a < m) : a = 0 := by
  have hm : 0 < m := by linarith [h.1, h.2]
  rcases lt_trichotomy a 0 with ha | ha | ha
  · nlinarith [h.1]
  · exact ha
  · nlinarith [h.2]

/-- Multiples of the seed by small numbers are not close to multiples of 2^59. -/
theorem seed_far (d q e : Int) (hd : -4294967296 < d ∧ d < 4294967296)
    (he : -2048 < e ∧ e < 2048) (h : 5871781006564002453 * d = 576460752303423488 * q + e) :
    d = 0 := by
  obtain ⟨q', rfl⟩ : ∃ q', q = q' + 10 * d := ⟨q - 10 * d, by ring⟩
  obtain ⟨a, ha⟩ : ∃ a, a = -165995846033 * d - -892852290808 * q' := ⟨_, rfl⟩
  obtain ⟨c, hc⟩ : ∃ c, c = -134084355263 * d - -721207949591 * q' := ⟨_, rfl⟩
  have h1 : d = 721207949591 * a + -892852290808 * c := by rw [ha, hc]; ring
  have h2 : e = -204701 * a + -545880 * c := by
    have : e = 107173483529767573 * d - 576460752303423488 * q' := by linarith
    rw [this, ha, hc]; ring
  have k1 : 576460752303423488 * a = 545880 * d - 892852290808 * e := by rw [h1, h2]; ring
  have k2 : 576460752303423488 * c = -204701 * d - 721207949591 * e := by rw [h1, h2]; ring
  have ha0 : a = 0 := zero_of_small (m := 576460752303423488) (by constructor <;> linarith)
  have hc0 : c = 0 := zero_of_small (m := 576460752303423488) (by constructor <;> linarith)
  rw [h1, ha0, hc0]; norm_num

/-- Small multiples of the seed have high bits. -/
theorem seed_high (w q r : Int) (hw : 0 < w ∧ w < 4294967296) (hr : 0 ≤ r ∧ r < 134217728)
    (h : 5871781006564002453 * w = 576460752303423488 * q + r) : False := by
  obtain ⟨q', rfl⟩ : ∃ q', q = q' + 10 * w := ⟨q - 10 * w, by ring⟩
  obtain ⟨a, ha⟩ : ∃ a, a = -828989283 * w - -4458936763 * q' := ⟨_, rfl⟩
  obtain ⟨c, hc⟩ : ∃ c, c = 280470145 * w - 1508582398 * q' := ⟨_, rfl⟩
  have h1 : w = 1508582398 * a + 4458936763 * c := by rw [ha, hc]; ring
  have h2 : r = -16785706 * a + 332507095 * c := by
    have : r = 107173483529767573 * w - 576460752303423488 * q' := by linarith
    rw [this, ha, hc]; ring
  have k2 : 576460752303423488 * c = 16785706 * w + 1508582398 * r := by rw [h1, h2]; ring
  have hc0 : c = 0 := zero_of_small (m := 576460752303423488) (by constructor <;> linarith)
  subst hc0
  linarith

/-- The high bits of a state after one small word. -/
theorem rotl5_high {w : Nat} (h0 : 0 < w) (hw : w < 4294967296) :
    0 < rotl5 (fxAdd 0 w) / 2 ^ 32 := by
  have hz : rotl5 0 ^^^ w = w := by
    have : rotl5 0 = 0 := rfl
    rw [this, Nat.zero_xor]
  rw [rotl5_eq (fxAdd_lt _ _)]
  unfold fxAdd fxSeed
  rw [hz]
  by_contra hn
  have hm : w * 5871781006564002453 % 18446744073709551616 % 576460752303423488 =
      w * 5871781006564002453 % 576460752303423488 := Nat.mod_mod_of_dvd _ ⟨32, rfl⟩
  rw [hm] at hn
  have h1 := Nat.div_add_mod (w * 5871781006564002453) 576460752303423488
  generalize w * 5871781006564002453 % 18446744073709551616 / 576460752303423488 = t at *
  generalize w * 5871781006564002453 % 576460752303423488 = r at *
  generalize w * 5871781006564002453 / 576460752303423488 = q at *
  have hr : r < 134217728 := by clear h1 hm; omega
  have h2 : (576460752303423488 : Int) * q + r = w * 5871781006564002453 := by exact_mod_cast h1
  exact seed_high w q r (by omega) (by clear h1 h2 hm hn; omega) (by linarith)

/-- Two words of at most 32 and 16 bits can be told apart. -/
theorem fxAdd_two {h a b c d : Nat} (hh : h < 18446744073709551616) (ha : a < 4294967296)
    (hb : b < 65536) (hc : c < 4294967296) (hd : d < 65536)
    (e : fxAdd (fxAdd h a) b = fxAdd (fxAdd h c) d) : a = c ∧ b = d := by
  have e1 := fxAdd_strip (fxAdd_lt _ _) (fxAdd_lt _ _) (by omega) (by omega) e
  have e2 : rotl5 (fxAdd h a) / 2 ^ 16 = rotl5 (fxAdd h c) / 2 ^ 16 := by
    rw [← xor_high (x := rotl5 (fxAdd h a)) (v := b) (by omega), e1, xor_high (by omega)]
  rw [rotl5_eq (fxAdd_lt _ _), rotl5_eq (fxAdd_lt _ _)] at e2
  have hy : (rotl5 h ^^^ a) / 2 ^ 32 = (rotl5 h ^^^ c) / 2 ^ 32 := by
    rw [xor_high (by omega), xor_high (by omega)]
  have hac : a = c := by
    refine xor_cancel_left (x := rotl5 h) ?_
    unfold fxAdd fxSeed at e2
    generalize rotl5 h ^^^ a = x at *
    generalize rotl5 h ^^^ c = y at *
    clear e1 e hh ha hb hc hd
    have hm : ∀ z : Nat, z * 5871781006564002453 % 18446744073709551616 % 576460752303423488 =
        z * 5871781006564002453 % 576460752303423488 := fun z => Nat.mod_mod_of_dvd _ ⟨32, rfl⟩
    have hq : ∀ z : Nat, z * 5871781006564002453 % 18446744073709551616 / 576460752303423488 < 32 :=
      fun z => Nat.div_lt_of_lt_mul (Nat.mod_lt _ (by decide))
    have hx := hq x
    have hy' := hq y
    rw [hm, hm] at e2
    have hx1 := Nat.div_add_mod (x * 5871781006564002453) 576460752303423488
    have hy1 := Nat.div_add_mod (y * 5871781006564002453) 576460752303423488
    obtain ⟨q, eq⟩ : ∃ q, q = x * 5871781006564002453 % 18446744073709551616 / 576460752303423488 :=
      ⟨_, rfl⟩
    obtain ⟨q', eq'⟩ :
        ∃ q, q = y * 5871781006564002453 % 18446744073709551616 / 576460752303423488 := ⟨_, rfl⟩
    obtain ⟨r, er⟩ : ∃ r, r = x * 5871781006564002453 % 576460752303423488 := ⟨_, rfl⟩
    obtain ⟨r', er'⟩ : ∃ r, r = y * 5871781006564002453 % 576460752303423488 := ⟨_, rfl⟩
    obtain ⟨s, es⟩ : ∃ r, r = x * 5871781006564002453 / 576460752303423488 := ⟨_, rfl⟩
    obtain ⟨s', es'⟩ : ∃ r, r = y * 5871781006564002453 / 576460752303423488 := ⟨_, rfl⟩
    rw [← eq, ← eq', ← er, ← er'] at e2
    rw [← eq] at hx
    rw [← eq'] at hy'
    rw [← er, ← es] at hx1
    rw [← er', ← es'] at hy1
    clear eq eq' er er' es es'
    clear hm hq
    have b1 : (-2048 : Int) < r - r' ∧ (r : Int) - r' < 2048 := by clear hx1 hy1 hy; omega
    have b2 : (-4294967296 : Int) < x - y ∧ (x : Int) - y < 4294967296 := by
      clear hx1 hy1 e2 b1; omega
    have hx2 : (576460752303423488 : Int) * s + r = x * 5871781006564002453 := by exact_mod_cast hx1
    have hy2 : (576460752303423488 : Int) * s' + r' = y * 5871781006564002453 := by
      exact_mod_cast hy1
    have := seed_far ((x : Int) - y) (s - s') (r - r') b2 b1 (by linarith)
    clear hx1 hy1 hx2 hy2 e2 b1 b2
    omega
  subst hac
  exact ⟨rfl, fxAdd_word (fxAdd_lt _ _) (by omega) (by omega) e⟩

end OCG
