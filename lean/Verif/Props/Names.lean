import Verif.Proofs.FxHash
import Verif.Spec.Names
import Verif.Props.Graph
import Verif.Props.CacheRun
/-
Property C105: nodes with different names are different nodes.
-/

namespace OCG.Props

open GraphSpec NameSpec

theorem fxWords_block {u : Bytes} (h : u.length = 8) (s : Bytes) :
    fxWords (u ++ s) = leWord u :: fxWords s := by
  match u, h with
  | [_, _, _, _, _, _, _, _], _ => rfl

theorem fxWords_short {u : Bytes} (h : u.length < 8) : fxWords u = fxTail u := by
  match u, h with
  | [], _ => rfl
  | [_], _ => rfl
  | [_, _], _ => rfl
  | [_, _, _], _ => rfl
  | [_, _, _, _], _ => rfl
  | [_, _, _, _, _], _ => rfl
  | [_, _, _, _, _, _], _ => rfl
  | [_, _, _, _, _, _, _], _ => rfl
  | _ :: _ :: _ :: _ :: _ :: _ :: _ :: _ :: _, h => simp at h; omega

theorem fxWords_blocks : ∀ (n : Nat) {p : Bytes}, p.length = 8 * n → ∀ (s : Bytes),
    fxWords (p ++ s) = fxWords p ++ fxWords s
  | 0, p, hp, s => by
    rw [List.length_eq_zero_iff.mp hp]; rfl
  | n + 1, p, hp, s => by
    have h8 : (p.take 8).length = 8 := by rw [List.length_take]; omega
    have hs : p = p.take 8 ++ p.drop 8 := (List.take_append_drop 8 p).symm
    rw [hs, List.append_assoc, fxWords_block h8, fxWords_block h8,
      fxWords_blocks n (by rw [List.length_drop]; omega)]
    rfl

theorem leWord_lt : ∀ (b : Bytes), (∀ x ∈ b, x < 256) → leWord b < 256 ^ b.length
  | [], _ => by simp [leWord]
  | x :: b, h => by
    have h1 := leWord_lt b fun y hy => h y (by simp [hy])
    have h2 := h x (by simp)
    rw [leWord, List.length_cons, Nat.pow_succ]
    omega

theorem leWord_inj : ∀ (a b : Bytes), a.length = b.length → (∀ x ∈ a, x < 256) →
    (∀ x ∈ b, x < 256) → leWord a = leWord b → a = b
  | [], [], _, _, _, _ => rfl
  | x :: a, y :: b, hl, ha, hb, e => by
    have h1 := ha x (by simp)
    have h2 := hb y (by simp)
    simp only [leWord] at e
    have h3 : leWord a = leWord b := by omega
    rw [leWord_inj a b (by simpa using hl) (fun z hz => ha z (by simp [hz]))
      (fun z hz => hb z (by simp [hz])) h3]
    congr 1
    omega

/-- The words of a short string are those of parts of it. -/
theorem fxTail_parts (b : Bytes) (w : Nat) (h : w ∈ fxTail b) :
    ∃ c : Bytes, w = leWord c ∧ c.length ≤ 8 ∧ ∀ x ∈ c, x ∈ b := by
  unfold fxTail at h
  dsimp only at h
  have m2 : ∀ {c : Bytes}, (if 4 ≤ b.length then ([leWord (b.take 4)], b.drop 4) else ([], b)).2 = c →
      ∀ x ∈ c, x ∈ b := by
    intro c hc x hx
    rw [← hc] at hx
    split at hx
    · exact List.mem_of_mem_drop hx
    · exact hx
  generalize hc : (if 4 ≤ b.length then ([leWord (b.take 4)], b.drop 4) else ([], b)) = r4 at h
  have hm := m2 (congrArg Prod.snd hc)
  rw [List.mem_append, List.mem_append] at h
  rcases h with (h | h) | h
  · rw [← hc] at h
    split at h
    · rw [List.mem_singleton] at h
      exact ⟨_, h, by rw [List.length_take]; omega, fun x hx => List.mem_of_mem_take hx⟩
    · cases h
  · split at h
    · rw [List.mem_singleton] at h
      exact ⟨_, h, by rw [List.length_take]; omega, fun x hx => hm x (List.mem_of_mem_take hx)⟩
    · cases h
  · by_cases h2 : 2 ≤ r4.2.length
    · simp only [if_pos h2] at h
      split at h
      · rw [List.mem_singleton] at h
        exact ⟨_, h, by rw [List.length_take]; omega,
          fun x hx => hm x (List.mem_of_mem_drop (List.mem_of_mem_take hx))⟩
      · cases h
    · simp only [if_neg h2] at h
      split at h
      · rw [List.mem_singleton] at h
        exact ⟨_, h, by rw [List.length_take]; omega,
          fun x hx => hm x (List.mem_of_mem_take hx)⟩
      · cases h

theorem leWord_small {b c : Bytes} (h : ∀ x ∈ b, x < 256) (hc : c.length ≤ 8)
    (hm : ∀ x ∈ c, x ∈ b) : leWord c < 18446744073709551616 := by
  refine Nat.lt_of_lt_of_le (leWord_lt c fun x hx => h x (hm x hx)) ?_
  exact Nat.le_trans (Nat.pow_le_pow_right (by decide) hc) (by decide)

theorem fxWords_lt : ∀ (n : Nat) (b : Bytes), b.length ≤ n → (∀ x ∈ b, x < 256) →
    ∀ w ∈ fxWords b, w < 18446744073709551616 := by
  intro n
  induction n with
  | zero =>
    intro b hb h w hw
    have hb0 : b = [] := List.length_eq_zero_iff.mp (by omega)
    rw [hb0] at hw
    cases hw
  | succ n ih =>
    intro b hb h w hw
    by_cases hl : b.length < 8
    · rw [fxWords_short hl] at hw
      obtain ⟨c, rfl, hc, hm⟩ := fxTail_parts b w hw
      exact leWord_small h hc hm
    · have h8 : (b.take 8).length = 8 := by rw [List.length_take]; omega
      rw [← List.take_append_drop 8 b, fxWords_block h8, List.mem_cons] at hw
      rcases hw with rfl | hw
      · exact leWord_small h (by omega) fun x hx => List.mem_of_mem_take hx
      · exact ih _ (by rw [List.length_drop]; omega) (fun x hx => h x (List.mem_of_mem_drop hx)) w hw

theorem fold_str (f : Nat → Nat → Nat) (h : Nat) (b : Bytes) :
    ((hashStr b).flatMap HashItem.fxWords).foldl f h = f ((fxWords b).foldl f h) 255 := by
  simp [hashStr, HashItem.fxWords]

theorem nameId_eq (name : Bytes) : nameId name = fxAdd ((fxWords name).foldl fxAdd 0) 255 := by
  rw [← fold_str fxAdd 0 name]
  rfl

/-- The hash before the terminator. -/
theorem nameId_state {a b : Bytes} (e : nameId a = nameId b) :
    (fxWords a).foldl fxAdd 0 = (fxWords b).foldl fxAdd 0 := by
  rw [nameId_eq, nameId_eq] at e
  have h0 : (0 : Nat) < 18446744073709551616 := by norm_num
  have h1 : (255 : Nat) < 18446744073709551616 := by norm_num
  exact fxAdd_state (fold_lt (fxWords a) h0) (fold_lt (fxWords b) h0) h1 e

/-- Short strings of the same length can be told apart. -/
theorem tail_inj_of (f : Nat → Nat → Nat) {h : Nat}
    (f1 : ∀ v w, v < 18446744073709551616 → w < 18446744073709551616 → f h v = f h w → v = w)
    (f2 : ∀ a b c d, a < 4294967296 → b < 65536 → c < 4294967296 → d < 65536 →
      f (f h a) b = f (f h c) d → a = c ∧ b = d) {u v : Bytes} (hl : u.length = v.length)
    (h6 : u.length ≤ 6) (hu : ∀ x ∈ u, x < 256) (hv : ∀ x ∈ v, x < 256)
    (e : (fxTail u).foldl f h = (fxTail v).foldl f h) : u = v := by
  have one : ∀ {c d : Bytes}, c.length = d.length → c.length ≤ 8 → (∀ x ∈ c, x < 256) →
      (∀ x ∈ d, x < 256) → f h (leWord c) = f h (leWord d) → c = d := by
    intro c d hcd hc8 hc hd e
    refine leWord_inj c d hcd hc hd (f1 _ _ ?_ ?_ e)
    · exact leWord_small hc hc8 fun _ hx => hx
    · exact leWord_small hd (by omega) fun _ hx => hx
  have two : ∀ {c d c' d' : Bytes}, c.length = d.length → c'.length = d'.length → c.length ≤ 4 →
      c'.length ≤ 2 → (∀ x ∈ c, x < 256) → (∀ x ∈ d, x < 256) → (∀ x ∈ c', x < 256) →
      (∀ x ∈ d', x < 256) →
      f (f h (leWord c)) (leWord c') = f (f h (leWord d)) (leWord d') →
      c = d ∧ c' = d' := by
    intro c d c' d' l1 l2 l3 l4 hc hd hc' hd' e
    have b4 : ∀ {c : Bytes}, c.length ≤ 4 → (∀ x ∈ c, x < 256) → leWord c < 4294967296 :=
      fun hl h => Nat.lt_of_lt_of_le (leWord_lt _ h)
        (Nat.le_trans (Nat.pow_le_pow_right (by decide) hl) (by decide))
    have b2 : ∀ {c : Bytes}, c.length ≤ 2 → (∀ x ∈ c, x < 256) → leWord c < 65536 :=
      fun hl h => Nat.lt_of_lt_of_le (leWord_lt _ h)
        (Nat.le_trans (Nat.pow_le_pow_right (by decide) hl) (by decide))
    obtain ⟨e1, e2⟩ := f2 _ _ _ _ (b4 l3 hc) (b2 l4 hc') (b4 (l1 ▸ l3) hd) (b2 (l2 ▸ l4) hd') e
    exact ⟨leWord_inj _ _ l1 hc hd e1, leWord_inj _ _ l2 hc' hd' e2⟩
  match u, v, hl, h6 with
  | [], [], _, _ => rfl
  | [a], [a'], _, _ => exact one (by simp) (by simp) hu hv e
  | [a, b], [a', b'], _, _ => exact one (by simp) (by simp) hu hv e
  | [a, b, c], [a', b', c'], _, _ =>
    obtain ⟨e1, e2⟩ := two (c := [a, b]) (d := [a', b']) (c' := [c]) (d' := [c']) (by simp)
      (by simp) (by simp) (by simp) (fun x hx => hu x (by simp at hx ⊢; tauto))
      (fun x hx => hv x (by simp at hx ⊢; tauto)) (fun x hx => hu x (by simp at hx ⊢; tauto))
      (fun x hx => hv x (by simp at hx ⊢; tauto)) e
    simp only [List.cons.injEq, and_true] at e1 e2 ⊢
    tauto
  | [a, b, c, d], [a', b', c', d'], _, _ => exact one (by simp) (by simp) hu hv e
  | [a, b, c, d, f], [a', b', c', d', f'], _, _ =>
    obtain ⟨e1, e2⟩ := two (c := [a, b, c, d]) (d := [a', b', c', d']) (c' := [f]) (d' := [f'])
      (by simp) (by simp) (by simp) (by simp) (fun x hx => hu x (by simp at hx ⊢; tauto))
      (fun x hx => hv x (by simp at hx ⊢; tauto)) (fun x hx => hu x (by simp at hx ⊢; tauto))
      (fun x hx => hv x (by simp at hx ⊢; tauto)) e
    simp only [List.cons.injEq, and_true] at e1 e2 ⊢
    tauto
  | [a, b, c, d, f, g], [a', b', c', d', f', g'], _, _ =>
    obtain ⟨e1, e2⟩ := two (c := [a, b, c, d]) (d := [a', b', c', d']) (c' := [f, g])
      (d' := [f', g'])
      (by simp) (by simp) (by simp) (by simp) (fun x hx => hu x (by simp at hx ⊢; tauto))
      (fun x hx => hv x (by simp at hx ⊢; tauto)) (fun x hx => hu x (by simp at hx ⊢; tauto))
      (fun x hx => hv x (by simp at hx ⊢; tauto)) e
    simp only [List.cons.injEq, and_true] at e1 e2 ⊢
    tauto
  | _ :: _ :: _ :: _ :: _ :: _ :: _ :: _, _, _, h => simp at h; omega

theorem tail_inj {h : Nat} (hh : h < 18446744073709551616) {u v : Bytes} (hl : u.length = v.length)
    (h6 : u.length ≤ 6) (hu : ∀ x ∈ u, x < 256) (hv : ∀ x ∈ v, x < 256)
    (e : (fxTail u).foldl fxAdd h = (fxTail v).foldl fxAdd h) : u = v :=
  tail_inj_of fxAdd (fun _ _ hv hw e => fxAdd_word hh hv hw e)
    (fun _ _ _ _ h1 h2 h3 h4 e => fxAdd_two hh h1 h2 h3 h4 e) hl h6 hu hv e

/-- C105 for names of any length: two names of the same length that differ only inside one of the
blocks of eight bytes have different identifiers.  Missing: a last block of seven bytes, and names
that differ in several blocks (`C105_counterexample`). -/
theorem C105_block_partial (p u v s : Bytes) (hp : p.length % 8 = 0) (hl : u.length = v.length)
    (h8 : u.length = 8 ∨ u.length ≤ 6 ∧ s = []) (hb : ∀ x ∈ u ++ v ++ s, x < 256)
    (hne : u ≠ v) : nameId (p ++ (u ++ s)) ≠ nameId (p ++ (v ++ s)) := by
  intro e
  have hu : ∀ x ∈ u, x < 256 := fun x hx => hb x (by simp [hx])
  have hv : ∀ x ∈ v, x < 256 := fun x hx => hb x (by simp [hx])
  have hs : ∀ x ∈ s, x < 256 := fun x hx => hb x (by simp [hx])
  have e1 := nameId_state e
  have hn : p.length = 8 * (p.length / 8) := by omega
  rw [fxWords_blocks _ hn, fxWords_blocks _ hn, List.foldl_append, List.foldl_append] at e1
  have hh : (fxWords p).foldl fxAdd 0 < 18446744073709551616 := fold_lt _ (by decide)
  rcases h8 with h8 | ⟨h6, rfl⟩
  · rw [fxWords_block h8, fxWords_block (hl ▸ h8)] at e1
    have e2 := fold_state _ (fxWords_lt _ s (Nat.le_refl _) hs) (fxAdd_lt _ _) (fxAdd_lt _ _) e1
    refine hne (leWord_inj u v hl hu hv (fxAdd_word hh ?_ ?_ e2))
    · exact leWord_small hu (by omega) fun _ hx => hx
    · exact leWord_small hv (by omega) fun _ hx => hx
  · rw [List.append_nil, List.append_nil, fxWords_short (u := u) (by omega),
      fxWords_short (u := v) (by omega)] at e1
    exact hne (tail_inj hh hl h6 hu hv e1)

example : ([119, 114, 105, 116, 101, 95, 102, 103] : Bytes).length % 8 = 0 ∧
    (([49] : Bytes).length = 8 ∨ ([49] : Bytes).length ≤ 6 ∧ ([] : Bytes) = []) ∧
    (∀ x ∈ ([49] ++ [50] ++ [] : Bytes), x < 256) ∧ ([49] : Bytes) ≠ [50] := by
  decide

/-- What the hash sees of a short name. -/
inductive Seen : Bytes → List Nat → Prop
  | none : Seen [] []
  | one {b w} : 0 < w → w < 4294967296 → Seen b [w]
  | two {b v w} : 0 < v → v < 4294967296 → 0 < w → w < 65536 → Seen b [v, w]

theorem seen_short (b : Bytes) (h : IsName b) (hl : b.length ≤ 6) : Seen b (fxTail b) := by
  have hx : ∀ {x}, x ∈ b → 0 < x ∧ x < 256 := fun hx => h _ hx
  match b, hl with
  | [], _ => exact .none
  | [a], _ =>
    have := hx (x := a) (by simp)
    exact .one (show 0 < a + 256 * 0 by omega) (show a + 256 * 0 < 4294967296 by omega)
  | [a, b], _ =>
    have := hx (x := a) (by simp)
    have := hx (x := b) (by simp)
    exact .one (by simp [leWord]; omega) (by simp [leWord]; omega)
  | [a, b, c], _ =>
    have := hx (x := a) (by simp)
    have := hx (x := b) (by simp)
    have := hx (x := c) (by simp)
    exact .two (by simp [leWord]; omega) (by simp [leWord]; omega) (by simp [leWord]; omega)
      (by simp [leWord]; omega)
  | [a, b, c, d], _ =>
    have := hx (x := a) (by simp)
    have := hx (x := b) (by simp)
    have := hx (x := c) (by simp)
    have := hx (x := d) (by simp)
    exact .one (by simp [leWord]; omega) (by simp [leWord]; omega)
  | [a, b, c, d, e], _ =>
    have := hx (x := a) (by simp)
    have := hx (x := b) (by simp)
    have := hx (x := c) (by simp)
    have := hx (x := d) (by simp)
    have := hx (x := e) (by simp)
    exact .two (by simp [leWord]; omega) (by simp [leWord]; omega) (by simp [leWord]; omega)
      (by simp [leWord]; omega)
  | [a, b, c, d, e, f], _ =>
    have := hx (x := a) (by simp)
    have := hx (x := b) (by simp)
    have := hx (x := c) (by simp)
    have := hx (x := d) (by simp)
    have := hx (x := e) (by simp)
    have := hx (x := f) (by simp)
    exact .two (by simp [leWord]; omega) (by simp [leWord]; omega) (by simp [leWord]; omega)
      (by simp [leWord]; omega)
  | _ :: _ :: _ :: _ :: _ :: _ :: _ :: _, h => simp at h; omega

/-- How long a short name is, from what the hash sees of it. -/
def seenLength : List Nat → Nat
  | [w] => if w < 256 then 1 else if w < 65536 then 2 else 4
  | [v, w] => if v < 65536 then 3 else if w < 256 then 5 else 6
  | _ => 0

theorem seenLength_tail (b : Bytes) (h : IsName b) (hl : b.length ≤ 6) :
    seenLength (fxTail b) = b.length := by
  have hx : ∀ {x}, x ∈ b → 0 < x ∧ x < 256 := fun hx => h _ hx
  match b, hl with
  | [], _ => rfl
  | [a], _ =>
    have := hx (x := a) (by simp)
    show (if (a + 256 * 0) < 256 then 1 else if (a + 256 * 0) < 65536 then 2 else 4) = 1
    rw [if_pos (by omega)]
  | [a, b], _ =>
    have := hx (x := a) (by simp)
    have := hx (x := b) (by simp)
    show (if (a + 256 * (b + 256 * 0)) < 256 then 1 else if (a + 256 * (b + 256 * 0)) < 65536 then 2 else 4) = 2
    rw [if_neg (by omega), if_pos (by omega)]
  | [a, b, c], _ =>
    have := hx (x := a) (by simp)
    have := hx (x := b) (by simp)
    have := hx (x := c) (by simp)
    show (if (a + 256 * (b + 256 * 0)) < 65536 then 3 else if (c + 256 * 0) < 256 then 5 else 6) = 3
    rw [if_pos (by omega)]
  | [a, b, c, d], _ =>
    have := hx (x := a) (by simp)
    have := hx (x := b) (by simp)
    have := hx (x := c) (by simp)
    have := hx (x := d) (by simp)
    show (if (a + 256 * (b + 256 * (c + 256 * (d + 256 * 0)))) < 256 then 1 else if (a + 256 * (b + 256 * (c + 256 * (d + 256 * 0)))) < 65536 then 2 else 4) = 4
    rw [if_neg (by omega), if_neg (by omega)]
  | [a, b, c, d, e], _ =>
    have := hx (x := a) (by simp)
    have := hx (x := b) (by simp)
    have := hx (x := c) (by simp)
    have := hx (x := d) (by simp)
    have := hx (x := e) (by simp)
    show (if (a + 256 * (b + 256 * (c + 256 * (d + 256 * 0)))) < 65536 then 3 else if (e + 256 * 0) < 256 then 5 else 6) = 5
    rw [if_neg (by omega), if_pos (by omega)]
  | [a, b, c, d, e, f], _ =>
    have := hx (x := a) (by simp)
    have := hx (x := b) (by simp)
    have := hx (x := c) (by simp)
    have := hx (x := d) (by simp)
    have := hx (x := e) (by simp)
    have := hx (x := f) (by simp)
    show (if (a + 256 * (b + 256 * (c + 256 * (d + 256 * 0)))) < 65536 then 3 else if (e + 256 * (f + 256 * 0)) < 256 then 5 else 6) = 6
    rw [if_neg (by omega), if_neg (by omega)]
  | _ :: _ :: _ :: _ :: _ :: _ :: _ :: _, h => simp at h; omega

/-- The words of short names tell the names apart. -/
theorem fxTail_inj {a b : Bytes} (ha : IsName a) (hb : IsName b) (la : a.length ≤ 6)
    (lb : b.length ≤ 6) (e : fxTail a = fxTail b) : a = b := by
  have key : a.length = b.length := by
    rw [← seenLength_tail a ha la, ← seenLength_tail b hb lb, e]
  exact tail_inj (h := 0) (by decide) key la (fun x hx => (ha x hx).2) (fun x hx => (hb x hx).2)
    (by rw [e])

/-- A step from a state that is above what can be added does not end where a single word does. -/
theorem two_ne_one {v w x : Nat} (h0 : 0 < v) (hv : v < 4294967296) (hw : w < 65536)
    (hx : x < 4294967296) (e : fxAdd (fxAdd 0 v) w = fxAdd 0 x) : False := by
  have e1 := fxAdd_strip (fxAdd_lt 0 v) (by norm_num) (by omega) (by omega) e
  have hz : rotl5 0 = 0 := rfl
  have e2 : (rotl5 (fxAdd 0 v) ^^^ w) / 2 ^ 32 = x / 2 ^ 32 := by rw [e1, hz, Nat.zero_xor]
  rw [xor_high (by omega), Nat.div_eq_of_lt (a := x) (by omega)] at e2
  have := rotl5_high h0 hv
  omega

theorem zero_step (h : Nat) (hh : h < 18446744073709551616) (w : Nat) (hw : w < 18446744073709551616)
    (e : fxAdd h w = 0) : rotl5 h = w := by
  have h0 : fxAdd 0 0 = 0 := by decide
  have hz : rotl5 0 = 0 := rfl
  have e1 := fxAdd_strip hh (by norm_num) hw (by norm_num) (e.trans h0.symm)
  rw [hz, Nat.zero_xor] at e1
  have e2 : (rotl5 h ^^^ w) ^^^ w = w := by rw [e1, Nat.zero_xor]
  rwa [Nat.xor_assoc, Nat.xor_self, Nat.xor_zero] at e2

theorem seen_fold {a b : Bytes} {la lb : List Nat} (ha : Seen a la) (hb : Seen b lb)
    (e : la.foldl fxAdd 0 = lb.foldl fxAdd 0) : la = lb := by
  have hz : rotl5 0 = 0 := rfl
  have hzero : (0 : Nat) < 18446744073709551616 := by norm_num
  have no1 : ∀ {w}, 0 < w → w < 4294967296 → fxAdd 0 w = 0 → False := by
    intro w h0 hw e
    have := zero_step 0 hzero w (by omega) e
    rw [hz] at this
    omega
  have no2 : ∀ {v w}, 0 < v → v < 4294967296 → w < 65536 → fxAdd (fxAdd 0 v) w = 0 → False := by
    intro v w h0 hv hw e
    have h1 := zero_step _ (fxAdd_lt 0 v) w (by omega) e
    have h2 := rotl5_high h0 hv
    rw [h1, Nat.div_eq_of_lt (by omega)] at h2
    exact Nat.lt_irrefl 0 h2
  cases ha with
  | none => cases hb with
    | none => rfl
    | one h0 hw =>
      rw [List.foldl_cons, List.foldl_nil, List.foldl_nil] at e
      exact (no1 h0 hw e.symm).elim
    | two h0 hv _ hw =>
      rw [List.foldl_cons, List.foldl_cons, List.foldl_nil, List.foldl_nil] at e
      exact (no2 h0 hv hw e.symm).elim
  | one g0 gw =>
    rw [List.foldl_cons, List.foldl_nil] at e
    cases hb with
    | none =>
      rw [List.foldl_nil] at e
      exact (no1 g0 gw e).elim
    | one h0 hw =>
      rw [List.foldl_cons, List.foldl_nil] at e
      rw [fxAdd_word hzero (by omega) (by omega) e]
    | two h0 hv _ hw =>
      rw [List.foldl_cons, List.foldl_cons, List.foldl_nil] at e
      exact (two_ne_one h0 hv hw gw e.symm).elim
  | two g0 gv _ gw =>
    rw [List.foldl_cons, List.foldl_cons, List.foldl_nil] at e
    cases hb with
    | none =>
      rw [List.foldl_nil] at e
      exact (no2 g0 gv gw e).elim
    | one h0 hw =>
      rw [List.foldl_cons, List.foldl_nil] at e
      exact (two_ne_one g0 gv gw hw e).elim
    | two h0 hv _ hw =>
      rw [List.foldl_cons, List.foldl_cons, List.foldl_nil] at e
      obtain ⟨rfl, rfl⟩ := fxAdd_two hzero gv gw hv hw e
      rfl

/-- C105: different names of up to six bytes, also of different lengths, have different
identifiers.  A name of eight bytes can collide with one of six (`C105_counterexample`). -/
theorem C105_short {a b : Bytes} (ha : IsName a) (hb : IsName b) (la : a.length ≤ 6)
    (lb : b.length ≤ 6) (hne : a ≠ b) : nameId a ≠ nameId b := by
  intro e
  have e1 := nameId_state e
  rw [fxWords_short (u := a) (by omega), fxWords_short (u := b) (by omega)] at e1
  exact hne (fxTail_inj ha hb la lb (seen_fold (seen_short a ha la) (seen_short b hb lb) e1))

example : IsName [114, 101, 97, 100] ∧ IsName [114, 101, 97, 100, 50] ∧
    ([114, 101, 97, 100] : Bytes) ≠ [114, 101, 97, 100, 50] := by
  unfold IsName; decide

section
variable {F H : Type} [FloatLike F] [HalfLike F H] [FloatConst F] [FloatBits F]

/-- Adding nodes with new identifiers that differ from each other. -/
theorem createAll_spec (p : Profile) (lib : NodeLib F H) (srt : EdgeSort) :
    ∀ (l : List (NodeType × Bytes)) {g : Graph (Node F) (Stream F H)},
    Reach (nodeSem p lib) srt false g → (∀ x ∈ l, Unknown g (nameId x.2)) →
    l.Pairwise (fun x y => nameId x.2 ≠ nameId y.2) →
    ∃ g', createAll p lib l g = .ok g' ∧ Reach (nodeSem p lib) srt false g' ∧
      (∀ x ∈ l, g'.nodeExists (nameId x.2) = true ∧ ∀ (α : Type) (dflt : α) (f : Node F → α),
        g'.query (nameId x.2) dflt f = .ok (f (.create x.1 (nameId x.2)))) ∧
      (∀ (α : Type) (id : Nat) (dflt : α) (f : Node F → α), (∀ x ∈ l, id ≠ nameId x.2) →
        g'.query id dflt f = g.query id dflt f) ∧
      (∀ id, (∀ x ∈ l, id ≠ nameId x.2) → g'.nodeExists id = g.nodeExists id)
  | [], g, hr, _, _ => ⟨g, rfl, hr, fun _ h => absurd h (by simp), fun _ _ _ _ _ => rfl,
      fun _ _ => rfl⟩
  | x :: l, g, hr, hn, hp => by
    have hid : (nodeSem p lib).id (Node.create x.1 (nameId x.2)) = nameId x.2 := by
      cases x.1 <;> rfl
    obtain ⟨g1, ha, hex, hq, hother, _⟩ := C28_add_partial (nodeSem p lib) srt hr
      (Node.create x.1 (nameId x.2)) (by rw [hid]; exact hn x (by simp))
    rw [hid] at hex hq
    obtain ⟨_, _, hg1⟩ := addNode_cases hr.inv ha
    have hids : g1.ids = g.ids ++ [nameId x.2] := by rw [hg1, hid]
    rw [List.pairwise_cons] at hp
    obtain ⟨g', hc, hr', hall, hrest, hexr⟩ := createAll_spec p lib srt l (hr.add _ ha)
      (by
        intro y hy
        unfold Unknown
        rw [hids, List.mem_append, List.mem_singleton]
        rintro (h | h)
        · exact hn y (by simp [hy]) h
        · exact hp.1 y hy h.symm) hp.2
    have hexo : ∀ id, id ≠ nameId x.2 → g1.nodeExists id = g.nodeExists id := by
      intro id hne
      have h1 : ∀ (X : Graph (Node F) (Stream F H)), X.nodeExists id = true ↔ ¬ Unknown X id := by
        intro X
        unfold Graph.nodeExists
        cases hf : X.find id with
        | none => simp [find_none.mp hf]
        | some k =>
          have := (find_at.mp hf).1
          simp only [true_iff]
          exact fun hu => hu (List.mem_of_getElem? this)
      have h2 : g1.nodeExists id = true ↔ g.nodeExists id = true := by
        rw [h1, h1]
        unfold Unknown
        rw [hids, List.mem_append, List.mem_singleton]
        simp [hne]
      exact Bool.eq_iff_iff.mpr h2
    refine ⟨g', ?_, hr', ?_, ?_, ?_⟩
    · rw [createAll, ha]
      exact hc
    · intro y hy
      rw [List.mem_cons] at hy
      rcases hy with rfl | hy
      · have hne : ∀ z ∈ l, nameId y.2 ≠ nameId z.2 := hp.1
        exact ⟨by rw [hexr _ hne, hex], fun α d f => by rw [hrest _ _ _ _ hne, hq]⟩
      · exact hall y hy
    · intro α id d f hne
      rw [hrest _ _ _ _ fun z hz => hne z (by simp [hz]), hother _ _ _ _ (by
        rw [hid]; exact hne x (by simp))]
    · intro id hne
      rw [hexr _ fun z hz => hne z (by simp [hz]), hexo _ (hne x (by simp))]

/-- C105 for graphs: nodes made with different names of up to six bytes are all there, every query
by name sees the node made with that name, and other names are still unknown. -/
theorem C105_visible (p : Profile) (lib : NodeLib F H) (out : Stream F H)
    (l : List (NodeType × Bytes)) (hl : ∀ x ∈ l, IsName x.2 ∧ x.2.length ≤ 6)
    (hd : l.Pairwise (fun x y => x.2 ≠ y.2)) :
    ∃ g, createAll p lib l (Graph.new out) = .ok g ∧
      (∀ x ∈ l, g.nodeExists (nameId x.2) = true ∧ ∀ (α : Type) (dflt : α) (f : Node F → α),
        g.query (nameId x.2) dflt f = .ok (f (.create x.1 (nameId x.2)))) ∧
      (∀ name, IsName name → name.length ≤ 6 → (∀ x ∈ l, name ≠ x.2) →
        g.nodeExists (nameId name) = false ∧ ∀ (α : Type) (dflt : α) (f : Node F → α),
          g.query (nameId name) dflt f = .ok dflt) := by
  obtain ⟨g, hc, _, h1, h2, h3⟩ := createAll_spec p lib insSort l (Reach.new out)
    (fun x _ => by unfold Unknown Graph.new; simp) (by
      rw [List.pairwise_iff_forall_sublist] at hd ⊢
      intro x y hs
      have hx : x ∈ l := hs.subset (by simp)
      have hy : y ∈ l := hs.subset (by simp)
      exact C105_short (hl x hx).1 (hl y hy).1 (hl x hx).2 (hl y hy).2 (hd hs))
  refine ⟨g, hc, h1, ?_⟩
  intro name hn h6 hne
  have hids : ∀ x ∈ l, nameId name ≠ nameId x.2 := fun x hx =>
    C105_short hn (hl x hx).1 h6 (hl x hx).2 (hne x hx)
  exact ⟨(h3 _ hids).trans rfl, fun α d f => (h2 _ _ _ _ hids).trans rfl⟩

example : ∀ x ∈ [(NodeType.readImage, [114, 101, 97, 100]), (NodeType.null, [110, 117, 108, 108])],
    IsName x.2 ∧ x.2.length ≤ 6 := by
  unfold IsName; decide

/-- The names `58qgto` and `_t9dexdy` have the same identifier. -/
theorem C105_collision : nameId [53, 56, 113, 103, 116, 111] =
    nameId [95, 116, 57, 100, 101, 120, 100, 121] := by
  decide +kernel

/-- C105 is false for longer names: a grade `_t9dexdy` made after a file reader `58qgto` cannot be
reached, its name stands for the reader. -/
theorem C105_counterexample (p : Profile) (lib : NodeLib F H) (out : Stream F H) :
    ∃ g, createAll p lib [(.readImage, [53, 56, 113, 103, 116, 111]),
        (.grade, [95, 116, 57, 100, 101, 120, 100, 121])] (Graph.new out) = .ok g ∧
      ∀ (α : Type) (dflt : α) (f : Node F → α),
        g.query (nameId [95, 116, 57, 100, 101, 120, 100, 121]) dflt f =
          .ok (f (.create .readImage (nameId [53, 56, 113, 103, 116, 111]))) := by
  rw [← C105_collision]
  have hc : ∀ a b : Bytes, ∃ g, createAll p lib [(.readImage, a), (.grade, b)]
      (Graph.new out) = .ok g ∧ ∀ (α : Type) (dflt : α) (f : Node F → α),
        g.query (nameId a) dflt f = .ok (f (.create .readImage (nameId a))) := by
    intro a b
    refine ⟨_, rfl, ?_⟩
    intro α d f
    simp [Graph.query, Graph.find, Graph.position, Graph.new, nodeSem, Node.create]
  exact hc _ _

end

end OCG.Props
