import Verif.Model.Mesh
import Verif.Spec.Obj
import Verif.Props.Path
/-
C26: the exported mesh.
-/

namespace OCG.Props
open Mesh ObjSpec

/-! ### splitting -/

theorem splitAt_ne_nil (c : Nat) (s : Bytes) : splitAt c s ≠ [] := by
  cases s with
  | nil => simp [splitAt]
  | cons b bs =>
    unfold splitAt
    split
    · simp
    · split <;> simp

theorem splitAt_none (c : Nat) (w : Bytes) (h : c ∉ w) : splitAt c w = [w] := by
  induction w with
  | nil => rfl
  | cons b bs ih =>
    rw [List.mem_cons, not_or] at h
    unfold splitAt
    rw [if_neg (fun e => h.1 e.symm), ih h.2]

theorem splitAt_first (c : Nat) (w s : Bytes) (h : c ∉ w) :
    splitAt c (w ++ c :: s) = w :: splitAt c s := by
  induction w with
  | nil => simp [splitAt]
  | cons b bs ih =>
    rw [List.mem_cons, not_or] at h
    have e : splitAt c (b :: (bs ++ c :: s)) = if b = c then [] :: splitAt c (bs ++ c :: s)
        else match splitAt c (bs ++ c :: s) with
          | [] => [[b]]
          | w :: ws => (b :: w) :: ws := rfl
    show splitAt c (b :: (bs ++ c :: s)) = _
    rw [e, if_neg (fun e => h.1 e.symm), ih h.2]

/-- What a line contributes to `records`. -/
def lineRecord (key l : Bytes) : Option (List Bytes) :=
  match words l with
  | [] => none
  | w :: ws => if w = key then some ws else none

theorem records_line (key l rest : Bytes) (h : 10 ∉ l) :
    records key (l ++ 10 :: rest) = (lineRecord key l).toList ++ records key rest := by
  unfold records lines
  rw [splitAt_first 10 l rest h, List.filterMap_cons]
  unfold lineRecord
  cases words l with
  | nil => rfl
  | cons w ws =>
    by_cases e : w = key
    · simp [e]
    · simp [e]

theorem records_flatMap {α : Type} (key : Bytes) (line : α → Bytes) (hl : ∀ a, 10 ∉ line a)
    (rest : Bytes) : ∀ L : List α,
    records key (L.flatMap (fun a => line a ++ [10]) ++ rest) =
      L.filterMap (fun a => lineRecord key (line a)) ++ records key rest := by
  intro L
  induction L with
  | nil => rfl
  | cons a as ih =>
    rw [List.flatMap_cons, List.append_assoc, List.append_assoc, List.singleton_append,
      records_line key (line a) _ (hl a), ih, List.filterMap_cons]
    cases lineRecord key (line a) <;> rfl

/-! ### the loops -/

theorem triples_get {α : Type} (extra : List α) : ∀ (L : List (α × α × α)) (j : Nat)
    (t : α × α × α), L[j]? = some t →
    (L.flatMap (fun t => [t.1, t.2.1, t.2.2]) ++ extra)[j * 3 + 0]? = some t.1 ∧
    (L.flatMap (fun t => [t.1, t.2.1, t.2.2]) ++ extra)[j * 3 + 1]? = some t.2.1 ∧
    (L.flatMap (fun t => [t.1, t.2.1, t.2.2]) ++ extra)[j * 3 + 2]? = some t.2.2 := by
  intro L
  induction L with
  | nil => intro j t h; simp at h
  | cons a as ih =>
    intro j t h
    cases j with
    | zero =>
      simp only [List.getElem?_cons_zero, Option.some.injEq] at h
      subst h; simp
    | succ j =>
      simp only [List.getElem?_cons_succ] at h
      have := ih j t h
      have e0 : (j + 1) * 3 + 0 = j * 3 + 0 + 1 + 1 + 1 := by omega
      have e1 : (j + 1) * 3 + 1 = j * 3 + 1 + 1 + 1 + 1 := by omega
      have e2 : (j + 1) * 3 + 2 = j * 3 + 2 + 1 + 1 + 1 := by omega
      rw [e0, e1, e2]
      simpa using this

theorem pairs_get {α : Type} (extra : List α) : ∀ (L : List (α × α)) (j : Nat)
    (t : α × α), L[j]? = some t →
    (L.flatMap (fun t => [t.1, t.2]) ++ extra)[j * 2 + 0]? = some t.1 ∧
    (L.flatMap (fun t => [t.1, t.2]) ++ extra)[j * 2 + 1]? = some t.2 := by
  intro L
  induction L with
  | nil => intro j t h; simp at h
  | cons a as ih =>
    intro j t h
    cases j with
    | zero =>
      simp only [List.getElem?_cons_zero, Option.some.injEq] at h
      subst h; simp
    | succ j =>
      simp only [List.getElem?_cons_succ] at h
      have := ih j t h
      have e0 : (j + 1) * 2 + 0 = j * 2 + 0 + 1 + 1 := by omega
      have e1 : (j + 1) * 2 + 1 = j * 2 + 1 + 1 + 1 := by omega
      rw [e0, e1]
      simpa using this

theorem triples_len {α : Type} (L : List (α × α × α)) :
    (L.flatMap (fun t => [t.1, t.2.1, t.2.2])).length = 3 * L.length := by
  induction L with
  | nil => rfl
  | cons a as ih => simp only [List.flatMap_cons, List.length_append, ih, List.length_cons,
      List.length_nil]; omega

theorem pairs_len {α : Type} (L : List (α × α)) :
    (L.flatMap (fun t => [t.1, t.2])).length = 2 * L.length := by
  induction L with
  | nil => rfl
  | cons a as ih => simp only [List.flatMap_cons, List.length_append, ih, List.length_cons,
      List.length_nil]; omega

theorem getAt_some {α : Type} {l : List α} {i : Nat} {v : α} (h : l[i]? = some v) :
    getAt l i = .ok v := by unfold getAt; rw [h]

theorem take_step {α : Type} {L : List α} {j : Nat} {t : α} (h : L[j]? = some t) :
    L.take (j + 1) = L.take j ++ [t] := by
  rw [List.take_add_one, h]; rfl

theorem flatMap_one {α β : Type} (f : α → List β) (a : α) : [a].flatMap f = f a := by simp

variable {F : Type}

theorem vertexLoop_eq (fmt : F → Bytes) (L : List (F × F × F)) (extra : List F)
    (he : extra.length < 3) (data : Bytes) :
    vertexLoop fmt (L.flatMap (fun t => [t.1, t.2.1, t.2.2]) ++ extra) data =
      .ok (data ++ L.flatMap (fun t => vertexLine fmt t.1 t.2.1 t.2.2)) := by
  have hn : (L.flatMap (fun t => [t.1, t.2.1, t.2.2]) ++ extra).length / 3 = L.length := by
    rw [List.length_append, triples_len]; omega
  have inv : ∃ s, vertexLoop fmt (L.flatMap (fun t => [t.1, t.2.1, t.2.2]) ++ extra) data = .ok s ∧
      s = data ++ (L.take L.length).flatMap (fun t => vertexLine fmt t.1 t.2.1 t.2.2) := by
    unfold vertexLoop
    rw [hn]
    refine forRange_inv _
      (fun j d => d = data ++ (L.take j).flatMap (fun t => vertexLine fmt t.1 t.2.1 t.2.2))
      L.length data (by simp) ?_
    intro j d hj hd
    have ht : L[j]? = some L[j] := List.getElem?_eq_getElem hj
    obtain ⟨g0, g1, g2⟩ := triples_get extra L j _ ht
    refine ⟨d ++ vertexLine fmt L[j].1 L[j].2.1 L[j].2.2,
      Res.bind_ok.mpr ⟨_, getAt_some g0, Res.bind_ok.mpr ⟨_, getAt_some g1,
      Res.bind_ok.mpr ⟨_, getAt_some g2, rfl⟩⟩⟩, ?_⟩
    rw [hd, take_step ht, List.flatMap_append, List.append_assoc, flatMap_one]
  obtain ⟨s, e, h⟩ := inv
  rw [e, h, List.take_length]

theorem uvLoop_eq (fmt : F → Bytes) (L : List (F × F)) (extra : List F)
    (he : extra.length < 2) (data : Bytes) :
    uvLoop fmt (L.flatMap (fun t => [t.1, t.2]) ++ extra) data =
      .ok (data ++ L.flatMap (fun t => uvLine fmt t.1 t.2)) := by
  have hn : (L.flatMap (fun t => [t.1, t.2]) ++ extra).length / 2 = L.length := by
    rw [List.length_append, pairs_len]; omega
  have inv : ∃ s, uvLoop fmt (L.flatMap (fun t => [t.1, t.2]) ++ extra) data = .ok s ∧
      s = data ++ (L.take L.length).flatMap (fun t => uvLine fmt t.1 t.2) := by
    unfold uvLoop
    rw [hn]
    refine forRange_inv _
      (fun j d => d = data ++ (L.take j).flatMap (fun t => uvLine fmt t.1 t.2))
      L.length data (by simp) ?_
    intro j d hj hd
    have ht : L[j]? = some L[j] := List.getElem?_eq_getElem hj
    obtain ⟨g0, g1⟩ := pairs_get extra L j _ ht
    refine ⟨d ++ uvLine fmt L[j].1 L[j].2,
      Res.bind_ok.mpr ⟨_, getAt_some g0, Res.bind_ok.mpr ⟨_, getAt_some g1, rfl⟩⟩, ?_⟩
    rw [hd, take_step ht, List.flatMap_append, List.append_assoc, flatMap_one]
  obtain ⟨s, e, h⟩ := inv
  rw [e, h, List.take_length]

theorem u32_succ (p : Profile) (a : Nat) (ha : a < 4294967295) :
    u32 p (1 + (a : Int)) = .ok (1 + a) := by
  have e : (1 + (a : Int)) = ((1 + a : Nat) : Int) := by omega
  rw [e]; exact u32_nat (by omega)

theorem faceLoop_eq (p : Profile) (L : List (Nat × Nat × Nat)) (extra : List Nat)
    (he : extra.length < 3) (data : Bytes)
    (hr : ∀ t ∈ L, t.1 < 4294967295 ∧ t.2.1 < 4294967295 ∧ t.2.2 < 4294967295) :
    faceLoop p (L.flatMap (fun t => [t.1, t.2.1, t.2.2]) ++ extra) data =
      .ok (3 * L.length,
        data ++ L.flatMap (fun t => faceLine (1 + t.1) (1 + t.2.1) (1 + t.2.2))) := by
  have hn : (L.flatMap (fun t => [t.1, t.2.1, t.2.2]) ++ extra).length / 3 = L.length := by
    rw [List.length_append, triples_len]; omega
  have inv : ∃ s, faceLoop p (L.flatMap (fun t => [t.1, t.2.1, t.2.2]) ++ extra) data = .ok s ∧
      s.1 = 3 * L.length ∧ s.2 = data ++
        (L.take L.length).flatMap (fun t => faceLine (1 + t.1) (1 + t.2.1) (1 + t.2.2)) := by
    unfold faceLoop
    rw [hn]
    refine forRange_inv (σ := Nat × Bytes) _
      (fun j d => d.1 = 3 * j ∧ d.2 = data ++
        (L.take j).flatMap (fun t => faceLine (1 + t.1) (1 + t.2.1) (1 + t.2.2)))
      L.length (0, data) (by simp) ?_
    intro j d hj hd
    have ht : L[j]? = some L[j] := List.getElem?_eq_getElem hj
    obtain ⟨g0, g1, g2⟩ := triples_get extra L j _ ht
    obtain ⟨r0, r1, r2⟩ := hr _ (List.mem_of_getElem? ht)
    obtain ⟨d1, d2⟩ := d
    obtain ⟨h1, h2⟩ := hd
    have e3 : d1 = j * 3 := by simp only at h1; omega
    subst e3
    refine ⟨(j * 3 + 3, d2 ++ faceLine (1 + L[j].1) (1 + L[j].2.1) (1 + L[j].2.2)), ?_, ?_, ?_⟩
    · exact Res.bind_ok.mpr ⟨_, getAt_some g0, Res.bind_ok.mpr ⟨_, u32_succ p _ r0,
        Res.bind_ok.mpr ⟨_, getAt_some g1, Res.bind_ok.mpr ⟨_, u32_succ p _ r1,
        Res.bind_ok.mpr ⟨_, getAt_some g2, Res.bind_ok.mpr ⟨_, u32_succ p _ r2, rfl⟩⟩⟩⟩⟩⟩
    · show j * 3 + 3 = _; omega
    · show d2 ++ _ = _
      simp only at h2
      rw [h2, take_step ht, List.flatMap_append, List.append_assoc, flatMap_one]
  obtain ⟨s, e, h1, h2⟩ := inv
  rw [e]
  rw [List.take_length] at h2
  rw [← h1, ← h2]

/-! ### the lines -/

theorem digits_not (n c : Nat) (h : c < 48 ∨ 57 < c) : c ∉ Path.decimal n := by
  intro hm
  have := (decimal_spec n).1 c hm
  omega

theorem words_vertex (fmt : F → Bytes) (hf : ∀ x, 10 ∉ fmt x ∧ 32 ∉ fmt x) (x y z : F) :
    words ([118, 32] ++ fmt x ++ [32] ++ fmt y ++ [32] ++ fmt z) =
      [[118], fmt x, fmt y, fmt z] := by
  have e : [118, 32] ++ fmt x ++ [32] ++ fmt y ++ [32] ++ fmt z =
      [118] ++ 32 :: (fmt x ++ 32 :: (fmt y ++ 32 :: fmt z)) := by simp
  unfold words
  rw [e, splitAt_first _ _ _ (by simp), splitAt_first _ _ _ (hf x).2,
    splitAt_first _ _ _ (hf y).2, splitAt_none _ _ (hf z).2]

theorem words_uv (fmt : F → Bytes) (hf : ∀ x, 10 ∉ fmt x ∧ 32 ∉ fmt x) (x y : F) :
    words ([118, 116, 32] ++ fmt x ++ [32] ++ fmt y) = [[118, 116], fmt x, fmt y] := by
  have e : [118, 116, 32] ++ fmt x ++ [32] ++ fmt y =
      [118, 116] ++ 32 :: (fmt x ++ 32 :: fmt y) := by simp
  unfold words
  rw [e, splitAt_first _ _ _ (by simp), splitAt_first _ _ _ (hf x).2,
    splitAt_none _ _ (hf y).2]

/-- One argument of a face line. -/
def corner (x : Nat) : Bytes := Path.decimal x ++ 47 :: Path.decimal x

theorem words_face (x y z : Nat) :
    words ([102, 32] ++ Path.decimal x ++ [47] ++ Path.decimal x ++ [32] ++ Path.decimal y ++ [47]
      ++ Path.decimal y ++ [32] ++ Path.decimal z ++ [47] ++ Path.decimal z) =
      [[102], corner x, corner y, corner z] := by
  have e : [102, 32] ++ Path.decimal x ++ [47] ++ Path.decimal x ++ [32] ++ Path.decimal y ++ [47]
      ++ Path.decimal y ++ [32] ++ Path.decimal z ++ [47] ++ Path.decimal z =
      [102] ++ 32 :: (corner x ++ 32 :: (corner y ++ 32 :: corner z)) := by simp [corner]
  have nc : ∀ n, 32 ∉ corner n := by
    intro n; unfold corner
    rw [List.mem_append, List.mem_cons]
    have := digits_not n 32 (by omega)
    rintro (h | h | h)
    · exact this h
    · omega
    · exact this h
  unfold words
  rw [e, splitAt_first _ _ _ (by simp), splitAt_first _ _ _ (nc x), splitAt_first _ _ _ (nc y),
    splitAt_none _ _ (nc z)]

theorem corner_split (x : Nat) : splitAt 47 (corner x) = [Path.decimal x, Path.decimal x] := by
  unfold corner
  rw [splitAt_first _ _ _ (digits_not x 47 (by omega)), splitAt_none _ _ (digits_not x 47 (by omega))]

theorem records_header (key rest : Bytes) (h1 : key ≠ [35]) (h2 : key ≠ []) :
    records key (header ++ rest) = records key rest := by
  have e : header = header.take 69 ++ 10 :: ([] ++ 10 :: []) := by decide
  have n1 : 10 ∉ header.take 69 := by decide
  rw [e, List.append_assoc, List.cons_append, records_line key _ _ n1, List.append_assoc,
    List.cons_append, records_line key [] _ (by simp), List.nil_append]
  have w : words (header.take 69) = [35] :: (words (header.take 69)).tail := by decide
  have r1 : lineRecord key (header.take 69) = none := by
    unfold lineRecord; rw [w]; exact if_neg (fun e => h1 e.symm)
  have r2 : lineRecord key [] = none := by
    unfold lineRecord words splitAt; exact if_neg (fun e => h2 e.symm)
  rw [r1, r2]; rfl

theorem records_nil (key : Bytes) (h : key ≠ []) : records key [] = [] := by
  unfold records lines
  simp only [splitAt, words, List.filterMap_cons, List.filterMap_nil]
  rw [if_neg (fun e => h e.symm)]

theorem filterMap_some {α β : Type} (f : α → Option β) (g : α → β) (L : List α)
    (h : ∀ a, f a = some (g a)) : L.filterMap f = L.map g := by
  rw [show f = fun a => some (g a) from funext h, List.filterMap_eq_map']

theorem filterMap_none {α β : Type} (f : α → Option β) (L : List α)
    (h : ∀ a, f a = none) : L.filterMap f = [] := by
  rw [show f = fun _ => none from funext h]; simp

/-- The whole text, as lists of lines. -/
theorem exportMesh_eq (p : Profile) (fmt : F → Bytes) (V : List (F × F × F)) (ve : List F)
    (U : List (F × F)) (ue : List F) (T : List (Nat × Nat × Nat)) (te : List Nat)
    (hv : ve.length < 3) (hu : ue.length < 2) (ht : te.length < 3)
    (hr : ∀ t ∈ T, t.1 < 4294967295 ∧ t.2.1 < 4294967295 ∧ t.2.2 < 4294967295) :
    exportMesh p fmt (V.flatMap (fun t => [t.1, t.2.1, t.2.2]) ++ ve)
      (U.flatMap (fun t => [t.1, t.2]) ++ ue) (T.flatMap (fun t => [t.1, t.2.1, t.2.2]) ++ te) =
      .ok (header ++ V.flatMap (fun t => vertexLine fmt t.1 t.2.1 t.2.2) ++
        U.flatMap (fun t => uvLine fmt t.1 t.2) ++
        T.flatMap (fun t => faceLine (1 + t.1) (1 + t.2.1) (1 + t.2.2))) := by
  unfold exportMesh
  exact Res.bind_ok.mpr ⟨_, vertexLoop_eq fmt V ve hv _, Res.bind_ok.mpr ⟨_, uvLoop_eq fmt U ue hu _,
    Res.bind_ok.mpr ⟨_, faceLoop_eq p T te ht _ hr, rfl⟩⟩⟩

/-- C26: for every position, UV and index buffer (lengths that are not multiples leave the
incomplete rest out), a reader of the exported text finds exactly the vertices, the texture
coordinates and the triangles of the buffers, in order; each corner of a triangle names its
index plus one twice, in decimal.  Missing: index 4294967295 (see the counterexample).
The numbers are printed without spaces and line ends, as Rust's `f32` formatting does. -/
theorem C26_mesh_partial (p : Profile) (fmt : F → Bytes) (hf : ∀ x, 10 ∉ fmt x ∧ 32 ∉ fmt x)
    (V : List (F × F × F)) (ve : List F)
    (U : List (F × F)) (ue : List F) (T : List (Nat × Nat × Nat)) (te : List Nat)
    (hv : ve.length < 3) (hu : ue.length < 2) (ht : te.length < 3)
    (hr : ∀ t ∈ T, t.1 < 4294967295 ∧ t.2.1 < 4294967295 ∧ t.2.2 < 4294967295) :
    ∃ text, exportMesh p fmt (V.flatMap (fun t => [t.1, t.2.1, t.2.2]) ++ ve)
        (U.flatMap (fun t => [t.1, t.2]) ++ ue)
        (T.flatMap (fun t => [t.1, t.2.1, t.2.2]) ++ te) = .ok text ∧
      vertices text = V.map (fun t => [fmt t.1, fmt t.2.1, fmt t.2.2]) ∧
      uvs text = U.map (fun t => [fmt t.1, fmt t.2]) ∧
      (∃ num : Nat → Bytes, (∀ n, IsDecimal (num n) n) ∧
        faces text = T.map (fun t => [[num (t.1 + 1), num (t.1 + 1)],
          [num (t.2.1 + 1), num (t.2.1 + 1)], [num (t.2.2 + 1), num (t.2.2 + 1)]])) := by
  refine ⟨_, exportMesh_eq p fmt V ve U ue T te hv hu ht hr, ?_⟩
  -- the lines without their line ends
  let vl : F × F × F → Bytes := fun t => [118, 32] ++ fmt t.1 ++ [32] ++ fmt t.2.1 ++ [32] ++ fmt t.2.2
  let ul : F × F → Bytes := fun t => [118, 116, 32] ++ fmt t.1 ++ [32] ++ fmt t.2
  let fl : Nat × Nat × Nat → Bytes := fun t => [102, 32] ++ Path.decimal (1 + t.1) ++ [47] ++
    Path.decimal (1 + t.1) ++ [32] ++ Path.decimal (1 + t.2.1) ++ [47] ++ Path.decimal (1 + t.2.1) ++
    [32] ++ Path.decimal (1 + t.2.2) ++ [47] ++ Path.decimal (1 + t.2.2)
  have nv : ∀ t, 10 ∉ vl t := by
    intro t
    simp only [vl, List.mem_append, not_or, (hf t.1).1, (hf t.2.1).1, (hf t.2.2).1]
    simp
  have nu : ∀ t, 10 ∉ ul t := by
    intro t
    simp only [ul, List.mem_append, not_or, (hf t.1).1, (hf t.2).1]
    simp
  have nf : ∀ t, 10 ∉ fl t := by
    intro t
    have d : ∀ n, 10 ∉ Path.decimal n := fun n => digits_not n 10 (by omega)
    simp only [fl, List.mem_append, not_or, d]
    simp
  have main : ∀ key : Bytes, key ≠ [35] → key ≠ [] →
      records key (header ++ V.flatMap (fun t => vertexLine fmt t.1 t.2.1 t.2.2) ++
        U.flatMap (fun t => uvLine fmt t.1 t.2) ++
        T.flatMap (fun t => faceLine (1 + t.1) (1 + t.2.1) (1 + t.2.2))) =
      V.filterMap (fun t => lineRecord key (vl t)) ++
        (U.filterMap (fun t => lineRecord key (ul t)) ++
          T.filterMap (fun t => lineRecord key (fl t))) := by
    intro key h1 h2
    have s1 := records_flatMap key fl nf [] T
    rw [List.append_nil, records_nil key h2, List.append_nil] at s1
    have s2 := records_flatMap key ul nu (T.flatMap fun t => fl t ++ [10]) U
    have s3 := records_flatMap key vl nv (U.flatMap (fun t => ul t ++ [10]) ++
      T.flatMap fun t => fl t ++ [10]) V
    rw [s1] at s2
    rw [s2] at s3
    rw [List.append_assoc, List.append_assoc, records_header key _ h1 h2]
    exact s3
  have wv : ∀ t, words (vl t) = [[118], fmt t.1, fmt t.2.1, fmt t.2.2] :=
    fun t => words_vertex fmt hf _ _ _
  have wu : ∀ t, words (ul t) = [[118, 116], fmt t.1, fmt t.2] := fun t => words_uv fmt hf _ _
  have wf : ∀ t, words (fl t) = [[102], corner (1 + t.1), corner (1 + t.2.1), corner (1 + t.2.2)] :=
    fun t => words_face _ _ _
  refine ⟨?_, ?_, Path.decimal, ?_, ?_⟩
  · unfold vertices
    rw [main [118] (by simp) (by simp)]
    rw [filterMap_some (fun t => lineRecord [118] (vl t)) (fun t => [fmt t.1, fmt t.2.1, fmt t.2.2])
        V (fun t => by unfold lineRecord; rw [wv]; rfl),
      filterMap_none (fun t => lineRecord [118] (ul t)) U
        (fun t => by unfold lineRecord; rw [wu]; rfl),
      filterMap_none (fun t => lineRecord [118] (fl t)) T
        (fun t => by unfold lineRecord; rw [wf]; rfl)]
    simp
  · unfold ObjSpec.uvs
    rw [main [118, 116] (by simp) (by simp)]
    rw [filterMap_none (fun t => lineRecord [118, 116] (vl t))
        V (fun t => by unfold lineRecord; rw [wv]; rfl),
      filterMap_some (fun t => lineRecord [118, 116] (ul t)) (fun t => [fmt t.1, fmt t.2]) U
        (fun t => by unfold lineRecord; rw [wu]; rfl),
      filterMap_none (fun t => lineRecord [118, 116] (fl t)) T
        (fun t => by unfold lineRecord; rw [wf]; rfl)]
    simp
  · intro n
    obtain ⟨a, b, c, _⟩ := decimal_spec n
    exact ⟨c, a, b⟩
  · unfold faces
    rw [main [102] (by simp) (by simp)]
    rw [filterMap_none (fun t => lineRecord [102] (vl t))
        V (fun t => by unfold lineRecord; rw [wv]; rfl),
      filterMap_none (fun t => lineRecord [102] (ul t)) U
        (fun t => by unfold lineRecord; rw [wu]; rfl),
      filterMap_some (fun t => lineRecord [102] (fl t))
        (fun t => [corner (1 + t.1), corner (1 + t.2.1), corner (1 + t.2.2)]) T
        (fun t => by unfold lineRecord; rw [wf]; rfl)]
    simp [corner_split, Nat.add_comm]

/-- Two triangles, four vertices and an incomplete rest in every buffer. -/
example : ∃ text, exportMesh .debug (fun x : Nat => Path.decimal x)
    [0, 0, 0, 4, 0, 0, 4, 4, 0, 0, 4, 0, 9, 9] [0, 0, 1, 0, 1, 1, 0, 1, 7] [0, 1, 2, 0, 2, 3, 8]
      = .ok text ∧ (vertices text).length = 4 ∧ (uvs text).length = 4 ∧
      (faces text).length = 2 := by
  obtain ⟨text, h, hv, hu, num, _, hf⟩ := C26_mesh_partial .debug (fun x : Nat => Path.decimal x)
    (fun x => ⟨digits_not x 10 (by omega), digits_not x 32 (by omega)⟩)
    [(0, 0, 0), (4, 0, 0), (4, 4, 0), (0, 4, 0)] [9, 9] [(0, 0), (1, 0), (1, 1), (0, 1)] [7]
    [(0, 1, 2), (0, 2, 3)] [8] (by decide) (by decide) (by decide) (by decide)
  exact ⟨text, h, by rw [hv]; rfl, by rw [hu]; rfl, by rw [hf]; rfl⟩

/-- C26: exporting to a path that can be written leaves a file there from which the vertices, the
texture coordinates and the triangles of the buffers can be read, whatever the file held before, and
leaves all other files alone.  Missing: index 4294967295, as above. -/
theorem C26_file_partial (p : Profile) (fmt : F → Bytes) (hf : ∀ x, 10 ∉ fmt x ∧ 32 ∉ fmt x)
    (V : List (F × F × F)) (ve : List F)
    (U : List (F × F)) (ue : List F) (T : List (Nat × Nat × Nat)) (te : List Nat)
    (hv : ve.length < 3) (hu : ue.length < 2) (ht : te.length < 3)
    (hr : ∀ t ∈ T, t.1 < 4294967295 ∧ t.2.1 < 4294967295 ∧ t.2.2 < 4294967295)
    (path : Bytes) (disk : Disk) (hw : disk.writable path = true) :
    ∃ disk' text, exportMeshFile p fmt (V.flatMap (fun t => [t.1, t.2.1, t.2.2]) ++ ve)
        (U.flatMap (fun t => [t.1, t.2]) ++ ue)
        (T.flatMap (fun t => [t.1, t.2.1, t.2.2]) ++ te) path disk = .ok disk' ∧
      disk'.files path = some text ∧ (∀ q, q ≠ path → disk'.files q = disk.files q) ∧
      disk'.writable = disk.writable ∧
      vertices text = V.map (fun t => [fmt t.1, fmt t.2.1, fmt t.2.2]) ∧
      uvs text = U.map (fun t => [fmt t.1, fmt t.2]) ∧
      (∃ num : Nat → Bytes, (∀ n, IsDecimal (num n) n) ∧
        faces text = T.map (fun t => [[num (t.1 + 1), num (t.1 + 1)],
          [num (t.2.1 + 1), num (t.2.1 + 1)], [num (t.2.2 + 1), num (t.2.2 + 1)]])) := by
  obtain ⟨text, e, h⟩ := C26_mesh_partial p fmt hf V ve U ue T te hv hu ht hr
  refine ⟨{ disk with files := fun q => if q = path then some text else disk.files q }, text,
    Res.bind_ok.mpr ⟨text, e, ?_⟩, if_pos rfl, fun q hq => if_neg hq, rfl, h⟩
  unfold Disk.write
  rw [if_pos hw]

/-- C26: exporting to a path that cannot be written panics, whatever is exported. -/
theorem C26_unwritable (p : Profile) (fmt : F → Bytes) (positions uvs : List F) (indices : List Nat)
    (path : Bytes) (disk : Disk) (hw : disk.writable path = false) :
    ∃ e, exportMeshFile p fmt positions uvs indices path disk = .error e := by
  unfold exportMeshFile
  cases h : exportMesh p fmt positions uvs indices with
  | error e => exact ⟨e, rfl⟩
  | ok data =>
    refine ⟨.explicit, ?_⟩
    show disk.write path data = _
    unfold Disk.write
    rw [hw]
    rfl

/-- Exporting a quad over an old file, next to another file. -/
example : ∃ disk' text, exportMeshFile .debug (fun x : Nat => Path.decimal x)
      [0, 0, 0, 4, 0, 0, 4, 4, 0, 0, 4, 0] [0, 0, 1, 0, 1, 1, 0, 1] [0, 1, 2, 0, 2, 3] [97]
      ⟨fun q => if q = [97] ∨ q = [98] then some [1, 2, 3] else none, fun q => q = [97]⟩ = .ok disk' ∧
    disk'.files [97] = some text ∧ disk'.files [98] = some [1, 2, 3] ∧
    (vertices text).length = 4 ∧ (faces text).length = 2 := by
  obtain ⟨disk', text, e, h1, h2, -, h3, -, num, -, h4⟩ := C26_file_partial .debug
    (fun x : Nat => Path.decimal x)
    (fun x => ⟨digits_not x 10 (by omega), digits_not x 32 (by omega)⟩)
    [(0, 0, 0), (4, 0, 0), (4, 4, 0), (0, 4, 0)] [] [(0, 0), (1, 0), (1, 1), (0, 1)] []
    [(0, 1, 2), (0, 2, 3)] [] (by decide) (by decide) (by decide) (by decide) [97]
    ⟨fun q => if q = [97] ∨ q = [98] then some [1, 2, 3] else none, fun q => q = [97]⟩ rfl
  exact ⟨disk', text, e, h1, h2 [98] (by decide), by rw [h3]; rfl, by rw [h4]; rfl⟩

/-- C26 counterexample: a triangle with an index of 4294967295 panics in debug builds and in
release builds is written with index 0, which no OBJ file may contain. -/
theorem C26_counterexample (fmt : F → Bytes) (b c : Nat) (hb : b < 4294967295)
    (hc : c < 4294967295) :
    exportMesh .debug fmt [] [] [4294967295, b, c] = .error .overflow ∧
    exportMesh .release fmt [] [] [4294967295, b, c] =
      .ok (header ++ faceLine 0 (1 + b) (1 + c)) := by
  have cast : ∀ p, ∀ a : Nat, a < 4294967295 → u32 p (1 + (a : Int)) = .ok (1 + a) := by
    intro p a ha
    have : (1 + (a : Int)) = ((1 + a : Nat) : Int) := by omega
    rw [this]; exact u32_nat (by omega)
  have d : u32 .debug (1 + ((4294967295 : Nat) : Int)) = .error .overflow := by
    unfold u32; rw [if_neg (by omega)]
  have r : u32 .release (1 + ((4294967295 : Nat) : Int)) = .ok 0 := by
    unfold u32; rw [if_neg (by omega)]; rfl
  constructor
  · unfold exportMesh
    refine Res.bind_error.mpr (.inr ⟨header, by simpa using vertexLoop_eq fmt [] [] (by simp) header,
      Res.bind_error.mpr (.inr ⟨header, by simpa using uvLoop_eq fmt [] [] (by simp) header,
      Res.bind_error.mpr (.inl ?_)⟩)⟩)
    unfold faceLoop
    unfold forRange
    rw [show [4294967295, b, c].length / 3 = 1 from by simp]
    unfold forFrom
    refine Res.bind_error.mpr (.inl ?_)
    exact Res.bind_error.mpr (.inr ⟨4294967295, rfl, Res.bind_error.mpr (.inl d)⟩)
  · unfold exportMesh
    refine Res.bind_ok.mpr ⟨header, by simpa using vertexLoop_eq fmt [] [] (by simp) header,
      Res.bind_ok.mpr ⟨header, by simpa using uvLoop_eq fmt [] [] (by simp) header, Res.bind_ok.mpr
      ⟨(3, header ++ faceLine 0 (1 + b) (1 + c)), ?_, rfl⟩⟩⟩
    unfold faceLoop
    unfold forRange
    rw [show [4294967295, b, c].length / 3 = 1 from by simp]
    unfold forFrom
    exact Res.bind_ok.mpr ⟨_, Res.bind_ok.mpr ⟨4294967295, rfl, Res.bind_ok.mpr ⟨_, r,
      Res.bind_ok.mpr ⟨b, rfl, Res.bind_ok.mpr ⟨_, cast _ _ hb, Res.bind_ok.mpr ⟨c, rfl,
      Res.bind_ok.mpr ⟨_, cast _ _ hc, rfl⟩⟩⟩⟩⟩⟩, rfl⟩

end OCG.Props
