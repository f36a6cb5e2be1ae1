import Verif.Proofs.CacheHist
import Verif.Model.Lut
/-
Invariants of the entries of a cache.
-/

namespace OCG.Cache

/-- Every entry satisfies `G`. -/
def Good {V : Type} (G : Nat → V → Prop) (c : Cache V) : Prop := ∀ e ∈ c.lru, G e.1 e.2

section
variable {V : Type} {size : V → Nat} {p : Profile} {G : Nat → V → Prop}

theorem Good.shrunk {c d : Cache V} (h : Good G c) (hs : Shrunk c d) : Good G d :=
  fun e he => h e (hs.suffix.subset he)

theorem Good.insert {c c' : Cache V} {k : Nat} {v : V} (h : Good G c) (hv : G k v)
    (e : Cache.insert size p c k v = .ok c') : Good G c' := by
  by_cases hc : c.capacity = 0
  · simp only [Cache.insert, hc, if_true, Except.ok.injEq] at e
    rw [← e]
    exact h
  · obtain ⟨d, h1, h2, -⟩ := insert_shape c c' k v hc e
    intro x hx
    rw [h2] at hx
    unfold mapInsert eraseKey at hx
    rcases List.mem_append.mp hx with hx | hx
    · exact h.shrunk h1 x ((List.mem_filter.mp hx).1)
    · rw [List.mem_singleton.mp hx]
      exact hv

theorem find_mem : ∀ {l : List (Nat × V)} {k : Nat} {v : V}, find l k = some v → (k, v) ∈ l := by
  intro l
  induction l with
  | nil => intro k v h; simp [find] at h
  | cons e l ih =>
    intro k v h
    obtain ⟨k', v'⟩ := e
    unfold find at h
    split at h
    · rename_i hk
      simp only [Option.some.injEq] at h
      rw [← h, hk]
      exact List.mem_cons_self
    · exact List.mem_cons_of_mem _ (ih h)

theorem Good.get {c : Cache V} (h : Good G c) (k : Nat) :
    Good G (c.get k).1 ∧ ∀ v, (c.get k).2 = some v → G k v := by
  unfold Cache.get
  split
  · rename_i v hv
    have hm := h _ (find_mem hv)
    refine ⟨?_, fun v' hv' => by cases hv'; exact hm⟩
    intro e he
    rcases List.mem_append.mp he with he | he
    · exact h e ((List.mem_filter.mp he).1)
    · rw [List.mem_singleton.mp he]; exact hm
  · exact ⟨h, fun v hv => by cases hv⟩

theorem Good.setCapacity {c c' : Cache V} {n : Nat} (h : Good G c)
    (e : Cache.setCapacity size p c n = .ok c') : Good G c' := by
  obtain ⟨d, h1, h2⟩ := setCapacity_shape c c' n e
  rw [h2]
  exact fun x hx => h.shrunk h1 x hx

theorem good_empty (c : Cache V) (h : c.lru = []) : Good G c := by
  intro e he
  rw [h] at he
  cases he

end

/-- Looking up or computing keeps the invariant, and the answer has it. -/
theorem Good.cached {F H : Type} {p : Profile} {G : Nat → Image F H → Prop}
    {c c' : Cache (Image F H)} {k : Nat} {make : Res (Image F H)} {image : Image F H}
    (h : Good G c) (hm : ∀ i, make = .ok i → G k i)
    (e : cached p c k make = .ok (c', image)) : Good G c' ∧ G k image := by
  obtain ⟨h1, h2⟩ := h.get k
  unfold OCG.cached at e
  split at e
  · rename_i a b hg
    rw [hg] at h1 h2
    simp only [Except.ok.injEq, Prod.mk.injEq] at e
    rw [← e.1, ← e.2]
    exact ⟨h1, h2 _ rfl⟩
  · rename_i a hg
    rw [hg] at h1
    obtain ⟨i, ei, e⟩ := Res.bind_ok.mp e
    obtain ⟨c2, e2, e⟩ := Res.bind_ok.mp e
    simp only [Except.ok.injEq, Prod.mk.injEq] at e
    rw [← e.1, ← e.2]
    exact ⟨h1.insert (hm i ei) e2, hm i ei⟩

end OCG.Cache
