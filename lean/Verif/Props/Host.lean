import Verif.Spec.Host
import Verif.Props.PictureGraph
/-
Property C140: the objects of a host program do not disturb each other.
-/

namespace OCG.Props

open HostSpec

section
variable {F H : Type} [FloatLike F] [HalfLike F H] [FloatConst F] [FloatBits F]

theorem object_ok {A : Type} {m : Nat → Option A} {i : Nat} {a : A} (h : object m i = .ok a) :
    m i = some a := by
  unfold object at h
  split at h
  · cases h; assumption
  · cases h

theorem getBox_ok {A : Type} {x : Holder A} {r : A × Holder A} (h : x.getBox = .ok r) :
    x = some r.1 ∧ r.2 = none := by
  cases x <;> cases h
  exact ⟨rfl, rfl⟩

theorem crash_bind {A B : Type} {x : Except Crash A} {f : A → Except Crash B} {b : B}
    (h : (x >>= f) = .ok b) : ∃ a, x = .ok a ∧ f a = .ok b := by
  cases x with
  | error e => cases h
  | ok a => exact ⟨a, rfl, h⟩

/-- Two outcomes of a statement: the same crash, or the same answer and changes. -/
def Alike (op : HostOp F) (h k : Host F H) :
    Except Crash (Host F H × Answer F H) → Except Crash (Host F H × Answer F H) → Prop
  | .ok (h', a), .ok (k', b) => a = b ∧ (∀ o ∈ names op, SameObj h' k' o) ∧
      (∀ o, o ∉ names op → SameObj h h' o) ∧ (∀ o, o ∉ names op → SameObj k k' o) ∧
      ∃ jobs, (∀ w ∈ jobs, Obj.graph w.1 ∈ names op) ∧ h'.writes = h.writes ++ jobs ∧
        k'.writes = k.writes ++ jobs
  | .error e, .error e' => e = e'
  | _, _ => False

omit [FloatLike F] [HalfLike F H] [FloatConst F] [FloatBits F] in
theorem alike_error {op : HostOp F} {h k : Host F H} (e : Crash) :
    Alike op h k (.error e) (.error e) := rfl

/-- Splits the equation of a statement into its cases. -/
macro "alike_done" jobs:term : tactic => `(tactic| (
  refine ⟨rfl, ?_, ?_, ?_, $jobs, ?_, ?_, ?_⟩
  · intro o ho
    cases o <;> simp_all [names, SameObj, assign]
  · intro o ho
    cases o <;> simp_all [names, SameObj, assign]
  · intro o ho
    cases o <;> simp_all [names, SameObj, assign]
  · intro w hw
    simp_all [names]
    try aesop
  · simp
  · simp))

theorem step_alike (p : Profile) (lib : NodeLib F H) (srt : EdgeSort) (fuel : Nat) {h k : Host F H}
    {op : HostOp F} (hs : ∀ o ∈ names op, SameObj h k o) :
    Alike op h k (h.step p lib srt fuel op) (k.step p lib srt fuel op) := by
  cases op with
  | newGraph g => alike_done []
  | dropGraph g => alike_done []
  | graph g call =>
    have e : h.graphs g = k.graphs g := hs (.graph g) (by simp [names])
    simp only [Host.step, object, e]
    cases k.graphs g with
    | none => exact alike_error _
    | some x =>
      dsimp only [bind, Except.bind]
      cases x.call p lib call with
      | error e => exact alike_error _
      | ok r => alike_done []
  | execute g id frames c =>
    have e : h.graphs g = k.graphs g := hs (.graph g) (by simp [names])
    have e' : h.caches c = k.caches c := hs (.cache c) (by simp [names])
    simp only [Host.step, object, e, e']
    cases k.graphs g with
    | none => exact alike_error _
    | some x =>
      rcases k.caches c with _ | _ | cache
      · exact alike_error _
      · exact alike_error _
      dsimp only [bind, Except.bind, Holder.getBox]
      cases x.execute (nodeSem p lib) srt fuel id frames ⟨cache, []⟩ with
      | error e => exact alike_error _
      | ok r => alike_done (r.2.2.writes.map fun job => (g, job))
  | output g s =>
    have e : h.graphs g = k.graphs g := hs (.graph g) (by simp [names])
    simp only [Host.step, object, e]
    cases k.graphs g with
    | none => exact alike_error _
    | some x => alike_done []
  | newCache c => alike_done []
  | dropCache c => alike_done []
  | setCapacity c bytes =>
    have e' : h.caches c = k.caches c := hs (.cache c) (by simp [names])
    simp only [Host.step, object, e']
    rcases k.caches c with _ | _ | cache
    · exact alike_error _
    · exact alike_error _
    dsimp only [bind, Except.bind, Holder.getBox]
    cases cache.setCapacity Image.sizeBytes p bytes with
    | error e => exact alike_error _
    | ok r => alike_done []
  | lookCache c =>
    have e' : h.caches c = k.caches c := hs (.cache c) (by simp [names])
    simp only [Host.step, object, e']
    rcases k.caches c with _ | _ | cache
    · exact alike_error _
    · exact alike_error _
    alike_done []
  | newStream s => alike_done []
  | dropStream s => alike_done []
  | lookStream s =>
    have e' : h.streams s = k.streams s := hs (.stream s) (by simp [names])
    simp only [Host.step, object, e']
    rcases k.streams s with _ | _ | stream
    · exact alike_error _
    · exact alike_error _
    alike_done []
  | transformLut src dst edge c =>
    have e' : h.caches c = k.caches c := hs (.cache c) (by simp [names])
    simp only [Host.step, object, e']
    rcases k.caches c with _ | _ | cache
    · exact alike_error _
    · exact alike_error _
    dsimp only [bind, Except.bind, Holder.getBox]
    cases getTransformLut p lib.hash lib.bake.color src dst edge cache with
    | error e => exact alike_error _
    | ok r => alike_done []
  | opsLut s edge channels c =>
    have e : h.streams s = k.streams s := hs (.stream s) (by simp [names])
    have e' : h.caches c = k.caches c := hs (.cache c) (by simp [names])
    simp only [Host.step, object, e, e']
    rcases k.streams s with _ | _ | stream
    · exact alike_error _
    · rcases k.caches c with _ | cache
      · exact alike_error _
      · exact alike_error _
    rcases k.caches c with _ | _ | cache
    · exact alike_error _
    · exact alike_error _
    dsimp only [bind, Except.bind, Holder.getBox]
    cases getOpsLut p lib.hash stream edge channels cache with
    | error e => exact alike_error _
    | ok r => alike_done []

/-- C140: a statement changes no object but those it names, and adds files of those graphs only. -/
theorem C140_named (p : Profile) (lib : NodeLib F H) (srt : EdgeSort) (fuel : Nat) {h h' : Host F H}
    {op : HostOp F} {a : Answer F H} (hx : h.step p lib srt fuel op = .ok (h', a)) :
    (∀ o, o ∉ names op → SameObj h h' o) ∧
      ∃ jobs, h'.writes = h.writes ++ jobs ∧ ∀ w ∈ jobs, Obj.graph w.1 ∈ names op := by
  have := step_alike p lib srt fuel (h := h) (k := h) (op := op) fun o _ => by cases o <;> rfl
  rw [hx] at this
  obtain ⟨-, -, h1, -, jobs, h2, h3, -⟩ := this
  exact ⟨h1, jobs, h3, h2⟩

theorem run_cons {p : Profile} {lib : NodeLib F H} {srt : EdgeSort} {fuel : Nat} {h h' : Host F H}
    {op : HostOp F} {ops : List (HostOp F)} {as : List (Answer F H)}
    (hx : h.run p lib srt fuel (op :: ops) = .ok (h', as)) :
    ∃ k a bs, h.step p lib srt fuel op = .ok (k, a) ∧ k.run p lib srt fuel ops = .ok (h', bs) ∧
      as = a :: bs := by
  obtain ⟨⟨k, a⟩, h1, h2⟩ := crash_bind hx
  obtain ⟨⟨k', bs⟩, h3, h4⟩ := crash_bind h2
  cases h4
  exact ⟨k, a, bs, h1, h3, rfl⟩

theorem cons_run {p : Profile} {lib : NodeLib F H} {srt : EdgeSort} {fuel : Nat} {h k h' : Host F H}
    {op : HostOp F} {ops : List (HostOp F)} {a : Answer F H} {as : List (Answer F H)}
    (h1 : h.step p lib srt fuel op = .ok (k, a)) (h2 : k.run p lib srt fuel ops = .ok (h', as)) :
    h.run p lib srt fuel (op :: ops) = .ok (h', a :: as) := by
  unfold Host.run
  rw [h1]
  dsimp only [bind, Except.bind]
  rw [h2]

omit [FloatLike F] [HalfLike F H] [FloatConst F] [FloatBits F] in
theorem within_iff {A : Obj → Bool} {op : HostOp F} :
    Within A op = true ↔ ∀ o ∈ names op, A o = true := by
  unfold Within; rw [List.all_eq_true]

omit [FloatLike F] in
theorem named_some (op : HostOp F) : ∃ o, o ∈ names op := by
  cases op <;> exact ⟨_, List.mem_cons_self⟩

theorem within_not {A : Obj → Bool} {op : HostOp F} (h : ∀ o ∈ names op, A o = false) :
    Within A op = false := by
  obtain ⟨o, ho⟩ := named_some op
  rw [Bool.eq_false_iff, ne_eq, within_iff]
  intro h'
  have := h' o ho
  rw [h o ho] at this
  cases this

/-- A statement of the part, in two hosts with the same part. -/
theorem part_both {p : Profile} {lib : NodeLib F H} {srt : EdgeSort} {fuel : Nat} {A : Obj → Bool}
    {h k h' : Host F H} {op : HostOp F} {a : Answer F H} (hs : SamePart A h k)
    (ho : ∀ o ∈ names op, A o = true) (hx : h.step p lib srt fuel op = .ok (h', a)) :
    ∃ k', k.step p lib srt fuel op = .ok (k', a) ∧ SamePart A h' k' := by
  have := step_alike p lib srt fuel (fun o h => hs.objects o (ho o h))
  rw [hx] at this
  cases hk : k.step p lib srt fuel op with
  | error e => rw [hk] at this; exact this.elim
  | ok r =>
    rw [hk] at this
    obtain ⟨rfl, h1, h2, h3, jobs, -, h5, h6⟩ := this
    refine ⟨r.1, rfl, ⟨fun o hA => ?_, by rw [h5, h6, List.filter_append, List.filter_append, hs.files]⟩⟩
    by_cases hn : o ∈ names op
    · exact h1 o hn
    · have e1 := h2 o hn
      have e2 := h3 o hn
      have e3 := hs.objects o hA
      cases o <;> exact e1.symm.trans (e3.trans e2)

/-- A statement of the other part. -/
theorem part_other {p : Profile} {lib : NodeLib F H} {srt : EdgeSort} {fuel : Nat} {A : Obj → Bool}
    {h k h' : Host F H} {op : HostOp F} {a : Answer F H} (hs : SamePart A h k)
    (ho : ∀ o ∈ names op, A o = false) (hx : h.step p lib srt fuel op = .ok (h', a)) :
    SamePart A h' k := by
  obtain ⟨h1, jobs, h2, h3⟩ := C140_named p lib srt fuel hx
  refine ⟨fun o hA => ?_, ?_⟩
  · have e1 := h1 o fun hn => by rw [ho o hn] at hA; cases hA
    have e2 := hs.objects o hA
    cases o <;> exact e1.symm.trans e2
  · rw [h2, List.filter_append, hs.files]
    have : jobs.filter (fun w => A (.graph w.1)) = [] := by
      rw [List.filter_eq_nil_iff]
      intro w hw
      rw [ho _ (h3 w hw)]
      simp
    rw [this, List.append_nil]

/-- C140: two parts of a host that share no object do not notice each other: in every program made
of statements of the two parts, each part gets the answers and has the objects and files that it
would have if it were alone. -/
theorem C140_apart (p : Profile) (lib : NodeLib F H) (srt : EdgeSort) (fuel : Nat)
    (A : Obj → Bool) {ops : List (HostOp F)} (ho : ∀ op ∈ ops, OneSided A op) {h k h' : Host F H}
    (hs : SamePart A h k) {answers : List (Answer F H)}
    (hx : h.run p lib srt fuel ops = .ok (h', answers)) :
    ∃ k', k.run p lib srt fuel (ops.filter (Within A)) = .ok (k', answersOf A ops answers) ∧
      SamePart A h' k' := by
  induction ops generalizing h k answers with
  | nil => cases hx; exact ⟨k, rfl, hs⟩
  | cons op ops ih =>
    obtain ⟨h1, a, as, e1, e2, rfl⟩ := run_cons hx
    rcases ho op List.mem_cons_self with hA | hA
    · obtain ⟨k1, f1, s1⟩ := part_both hs hA e1
      obtain ⟨k', f2, s2⟩ := ih (fun op h => ho op (List.mem_cons_of_mem _ h)) s1 e2
      refine ⟨k', ?_, s2⟩
      rw [List.filter_cons, if_pos (within_iff.mpr hA)]
      unfold answersOf
      rw [List.zip_cons_cons, List.filter_cons, if_pos (within_iff.mpr hA)]
      exact cons_run f1 f2
    · obtain ⟨k', f2, s2⟩ := ih (fun op h => ho op (List.mem_cons_of_mem _ h)) (part_other hs hA e1) e2
      refine ⟨k', ?_, s2⟩
      rw [List.filter_cons, if_neg (by rw [within_not hA]; simp)]
      unfold answersOf
      rw [List.zip_cons_cons, List.filter_cons, if_neg (by rw [within_not hA]; simp)]
      exact f2

omit [FloatLike F] [HalfLike F H] [FloatConst F] [FloatBits F] in
theorem part_symm {A : Obj → Bool} {h k : Host F H} (hs : SamePart A h k) : SamePart A k h :=
  ⟨fun o hA => by have := hs.objects o hA; cases o <;> exact this.symm, hs.files.symm⟩

/-- C140: if each of the two parts runs through alone, every interleaving of them runs through. -/
theorem C140_together (p : Profile) (lib : NodeLib F H) (srt : EdgeSort) (fuel : Nat)
    (A : Obj → Bool) {ops : List (HostOp F)} (ho : ∀ op ∈ ops, OneSided A op)
    {h k l k' l' : Host F H} (hs : SamePart A h k) (ht : SamePart (fun o => !A o) h l)
    {as bs : List (Answer F H)}
    (hk : k.run p lib srt fuel (ops.filter (Within A)) = .ok (k', as))
    (hl : l.run p lib srt fuel (ops.filter (Within fun o => !A o)) = .ok (l', bs)) :
    ∃ h' answers, h.run p lib srt fuel ops = .ok (h', answers) ∧ SamePart A h' k' ∧
      SamePart (fun o => !A o) h' l' := by
  induction ops generalizing h k l as bs with
  | nil => cases hk; cases hl; exact ⟨h, [], rfl, hs, ht⟩
  | cons op ops ih =>
    rcases ho op List.mem_cons_self with hA | hA
    · have hB : ∀ o ∈ names op, (fun o => !A o) o = false := fun o h => by
        show (!A o) = false
        rw [hA o h]; rfl
      rw [List.filter_cons, if_pos (within_iff.mpr hA)] at hk
      rw [List.filter_cons, if_neg (by rw [within_not hB]; simp)] at hl
      obtain ⟨k1, a, as', e1, e2, rfl⟩ := run_cons hk
      obtain ⟨h1, f1, s1⟩ := part_both (part_symm hs) hA e1
      obtain ⟨h', as'', g1, g2, g3⟩ := ih (fun op h => ho op (List.mem_cons_of_mem _ h)) (part_symm s1)
        (part_other ht hB f1) e2 hl
      exact ⟨h', _, cons_run f1 g1, g2, g3⟩
    · have hB : ∀ o ∈ names op, (fun o => !A o) o = true := fun o h => by
        show (!A o) = true
        rw [hA o h]; rfl
      rw [List.filter_cons, if_neg (by rw [within_not hA]; simp)] at hk
      rw [List.filter_cons, if_pos (within_iff.mpr hB)] at hl
      obtain ⟨l1, a, bs', e1, e2, rfl⟩ := run_cons hl
      obtain ⟨h1, f1, s1⟩ := part_both (part_symm ht) hB e1
      obtain ⟨h', as'', g1, g2, g3⟩ := ih (fun op h => ho op (List.mem_cons_of_mem _ h))
        (part_other hs hA f1) (part_symm s1) hk e2
      exact ⟨h', _, cons_run f1 g1, g2, g3⟩

/-- The cases of a statement that ends well. -/
macro "whole_done" : tactic => `(tactic| (
  refine ⟨by rintro ⟨⟩, ?_⟩
  rintro h' a ⟨⟩
  refine ⟨⟨fun i => ?_, fun i => ?_⟩, fun i hi => ?_⟩ <;>
    simp only [assign, Holder.setBox, SetsStream] at * <;> (try split) <;> simp_all [Whole]))

theorem step_whole {p : Profile} {lib : NodeLib F H} {srt : EdgeSort} {fuel : Nat} {h : Host F H}
    (hw : Whole h) (op : HostOp F) : h.step p lib srt fuel op ≠ .error .null ∧
      ∀ h' a, h.step p lib srt fuel op = .ok (h', a) →
        Whole h' ∧ ∀ s, ¬ SetsStream s op → h'.streams s = h.streams s := by
  have bad : ∀ e, e ≠ Crash.null → (.error e : Except Crash (Host F H × Answer F H)) ≠ .error .null ∧
      ∀ h' a, (.error e : Except Crash (Host F H × Answer F H)) = .ok (h', a) →
        Whole h' ∧ ∀ s, ¬ SetsStream s op → h'.streams s = h.streams s :=
    fun e he => ⟨fun h => he (by cases h; rfl), by rintro _ _ ⟨⟩⟩
  have hw' := hw
  obtain ⟨hc, hs⟩ := hw'
  cases op with
  | newGraph g => whole_done
  | dropGraph g => whole_done
  | graph g call =>
    simp only [Host.step, object]
    cases h.graphs g with
    | none => exact bad _ (by decide)
    | some x =>
      dsimp only [bind, Except.bind]
      cases x.call p lib call with
      | error e => exact bad _ (by simp)
      | ok r => whole_done
  | execute g id frames c =>
    simp only [Host.step, object]
    cases h.graphs g with
    | none => exact bad _ (by decide)
    | some x =>
      have := hc c
      rcases e : h.caches c with _ | _ | cache
      · exact bad _ (by decide)
      · exact (this e).elim
      dsimp only [bind, Except.bind, Holder.getBox]
      cases x.execute (nodeSem p lib) srt fuel id frames ⟨cache, []⟩ with
      | error e => exact bad _ (by simp)
      | ok r => whole_done
  | output g s =>
    simp only [Host.step, object]
    cases h.graphs g with
    | none => exact bad _ (by decide)
    | some x => whole_done
  | newCache c => whole_done
  | dropCache c => whole_done
  | setCapacity c bytes =>
    simp only [Host.step, object]
    have := hc c
    rcases e : h.caches c with _ | _ | cache
    · exact bad _ (by decide)
    · exact (this e).elim
    dsimp only [bind, Except.bind, Holder.getBox]
    cases cache.setCapacity Image.sizeBytes p bytes with
    | error e => exact bad _ (by simp)
    | ok r => whole_done
  | lookCache c =>
    simp only [Host.step, object]
    have := hc c
    rcases e : h.caches c with _ | _ | cache
    · exact bad _ (by decide)
    · exact (this e).elim
    whole_done
  | newStream s => whole_done
  | dropStream s => whole_done
  | lookStream s =>
    simp only [Host.step, object]
    have := hs s
    rcases e : h.streams s with _ | _ | stream
    · exact bad _ (by decide)
    · exact (this e).elim
    whole_done
  | transformLut src dst edge c =>
    simp only [Host.step, object]
    have := hc c
    rcases e : h.caches c with _ | _ | cache
    · exact bad _ (by decide)
    · exact (this e).elim
    dsimp only [bind, Except.bind, Holder.getBox]
    cases getTransformLut p lib.hash lib.bake.color src dst edge cache with
    | error e => exact bad _ (by simp)
    | ok r => whole_done
  | opsLut s edge channels c =>
    simp only [Host.step, object]
    have h1 := hs s
    have h2 := hc c
    rcases e : h.streams s with _ | _ | stream
    · exact bad _ (by decide)
    · exact (h1 e).elim
    rcases e' : h.caches c with _ | _ | cache
    · exact bad _ (by decide)
    · exact (h2 e').elim
    dsimp only [bind, Except.bind, Holder.getBox]
    cases getOpsLut p lib.hash stream edge channels cache with
    | error e => exact bad _ (by simp)
    | ok r => whole_done

/-- C140: whatever a host does with its objects, no object is ever used while what it holds is lent
to a call, and after the program every object holds something. -/
theorem C140_whole (p : Profile) (lib : NodeLib F H) (srt : EdgeSort) (fuel : Nat)
    (ops : List (HostOp F)) {h : Host F H} (hw : Whole h) :
    h.run p lib srt fuel ops ≠ .error .null ∧
      ∀ h' answers, h.run p lib srt fuel ops = .ok (h', answers) → Whole h' := by
  induction ops generalizing h with
  | nil => exact ⟨by rintro ⟨⟩, by rintro _ _ ⟨⟩; exact hw⟩
  | cons op ops ih =>
    obtain ⟨h1, h2⟩ := step_whole (p := p) (lib := lib) (srt := srt) (fuel := fuel) hw op
    refine ⟨fun hx => ?_, fun h' as hx => ?_⟩
    · unfold Host.run at hx
      cases e : h.step p lib srt fuel op with
      | error c => rw [e] at hx; cases hx; exact h1 e
      | ok r =>
        rw [e] at hx
        have h3 := (ih (h2 r.1 r.2 e).1).1
        cases e' : r.1.run p lib srt fuel ops with
        | error c =>
          rw [e'] at h3
          dsimp only [bind, Except.bind] at hx
          rw [e'] at hx
          cases hx
          exact h3 rfl
        | ok r' =>
          dsimp only [bind, Except.bind] at hx
          rw [e'] at hx
          cases hx
    · obtain ⟨k, a, bs, e1, e2, -⟩ := run_cons hx
      exact (ih (h2 k a e1).1).2 h' bs e2

/-- C140: a stream that the host has taken from a graph stays as it is until the host gives the
variable a new value, whatever else is done: the graph may be changed, executed and deleted. -/
theorem C140_streams (p : Profile) (lib : NodeLib F H) (srt : EdgeSort) (fuel : Nat)
    {ops : List (HostOp F)} {s : Nat} (ho : ∀ op ∈ ops, ¬ SetsStream s op) {h h' : Host F H}
    (hw : Whole h) {answers : List (Answer F H)}
    (hx : h.run p lib srt fuel ops = .ok (h', answers)) : h'.streams s = h.streams s := by
  induction ops generalizing h answers with
  | nil => cases hx; rfl
  | cons op ops ih =>
    obtain ⟨k, a, bs, e1, e2, -⟩ := run_cons hx
    obtain ⟨h1, h2⟩ := (step_whole hw op).2 k a e1
    exact (ih (fun op h => ho op (List.mem_cons_of_mem _ h)) h1 e2).trans
      (h2 s (ho op List.mem_cons_self))

/-- C140: executing a graph with a cache leaves the graph and the cache of the host as the execution
left them, and gives its status. -/
theorem C140_execute (p : Profile) (lib : NodeLib F H) (srt : EdgeSort) (fuel : Nat) {h : Host F H}
    {g c id : Nat} {frames : List F} {graph graph' : Graph (Node F) (Stream F H)}
    {cache : Cache (Image F H)} {st : ExecuteStatus} {w : World F H} (hg : h.graphs g = some graph)
    (hc : h.caches c = some (some cache))
    (hx : graph.execute (nodeSem p lib) srt fuel id frames ⟨cache, []⟩ = .ok (st, graph', w)) :
    ∃ h', h.step p lib srt fuel (.execute g id frames c) = .ok (h', .status st) ∧
      h'.graphs g = some graph' ∧ h'.caches c = some (some w.cache) ∧
      h'.writes = h.writes ++ w.writes.map fun job => (g, job) := by
  simp only [Host.step, object, hg, hc, bind, Except.bind, Holder.getBox, hx, fromRust]
  exact ⟨_, rfl, by simp [assign], by simp [assign, Holder.setBox], rfl⟩

/-- C140: the stream taken from a graph is the output of the graph. -/
theorem C140_output (p : Profile) (lib : NodeLib F H) (srt : EdgeSort) (fuel : Nat) {h : Host F H}
    {g s : Nat} {graph : Graph (Node F) (Stream F H)} (hg : h.graphs g = some graph) :
    ∃ h', h.step p lib srt fuel (.output g s) = .ok (h', .none) ∧
      ∃ h'', h'.step p lib srt fuel (.lookStream s) = .ok (h'', .stream graph.output) := by
  have e : (assign h.streams s (some (some graph.output))) s = some (some graph.output) := by
    simp [assign]
  refine ⟨{ h with streams := assign h.streams s (some (some graph.output)) }, ?_, ?_⟩
  · simp only [Host.step, object, hg, bind, Except.bind]
  · simp only [Host.step, object, e, bind, Except.bind, Holder.getBox]
    exact ⟨_, rfl⟩

/-- C140: lookup tables are the ones computed from the stream and the cache; the cache keeps them. -/
theorem C140_luts (p : Profile) (lib : NodeLib F H) (srt : EdgeSort) (fuel : Nat) {h : Host F H}
    {s c : Nat} {edge channels : Int} {src dst : Bytes} {stream : Stream F H}
    {cache cache' : Cache (Image F H)} {image : Image F H} (hc : h.caches c = some (some cache)) :
    (getTransformLut p lib.hash lib.bake.color src dst edge cache = .ok (cache', image) →
      ∃ h', h.step p lib srt fuel (.transformLut src dst edge c) = .ok (h', .image image) ∧
        h'.caches c = some (some cache')) ∧
    (h.streams s = some (some stream) →
      getOpsLut p lib.hash stream edge channels cache = .ok (cache', image) →
      ∃ h', h.step p lib srt fuel (.opsLut s edge channels c) = .ok (h', .image image) ∧
        h'.caches c = some (some cache') ∧ h'.streams s = some (some stream)) := by
  refine ⟨fun hx => ?_, fun hs hx => ?_⟩
  · simp only [Host.step, object, hc, bind, Except.bind, Holder.getBox, hx, fromRust]
    exact ⟨_, rfl, by simp [assign, Holder.setBox]⟩
  · simp only [Host.step, object, hc, hs, bind, Except.bind, Holder.getBox, hx, fromRust]
    exact ⟨_, rfl, by simp [assign, Holder.setBox], by simp [assign, Holder.setBox]⟩

/-- C140: a graph made by the host is changed by calls as the graph functions say, with the arguments
the host gave. -/
theorem C140_calls (p : Profile) (lib : NodeLib F H) (srt : EdgeSort) (fuel : Nat) {h : Host F H}
    {g : Nat} {graph graph' : Graph (Node F) (Stream F H)} (hg : h.graphs g = some graph)
    (call : GraphCall F) (hx : match call with
      | .createNode t id => ∃ i, graph.addNode (nodeSem p lib) (Node.create t id) = .ok (graph', i)
      | .deleteNode id => (graph.removeNode id).1 = graph'
      | .connect src dst slot => graph.connect src dst slot = .ok graph'
      | .disconnect dst slot => graph.disconnectInput dst slot = graph'
      | .setF32 id name value => graph.setNodeF32 id name value = .ok graph'
      | .setI32 id name value => graph.setNodeI32 id name value = .ok graph'
      | .setStr id name value => graph.setNodeStr id name value = .ok graph'
      | _ => False) :
    ∃ h' answer, h.step p lib srt fuel (.graph g call) = .ok (h', answer) ∧
      h'.graphs g = some graph' ∧ match call with
        | .createNode t id => answer = .node t id
        | .deleteNode id => answer = .bool (graph.removeNode id).2
        | _ => True := by
  have key : ∀ answer, graph.call p lib call = .ok (graph', answer) →
      ∃ h', h.step p lib srt fuel (.graph g call) = .ok (h', answer) ∧
        h'.graphs g = some graph' := by
    intro answer e
    simp only [Host.step, object, hg, bind, Except.bind, e, fromRust]
    exact ⟨_, rfl, by simp [assign]⟩
  have done : ∀ answer (P : Answer F H → Prop), graph.call p lib call = .ok (graph', answer) →
      P answer → ∃ h' answer, h.step p lib srt fuel (.graph g call) = .ok (h', answer) ∧
        h'.graphs g = some graph' ∧ P answer := by
    intro answer P e hp
    obtain ⟨h', e', k⟩ := key answer e
    exact ⟨h', answer, e', k, hp⟩
  cases call
  case createNode t id =>
    obtain ⟨i, hx⟩ := hx
    exact done (.node t id) (fun a => a = .node t id)
      (by simp only [Graph.call, hx, bind, Except.bind]) rfl
  case deleteNode id =>
    exact done (.bool (graph.removeNode id).2) (fun a => a = .bool (graph.removeNode id).2)
      (by simp only [Graph.call, ← hx]) rfl
  case disconnect dst slot =>
    exact done .none (fun _ => True) (by simp only [Graph.call, ← hx]) trivial
  all_goals first
    | exact hx.elim
    | exact done .none (fun _ => True) (by
        simp only at hx
        simp only [Graph.call, hx, bind, Except.bind]) trivial

/-- C140: questions about a graph are answered as the graph functions say, and change nothing. -/
theorem C140_questions (p : Profile) (lib : NodeLib F H) (srt : EdgeSort) (fuel : Nat) {h : Host F H}
    {g : Nat} {graph : Graph (Node F) (Stream F H)} (hg : h.graphs g = some graph)
    (call : GraphCall F) (answer : Answer F H) (hx : match call with
      | .getF32 id name => ∃ x, graph.getNodeF32 id name = .ok x ∧ answer = .f32 x
      | .getI32 id name => ∃ x, graph.getNodeI32 id name = .ok x ∧ answer = .i32 x
      | .getStr id name => ∃ x, graph.getNodeStr id name = .ok x ∧ answer = .str x
      | .attrExists id name => ∃ x, graph.nodeAttrExists id name = .ok x ∧ answer = .attrState x
      | .nodeStatus id =>
        ∃ x, graph.query id .nonExistent (fun n => n.status) = .ok x ∧ answer = .nodeStatus x
      | .nodeExists id => answer = .bool (graph.nodeExists id)
      | .state => answer = .graphState graph.state
      | .executeStatus => answer = .status graph.status
      | _ => False) :
    ∃ h', h.step p lib srt fuel (.graph g call) = .ok (h', answer) ∧ ∀ i,
      h'.graphs i = h.graphs i := by
  have key : graph.call p lib call = .ok (graph, answer) →
      ∃ h', h.step p lib srt fuel (.graph g call) = .ok (h', answer) ∧
        ∀ i, h'.graphs i = h.graphs i := by
    intro e
    simp only [Host.step, object, hg, bind, Except.bind, e, fromRust]
    refine ⟨_, rfl, fun i => ?_⟩
    by_cases hi : i = g
    · rw [hi]; simp [assign, hg]
    · simp [assign, hi]
  apply key
  cases call
  all_goals first
    | exact hx.elim
    | (obtain ⟨x, e, rfl⟩ := hx
       simp only [Graph.call, e, bind, Except.bind]; done)
    | (simp only at hx
       subst hx
       rfl)

/-- C140: a new graph has no nodes and no picture, and a new cache has no room until it is given
some. -/
theorem C140_new (p : Profile) (lib : NodeLib F H) (srt : EdgeSort) (fuel : Nat) (h : Host F H)
    (g c s bytes id : Nat) :
    (∃ h', h.run p lib srt fuel [.newGraph g, .graph g (.nodeExists id), .output g s, .lookStream s] =
      .ok (h', [.none, .bool false, .none, .stream .new])) ∧
    (∃ h', h.run p lib srt fuel [.newCache c, .lookCache c, .setCapacity c bytes, .lookCache c] =
      .ok (h', [.none, .cache 0 0 0, .none, .cache 0 0 bytes])) ∧
    ∃ h', h.run p lib srt fuel [.newStream s, .lookStream s] = .ok (h', [.none, .stream .new]) := by
  refine ⟨?_, ?_, ?_⟩
  · simp [Host.run, Host.step, object, assign, bind, Except.bind, Holder.getBox, Graph.call, fromRust,
      Graph.nodeExists, Graph.find, Graph.position, Graph.new]
  · simp [Host.run, Host.step, object, assign, bind, Except.bind, Holder.getBox, Holder.setBox,
      fromRust, Cache.setCapacity, Cache.withCapacity]
  · simp [Host.run, Host.step, object, assign, bind, Except.bind, Holder.getBox]

end

/-! ### Examples -/

section
attribute [local instance] finFloat finBits finHalf finPi

/-- A program with two parts: one reads a picture and keeps it, the other has its own graph and its
own cache.  Both call their node 1. -/
def twoParts : List (HostOp (Fin 256)) :=
  [.newGraph 0, .newGraph 1, .newCache 0, .newCache 1, .setCapacity 0 1000,
   .graph 0 (.createNode .readImage 1), .graph 1 (.createNode .null 1),
   .graph 0 (.setStr 1 "file_path" [97]), .setCapacity 1 500,
   .execute 0 1 [1] 0, .execute 1 1 [1, 2] 1, .output 0 0, .output 1 1, .graph 0 (.deleteNode 1),
   .graph 1 (.nodeExists 1), .lookCache 0, .lookCache 1, .dropGraph 0, .lookStream 0]

/-- The objects of the first part. -/
def firstPart : Obj → Bool
  | .graph i => i == 0
  | .cache i => i == 0
  | .stream i => i == 0

theorem twoParts_sided : ∀ op ∈ twoParts, OneSided firstPart op := by
  intro op hop
  simp only [twoParts, List.mem_cons, List.not_mem_nil, or_false] at hop
  rcases hop with rfl | rfl | rfl | rfl | rfl | rfl | rfl | rfl | rfl | rfl | rfl | rfl | rfl | rfl |
    rfl | rfl | rfl | rfl | rfl <;>
  first
  | (left; intro o ho; simp only [names, List.mem_cons, List.not_mem_nil, or_false] at ho
     (try rcases ho with rfl | rfl) <;> (try subst ho) <;> rfl; done)
  | (right; intro o ho; simp only [names, List.mem_cons, List.not_mem_nil, or_false] at ho
     (try rcases ho with rfl | rfl) <;> (try subst ho) <;> rfl; done)

theorem start_whole : Whole (Host.start : Host (Fin 256) (Fin 256)) :=
  ⟨fun _ h => (by cases h), fun _ h => (by cases h)⟩

/-- The program runs through, and the first part alone gets the same answers. -/
example : ∃ h k answers, Host.start.run .debug linearFiles insSort 20 twoParts = .ok (h, answers) ∧
    Host.start.run .debug linearFiles insSort 20 (twoParts.filter (Within firstPart)) =
      .ok (k, answersOf firstPart twoParts answers) ∧ answers.length = 19 ∧
    (answersOf firstPart twoParts answers).length = 11 ∧ SamePart firstPart h k := by
  obtain ⟨h, answers, e, l1, l2⟩ : ∃ h answers,
      Host.start.run .debug linearFiles insSort 20 twoParts = .ok (h, answers) ∧ answers.length = 19 ∧
      (answersOf firstPart twoParts answers).length = 11 := ⟨_, _, rfl, rfl, rfl⟩
  obtain ⟨k, h1, h2⟩ := C140_apart .debug linearFiles insSort 20 firstPart twoParts_sided
    ⟨fun o _ => by cases o <;> rfl, rfl⟩ e
  exact ⟨h, k, answers, e, h1, l1, l2, h2⟩

/-- The stream outlives its graph, and nothing is missing at the end. -/
example : ∃ h answers, Host.start.run .debug linearFiles insSort 20 twoParts = .ok (h, answers) ∧
    Whole h ∧ (h.streams 0).isSome = true ∧ (h.graphs 0).isNone = true := by
  obtain ⟨h, answers, e, e1, e2⟩ : ∃ h answers,
      Host.start.run .debug linearFiles insSort 20 twoParts = .ok (h, answers) ∧
      (h.streams 0).isSome = true ∧ (h.graphs 0).isNone = true := ⟨_, _, rfl, rfl, rfl⟩
  exact ⟨h, answers, e, (C140_whole _ _ _ _ _ start_whole).2 h answers e, e1, e2⟩

/-- The two parts run through alone, hence together. -/
example : ∃ h answers, Host.start.run .debug linearFiles insSort 20 twoParts = .ok (h, answers) := by
  obtain ⟨k, as, e1⟩ : ∃ k as, Host.start.run .debug linearFiles insSort 20
      (twoParts.filter (Within firstPart)) = .ok (k, as) := ⟨_, _, rfl⟩
  obtain ⟨l, bs, e2⟩ : ∃ k as, Host.start.run .debug linearFiles insSort 20
      (twoParts.filter (Within fun o => !firstPart o)) = .ok (k, as) := ⟨_, _, rfl⟩
  obtain ⟨h, answers, e, -⟩ := C140_together .debug linearFiles insSort 20 firstPart twoParts_sided
    (h := Host.start) ⟨fun o _ => by cases o <;> rfl, rfl⟩ ⟨fun o _ => by cases o <;> rfl, rfl⟩ e1 e2
  exact ⟨h, answers, e⟩

/-- The stream of the first part is the same before and after the graph is deleted. -/
example : ∃ h h' answers answers', Host.start.run .debug linearFiles insSort 20 (twoParts.take 12) =
      .ok (h, answers) ∧
    h.run .debug linearFiles insSort 20 (twoParts.drop 12) = .ok (h', answers') ∧
    h'.streams 0 = h.streams 0 ∧ (h.streams 0).isSome = true := by
  obtain ⟨h, h', as, bs, e1, e2, e3⟩ : ∃ h h' answers answers',
      Host.start.run .debug linearFiles insSort 20 (twoParts.take 12) = .ok (h, answers) ∧
      h.run .debug linearFiles insSort 20 (twoParts.drop 12) = .ok (h', answers') ∧
      (h.streams 0).isSome = true := ⟨_, _, _, _, rfl, rfl, rfl⟩
  refine ⟨h, h', as, bs, e1, e2, C140_streams .debug linearFiles insSort 20 ?_
    ((C140_whole _ _ _ _ _ start_whole).2 h as e1) e2, e3⟩
  intro op hop
  simp only [twoParts, List.drop_succ_cons, List.drop_zero, List.mem_cons, List.not_mem_nil,
    or_false] at hop
  rcases hop with rfl | rfl | rfl | rfl | rfl | rfl | rfl <;> simp [SetsStream]

/-- A host sets the name of a file and reads it back. -/
example : ∃ h answers, Host.start.run .debug linearFiles insSort 20
      [.newGraph 4, .graph 4 (.createNode .readImage 1), .graph 4 (.setStr 1 "file_path" [97]),
       .graph 4 (.getStr 1 "file_path")] = .ok (h, answers) ∧
    answers = [.none, .node .readImage 1, .none, .str [97]] := by
  refine ⟨_, _, rfl, rfl⟩

/-- Calls that the last theorems are about. -/
example : ∃ (h : Host (Fin 256) (Fin 256)) (graph graph' : Graph (Node (Fin 256)) _), h.graphs 4 = some graph ∧
    graph.connect 1 2 0 = .ok graph' ∧ graph'.graph.edges = [⟨0, 1, 0⟩] ∧
    ∃ h' answer, h.step .debug linearFiles insSort 20 (.graph 4 (.connect 1 2 0)) = .ok (h', answer) ∧
      h'.graphs 4 = some graph' := by
  obtain ⟨h, graph, answers, -, hg, graph', hc, he⟩ : ∃ h graph answers, Host.start.run .debug linearFiles insSort 20
      [.newGraph 4, .graph 4 (.createNode .readImage 1), .graph 4 (.createNode .null 2)] =
        .ok (h, answers) ∧ h.graphs 4 = some graph ∧
      ∃ graph', graph.connect 1 2 0 = .ok graph' ∧ graph'.graph.edges = [⟨0, 1, 0⟩] :=
    ⟨_, _, _, rfl, rfl, _, rfl, rfl⟩
  obtain ⟨h', answer, e, k, -⟩ := C140_calls .debug linearFiles insSort 20 hg (.connect 1 2 0) hc
  exact ⟨h, graph, graph', hg, hc, he, h', answer, e, k⟩

end
end OCG.Props
