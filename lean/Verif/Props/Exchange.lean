import Verif.Spec.Exchange
import Verif.Proofs.SameRun
import Verif.Proofs.RelateAt
import Verif.Props.Built
/-
C122: grading before or after moving.
-/

namespace OCG.Props

open ComputeSpec GraphSpec AgainSpec BuiltSpec ExchangeSpec
open CacheSpec (IsOff)

section
variable {F H : Type} [FloatLike F] [HalfLike F H] [FloatConst F] [FloatBits F]

/-- The stream a node starts from: that of its first input, or else a new one. -/
def firstOf (ins : List (Stream F H)) : Stream F H := ins.headD .new

/-- The status of a node that only wants an input. -/
def fedStatus (ins : List (Stream F H)) : NodeStatus :=
  if ins.length = 0 then .warning else .valid

/-- The node adds operations and deformers to those of its input, and changes nothing else. -/
def AddsOnly (p : Profile) (lib : NodeLib F H) (n : Node F) (ops : List (GradeOp F))
    (ds : List (Deformer F)) : Prop :=
  ∀ frame mode (ins : List (Stream F H)) prev w, ∃ out,
    n.run p lib frame mode ins prev w = .ok (fedStatus ins, out, w) ∧
    SameImage out { firstOf ins with
      colorOps := (firstOf ins).colorOps ++ ops, deformers := (firstOf ins).deformers ++ ds }

theorem same_nothing_added (s : Stream F H) :
    SameImage s { s with colorOps := s.colorOps ++ [], deformers := s.deformers ++ [] } :=
  ⟨rfl, rfl, rfl, rfl, rfl, rfl, (List.append_nil _).symm, (List.append_nil _).symm⟩

theorem grade_adds (p : Profile) (lib : NodeLib F H) (n : Node F) (h : n.attrs.nodeType = .grade) :
    ∃ ops, AddsOnly p lib n ops [] := by
  obtain ⟨id, st, attrs⟩ := n
  cases attrs <;> simp only [NodeAttrs.nodeType, reduceCtorEq] at h
  rename_i a
  by_cases hg : Grades (⟨id, st, .grade a⟩ : Node F)
  · refine ⟨[a.op], fun frame mode ins prev w => ?_⟩
    simp only [Grades, attr_eval] at hg
    refine ⟨{ (firstOf ins).pushColorOp a.op with
      hash := Node.hash lib.hash lib.shell ⟨id, st, .grade a⟩ frame (ins.map (·.hash)) },
      ?_, ⟨rfl, rfl, rfl, rfl, rfl, rfl, (List.append_nil _).symm, rfl⟩⟩
    simp only [Node.run, GradeAttrs.compute]
    rw [if_pos hg]
    cases ins <;> rfl
  · refine ⟨[], fun frame mode ins prev w => ⟨firstOf ins, ?_, same_nothing_added _⟩⟩
    simp only [Grades, attr_eval] at hg
    simp only [Node.run, GradeAttrs.compute]
    rw [if_neg hg]
    cases ins <;> rfl

theorem move_adds (p : Profile) (lib : NodeLib F H) (n : Node F) (h : Moves n)
    (hl : LensFits lib n) : ∃ ds, AddsOnly p lib n [] ds := by
  obtain ⟨id, st, attrs⟩ := n
  by_cases he : (⟨id, st, attrs⟩ : Node F).getI32 "enable" = 1
  · cases attrs <;> simp only [Moves, NodeAttrs.nodeType, reduceCtorEq, or_self] at h <;>
      rename_i a <;> simp only [attr_eval] at he
    · refine ⟨[.tde4 a.deformer], fun frame mode ins prev w => ?_⟩
      refine ⟨{ (firstOf ins).pushDeformer (.tde4 a.deformer) with
        hash := Node.hash lib.hash lib.shell ⟨id, st, .lensDistort a⟩ frame
          (ins.map (·.hash)) }, ?_,
        ⟨rfl, rfl, rfl, rfl, rfl, rfl, rfl, (List.append_nil _).symm⟩⟩
      simp only [Node.run, LensDistortAttrs.compute]
      rw [if_pos he, if_pos (hl a rfl he)]
      cases ins <;> rfl
    · refine ⟨[.transform a.deformer], fun frame mode ins prev w => ?_⟩
      refine ⟨{ (firstOf ins).pushDeformer (.transform a.deformer) with
        hash := Node.hash lib.hash lib.shell ⟨id, st, .transform a⟩ frame
          (ins.map (·.hash)) }, ?_,
        ⟨rfl, rfl, rfl, rfl, rfl, rfl, rfl, (List.append_nil _).symm⟩⟩
      simp only [Node.run, TransformAttrs.compute]
      rw [if_pos he]
      cases ins <;> rfl
  · refine ⟨[], fun frame mode ins prev w => ?_⟩
    cases attrs <;> simp only [Moves, NodeAttrs.nodeType, reduceCtorEq, or_self] at h <;>
      rename_i a <;> simp only [attr_eval] at he
    · refine ⟨{ firstOf ins with
        hash := Node.hash lib.hash lib.shell ⟨id, st, .lensDistort a⟩ frame (ins.map (·.hash)) },
        ?_, (SameImage.rehash _ _).symm.trans (same_nothing_added _)⟩
      · simp only [Node.run, LensDistortAttrs.compute]
        rw [if_neg he]
        cases ins <;> rfl
    · refine ⟨{ firstOf ins with
        hash := Node.hash lib.hash lib.shell ⟨id, st, .transform a⟩ frame (ins.map (·.hash)) },
        ?_, (SameImage.rehash _ _).symm.trans (same_nothing_added _)⟩
      · simp only [Node.run, TransformAttrs.compute]
        rw [if_neg he]
        cases ins <;> rfl

/-- What the two nodes add. -/
theorem pair_adds (p : Profile) (lib : NodeLib F H) {n m : Node F} (h : GradeAndMove lib n m) :
    ∃ ops ds ops' ds', AddsOnly p lib n ops ds ∧ AddsOnly p lib m ops' ds' ∧
      ops ++ ops' = ops' ++ ops ∧ ds ++ ds' = ds' ++ ds := by
  rcases h with ⟨h1, h2, h3⟩ | ⟨h1, h2, h3⟩
  · obtain ⟨ops, k1⟩ := grade_adds p lib n h1
    obtain ⟨ds, k2⟩ := move_adds p lib m h2 h3
    exact ⟨ops, [], [], ds, k1, k2, by simp, by simp⟩
  · obtain ⟨ops, k1⟩ := grade_adds p lib m h1
    obtain ⟨ds, k2⟩ := move_adds p lib n h2 h3
    exact ⟨[], ds, ops, [], k2, k1, by simp, by simp⟩

omit [FloatLike F] [HalfLike F H] [FloatConst F] [FloatBits F] in
theorem add_commutes {s s' a a' b b' : Stream F H} (hs : SameImage s s')
    {ops ops' : List (GradeOp F)} {ds ds' : List (Deformer F)} (ho : ops ++ ops' = ops' ++ ops)
    (hd : ds ++ ds' = ds' ++ ds)
    (ha : SameImage a { s with colorOps := s.colorOps ++ ops, deformers := s.deformers ++ ds })
    (hb : SameImage b { a with colorOps := a.colorOps ++ ops', deformers := a.deformers ++ ds' })
    (ha' : SameImage a' { s' with colorOps := s'.colorOps ++ ops', deformers := s'.deformers ++ ds' })
    (hb' : SameImage b' { a' with colorOps := a'.colorOps ++ ops, deformers := a'.deformers ++ ds }) :
    SameImage b b' := by
  refine ⟨?_, ?_, ?_, ?_, ?_, ?_, ?_, ?_⟩
  · rw [hb.state, hb'.state]; dsimp only; rw [ha.state, ha'.state]; exact hs.state
  · rw [hb.display, hb'.display]; dsimp only; rw [ha.display, ha'.display]; exact hs.display
  · rw [hb.data, hb'.data]; dsimp only; rw [ha.data, ha'.data]; exact hs.data
  · rw [hb.pixels, hb'.pixels]; dsimp only; rw [ha.pixels, ha'.pixels]; exact hs.pixels
  · rw [hb.spec, hb'.spec]; dsimp only; rw [ha.spec, ha'.spec]; exact hs.spec
  · rw [hb.matrix, hb'.matrix]; dsimp only; rw [ha.matrix, ha'.matrix]; exact hs.matrix
  · rw [hb.deformers, hb'.deformers]; dsimp only; rw [ha.deformers, ha'.deformers]; dsimp only
    rw [hs.deformers, List.append_assoc, List.append_assoc, hd]
  · rw [hb.ops, hb'.ops]; dsimp only; rw [ha.ops, ha'.ops]; dsimp only
    rw [hs.ops, List.append_assoc, List.append_assoc, ho]

/-- C122: a grade and a transform or lens, one behind the other, give the same image in either
order: windows, pixels, waiting operations and waiting deformers are the same. -/
theorem C122_nodes (p : Profile) (lib : NodeLib F H) (n m : Node F) (h : GradeAndMove lib n m)
    (frame : F) (m1 m2 m3 m4 : Mode) (s : Stream F H) (p1 p2 p3 p4 : Stream F H) (w w' : World F H) :
    ∃ a b a' b', n.run p lib frame m1 [s] p1 w = .ok (.valid, a, w) ∧
      m.run p lib frame m2 [a] p2 w = .ok (.valid, b, w) ∧
      m.run p lib frame m3 [s] p3 w' = .ok (.valid, a', w') ∧
      n.run p lib frame m4 [a'] p4 w' = .ok (.valid, b', w') ∧ SameImage b b' := by
  obtain ⟨ops, ds, ops', ds', k1, k2, ho, hd⟩ := pair_adds p lib h
  obtain ⟨a, e1, f1⟩ := k1 frame m1 [s] p1 w
  obtain ⟨b, e2, f2⟩ := k2 frame m2 [a] p2 w
  obtain ⟨a', e3, f3⟩ := k2 frame m3 [s] p3 w'
  obtain ⟨b', e4, f4⟩ := k1 frame m4 [a'] p4 w'
  exact ⟨a, b, a', b', e1, e2, e3, e4, add_commutes (.refl s) ho hd f1 f2 f3 f4⟩

/-- C122: without a cache, a node gives the same image for the same images, whatever their hashes
are, reports the same and writes the same files. -/
theorem C122_downstream (p : Profile) (lib : NodeLib F H) (n n' : Node F) (hn : n.attrs = n'.attrs)
    (frame : F) (mode : Mode) {ins ins' : List (Stream F H)} (hi : List.Forall₂ SameImage ins ins')
    {prev prev' : Stream F H} (hp : SameImage prev prev') {w w' : World F H} (hw : IsOff w)
    (hw' : IsOff w') (he : w.writes = w'.writes) {st : NodeStatus} {out : Stream F H}
    {w1 : World F H} (e : n.run p lib frame mode ins prev w = .ok (st, out, w1)) :
    ∃ out' w1', n'.run p lib frame mode ins' prev' w' = .ok (st, out', w1') ∧ SameImage out out' ∧
      w1.writes = w1'.writes := by
  obtain ⟨out', w1', h1, h2, h3⟩ := run_same p lib n n' hn frame mode hi hp ⟨hw, hw', he⟩ e
  exact ⟨out', w1', h1, h2, h3.writes⟩

/-! ### graphs -/

theorem relList_one {S S' : Type} {RS : Nat → S → S' → Prop} {i : Nat} {as : List S} {bs : List S'}
    (h : RelList RS [i] as bs) : ∃ a b, as = [a] ∧ bs = [b] ∧ RS i a b := by
  cases h with
  | cons h t => cases t; exact ⟨_, _, rfl, rfl, h⟩

theorem relList_forall {S S' : Type} {RS : Nat → S → S' → Prop} {R : S → S' → Prop} :
    ∀ {is : List Nat} {as : List S} {bs : List S'}, (∀ i ∈ is, ∀ a b, RS i a b → R a b) →
    RelList RS is as bs → List.Forall₂ R as bs := by
  intro is as bs h hr
  induction hr with
  | nil => exact .nil
  | cons hab _ ih =>
    exact .cons (h _ List.mem_cons_self _ _ hab) (ih fun i hi => h i (List.mem_cons_of_mem _ hi))

/-- The nodes of two graphs, whatever their statuses. -/
def NodesOf (g g' : Graph (Node F) (Stream F H)) (j : Nat) (n n' : Node F) : Prop :=
  ∃ n0 n0', g.nodes[j]? = some n0 ∧ g'.nodes[j]? = some n0' ∧ SameNode n0 n ∧ SameNode n0' n'

/-- A node with one input at most, and some input, has just that. -/
theorem only_parent {N S : Type} {g : Graph N S} (hg : Sound g) (srt : EdgeSort) {i j : Nat}
    (hj : Feeds g.graph j i) (hne : j ≠ i)
    (h : ∀ a b, Feeds g.graph a i → Feeds g.graph b i → a = b) : parents srt g.graph i = [j] := by
  have hm : j ∈ parents srt g.graph i := (hg.mem_parents srt).mpr ⟨hj, hne⟩
  have hl := few_parents hg srt h
  generalize parents srt g.graph i = l at *
  rcases l with _ | ⟨a, _ | ⟨b, l⟩⟩
  · cases hm
  · rw [List.mem_singleton.mp hm]
  · simp at hl

theorem gradeAndMove_first {lib : NodeLib F H} {n m : Node F} (h : GradeAndMove lib n m)
    {α β : Type} (mode : Mode) {ns : List α} {ns' : List β} (hl : ns.length = ns'.length) :
    n.validate mode ns = m.validate mode ns' ∧ n.attrs.nodeType ≠ .mergeImage ∧
      m.attrs.nodeType ≠ .mergeImage := by
  have hfirst : validateFirst mode ns = validateFirst mode ns' := by
    cases ns <;> cases ns' <;> simp only [List.length_nil, List.length_cons, Nat.add_right_cancel_iff,
      reduceCtorEq, Nat.zero_ne_add_one, Nat.add_one_ne_zero] at hl
    · rfl
    · simp [validateFirst, List.map_const', hl]
  obtain ⟨id, st, attrs⟩ := n
  obtain ⟨id', st', attrs'⟩ := m
  rcases h with ⟨h1, h2 | h2, -⟩ | ⟨h1, h2 | h2, -⟩ <;>
    (cases attrs <;> simp only [NodeAttrs.nodeType, reduceCtorEq] at h1 h2 <;>
      cases attrs' <;> simp only [NodeAttrs.nodeType, reduceCtorEq] at h1 h2) <;>
    exact ⟨congrArg Except.ok hfirst, by simp [NodeAttrs.nodeType], by simp [NodeAttrs.nodeType]⟩

/-- C122: exchanging a grade and a transform or lens anywhere in a graph changes nothing that can be
seen: without a cache, if the one execution returns then so does the other, with the same status,
the same image as output, and the same files written. -/
theorem C122_graph (p : Profile) (lib : NodeLib F H) (srt : EdgeSort)
    {g g' : Graph (Node F) (Stream F H)} {r : Bool} (h : Reach (nodeSem p lib) srt r g) {i k : Nat}
    (hx : Exchanged lib g g' i k) {id start : Nat} (hid : At g id start)
    (hs : g.graph.contains start = true) (hsi : start ≠ i) {frames : List F} (hne : frames ≠ [])
    (hp : ∀ frame ∈ frames, MakesPictures lib g start frame) {w : World F H} (hw : IsOff w)
    {fuel : Nat} {st : ExecuteStatus} {g1 : Graph (Node F) (Stream F H)} {w1 : World F H}
    (e : g.execute (nodeSem p lib) srt fuel id frames w = .ok (st, g1, w1)) :
    ∃ g1' w1', g'.execute (nodeSem p lib) srt fuel id frames w = .ok (st, g1', w1') ∧
      SameImage g1.output g1'.output ∧ w1.writes = w1'.writes := by
  have hg : Sound g := h.inv.sound
  obtain ⟨n, m, n', m', hn, hm, hn', hm', hnm, hmn, hpair⟩ := hx.pair
  obtain ⟨ops, ds, ops', ds', k1, k2, ho, hd⟩ := pair_adds p lib hpair
  have kn : ∀ (x y : Node F) ops ds, AddsOnly p lib x ops ds → x.attrs = y.attrs →
      AddsOnly p lib y ops ds := by
    rintro ⟨a1, a2, a3⟩ ⟨b1, b2, b3⟩ ops ds hk ha
    dsimp only at ha
    subst ha
    exact hk
  obtain ⟨frame0, hf0⟩ := List.exists_mem_of_ne_nil frames hne
  obtain ⟨order, hord, hh, -⟩ := C36_upstream_exact (nodeSem p lib) srt h hs
  obtain ⟨rest, rfl⟩ : ∃ rest, order = start :: rest := by
    cases order with
    | nil => cases hh
    | cons o os => cases hh; exact ⟨os, rfl⟩
  have hreq : ∀ (g2 g2' : Graph (Node F) (Stream F H)),
      GraphsAt (NodesOf g g') g.nodes.length g.graph g2 g2' → ∀ j mode,
      Requested (nodeSem p lib) srt g2 start j mode →
      Upstream g.graph start j ∧ mode &&& modePixel = modePixel := by
    intro g2 g2' hgs j mode hr
    have ha : Alike SameNode g g2 := by
      refine ⟨hgs.left, fun q n0 hq => ?_⟩
      rcases hgs.nodes q with ⟨e1, -⟩ | ⟨a, b, e1, -, n1, n1', f1, -, f2, -⟩
      · have h1 := (List.getElem?_eq_some_iff.mp hq).1
        have h2 := List.getElem?_eq_none_iff.mp e1
        rw [hgs.size] at h2
        omega
      · rw [hq] at f1
        cases f1
        exact ⟨a, e1, f2⟩
    refine requested_pixels hg hs (fun i n hu hn => ?_)
      (requested_alike (sameNode_asks p lib) hg ha hs hr).1
    obtain ⟨c1, c2⟩ := (hp frame0 hf0).inputs i n hu hn
    exact ⟨(hp frame0 hf0).leaves i n hu hn, fun ht => few_parents hg srt (c1 ht),
      two_parents hg srt c2⟩
  have hattr : ∀ {q : Nat} {a b : Node F}, NodesOf g g' q a b →
      (q ≠ i → q ≠ k → a.attrs = b.attrs) ∧ (q = i → a.attrs = n.attrs ∧ b.attrs = m.attrs) ∧
      (q = k → a.attrs = m.attrs ∧ b.attrs = n.attrs) := by
    rintro q a b ⟨n0, n0', f1, f2, f3, f4⟩
    refine ⟨fun hqi hqk => ?_, ?_, ?_⟩
    · rw [← f3.2, ← f4.2]
      exact hx.others q n0 n0' hqi hqk f1 f2
    · rintro rfl
      rw [hn] at f1
      rw [hn'] at f2
      cases f1
      cases f2
      exact ⟨f3.2.symm, f4.2.symm.trans hnm⟩
    · rintro rfl
      rw [hm] at f1
      rw [hm'] at f2
      cases f1
      cases f2
      exact ⟨f3.2.symm, f4.2.symm.trans hmn⟩
  have hv : AsksAt (nodeSem p lib) (nodeSem p lib) (NodesOf g g') := by
    intro q a b mode h1 h2 ns ns' hab hl
    obtain ⟨c1, c2, c3⟩ := hattr hab
    by_cases hqi : q = i
    · obtain ⟨d1, d2⟩ := c2 hqi
      have e1 : a.validate mode ns = n.validate mode ns := by
        unfold Node.validate; rw [d1]
      have e2 : b.validate mode ns' = m.validate mode ns' := by
        unfold Node.validate; rw [d2]
      exact e1.trans ((gradeAndMove_first hpair mode hl).1.trans e2.symm)
    · by_cases hqk : q = k
      · obtain ⟨d1, d2⟩ := c3 hqk
        have e1 : a.validate mode ns = m.validate mode ns := by
          unfold Node.validate; rw [d1]
        have e2 : b.validate mode ns' = n.validate mode ns' := by
          unfold Node.validate; rw [d2]
        exact e1.trans ((gradeAndMove_first hpair mode hl.symm).1.symm.trans e2.symm)
      · exact validate_settings (c1 hqi hqk) mode hl
  have hsteps : ∀ fr ∈ frames, StepsAt (nodeSem p lib) (nodeSem p lib) srt g.graph
      (fun j mode => Upstream g.graph start j ∧ mode &&& modePixel = modePixel) fr (NodesOf g g')
      (fun j a a' => if j = i then ∃ s s', SameImage s s' ∧
          SameImage a { s with colorOps := s.colorOps ++ ops, deformers := s.deformers ++ ds } ∧
          SameImage a' { s' with
            colorOps := s'.colorOps ++ ops', deformers := s'.deformers ++ ds' }
        else SameImage a a') BothOff (fun s s' => SameImage s s') := by
    intro fr hfr q mode a b ps ins ins' prev prev' c c' ⟨hu, hmode⟩ hab hps hrel hc a1 st1 out c1 hcomp
    rw [hg.direct srt (hg.upstream_live hs hu)] at hps
    cases hps
    simp only [nodeSem] at hcomp
    obtain ⟨⟨st2, out2, w2⟩, hrun, hcomp⟩ := Res.bind_ok.mp hcomp
    cases hcomp
    have hnodes : ∀ st st', NodesOf g g' q { a with status := st } { b with status := st' } := by
      obtain ⟨n0, n0', f1, f2, f3, f4⟩ := hab
      exact fun _ _ => ⟨n0, n0', f1, f2, f3, f4⟩
    obtain ⟨c1, c2, c3⟩ := hattr hab
    by_cases hqi : q = i
    · obtain ⟨d1, d2⟩ := c2 hqi
      subst hqi
      have hss : SameImage (firstOf ins) (firstOf ins') ∧ fedStatus ins = fedStatus ins' := by
        have hF : List.Forall₂ SameImage ins ins' := by
          refine relList_forall (fun j hj x x' hxx => ?_) hrel
          simpa only [if_neg ((hg.mem_parents srt).mp hj).2] using hxx
        cases hF with
        | nil => exact ⟨.refl _, rfl⟩
        | cons hab _ => exact ⟨hab, rfl⟩
      obtain ⟨o1, r1, t1⟩ := kn n a ops ds k1 d1.symm fr mode ins prev c
      obtain ⟨o2, r2, t2⟩ := kn m b ops' ds' k2 d2.symm fr mode ins' prev' c'
      rw [hrun] at r1
      cases r1
      refine ⟨{ b with status := fedStatus ins }, o2, c', ?_, hnodes _ _, ?_, hc, fun hf => ?_⟩
      · simp only [nodeSem, r2, bind, Except.bind, hss.2]
      · simp only [if_true]
        exact ⟨_, _, hss.1, t1, t2⟩
      · exact absurd (by unfold fedStatus; split <;> rfl) hf
    · by_cases hqk : q = k
      · obtain ⟨d1, d2⟩ := c3 hqk
        subst hqk
        have hpar : parents srt g.graph q = [i] := only_parent hg srt hx.feeds hx.apart
          (((hp fr hfr).inputs q m hu hm).1 (gradeAndMove_first hpair 0 (ns := ([] : List Nat))
            (ns' := ([] : List Nat)) rfl).2.2)
        rw [hpar] at hrel
        obtain ⟨x, x', rfl, rfl, hxx⟩ := relList_one hrel
        simp only [if_true] at hxx
        obtain ⟨s, s', hss, t1, t2⟩ := hxx
        obtain ⟨o1, r1, t3⟩ := kn m a ops' ds' k2 d1.symm fr mode [x] prev c
        obtain ⟨o2, r2, t4⟩ := kn n b ops ds k1 d2.symm fr mode [x'] prev' c'
        rw [hrun] at r1
        cases r1
        have hsame := add_commutes hss ho hd t1 t3 t2 t4
        refine ⟨{ b with status := .valid }, o2, c', ?_, hnodes _ _, ?_, hc, fun hf => absurd rfl hf⟩
        · simp only [nodeSem, r2, bind, Except.bind]
          rfl
        · simp only [if_neg hqi]
          exact hsame
      · have hF : List.Forall₂ SameImage ins ins' := by
          refine relList_forall (fun j hj x x' hxx => ?_) hrel
          have hji : j ≠ i := by
            rintro rfl
            exact hqk (hx.only q ((hg.mem_parents srt).mp hj).1)
          simpa only [if_neg hji] using hxx
        obtain ⟨n0, n0', f1, f2, f3, f4⟩ := hab
        have hown : OwnPicture lib fr a := by
          have := (hp fr hfr).own q n0 hu f1
          obtain ⟨_, _, _⟩ := a
          obtain ⟨_, _, _⟩ := n0
          obtain ⟨e1, e2⟩ := f3
          dsimp only at e1 e2
          subst e1 e2
          exact this
        have hrun' := hrun
        rw [ownPicture_run hown hmode ins prev prev' c] at hrun'
        obtain ⟨o2, w2', r2, t1, t2⟩ := run_same p lib a b (c1 hqi hqk) fr mode hF (.refl prev') hc
          hrun'
        refine ⟨{ b with status := st2 }, o2, w2', ?_, hnodes _ _, ?_, t2, fun _ => t1⟩
        · simp only [nodeSem, r2, bind, Except.bind]
        · simp only [if_neg hqi]
          exact t1
  obtain ⟨g1', w1', f1, f2, f3, f4⟩ := execute_at hv hreq fuel
    (fun s s' hss => by simpa only [if_neg hsi] using hss) hne hsteps hid hord
    (c := w) (c' := w) (g := g) (g' := g')
    ⟨rfl, rfl, hx.graph, hx.ids.symm, fun q => by
      cases hq : g.nodes[q]? with
      | none =>
        left
        rw [List.getElem?_eq_none_iff] at hq
        exact ⟨rfl, by rw [List.getElem?_eq_none_iff, hx.size]; exact hq⟩
      | some a =>
        right
        have hlt := (List.getElem?_eq_some_iff.mp hq).1
        rw [← hx.size] at hlt
        exact ⟨a, g'.nodes[q], rfl, List.getElem?_eq_getElem hlt, a, g'.nodes[q], hq,
          List.getElem?_eq_getElem hlt, ⟨rfl, rfl⟩, ⟨rfl, rfl⟩⟩⟩
    ⟨hw, hw, rfl⟩ e
  exact ⟨g1', w1', f1, f4, f3.writes⟩

/-- C122, by connecting: in a graph built anew with the two nodes connected the other way round, the
picture is the same as well. -/
theorem C122_rewired (p : Profile) (lib : NodeLib F H) (srt : EdgeSort)
    {g g' g2 : Graph (Node F) (Stream F H)} {r r' r2 : Bool} (h : Reach (nodeSem p lib) srt r g)
    (h' : Reach (nodeSem p lib) srt r' g') (h2 : Reach (nodeSem p lib) srt r2 g2) {i k : Nat}
    (hx : Exchanged lib g g' i k) (hu' : UniqueSlots g') (hu2 : UniqueSlots g2)
    {ρ : Nat → Nat → Prop} (hρ : SameShape SameSettings ρ g' g2) (hone : OneToOne ρ)
    {id start id2 start2 : Nat} (hid : At g id start) (hs : g.graph.contains start = true)
    (hid2 : At g2 id2 start2) (hs2 : g2.graph.contains start2 = true) (h0 : ρ start start2)
    (ho : g'.output = g2.output) (hsi : start ≠ i) {frames : List F} (hne : frames ≠ [])
    (hp : ∀ frame ∈ frames, MakesPictures lib g start frame) {w : World F H} (hw : IsOff w)
    {fuel : Nat} {st : ExecuteStatus} {g1 : Graph (Node F) (Stream F H)} {w1 : World F H}
    (e : g.execute (nodeSem p lib) srt fuel id frames w = .ok (st, g1, w1)) :
    ∃ g3 w3, g2.execute (nodeSem p lib) srt fuel id2 frames w = .ok (st, g3, w3) ∧
      SameImage g1.output g3.output ∧ w1.writes = w3.writes := by
  obtain ⟨g1', w1', f1, f2, f3⟩ := C122_graph p lib srt h hx hid hs hsi hne hp hw e
  have hid' : At g' id start := ⟨by rw [hx.ids]; exact hid.1, by rw [hx.ids]; exact hid.2⟩
  have := C118_rebuilt p lib srt srt h' h2 hu' hu2 hρ hone hid' (by rw [hx.graph]; exact hs) hid2 hs2
    h0 ho fuel frames w
  rw [f1] at this
  cases e2 : g2.execute (nodeSem p lib) srt fuel id2 frames w with
  | error x => rw [e2] at this; cases this
  | ok x =>
    obtain ⟨st3, g3, w3⟩ := x
    rw [e2] at this
    simp only [Except.map, Except.ok.injEq, Prod.mk.injEq] at this
    obtain ⟨k1, k2, k3⟩ := this
    exact ⟨g3, w3, by rw [k1], by rw [← k2]; exact f2, by rw [← k3]; exact f3⟩

end

section
attribute [local instance] finFloat finBits finHalf finPi

/-- Reading, then the two nodes, then viewing. -/
def readTwoView (a b : NodeAttrs (Fin 256)) : Graph (Node (Fin 256)) (Stream (Fin 256) (Fin 256)) :=
  ⟨[builtRead 1, ⟨2, .uninitialized, a⟩, ⟨3, .uninitialized, b⟩,
    ⟨4, .uninitialized, .viewer { fullViewer with useCache := 0, bakeOption := 2 }⟩],
    [1, 2, 3, 4], ⟨[some 1, some 2, some 3, some 4], [], [⟨2, 3, 0⟩, ⟨1, 2, 0⟩, ⟨0, 1, 0⟩]⟩, .new,
    .dirty, .uninitialized⟩

/-- The same, with the two nodes connected the other way round. -/
def readTwoViewAgain (a b : NodeAttrs (Fin 256)) :
    Graph (Node (Fin 256)) (Stream (Fin 256) (Fin 256)) :=
  ⟨[builtRead 1, ⟨2, .uninitialized, a⟩, ⟨3, .uninitialized, b⟩,
    ⟨4, .uninitialized, .viewer { fullViewer with useCache := 0, bakeOption := 2 }⟩],
    [1, 2, 3, 4], ⟨[some 1, some 2, some 3, some 4], [], [⟨1, 3, 0⟩, ⟨2, 1, 0⟩, ⟨0, 2, 0⟩]⟩, .new,
    .dirty, .uninitialized⟩

/-- Moving by three pixels. -/
def moveThree : NodeAttrs (Fin 256) := .transform { TransformAttrs.new with translateX := 3 }

/-- Doubling red. -/
def redTwice : NodeAttrs (Fin 256) := .grade { GradeAttrs.new with multiplyR := 2 }

/-- Adding to red. -/
def redMore : NodeAttrs (Fin 256) := .grade { GradeAttrs.new with offsetR := 1 }

theorem readTwoView_reach (a b : NodeAttrs (Fin 256)) :
    Reach (nodeSem .debug linearFiles) insSort false (readTwoView a b) := by
  have h0 : Reach (nodeSem .debug linearFiles) insSort false _ := .new .new
  have h1 := Reach.add (g' := ⟨[builtRead 1], [1], ⟨[some 1], [], []⟩, .new, .dirty, .uninitialized⟩)
    (builtRead 1) h0 rfl
  have h2 := Reach.add (g' := ⟨[builtRead 1, ⟨2, .uninitialized, a⟩], [1, 2], ⟨[some 1, some 2], [], []⟩, .new, .dirty, .uninitialized⟩)
    ⟨2, .uninitialized, a⟩ h1 rfl
  have h3 := Reach.add (g' := ⟨[builtRead 1, ⟨2, .uninitialized, a⟩, ⟨3, .uninitialized, b⟩], [1, 2, 3], ⟨[some 1, some 2, some 3], [], []⟩, .new, .dirty, .uninitialized⟩)
    ⟨3, .uninitialized, b⟩ h2 rfl
  have h4 := Reach.add (g' := ⟨[builtRead 1, ⟨2, .uninitialized, a⟩, ⟨3, .uninitialized, b⟩, ⟨4, .uninitialized, .viewer { fullViewer with useCache := 0, bakeOption := 2 }⟩], [1, 2, 3, 4], ⟨[some 1, some 2, some 3, some 4], [], []⟩, .new, .dirty, .uninitialized⟩)
    ⟨4, .uninitialized, .viewer { fullViewer with useCache := 0, bakeOption := 2 }⟩ h3 rfl
  have h5 := Reach.connect (g' := ⟨[builtRead 1, ⟨2, .uninitialized, a⟩, ⟨3, .uninitialized, b⟩, ⟨4, .uninitialized, .viewer { fullViewer with useCache := 0, bakeOption := 2 }⟩], [1, 2, 3, 4], ⟨[some 1, some 2, some 3, some 4], [], [⟨0, 1, 0⟩]⟩, .new, .dirty, .uninitialized⟩)
    1 2 0 h4 rfl
  have h6 := Reach.connect (g' := ⟨[builtRead 1, ⟨2, .uninitialized, a⟩, ⟨3, .uninitialized, b⟩, ⟨4, .uninitialized, .viewer { fullViewer with useCache := 0, bakeOption := 2 }⟩], [1, 2, 3, 4], ⟨[some 1, some 2, some 3, some 4], [], [⟨1, 2, 0⟩, ⟨0, 1, 0⟩]⟩, .new, .dirty, .uninitialized⟩)
    2 3 0 h5 rfl
  have h7 := Reach.connect (g' := ⟨[builtRead 1, ⟨2, .uninitialized, a⟩, ⟨3, .uninitialized, b⟩, ⟨4, .uninitialized, .viewer { fullViewer with useCache := 0, bakeOption := 2 }⟩], [1, 2, 3, 4], ⟨[some 1, some 2, some 3, some 4], [], [⟨2, 3, 0⟩, ⟨1, 2, 0⟩, ⟨0, 1, 0⟩]⟩, .new, .dirty, .uninitialized⟩)
    3 4 0 h6 rfl
  exact h7

theorem readTwoViewAgain_reach (a b : NodeAttrs (Fin 256)) :
    Reach (nodeSem .debug linearFiles) insSort false (readTwoViewAgain a b) := by
  have h0 : Reach (nodeSem .debug linearFiles) insSort false _ := .new .new
  have h1 := Reach.add (g' := ⟨[builtRead 1], [1], ⟨[some 1], [], []⟩, .new, .dirty, .uninitialized⟩)
    (builtRead 1) h0 rfl
  have h2 := Reach.add (g' := ⟨[builtRead 1, ⟨2, .uninitialized, a⟩], [1, 2], ⟨[some 1, some 2], [], []⟩, .new, .dirty, .uninitialized⟩)
    ⟨2, .uninitialized, a⟩ h1 rfl
  have h3 := Reach.add (g' := ⟨[builtRead 1, ⟨2, .uninitialized, a⟩, ⟨3, .uninitialized, b⟩], [1, 2, 3], ⟨[some 1, some 2, some 3], [], []⟩, .new, .dirty, .uninitialized⟩)
    ⟨3, .uninitialized, b⟩ h2 rfl
  have h4 := Reach.add (g' := ⟨[builtRead 1, ⟨2, .uninitialized, a⟩, ⟨3, .uninitialized, b⟩, ⟨4, .uninitialized, .viewer { fullViewer with useCache := 0, bakeOption := 2 }⟩], [1, 2, 3, 4], ⟨[some 1, some 2, some 3, some 4], [], []⟩, .new, .dirty, .uninitialized⟩)
    ⟨4, .uninitialized, .viewer { fullViewer with useCache := 0, bakeOption := 2 }⟩ h3 rfl
  have h5 := Reach.connect (g' := ⟨[builtRead 1, ⟨2, .uninitialized, a⟩, ⟨3, .uninitialized, b⟩, ⟨4, .uninitialized, .viewer { fullViewer with useCache := 0, bakeOption := 2 }⟩], [1, 2, 3, 4], ⟨[some 1, some 2, some 3, some 4], [], [⟨0, 2, 0⟩]⟩, .new, .dirty, .uninitialized⟩)
    1 3 0 h4 rfl
  have h6 := Reach.connect (g' := ⟨[builtRead 1, ⟨2, .uninitialized, a⟩, ⟨3, .uninitialized, b⟩, ⟨4, .uninitialized, .viewer { fullViewer with useCache := 0, bakeOption := 2 }⟩], [1, 2, 3, 4], ⟨[some 1, some 2, some 3, some 4], [], [⟨2, 1, 0⟩, ⟨0, 2, 0⟩]⟩, .new, .dirty, .uninitialized⟩)
    3 2 0 h5 rfl
  have h7 := Reach.connect (g' := ⟨[builtRead 1, ⟨2, .uninitialized, a⟩, ⟨3, .uninitialized, b⟩, ⟨4, .uninitialized, .viewer { fullViewer with useCache := 0, bakeOption := 2 }⟩], [1, 2, 3, 4], ⟨[some 1, some 2, some 3, some 4], [], [⟨1, 3, 0⟩, ⟨2, 1, 0⟩, ⟨0, 2, 0⟩]⟩, .new, .dirty, .uninitialized⟩)
    2 4 0 h6 rfl
  exact h7

theorem readTwoView_feeds {a b : NodeAttrs (Fin 256)} {i j : Nat} :
    Feeds (readTwoView a b).graph i j ↔ j = i + 1 ∧ i < 3 := by
  constructor
  · rintro ⟨e, he, rfl, rfl⟩
    simp only [readTwoView, List.mem_cons, List.not_mem_nil, or_false] at he
    rcases he with rfl | rfl | rfl <;> decide
  · rintro ⟨rfl, h⟩
    obtain rfl | rfl | rfl : i = 0 ∨ i = 1 ∨ i = 2 := by omega
    · exact ⟨⟨0, 1, 0⟩, by simp [readTwoView], rfl, rfl⟩
    · exact ⟨⟨1, 2, 0⟩, by simp [readTwoView], rfl, rfl⟩
    · exact ⟨⟨2, 3, 0⟩, by simp [readTwoView], rfl, rfl⟩

theorem readTwoView_upstream {a b : NodeAttrs (Fin 256)} {i : Nat}
    (h : Upstream (readTwoView a b).graph 3 i) : i < 4 := by
  induction h with
  | refl => decide
  | step _ hf ih => rw [readTwoView_feeds] at hf; omega

theorem readTwoView_pictures (frame : Fin 256) :
    MakesPictures linearFiles (readTwoView redTwice moveThree) 3 frame := by
  refine ⟨?_, ?_, ?_⟩
  · intro i n hu hn
    have := readTwoView_upstream hu
    obtain rfl | rfl | rfl | rfl : i = 0 ∨ i = 1 ∨ i = 2 ∨ i = 3 := by omega
    all_goals cases hn
    · intro h; cases h
    · intro h; cases h
    · intro h; cases h
    · intro _; exact .inr (.inr ⟨rfl, .inr rfl⟩)
  · intro i n hu hn
    refine ⟨fun _ a b ha hb => ?_, fun a b c ha hb hc => ?_⟩
    · rw [readTwoView_feeds] at ha hb; omega
    · rw [readTwoView_feeds] at ha hb; omega
  · intro i n hu hn
    have := readTwoView_upstream hu
    obtain rfl | rfl | rfl | rfl : i = 0 ∨ i = 1 ∨ i = 2 ∨ i = 3 := by omega
    all_goals cases hn
    · refine ⟨nofun, ?_⟩
      intro a ha _
      cases ha
      intro h; cases h
    · exact ⟨nofun, fun a ha => by cases ha⟩
    · exact ⟨nofun, fun a ha => by cases ha⟩
    · exact ⟨fun _ => rfl, fun a ha => by cases ha⟩

theorem redTwice_moveThree (id id' : Nat) (st st' : NodeStatus) :
    GradeAndMove linearFiles ⟨id, st, redTwice⟩ ⟨id', st', moveThree⟩ :=
  .inl ⟨rfl, .inl rfl, fun a h => by cases h⟩

theorem readTwoView_exchanged : Exchanged linearFiles (readTwoView redTwice moveThree)
    (readTwoView moveThree redTwice) 1 2 := by
  refine ⟨rfl, rfl, rfl, ?_, ⟨_, _, _, _, rfl, rfl, rfl, rfl, rfl, rfl, redTwice_moveThree _ _ _ _⟩,
    by decide, by rw [readTwoView_feeds]; decide, ?_⟩
  · intro j n n' h1 h2 hn hn'
    obtain rfl | rfl | hj : j = 0 ∨ j = 3 ∨ 4 ≤ j := by omega
    · cases hn; cases hn'; rfl
    · cases hn; cases hn'; rfl
    · rw [List.getElem?_eq_none (by simpa [readTwoView] using hj)] at hn
      cases hn
  · intro j hj
    rw [readTwoView_feeds] at hj
    omega

/-- C122: both orders double the one pixel and leave it to be moved. -/
example : ∃ a b a' b',
    Node.run .debug linearFiles ⟨2, .uninitialized, redTwice⟩ 1 modeAll [onePixel] .new noCache =
      .ok (.valid, a, noCache) ∧
    Node.run .debug linearFiles ⟨3, .uninitialized, moveThree⟩ 1 modeAll [a] .new noCache =
      .ok (.valid, b, noCache) ∧
    Node.run .debug linearFiles ⟨3, .uninitialized, moveThree⟩ 1 modeAll [onePixel] .new noCache =
      .ok (.valid, a', noCache) ∧
    Node.run .debug linearFiles ⟨2, .uninitialized, redTwice⟩ 1 modeAll [a'] .new noCache =
      .ok (.valid, b', noCache) ∧ SameImage b b' :=
  C122_nodes .debug linearFiles _ _ (redTwice_moveThree 2 3 _ _) 1 _ _ _ _ _ _ _ _ _ _ _

/-- C122: the viewer shows the same. -/
example : ∃ st g1 w1 g1' w1',
    (readTwoView redTwice moveThree).execute (nodeSem .debug linearFiles) insSort 40 4 [1] noCache =
      .ok (st, g1, w1) ∧
    (readTwoView moveThree redTwice).execute (nodeSem .debug linearFiles) insSort 40 4 [1] noCache =
      .ok (st, g1', w1') ∧ SameImage g1.output g1'.output ∧ st = .success ∧
      numbersOf g1.output.pixelBlock ≠ [] ∧ g1.output.deformers.length = 1 := by
  have e : ∃ st g1 w1, (readTwoView redTwice moveThree).execute (nodeSem .debug linearFiles) insSort
      40 4 [1] noCache = .ok (st, g1, w1) ∧ st = .success ∧ numbersOf g1.output.pixelBlock ≠ [] ∧
      g1.output.deformers.length = 1 :=
    ⟨_, _, _, rfl, by decide +kernel⟩
  obtain ⟨st, g1, w1, e, h1, h2, h3⟩ := e
  obtain ⟨g1', w1', e', h4, -⟩ := C122_graph .debug linearFiles insSort (readTwoView_reach _ _)
    readTwoView_exchanged (start := 3) ⟨rfl, by decide⟩ rfl (by decide) (by simp)
    (fun frame _ => readTwoView_pictures frame) ⟨rfl, rfl⟩ e
  exact ⟨st, g1, w1, g1', w1', e, e', h4, h1, h2, h3⟩

/-- Which nodes are the same, when two are connected the other way round. -/
def turnedPlaces (i j : Nat) : Prop := (i, j) ∈ [(0, 0), (1, 2), (2, 1), (3, 3)]

theorem readTwoView_slots (a b : NodeAttrs (Fin 256)) : UniqueSlots (readTwoView a b) := by
  intro a a' b s h1 h2
  simp only [Conn, readTwoView, List.mem_cons, Edge.mk.injEq, List.not_mem_nil, or_false] at h1 h2
  omega

theorem readTwoViewAgain_slots (a b : NodeAttrs (Fin 256)) : UniqueSlots (readTwoViewAgain a b) := by
  intro a a' b s h1 h2
  simp only [Conn, readTwoViewAgain, List.mem_cons, Edge.mk.injEq, List.not_mem_nil, or_false] at h1 h2
  omega

theorem readTwoViewAgain_shape : SameShape SameSettings turnedPlaces (readTwoView moveThree redTwice)
    (readTwoViewAgain redTwice moveThree) := by
  refine ⟨?_, ?_, ?_⟩
  · intro i j h
    simp only [turnedPlaces, List.mem_cons, Prod.mk.injEq, List.not_mem_nil, or_false] at h
    rcases h with ⟨rfl, rfl⟩ | ⟨rfl, rfl⟩ | ⟨rfl, rfl⟩ | ⟨rfl, rfl⟩ <;> exact ⟨_, _, rfl, rfl, rfl⟩
  · intro i j a s h hc _
    simp only [turnedPlaces, Conn, readTwoView, readTwoViewAgain, List.mem_cons, Prod.mk.injEq,
      Edge.mk.injEq, List.not_mem_nil, or_false] at h hc ⊢
    rcases hc with ⟨rfl, rfl, rfl⟩ | ⟨rfl, rfl, rfl⟩ | ⟨rfl, rfl, rfl⟩
    · exact ⟨1, by omega⟩
    · exact ⟨2, by omega⟩
    · exact ⟨0, by omega⟩
  · intro i j b s h hc _
    simp only [turnedPlaces, Conn, readTwoView, readTwoViewAgain, List.mem_cons, Prod.mk.injEq,
      Edge.mk.injEq, List.not_mem_nil, or_false] at h hc ⊢
    rcases hc with ⟨rfl, rfl, rfl⟩ | ⟨rfl, rfl, rfl⟩ | ⟨rfl, rfl, rfl⟩
    · exact ⟨2, by omega⟩
    · exact ⟨1, by omega⟩
    · exact ⟨0, by omega⟩

theorem turnedPlaces_one : OneToOne turnedPlaces := by
  intro i j k l h1 h2
  simp only [turnedPlaces, List.mem_cons, Prod.mk.injEq, List.not_mem_nil, or_false] at h1 h2
  omega

/-- C122: the same two nodes connected in the other order. -/
example {st : ExecuteStatus} {g1 : Graph (Node (Fin 256)) (Stream (Fin 256) (Fin 256))}
    {w1 : World (Fin 256) (Fin 256)}
    (e : (readTwoView redTwice moveThree).execute (nodeSem .debug linearFiles) insSort 40 4 [1]
      noCache = .ok (st, g1, w1)) :
    ∃ g3 w3, (readTwoViewAgain redTwice moveThree).execute (nodeSem .debug linearFiles) insSort 40 4
        [1] noCache = .ok (st, g3, w3) ∧ SameImage g1.output g3.output ∧ w1.writes = w3.writes :=
  C122_rewired .debug linearFiles insSort (readTwoView_reach _ _) (readTwoView_reach _ _)
    (readTwoViewAgain_reach _ _) readTwoView_exchanged (readTwoView_slots _ _)
    (readTwoViewAgain_slots _ _) readTwoViewAgain_shape turnedPlaces_one (start := 3) (start2 := 3)
    ⟨rfl, by decide⟩ rfl ⟨rfl, by decide⟩ rfl (by unfold turnedPlaces; decide) rfl (by decide)
    (by simp) (fun frame _ => readTwoView_pictures frame) ⟨rfl, rfl⟩ e

/-- C122: a picture with another hash is cropped alike. -/
example {st : NodeStatus} {out : Stream (Fin 256) (Fin 256)} {w1 : World (Fin 256) (Fin 256)}
    (e : (builtCrop 3).run .debug linearFiles 1 modeAll [onePixel] .new noCache = .ok (st, out, w1)) :
    ∃ out' w1', (builtCrop 7).run .debug linearFiles 1 modeAll [{ onePixel with hash := 77 }] .new
        noCache = .ok (st, out', w1') ∧ SameImage out out' ∧ w1.writes = w1'.writes :=
  C122_downstream .debug linearFiles (builtCrop 3) (builtCrop 7) rfl 1 modeAll
    (.cons (.rehash _ _) .nil) (.refl _) ⟨rfl, rfl⟩ ⟨rfl, rfl⟩ rfl e

/-- C122 needs a grade and a move: two grades, doubling and adding one, show other pixels when they
are exchanged. -/
theorem C122_counterexample_grades :
    numbersAfter ((readTwoView redTwice redMore).execute (nodeSem .debug linearFiles) insSort 40 4 [1]
      noCache) ≠
    numbersAfter ((readTwoView redMore redTwice).execute (nodeSem .debug linearFiles) insSort 40 4 [1]
      noCache) := by
  decide +kernel

/-- C122 needs the first node to feed nothing else: where the picture between the two nodes is
viewed, it changes. -/
theorem C122_counterexample_between :
    (graphAfter (readTwoView redTwice moveThree) ((readTwoView redTwice moveThree).execute
      (nodeSem .debug linearFiles) insSort 40 2 [1] noCache)).output.colorOps.length ≠
    (graphAfter (readTwoView moveThree redTwice) ((readTwoView moveThree redTwice).execute
      (nodeSem .debug linearFiles) insSort 40 2 [1] noCache)).output.colorOps.length := by
  decide +kernel

end
end OCG.Props
