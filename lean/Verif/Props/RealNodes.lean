import Verif.Proofs.Tame
import Verif.Props.PictureGraph
/-
C38 for the nodes of OpenCompGraph, which may panic themselves.
-/

namespace OCG.Props

open GraphSpec

section
variable {F H : Type} [FloatLike F] [HalfLike F H] [FloatConst F] [FloatBits F]

theorem nodeSem_lengths (p : Profile) (lib : NodeLib F H) (n : Node F) (mode : Mode) (h : Nat)
    (ns : List (Node F)) (modes : List Mode)
    (e : (nodeSem p lib).validate n mode h ns = .ok modes) : modes.length = ns.length := by
  have hf : (validateFirst mode ns).length = ns.length := by cases ns <;> simp [validateFirst]
  have hm : (validateMerge mode ns).length = ns.length := by
    rcases ns with _ | ⟨a, _ | ⟨b, l⟩⟩ <;> simp [validateMerge]
  obtain ⟨id, st, attrs⟩ := n
  cases attrs
  case viewer a =>
    change a.validate mode ns = .ok modes at e
    cases ns with
    | nil => cases e; rfl
    | cons b l =>
      unfold ViewerAttrs.validate at e
      dsimp only [bind, Except.bind] at e
      split at e
      · cases e; simp
      · split at e <;> first
          | (cases e; simp; done)
          | cases e
  case mergeImage a => cases e; exact hm
  all_goals cases e; exact hf

/-- C38 for the nodes of OpenCompGraph.  If the search meets every node before its inputs, then an
execution with enough iterations returns, unless one of the nodes of the graph panics when it is
asked what it needs or when it computes; otherwise every execution of some frames crashes because an
input is missing. -/
theorem C38_real_nodes (p : Profile) (lib : NodeLib F H) (srt : EdgeSort)
    {g : Graph (Node F) (Stream F H)} {r : Bool} (h : Reach (nodeSem p lib) srt r g)
    {id start : Nat} (hid : At g id start) (hs : g.graph.contains start = true)
    {order : List Nat} (ho : g.graph.findAllUpstream srt start = .ok order) :
    ((∀ v ∈ order, ∀ u, Feeds g.graph u v → u ≠ v → order.idxOf v < order.idxOf u) →
      ∃ enough, ∀ fuel, enough ≤ fuel → ∀ frames w,
        (∃ res, g.execute (nodeSem p lib) srt fuel id frames w = .ok res) ∨
        ∃ e, g.execute (nodeSem p lib) srt fuel id frames w = .error e ∧
          NodePanics (nodeSem p lib) (fun n => ∃ n0 ∈ g.nodes, SameNode n0 n) e) ∧
    (¬ (∀ v ∈ order, ∀ u, Feeds g.graph u v → u ≠ v → order.idxOf v < order.idxOf u) →
      ∀ fuel frames w, frames ≠ [] →
        g.execute (nodeSem p lib) srt fuel id frames w = .error .missingParent) := by
  obtain ⟨order', d, e, hi⟩ := order_of_reach h hs
  rw [ho] at e
  cases e
  have hg : Sound g := h.inv.sound
  have hmem := hi.final_mem
  constructor
  · intro ht
    refine ⟨(order.length + 1) ^ order.length + 1, fun fuel hf frames w => ?_⟩
    rcases execute_tame (sem := nodeSem p lib) (srt := srt)
      (P := fun n => ∃ n0 ∈ g.nodes, SameNode n0 n)
      (fun n fr m ins prev c n' st out c' ⟨n0, h0, h1⟩ h2 =>
        ⟨n0, h0, h1.1.trans (nodeSem_keeps p lib _ _ _ _ _ _ _ _ _ _ h2).1,
          h1.2.trans (nodeSem_keeps p lib _ _ _ _ _ _ _ _ _ _ h2).2⟩)
      fuel id frames g w (fun n hn => ⟨n, hn, rfl, rfl⟩) with h1 | h1
    · left
      obtain ⟨⟨er, g', c'⟩, hr⟩ := frameLoop_ok (sem := tame (nodeSem p lib))
        (tame_validates (nodeSem_lengths p lib))
        (fun n fr m ins prev c => by
          simp only [tame]
          split <;> exact ⟨_, rfl⟩) srt fuel (by omega) frames g w hg hs hi ht
      rw [h1]
      unfold Graph.execute
      rw [find_at.mpr hid]
      dsimp only
      simp only [ho, hr, bind, Except.bind]
      split <;> exact ⟨_, rfl⟩
    · exact .inr h1
  · intro ht fuel frames w hne
    have hclosed : ∀ v ∈ order, ∀ u, Feeds g.graph u v → u ∈ order :=
      fun v hv u hf => (hmem u).mpr (.step ((hmem v).mp hv) hf)
    have hnr : ¬ Ready (parents srt g.graph) order.reverse
        (fun k => (fun _ => none : Graph.IdxMap Nat) k ≠ none) := by
      intro hr
      exact ht ((topo_ready hg srt hi.final_nodup hclosed).mp (hr.congr (by simp)))
    cases frames with
    | nil => exact absurd rfl hne
    | cons f fs =>
      have hh := (hashPhase_spec (nodeSem p lib) srt hg f order.reverse (fun _ => none)
        (fun i hio => hg.upstream_live hs ((hmem i).mp (List.mem_reverse.mp hio)))).2 hnr
      unfold Graph.execute
      rw [find_at.mpr hid]
      dsimp only
      unfold Graph.frameLoop Graph.executeFrame
      simp only [ho, hh, bind, Except.bind]

attribute [local instance] finFloat finBits finHalf finPi

/-- A graph that returns. -/
example : Reach (nodeSem .debug linearFiles) insSort false readCropWrite ∧ At readCropWrite 3 2 ∧
    readCropWrite.graph.contains 2 = true ∧
    readCropWrite.graph.findAllUpstream insSort 2 = .ok [2, 1, 0] ∧
    (∀ v ∈ [2, 1, 0], ∀ u, Feeds readCropWrite.graph u v → u ≠ v →
      [2, 1, 0].idxOf v < [2, 1, 0].idxOf u) := by
  refine ⟨readCropWrite_reach, readCropWrite_at, rfl, rfl, ?_⟩
  rintro v - u ⟨e, he, rfl, rfl⟩ -
  change e ∈ ([⟨1, 2, 0⟩, ⟨0, 1, 0⟩] : List Edge) at he
  simp only [List.mem_cons, List.not_mem_nil, or_false] at he
  rcases he with rfl | rfl <;> decide

end
end OCG.Props
