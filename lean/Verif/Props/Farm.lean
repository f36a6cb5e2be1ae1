import Verif.Props.Render
/-
C124: the frames of a list can be rendered in any order, on any number of machines.
-/

namespace OCG.Props

open GraphSpec PictureSpec RenderSpec AgainSpec PathSpec
open CacheSpec HashSpec

section
variable {F H : Type} [FloatLike F] [FloatConst F] [HalfLike F H] [FloatBits F]

/-- C124: once the frames of a list could be rendered, every frame has its own files, and rendering
any of these frames, in any order and any number of times, with any copy of the graph (executed
before or not), with any cache and after any other files, writes just the files of these frames. -/
theorem C124_farm (p : Profile) (lib : NodeLib F H) (srt : EdgeSort) (fuel : Nat)
    {g : Graph (Node F) (Stream F H)} {r : Bool} (h : Reach (nodeSem p lib) srt r g)
    (hu : ∀ n ∈ g.nodes, n.getI32 "use_cache" = 0) {id start : Nat}
    (hid : At g id start) (hs : g.graph.contains start = true) {frames : List F}
    (hp : ∀ fr ∈ frames, ShowsFiles lib g start fr) {g1 : Graph (Node F) (Stream F H)}
    {w w1 : World F H} (e : g.execute (nodeSem p lib) srt fuel id frames w = .ok (.success, g1, w1)) :
    ∃ files : F → List (WriteJob F H), w1.writes = w.writes ++ frames.flatMap files ∧
      ∀ frames' : List F, (∀ fr ∈ frames', fr ∈ frames) →
      ∀ (g' : Graph (Node F) (Stream F H)) (w' : World F H), Executed p srt g g' →
        ∃ g2, g'.execute (nodeSem p lib) srt fuel id frames' w' =
          .ok (.success, g2, ⟨w'.cache, w'.writes ++ frames'.flatMap files⟩) := by
  obtain ⟨jobs, h1, h2⟩ := C124_together p lib srt fuel h hu hid hs frames hp g g1 w w1 .refl e
  have own : ∀ fr, ∃ js, fr ∈ frames → ∀ w', ∃ g2, g.execute (nodeSem p lib) srt fuel id [fr] w' =
      .ok (.success, g2, ⟨w'.cache, w'.writes ++ js⟩) := by
    intro fr
    by_cases hf : fr ∈ frames
    · suffices ∃ js, ∀ w', ∃ g2, g.execute (nodeSem p lib) srt fuel id [fr] w' =
          .ok (.success, g2, ⟨w'.cache, w'.writes ++ js⟩) from
        let ⟨js, hj⟩ := this
        ⟨js, fun _ => hj⟩
      clear h1 e hp
      induction h2 with
      | nil => cases hf
      | cons hj _ ih =>
        rcases List.mem_cons.mp hf with rfl | hf
        · exact ⟨_, hj⟩
        · exact ih hf
    · exact ⟨[], fun hf' => absurd hf' hf⟩
  choose files hfiles using own
  refine ⟨files, ?_, ?_⟩
  · rw [h1]
    congr 1
    clear h1 e hp
    induction h2 with
    | nil => rfl
    | @cons fr js frs jss hj hrest ih =>
      obtain ⟨g2, e2⟩ := hj w
      obtain ⟨g3, e3⟩ := hfiles fr List.mem_cons_self w
      rw [e2] at e3
      simp only [Except.ok.injEq, Prod.mk.injEq, World.mk.injEq, List.append_cancel_left_eq,
        true_and] at e3
      rw [List.flatten_cons, List.flatMap_cons, ← e3.2,
        ih fun fr' hf' => hfiles fr' (List.mem_cons_of_mem _ hf')]
  · intro frames'
    induction frames' with
    | nil =>
      intro _ g' w' he
      have ha := executed_same he
      have hid' : At g' id start := ⟨by rw [← ha.ids]; exact hid.1, fun j hj => by
        rw [← ha.ids]; exact hid.2 j hj⟩
      obtain ⟨order, d, eo, -⟩ := order_of_reach h hs
      unfold Graph.execute
      rw [find_at.mpr hid', ← ha.graph]
      dsimp only
      rw [eo]
      rw [List.flatMap_nil, List.append_nil]
      exact ⟨_, rfl⟩
    | cons f fs ih =>
      intro hsub g' w' he
      have ha := executed_same he
      have hid' : At g' id start := ⟨by rw [← ha.ids]; exact hid.1, fun j hj => by
        rw [← ha.ids]; exact hid.2 j hj⟩
      have hknown : ¬ Unknown g' id := by
        unfold Unknown
        rw [not_not]
        exact List.mem_of_getElem? hid'.1
      have hf := hsub f List.mem_cons_self
      obtain ⟨g3, e3⟩ := hfiles f hf w'
      obtain ⟨js, g4, e4, e5, -⟩ := C117_again p lib srt fuel h he hu hid hs (hp f hf) [] w' w' e3
      simp only [World.mk.injEq, List.append_cancel_left_eq, true_and] at e4
      subst e4
      obtain ⟨g5, e6⟩ := ih (fun fr hfr => hsub fr (List.mem_cons_of_mem _ hfr)) g4
        ⟨w'.cache, w'.writes ++ files f⟩ (.step lib he e5)
      have hsplit := C42_frames_in_order (nodeSem p lib) srt fuel g' id [f] fs w' hknown
      rw [List.singleton_append, e5] at hsplit
      simp only [Except.bind, if_true, e6, Except.map] at hsplit
      exact ⟨_, hsplit.trans (by rw [List.flatMap_cons, List.append_assoc])⟩

end

/-! ### Examples -/

attribute [local instance] finFloat finBits finHalf finPi

/-- Rendering two frames, and then both again, the second one first and once more. -/
example : ∃ files : Fin 256 → List (WriteJob (Fin 256) (Fin 256)), ∃ g1 g2 w1 w2,
    readCropNumbered.execute (nodeSem .debug linearFiles) insSort 20 3 [1, 2] noCache =
      .ok (.success, g1, w1) ∧
    g1.execute (nodeSem .debug linearFiles) insSort 20 3 [2, 1, 2] noCache =
      .ok (.success, g2, w2) ∧
    w1.writes = files 1 ++ files 2 ∧ w2.writes = files 2 ++ (files 1 ++ files 2) ∧
    (files 1).map (·.path) = [[97, 49, 46, 101, 120, 114]] ∧
    (files 2).map (·.path) = [[97, 50, 46, 101, 120, 114]] := by
  obtain ⟨g1, w1, e, paths⟩ : ∃ g1 w1, readCropNumbered.execute (nodeSem .debug linearFiles) insSort 20
      3 [1, 2] noCache = .ok (.success, g1, w1) ∧ w1.writes.map (·.path) =
        [[97, 49, 46, 101, 120, 114], [97, 50, 46, 101, 120, 114]] := ⟨_, _, rfl, by decide +kernel⟩
  obtain ⟨g3, w3, e3, paths3⟩ : ∃ g1 w1, readCropNumbered.execute (nodeSem .debug linearFiles) insSort
      20 3 [1] noCache = .ok (.success, g1, w1) ∧ w1.writes.map (·.path) =
        [[97, 49, 46, 101, 120, 114]] := ⟨_, _, rfl, by decide +kernel⟩
  obtain ⟨files, h1, h2⟩ := C124_farm .debug linearFiles insSort 20 readCropNumbered_reach (by decide)
    numbered_at rfl (fun fr _ => numbered_files fr) e
  obtain ⟨g2, e2⟩ := h2 [2, 1, 2] (fun fr h => by
    rcases List.mem_cons.mp h with rfl | h
    · exact List.mem_cons_of_mem _ List.mem_cons_self
    · rcases List.mem_cons.mp h with rfl | h
      · exact List.mem_cons_self
      · rw [List.mem_singleton.mp h]
        exact List.mem_cons_of_mem _ List.mem_cons_self) g1 noCache (.step linearFiles .refl e)
  obtain ⟨g4, e4⟩ := h2 [1] (fun fr h => by rw [List.mem_singleton.mp h]; exact List.mem_cons_self) _ noCache .refl
  rw [e3] at e4
  cases e4
  have f1 : (files 1).map (·.path) = [[97, 49, 46, 101, 120, 114]] := by
    simpa [noCache] using paths3
  have hw : w1.writes = files 1 ++ files 2 := by
    rw [h1]
    simp [noCache]
  refine ⟨files, g1, g2, w1, _, e, e2, hw, by simp [noCache], f1, ?_⟩
  rw [hw, List.map_append, f1] at paths
  exact List.append_cancel_left paths

end OCG.Props
