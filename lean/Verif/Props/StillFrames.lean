import Verif.Spec.StillFrames
import Verif.Proofs.Locality
import Verif.Props.PictureGraph
import Verif.Props.Path
/-
C128: the frame only matters for file names.
-/

namespace OCG.Props

open GraphSpec FrameSpec PictureSpec

section
variable {N S C Fr : Type}

/-- The nodes among `T` do not distinguish the two frames, and stay in `T`. -/
structure FrameBlind (sem : NodeSem N S C Fr) (T : N → Prop) (f f' : Fr) : Prop where
  hash : ∀ n hs, T n → sem.hash n f hs = sem.hash n f' hs
  compute : ∀ n mode ins prev c, T n →
    sem.compute n f mode ins prev c = sem.compute n f' mode ins prev c

/-- Computing keeps the nodes in `T`. -/
def KeepsKind (sem : NodeSem N S C Fr) (T : N → Prop) : Prop :=
  ∀ n f mode ins prev c n' st out c', sem.compute n f mode ins prev c = .ok (n', st, out, c') →
    T n → T n'

/-- The nodes at the indices are in `T`. -/
def AllAt (T : N → Prop) (U : Nat → Prop) (g : Graph N S) : Prop :=
  ∀ i n, U i → g.nodes[i]? = some n → T n

theorem hashPhase_blind {sem : NodeSem N S C Fr} {srt : EdgeSort} {T : N → Prop} {f f' : Fr}
    (hb : FrameBlind sem T f f') {U : Nat → Prop} {g : Graph N S} (hT : AllAt T U g) :
    ∀ (l : List Nat) (m : Graph.IdxMap Nat), (∀ i ∈ l, U i) →
      Graph.hashPhase sem srt g f l m = Graph.hashPhase sem srt g f' l m := by
  intro l
  induction l with
  | nil => intro m _; rfl
  | cons i is ih =>
    intro m hl
    unfold Graph.hashPhase
    cases hn : g.nodes[i]? with
    | none => rfl
    | some n =>
      have ht := hT i n (hl i List.mem_cons_self) hn
      simp only [bind, Except.bind]
      cases g.graph.findDirectUpstream srt i with
      | error e => rfl
      | ok parents =>
        dsimp only
        cases Graph.lookupAll m parents with
        | error e => rfl
        | ok hs =>
          dsimp only
          rw [hb.hash n hs ht]
          exact ih _ fun j hj => hl j (List.mem_cons_of_mem _ hj)

theorem allAt_set {T : N → Prop} {U : Nat → Prop} {g : Graph N S} (hT : AllAt T U g) {i : Nat}
    {n' : N} (hn : T n') (out : S) : AllAt T U { g with nodes := g.nodes.set i n', output := out } := by
  intro j n hj hg
  dsimp only at hg
  rw [List.getElem?_set] at hg
  split at hg
  · split at hg
    · cases hg; exact hn
    · cases hg
  · exact hT j n hj hg

theorem computePhase_blind {sem : NodeSem N S C Fr} {srt : EdgeSort} {T : N → Prop} {f f' : Fr}
    (hb : FrameBlind sem T f f') (hk : KeepsKind sem T) {U : Nat → Prop} :
    ∀ (l : List (Nat × Mode)) (g : Graph N S) (c : C) (m : Graph.IdxMap S), AllAt T U g →
      (∀ x ∈ l, U x.1) →
      Graph.computePhase sem srt f l g c m = Graph.computePhase sem srt f' l g c m ∧
      ∀ e g' c', Graph.computePhase sem srt f l g c m = .ok (e, g', c') →
        AllAt T U g' ∧ g'.graph = g.graph ∧ g'.nodes.length = g.nodes.length := by
  intro l
  induction l with
  | nil =>
    intro g c m hT _
    refine ⟨rfl, fun e g' c' h => ?_⟩
    cases h
    exact ⟨hT, rfl, rfl⟩
  | cons x rest ih =>
    obtain ⟨i, mode⟩ := x
    intro g c m hT hl
    unfold Graph.computePhase
    simp only [bind, Except.bind]
    cases g.graph.findDirectUpstream srt i with
    | error e => exact ⟨rfl, fun _ _ _ h => nomatch h⟩
    | ok parents =>
      dsimp only
      cases Graph.lookupAll m parents with
      | error e => exact ⟨rfl, fun _ _ _ h => nomatch h⟩
      | ok inputs =>
        dsimp only
        cases hn : g.nodes[i]? with
        | none => exact ⟨rfl, fun _ _ _ h => nomatch h⟩
        | some n =>
          have ht := hT i n (hl _ List.mem_cons_self) hn
          dsimp only
          rw [← hb.compute n mode inputs g.output c ht]
          cases hc : sem.compute n f mode inputs g.output c with
          | error e => exact ⟨rfl, fun _ _ _ h => nomatch h⟩
          | ok r =>
            obtain ⟨n', st, out, c'⟩ := r
            have hT' := allAt_set hT (i := i) (hk _ _ _ _ _ _ _ _ _ _ hc ht) out
            dsimp only
            cases Graph.statusError st with
            | some e =>
              refine ⟨rfl, fun _ _ _ h => ?_⟩
              cases h
              exact ⟨hT', rfl, by simp⟩
            | none =>
              dsimp only
              obtain ⟨e1, h1⟩ := ih { g with nodes := g.nodes.set i n', output := out } c'
                (m.insert i out) hT' fun x hx => hl x (List.mem_cons_of_mem _ hx)
              refine ⟨e1, fun e g' c'' h => ?_⟩
              obtain ⟨a, b, d⟩ := h1 e g' c'' h
              exact ⟨a, b, d.trans (by simp)⟩

theorem executeFrame_blind {sem : NodeSem N S C Fr} {srt : EdgeSort} {T : N → Prop} {f f' : Fr}
    (hb : FrameBlind sem T f f') (hk : KeepsKind sem T) {g : Graph N S} (hg : Sound g) {start : Nat}
    (hs : g.graph.contains start = true) {order : List Nat} (fuel : Nat)
    (ho : ∀ i ∈ order, Upstream g.graph start i)
    (hT : AllAt T (Upstream g.graph start) g) (c : C) :
    g.executeFrame sem srt fuel order f c = g.executeFrame sem srt fuel order f' c ∧
      ∀ e g' c', g.executeFrame sem srt fuel order f c = .ok (e, g', c') →
        AllAt T (Upstream g.graph start) g' ∧ g'.graph = g.graph ∧
          g'.nodes.length = g.nodes.length := by
  unfold Graph.executeFrame
  rw [← hashPhase_blind hb hT _ _ fun i hi => ho i (List.mem_reverse.mp hi)]
  simp only [bind, Except.bind]
  cases Graph.hashPhase sem srt g f order.reverse fun _ => none with
  | error e => exact ⟨rfl, fun _ _ _ h => nomatch h⟩
  | ok hashes =>
    dsimp only
    cases order with
    | nil => exact ⟨rfl, fun _ _ _ h => nomatch h⟩
    | cons first rest =>
      dsimp only
      have hf := ho first List.mem_cons_self
      cases hv : Graph.validateLoop sem srt g hashes fuel [(first, modeAll)] [(first, modeAll)] with
      | error e => exact ⟨rfl, fun _ _ _ h => nomatch h⟩
      | ok validated =>
        have hreq := validate_requested (start := first) _ _ _ _
          (fun x hx => by rw [List.mem_singleton.mp hx]; exact .start)
          (fun x hx => by rw [List.mem_singleton.mp hx]; exact .start) hv
        have hup : ∀ i, Upstream g.graph first i → Upstream g.graph start i := by
          intro i hi
          induction hi with
          | refl => exact hf
          | step _ h ih => exact .step ih h
        exact computePhase_blind hb hk _ g c _ hT fun x hx =>
          hup _ (requested_upstream hg (hg.upstream_live hs hf) (hreq.2 x (List.mem_reverse.mp hx)))

theorem frameLoop_blind {sem : NodeSem N S C Fr} {srt : EdgeSort} {T : N → Prop}
    (hk : KeepsKind sem T) {start : Nat} {order : List Nat} (fuel : Nat) :
    ∀ (fs fs' : List Fr), List.Forall₂ (FrameBlind sem T) fs fs' → ∀ (g : Graph N S) (c : C), Sound g →
      g.graph.contains start = true → (∀ i ∈ order, Upstream g.graph start i) →
      AllAt T (Upstream g.graph start) g →
      Graph.frameLoop sem srt fuel order fs g c = Graph.frameLoop sem srt fuel order fs' g c := by
  intro fs fs' h
  induction h with
  | nil => intros; rfl
  | @cons f f' fs fs' hb _ ih =>
    intro g c hg hs ho hT
    obtain ⟨e1, h1⟩ := executeFrame_blind (srt := srt) hb hk hg hs fuel ho hT c
    unfold Graph.frameLoop
    rw [← e1]
    simp only [bind, Except.bind]
    cases he : g.executeFrame sem srt fuel order f c with
    | error e => rfl
    | ok r =>
      obtain ⟨e, g', c'⟩ := r
      obtain ⟨a, b, d⟩ := h1 e g' c' he
      cases e with
      | some e => rfl
      | none =>
        dsimp only
        exact ih g' c' ⟨by rw [b]; exact hg.ends, by rw [b, d]; exact hg.live⟩ (by rw [b]; exact hs)
          (by rw [b]; exact ho) (by rw [b]; exact a)

theorem execute_blind {sem : NodeSem N S C Fr} {srt : EdgeSort} {T : N → Prop}
    (hk : KeepsKind sem T) {g : Graph N S} (hg : Sound g) {id start : Nat} (hid : At g id start)
    (hs : g.graph.contains start = true) (hT : AllAt T (Upstream g.graph start) g) {fs fs' : List Fr}
    (h : List.Forall₂ (FrameBlind sem T) fs fs') (fuel : Nat) (c : C) :
    g.execute sem srt fuel id fs c = g.execute sem srt fuel id fs' c := by
  unfold Graph.execute
  rw [find_at.mpr hid]
  obtain ⟨order, d, e, hi, _⟩ := findAll_spec srt hg.ends (contains_lt_bound hs) (fun _ _ => True)
    trivial (fun _ _ _ _ _ _ _ => trivial)
  simp only [e, bind, Except.bind]
  rw [frameLoop_blind hk fuel fs fs' h g c hg hs (fun i hi' => (hi.final_mem i).mp hi') hT]

end

section
variable {F H : Type} [FloatLike F] [FloatBits F] [FloatConst F] [HalfLike F H]

theorem run_same_name (p : Profile) (lib : NodeLib F H) (n : Node F) (f f' : F) (mode : Mode)
    (inputs : List (Stream F H)) (prev : Stream F H) (w : World F H) (h : SameName lib f f' n) :
    n.run p lib f mode inputs prev w = n.run p lib f' mode inputs prev w ∧
      ∀ hs, n.hash lib.hash lib.shell f hs = n.hash lib.hash lib.shell f' hs := by
  have hh : ∀ hs, n.hash lib.hash lib.shell f hs = n.hash lib.hash lib.shell f' hs := by
    intro hs
    obtain ⟨id, st, attrs⟩ := n
    cases attrs <;> try rfl
    · have := h (.inl rfl)
      simp only [filePath, attr_eval] at this
      simp only [Node.hash, Node.hashItems, NodeAttrs.hashItems, ReadImageAttrs.hashItems, this]
    · have := h (.inr rfl)
      simp only [filePath, attr_eval] at this
      simp only [Node.hash, Node.hashItems, NodeAttrs.hashItems, WriteImageAttrs.hashItems, this]
  refine ⟨?_, hh⟩
  unfold Node.run
  rw [hh]
  obtain ⟨id, st, attrs⟩ := n
  cases attrs <;> try rfl
  · have := h (.inl rfl)
    simp only [filePath, attr_eval] at this
    simp only [ReadImageAttrs.compute, this]
  · have := h (.inr rfl)
    simp only [filePath, attr_eval] at this
    simp only [WriteImageAttrs.compute, writeProcess, this]

/-- C128: the frame only matters for file names: if those of all nodes upstream of the executed one
are the same at the frames of one execution as at those of another, the two executions do the same:
the same status, output, files, cache, or the same panic. -/
theorem C128_names (p : Profile) (lib : NodeLib F H) (srt : EdgeSort)
    {g : Graph (Node F) (Stream F H)} {r : Bool} (h : Reach (nodeSem p lib) srt r g) {id start : Nat}
    (hid : At g id start) (hs : g.graph.contains start = true) {frames frames' : List F}
    (hn : List.Forall₂ (fun f f' => ∀ i n, Upstream g.graph start i → g.nodes[i]? = some n →
      SameName lib f f' n) frames frames') (fuel : Nat) (w : World F H) :
    g.execute (nodeSem p lib) srt fuel id frames w = g.execute (nodeSem p lib) srt fuel id frames' w := by
  refine execute_blind (T := fun n => ∃ i m, Upstream g.graph start i ∧ g.nodes[i]? = some m ∧
    n.attrs = m.attrs) ?_ h.inv.sound hid hs ?_ ?_ fuel w
  · rintro n f mode ins prev c n' st out c' e ⟨i, m, h1, h2, h3⟩
    obtain ⟨⟨st', out', w'⟩, -, e⟩ := Res.bind_ok.mp e
    cases e
    exact ⟨i, m, h1, h2, h3⟩
  · intro i n hi hg
    exact ⟨i, n, hi, hg, rfl⟩
  · refine hn.imp fun f f' hff => ?_
    have key : ∀ n : Node F, (∃ i m, Upstream g.graph start i ∧ g.nodes[i]? = some m ∧
        n.attrs = m.attrs) → SameName lib f f' n := by
      rintro n ⟨i, m, h1, h2, h3⟩ hf
      have := hff i m h1 h2 (by unfold HasFile at hf ⊢; rw [← h3]; exact hf)
      simp only [filePath, Node.getStr_eq] at this ⊢
      rw [h3]
      exact this
    constructor
    · intro n hs hT
      exact (run_same_name p lib n f f' modeAll [] .new w (key n hT)).2 hs
    · intro n mode ins prev c hT
      show (do let (status, out, w) ← n.run p lib f mode ins prev c; _) = _
      rw [(run_same_name p lib n f f' mode ins prev c (key n hT)).1]
      rfl

/-- C128: a graph whose file names have no place for a frame number shows and writes the same at all
frames. -/
theorem C128_still (p : Profile) (lib : NodeLib F H) (srt : EdgeSort)
    {g : Graph (Node F) (Stream F H)} {r : Bool} (h : Reach (nodeSem p lib) srt r g) {id start : Nat}
    (hid : At g id start) (hs : g.graph.contains start = true)
    (hn : ∀ i n, Upstream g.graph start i → g.nodes[i]? = some n → NoFrameNumber lib n)
    (frames frames' : List F) (hl : frames.length = frames'.length) (fuel : Nat) (w : World F H) :
    g.execute (nodeSem p lib) srt fuel id frames w = g.execute (nodeSem p lib) srt fuel id frames' w := by
  refine C128_names p lib srt h hid hs ?_ fuel w
  refine List.forall₂_iff_zip.mpr ⟨hl, fun {f f'} _ i n hi hg hf => ?_⟩
  have := hn i n hi hg hf
  unfold filePath
  rw [C20_no_hash _ _ _ this, C20_no_hash _ _ _ this]

end

/-! ### Examples -/

attribute [local instance] finFloat finBits finHalf finPi

theorem readCropWrite_still (i : Nat) (n : Node (Fin 256)) (h : readCropWrite.nodes[i]? = some n) :
    NoFrameNumber linearFiles n := by
  intro hf
  rcases i with _ | _ | _ | i
  · cases h; decide
  · cases h; cases hf <;> contradiction
  · cases h; decide
  · cases h

example : readCropWrite.execute (nodeSem .debug linearFiles) insSort 20 3 [1, 2] blankWorld =
    readCropWrite.execute (nodeSem .debug linearFiles) insSort 20 3 [7, 100] blankWorld :=
  C128_still .debug linearFiles insSort readCropWrite_reach readCropWrite_at rfl
    (fun i n _ h => readCropWrite_still i n h) [1, 2] [7, 100] rfl 20 blankWorld

/-- A node that reads `#`. -/
def frameReader : Node (Fin 256) := readNode 1 [35]

-- With a place for the frame number the frames differ, and there C128 says nothing.
example : ¬ NoFrameNumber linearFiles frameReader ∧ ¬ SameName linearFiles 1 2 frameReader :=
  ⟨fun h => h (.inl rfl) (by decide), fun h => absurd (h (.inl rfl)) (by decide)⟩

-- The name only depends on the nearest whole number.
example (lib : NodeLib (Fin 256) (Fin 256)) (f f' : Fin 256) (h : frameNum f = frameNum f')
    (n : Node (Fin 256)) : SameName lib f f' n := by
  intro _
  unfold filePath
  rw [h]

end OCG.Props
