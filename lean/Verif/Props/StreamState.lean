import Verif.Proofs.Relate
import Verif.Props.CacheRun
/-
Property C95: the state of a stream.
-/

namespace OCG.Props

section
variable {F H : Type} [FloatLike F] [HalfLike F H] [FloatConst F]

/-- Baking leaves the state of the stream alone. -/
theorem bake_state {p : Profile} {lib : BakeLib F} {option : BakeOption} {display : BBox}
    {b b' : Baked F H} {src dst : Bytes} {t : DataType}
    (e : bake p lib option display b src dst t = .ok b') : b'.stream.state = b.stream.state := by
  have hg : ∀ {bl bl' : PixelBlock F H} {s s' : Stream F H},
      bakeStreamColorgrade bl s = .ok (bl', s') → s'.state = s.state := by
    intro bl bl' s s' e
    unfold bakeStreamColorgrade at e
    obtain ⟨x, -, e⟩ := Res.bind_ok.mp e
    first
      | (cases e; rfl)
      | (obtain ⟨y, -, e⟩ := Res.bind_ok.mp e; cases e; rfl)
  unfold bake at e
  cases option
  case uninitialized => cases e
  case nothing => cases e; rfl
  case colorSpace =>
    obtain ⟨x1, -, e⟩ := Res.bind_ok.mp e
    obtain ⟨x2, -, e⟩ := Res.bind_ok.mp e
    cases e; rfl
  case colorSpaceAndGrade =>
    obtain ⟨x1, -, e⟩ := Res.bind_ok.mp e
    obtain ⟨⟨x2, s⟩, e2, e⟩ := Res.bind_ok.mp e
    obtain ⟨x3, -, e⟩ := Res.bind_ok.mp e
    obtain ⟨x4, -, e⟩ := Res.bind_ok.mp e
    cases e
    exact hg e2
  case all =>
    obtain ⟨x1, -, e⟩ := Res.bind_ok.mp e
    obtain ⟨⟨x2, s⟩, e2, e⟩ := Res.bind_ok.mp e
    obtain ⟨x3, -, e⟩ := Res.bind_ok.mp e
    obtain ⟨x4, -, e⟩ := Res.bind_ok.mp e
    obtain ⟨x5, -, e⟩ := Res.bind_ok.mp e
    cases e
    have := hg e2
    exact this

omit [FloatLike F] [HalfLike F H] [FloatConst F] in
/-- What a lookup gives is the hit value or was made. -/
theorem lookup_either {X : Type} {p : Profile} {u : Bool} {w w' : World F H} {key : Nat} {hit x : X}
    {make : Res (Image F H × X)} {i : Image F H}
    (e : lookup p u w key hit make = .ok (w', i, x)) : x = hit ∨ make = .ok (i, x) := by
  unfold lookup at e
  split at e
  · split at e
    · cases e; exact .inl rfl
    · obtain ⟨⟨i', x'⟩, e1, e⟩ := Res.bind_ok.mp e
      obtain ⟨c, -, e⟩ := Res.bind_ok.mp e
      cases e; exact .inr e1
  · obtain ⟨⟨i', x'⟩, e1, e⟩ := Res.bind_ok.mp e
    cases e; exact .inr e1

variable [FloatBits F]

/-- No node ever sets the state of a stream. -/
theorem run_state {p : Profile} {lib : NodeLib F H} {n : Node F} {frame : F} {mode : Mode}
    {inputs : List (Stream F H)} {prev out : Stream F H} {w w' : World F H} {st : NodeStatus}
    (hi : ∀ s ∈ inputs, s.state = .invalid) (hp : prev.state = .invalid)
    (e : n.run p lib frame mode inputs prev w = .ok (st, out, w')) : out.state = .invalid := by
  obtain ⟨id, s, attrs⟩ := n
  have h0 : (Stream.new : Stream F H).state = .invalid := rfl
  have hm : (match inputs with
      | [] => (.new : Stream F H)
      | input :: _ => input).state = .invalid := by
    cases inputs with
    | nil => rfl
    | cons i l => exact hi i List.mem_cons_self
  have hf : ∀ s l, inputs = s :: l → s.state = .invalid := fun s l h => hi s (by rw [h]; simp)
  cases attrs <;> simp only [Node.run] at e
  case null a => cases inputs <;> cases e <;> first | rfl | exact hf _ _ rfl
  case readImage a =>
    simp only [ReadImageAttrs.compute] at e
    split at e
    · split at e
      · cases e; rfl
      · split at e
        · cases e; rfl
        · obtain ⟨r, -, e⟩ := Res.bind_ok.mp e
          cases e; rfl
        · split at e <;> cases e
          · rfl
          · exact hp
    · cases e; exact hp
  case writeImage a =>
    simp only [WriteImageAttrs.compute] at e
    split at e
    · cases e; rfl
    · cases inputs with
      | nil => cases e; rfl
      | cons i l =>
        dsimp only at e
        split at e
        · cases e; exact hf _ _ rfl
        · obtain ⟨r, -, e⟩ := Res.bind_ok.mp e
          cases e; exact hf _ _ rfl
  case grade a =>
    simp only [GradeAttrs.compute] at e
    split at e <;> cases e <;> exact hm
  case lensDistort a =>
    simp only [LensDistortAttrs.compute] at e
    split at e
    · split at e <;> cases e
      exact hm
    · cases e
      exact hm
  case transform a =>
    simp only [TransformAttrs.compute] at e
    cases e
    dsimp only
    split <;> exact hm
  case mergeImage a =>
    simp only [MergeImageAttrs.compute] at e
    split at e
    · cases e; rfl
    · cases inputs with
      | nil => cases e; rfl
      | cons i l =>
        obtain ⟨r, -, e⟩ := Res.bind_ok.mp e
        cases e; rfl
  case cropImage a =>
    simp only [CropImageAttrs.compute] at e
    cases inputs with
    | nil => cases e; rfl
    | cons i l =>
      dsimp only at e
      split at e
      · cases e; exact hf _ _ rfl
      · obtain ⟨⟨w1, im, s1⟩, e1, e⟩ := Res.bind_ok.mp e
        cases e
        change s1.state = .invalid
        rcases lookup_either e1 with rfl | e2
        · exact hf _ _ rfl
        · unfold cropProcess at e2
          obtain ⟨b, e3, e2⟩ := Res.bind_ok.mp e2
          obtain ⟨c, -, e2⟩ := Res.bind_ok.mp e2
          cases e2
          rw [bake_state e3]
          exact hf _ _ rfl
  case viewer a =>
    simp only [ViewerAttrs.compute] at e
    split at e
    · cases e; exact hp
    · split at e
      · obtain ⟨⟨w1, im, s1⟩, e1, e⟩ := Res.bind_ok.mp e
        have h1 : s1.state = .invalid := by
          rcases lookup_either e1 with rfl | e2
          · exact hm
          · unfold viewerProcess at e2
            obtain ⟨b, e3, e2⟩ := Res.bind_ok.mp e2
            have hb : s1 = b.stream := by
              dsimp only at e2
              split at e2
              · obtain ⟨c, -, e2⟩ := Res.bind_ok.mp e2
                cases e2; rfl
              · cases e2; rfl
            rw [hb, bake_state e3]
            exact hm
        have ho : out.state = s1.state := by
          cases e
          dsimp only
          split <;> (try rfl) <;> split <;> rfl
        rw [ho, h1]
      · cases e; exact hm
  case resampleImage a =>
    simp only [ResampleImageAttrs.compute] at e
    cases inputs with
    | nil => cases e; rfl
    | cons i l =>
      dsimp only at e
      split at e
      · cases e; exact hm
      · obtain ⟨u, -, e⟩ := Res.bind_ok.mp e
        split at e
        · obtain ⟨r, -, e⟩ := Res.bind_ok.mp e
          cases e; exact hm
        · cases e; exact hm

/-- C95: the state of the output of a graph is Invalid after every execution, successful or not, as
it is for a new graph. -/
theorem C95_always_invalid (p : Profile) (lib : NodeLib F H) (srt : EdgeSort) (fuel : Nat)
    (g g' : Graph (Node F) (Stream F H)) (ho : g.output.state = .invalid) (id : Nat)
    (frames : List F) (w w' : World F H) (status : ExecuteStatus)
    (h : Graph.execute (nodeSem p lib) srt fuel g id frames w = .ok (status, g', w')) :
    g'.output.state = .invalid := by
  refine (execute_keeps (PN := fun _ => True) (PS := fun s => s.state = .invalid)
    (PC := fun _ => True) ?_ srt fuel (fun _ _ => trivial) ho id frames trivial h).2.1
  intro n fr m ins prev c n' st out c' _ hi hp _ e
  simp only [nodeSem] at e
  obtain ⟨⟨st1, o1, w1⟩, e1, e⟩ := Res.bind_ok.mp e
  cases e
  exact ⟨trivial, run_state hi hp e1, trivial⟩

end

section
attribute [local instance] finFloat finBits finHalf finPi

/-- C95 counterexample: an execution that succeeds and shows the file leaves the state Invalid. -/
theorem C95_counterexample : ∃ g' w',
    Graph.execute (nodeSem .debug twoFiles) insSort 5 readCrop 2 [1] noCache =
      .ok (.success, g', w') ∧
    g'.output.dataWindow = ⟨0, 0, 1, 1⟩ ∧ g'.output.state = .invalid := ⟨_, _, rfl, rfl, rfl⟩

example : readCrop.output.state = .invalid := rfl

end
end OCG.Props
