import Verif.Spec.Plugin
import Verif.Props.Compute
/-
Lens deformers work with their own settings (C89).
-/

namespace OCG.Props

open PluginSpec

section Plugin

variable {F : Type} [FloatLike F]

/-- Giving values to the plug-in, one after another. -/
def setAllValues (cls : LensClass F) : List (String × F) → LensObject F → Res (LensObject F)
  | [], o => .ok o
  | x :: l, o => o.setValue cls x.1 x.2 >>= setAllValues cls l

theorem commit_eq (cls : LensClass F) (d : LensDeformer F) : d.commit cls =
    setAllValues cls (table.map fun x => (x.1, d.values.getF32 x.2)) d.plugin >>= fun o =>
      .ok ({ d with plugin := (o.init cls).1 }, (o.init cls).2) := by
  simp only [table, List.map_cons, List.map_nil, setAllValues, bind_assoc]
  rfl

theorem setAllValues_ok (cls : LensClass F) : ∀ (l : List (String × F)) (o : LensObject F),
    (l.map (·.1)).Nodup →
    ((∀ x ∈ l, cls.acceptsValue x.1 x.2 = true) ∧ ∃ o', setAllValues cls l o = .ok o' ∧
      o'.inEffect = o.inEffect ∧
      ∀ name, o'.given name = ((l.lookup name).map some).getD (o.given name)) ∨
    (¬ (∀ x ∈ l, cls.acceptsValue x.1 x.2 = true) ∧ setAllValues cls l o = .error .explicit) := by
  intro l
  induction l with
  | nil => intro o _; exact .inl ⟨by simp, o, rfl, rfl, fun _ => rfl⟩
  | cons x l ih =>
    obtain ⟨n, v⟩ := x
    intro o hn
    rw [List.map_cons, List.nodup_cons] at hn
    unfold setAllValues LensObject.setValue
    dsimp only
    by_cases hv : cls.acceptsValue n v = true
    · rw [if_pos hv]
      simp only [bind, Except.bind]
      rcases ih { o with given := fun m => if m = n then some v else o.given m } hn.2 with
        ⟨h1, o', h2, h3, h4⟩ | ⟨h1, h2⟩
      · refine .inl ⟨fun y hy => ?_, o', h2, h3, fun name => ?_⟩
        · rcases List.mem_cons.mp hy with rfl | hy
          · exact hv
          · exact h1 y hy
        · rw [h4]
          by_cases hnm : name = n
          · subst hnm
            have : l.lookup name = none := by
              rw [List.lookup_eq_none_iff]
              intro p hp
              rw [bne_iff_ne]
              rintro rfl
              exact hn.1 (List.mem_map.mpr ⟨p, hp, rfl⟩)
            rw [this, List.lookup_cons_self]
            simp
          · have hb : (name == n) = false := by rw [beq_eq_false_iff_ne]; exact hnm
            rw [List.lookup_cons, hb]
            simp [hnm]
      · exact .inr ⟨fun h => h1 fun y hy => h y (List.mem_cons_of_mem _ hy), h2⟩
    · rw [if_neg hv]
      exact .inr ⟨fun h => hv (h _ List.mem_cons_self), rfl⟩

/-- The plug-in has got values for its own parameters only. -/
def OwnOnly (d : LensDeformer F) : Prop := ∀ name, table.lookup name = none → d.plugin.given name = none

theorem lookup_map {α β : Type} (g : α → β) (name : String) : ∀ l : List (String × α),
    (l.map fun x => (x.1, g x.2)).lookup name = (l.lookup name).map g := by
  intro l
  induction l with
  | nil => rfl
  | cons x l ih =>
    obtain ⟨n, v⟩ := x
    rw [List.map_cons, List.lookup_cons, List.lookup_cons, ih]
    cases name == n <;> rfl

/-- What committing does. -/
theorem commit_cases (cls : LensClass F) (d : LensDeformer F) (hd : OwnOnly d) :
    (Accepted cls d.values ∧ d.commitUnwrap cls =
      .ok ⟨d.values, ⟨wanted d.values, some (wanted d.values)⟩⟩) ∨
    (¬ Accepted cls d.values ∧ d.commitUnwrap cls = .error .explicit) := by
  have hall : (∀ x ∈ table.map fun x => (x.1, d.values.getF32 x.2),
      cls.acceptsValue x.1 x.2 = true) ↔
      ∀ x ∈ table, cls.acceptsValue x.1 (d.values.getF32 x.2) = true := by
    simp only [List.forall_mem_map]
  unfold LensDeformer.commitUnwrap
  rw [commit_eq]
  rcases setAllValues_ok cls (table.map fun x => (x.1, d.values.getF32 x.2)) d.plugin
      (by rw [List.map_map]; exact (by decide : (table.map (·.1)).Nodup)) with ⟨h1, o, h2, h3, h4⟩ | ⟨h1, h2⟩
  · rw [hall] at h1
    have hg : o.given = wanted d.values := by
      funext name
      rw [h4, lookup_map, wanted]
      cases hl : table.lookup name with
      | none => exact hd name hl
      | some a => rfl
    rw [h2]
    simp only [bind, Except.bind, LensObject.init, hg]
    by_cases ha : cls.accepts (wanted d.values) = true
    · left
      refine ⟨⟨h1, ha⟩, ?_⟩
      rw [if_pos ha]
      rfl
    · right
      refine ⟨fun h => ha h.2, ?_⟩
      rw [if_neg ha]
      rfl
  · right
    rw [hall] at h1
    refine ⟨fun h => h1 h.1, ?_⟩
    rw [h2]
    rfl

theorem wanted_own (v : Tde4Deformer F) (e : Option (LensValues F)) :
    OwnOnly (⟨v, ⟨wanted v, e⟩⟩ : LensDeformer F) := by
  intro name h
  change wanted v name = none
  rw [wanted, h]
  rfl

theorem new_own (v : Tde4Deformer F) : OwnOnly (⟨v, .new⟩ : LensDeformer F) := fun _ _ => rfl

/-- C89, the plug-in's side: whatever is done to a lens deformer, its attributes are those set
last and its plug-in works with the values they had at the last commit or copy. -/
theorem C89_history (cls : LensClass F) {es : List (Event F)} {d : LensDeformer F}
    (h : History cls es d) :
    d.values = attributes es ∧ d.plugin.inEffect = (committed es).map wanted := by
  suffices H : d.values = attributes es ∧ d.plugin.inEffect = (committed es).map wanted ∧
      OwnOnly d from ⟨H.1, H.2.1⟩
  induction h with
  | new => exact ⟨rfl, rfl, new_own _⟩
  | setI32 name value _ ih =>
    obtain ⟨h1, h2, h3⟩ := ih
    exact ⟨by rw [attributes, ← h1]; rfl, h2, h3⟩
  | setF32 name value _ ih =>
    obtain ⟨h1, h2, h3⟩ := ih
    exact ⟨by rw [attributes, ← h1]; rfl, h2, h3⟩
  | commit _ e ih =>
    obtain ⟨h1, h2, h3⟩ := ih
    rcases commit_cases cls _ h3 with ⟨-, e'⟩ | ⟨-, e'⟩
    · rw [e'] at e
      cases e
      exact ⟨h1, by rw [committed, ← h1]; rfl, wanted_own _ _⟩
    · rw [e'] at e; cases e
  | copy _ e ih =>
    obtain ⟨h1, h2, h3⟩ := ih
    unfold LensDeformer.cloneBox at e
    rcases commit_cases cls _ (new_own _) with ⟨-, e'⟩ | ⟨-, e'⟩
    · rw [LensDeformer.clone, LensObject.clone, e'] at e
      cases e
      exact ⟨h1, by rw [committed, ← h1]; rfl, wanted_own _ _⟩
    · rw [LensDeformer.clone, LensObject.clone, e'] at e; cases e
  | plainCopy _ ih => exact ⟨ih.1, rfl, new_own _⟩

/-- A deformer in a stream: put there by a LensDistort node, then copied any number of times
together with the stream. -/
inductive InStream (cls : LensClass F) (a : LensDistortAttrs F) : LensDeformer F → Prop
  | node {d} : LensDeformer.ofNode cls a = .ok d → InStream cls a d
  | copy {d d'} : InStream cls a d → d.cloneBox cls = .ok d' → InStream cls a d'

theorem ofNode_cases (cls : LensClass F) (a : LensDistortAttrs F) :
    (Accepted cls a.deformer ∧ LensDeformer.ofNode cls a =
      .ok ⟨a.deformer, ⟨wanted a.deformer, some (wanted a.deformer)⟩⟩) ∨
    (¬ Accepted cls a.deformer ∧ LensDeformer.ofNode cls a = .error .explicit) := by
  have : LensDeformer.ofNode cls a = (⟨a.deformer, .new⟩ : LensDeformer F).commitUnwrap cls := rfl
  rw [this]
  exact commit_cases cls _ (new_own _)

/-- C89: a lens node panics exactly if the plug-in rejects its values; otherwise its deformer and
all copies of it have the values of the node's attributes, as attributes and inside the plug-in, and
copying never panics. -/
theorem C89_streams (cls : LensClass F) (a : LensDistortAttrs F) :
    ((∃ d, LensDeformer.ofNode cls a = .ok d) ↔ Accepted cls a.deformer) ∧
    (¬ Accepted cls a.deformer → LensDeformer.ofNode cls a = .error .explicit) ∧
    ∀ d, InStream cls a d → d.values = a.deformer ∧
      d.plugin.inEffect = some (wanted a.deformer) ∧ d.cloneBox cls = .ok d := by
  refine ⟨?_, ?_, ?_⟩
  · rcases ofNode_cases cls a with ⟨h, e⟩ | ⟨h, e⟩ <;> rw [e]
    · exact ⟨fun _ => h, fun _ => ⟨_, rfl⟩⟩
    · exact ⟨(fun ⟨_, h⟩ => by cases h), fun h' => absurd h' h⟩
  · intro hn
    rcases ofNode_cases cls a with ⟨h, e⟩ | ⟨h, e⟩
    · exact absurd h hn
    · exact e
  · have hclone : Accepted cls a.deformer → (⟨a.deformer, ⟨wanted a.deformer,
        some (wanted a.deformer)⟩⟩ : LensDeformer F).cloneBox cls =
        .ok ⟨a.deformer, ⟨wanted a.deformer, some (wanted a.deformer)⟩⟩ := by
      intro h
      rcases commit_cases cls ⟨a.deformer, .new⟩ (new_own _) with ⟨-, e⟩ | ⟨h', -⟩
      · exact e
      · exact absurd h h'
    have key : ∀ d, InStream cls a d → Accepted cls a.deformer ∧
        d = ⟨a.deformer, ⟨wanted a.deformer, some (wanted a.deformer)⟩⟩ := by
      intro d h
      induction h with
      | node e =>
        rcases ofNode_cases cls a with ⟨h, e'⟩ | ⟨h, e'⟩
        · rw [e'] at e; cases e; exact ⟨h, rfl⟩
        · rw [e'] at e; cases e
      | copy _ e ih =>
        obtain ⟨ha, rfl⟩ := ih
        rw [hclone ha] at e
        cases e
        exact ⟨ha, rfl⟩
    intro d h
    obtain ⟨ha, rfl⟩ := key d h
    exact ⟨rfl, rfl, hclone ha⟩

/-- C89: hence such a deformer does what the plug-in does with the values of the node's
attributes.  (This justifies treating the plug-in as a function of them elsewhere.) -/
theorem C89_deforms (cls : LensClass F) (a : LensDistortAttrs F) {d : LensDeformer F}
    (h : InStream cls a d) (window bbox : BBoxF F) (inverse : Bool) (x y : F) :
    d.point cls window inverse x y = a.deformer.point (lensOf cls) window inverse x y ∧
    d.box cls bbox window = a.deformer.box (lensOf cls) bbox window := by
  obtain ⟨h1, h2, -⟩ := (C89_streams cls a).2.2 d h
  obtain ⟨v, p⟩ := d
  cases h1
  unfold LensDeformer.point LensDeformer.box LensDeformer.apply
  rw [h2]
  exact ⟨rfl, rfl⟩

end Plugin

attribute [local instance] finFloat finBits finHalf finPi

/-- A plug-in that accepts everything but a distortion of 9, and shifts points by the
distortion. -/
def shiftLens : LensClass (Fin 256) where
  acceptsValue name v := !(name == "Distortion" && v == 9)
  accepts _ := true
  undistort v x y := (x + ((v.bind fun v => v "Distortion").getD 0), y)
  distort v x y := (x - ((v.bind fun v => v "Distortion").getD 0), y)
  boxUndistort _ b := b
  boxDistort _ b := b

def plainLens : LensDistortAttrs (Fin 256) := { LensDistortAttrs.new with distortion := 3 }

example : ∃ d, InStream shiftLens plainLens d ∧ d.apply shiftLens 1 1 false = .ok (4, 1) :=
  ⟨_, .copy (.copy (.node rfl) rfl) rfl, rfl⟩

example : ¬ Accepted shiftLens ({ plainLens with distortion := 9 } : LensDistortAttrs (Fin 256)).deformer := by
  rintro ⟨h, -⟩
  exact absurd (h ("Distortion", "distortion") (by decide)) (by decide)

/-- A history with a change that is not committed, a commit, and a copy. -/
example : ∃ d, History shiftLens
    [.setF32 "distortion" 5, .copy, .commit, .setF32 "distortion" 3] d ∧
    d.apply shiftLens 1 1 false = .ok (4, 1) :=
  ⟨_, .setF32 _ _ (.copy (.commit (.setF32 _ _ .new) rfl) rfl), rfl⟩

/-- Outside streams C89 needs the commit: a deformer whose attribute is changed after the commit
still deforms with the old value, and a plain copy deforms with no values at all. -/
theorem C89_counterexample : ∃ d : LensDeformer (Fin 256),
    History shiftLens [.setF32 "distortion" 5, .commit, .setF32 "distortion" 3] d ∧
    d.values.getF32 "distortion" = 5 ∧ d.apply shiftLens 1 1 false = .ok (4, 1) ∧
    History shiftLens [.plainCopy, .setF32 "distortion" 5, .commit, .setF32 "distortion" 3] d.clone ∧
    d.clone.apply shiftLens 1 1 false = .ok (1, 1) :=
  ⟨_, .setF32 _ _ (.commit (.setF32 _ _ .new) rfl), rfl, rfl,
    .plainCopy (.setF32 _ _ (.commit (.setF32 _ _ .new) rfl)), rfl⟩

end OCG.Props
