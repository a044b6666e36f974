import Verif.Model.Cache
import Verif.Lemmas.MapM
import Verif.Props.StateSpace

/-! Helper lemmas on the cache. -/

set_option linter.unusedSectionVars false

namespace Respy

variable {A P R : Type _}

/-- Neither path is contained in the other. -/
def Incomparable (d e : Path) : Prop := ¬ d <+: e ∧ ¬ e <+: d

theorem rmtree_other (fs : FileSystem A) (d e : Path) (h : ¬ d <+: e) : rmtree fs d e = fs e := by
  simp [rmtree, h]

theorem mkdirParents_some (fs : FileSystem A) (d e : Path) (v : Name → Option A)
    (h : fs e = some v) : mkdirParents fs d e = some v := by
  simp [mkdirParents, h]

theorem prepare_other (fs : FileSystem A) (d e : Path) (h : ¬ d <+: e) (v : Name → Option A)
    (hv : fs e = some v) : prepareCacheDirectory fs d e = some v := by
  unfold prepareCacheDirectory
  apply mkdirParents_some
  split
  · rw [rmtree_other _ _ _ h, hv]
  · exact hv

theorem prepare_self (fs : FileSystem A) (d : Path) :
    prepareCacheDirectory fs d d = some fun _ => none := by
  unfold prepareCacheDirectory mkdirParents
  cases h : fs d with
  | none => simp [h]
  | some v => simp [rmtree]

theorem dump_other (fs fs' : FileSystem A) (d e : Path) (n : Name) (a : A) (h : e ≠ d)
    (hd : dump fs d n a = some fs') : fs' e = fs e := by
  unfold dump at hd
  obtain ⟨files, _, rfl⟩ := Option.map_eq_some_iff.1 hd
  simp [h]

theorem dump_self (fs : FileSystem A) (d : Path) (n : Name) (a : A) (files : Name → Option A)
    (h : fs d = some files) : ∃ fs', dump fs d n a = some fs' ∧
      fs' d = some fun m => if m = n then some a else files m := by
  unfold dump
  rw [h]
  exact ⟨_, rfl, by simp⟩

/-- The files after a list of dumps. -/
def dumpedFiles (topic : List Char) (l : List (Complex × A)) (files : Name → Option A) :
    Name → Option A :=
  l.foldl (fun files ca => fun m => if m = fileName topic ca.1 then some ca.2 else files m) files

theorem dumps_spec (topic : List Char) (d : Path) (l : List (Complex × A)) (fs : FileSystem A)
    (files : Name → Option A) (h : fs d = some files) :
    ∃ fs', (l.foldlM (init := fs) fun fs ca => dump fs d (fileName topic ca.1) ca.2) = some fs' ∧
      fs' d = some (dumpedFiles topic l files) ∧ ∀ e, e ≠ d → fs' e = fs e := by
  induction l generalizing fs files with
  | nil => exact ⟨fs, rfl, h, fun _ _ => rfl⟩
  | cons ca l ih =>
    obtain ⟨fs1, h1, h2⟩ := dump_self fs d (fileName topic ca.1) ca.2 files h
    obtain ⟨fs2, h3, h4, h5⟩ := ih fs1 _ h2
    refine ⟨fs2, ?_, h4, fun e he => (h5 e he).trans (dump_other _ _ _ _ _ _ he h1)⟩
    simp only [List.foldlM_cons, h1, Option.bind_eq_bind, Option.bind_some]
    exact h3

/-- The files of a model which has just been created. -/
def CacheModel.createdFiles (m : CacheModel A P R) : Name → Option A :=
  dumpedFiles statesTopic m.states fun _ => none

theorem create_spec (m : CacheModel A P R) (fs : FileSystem A) :
    ∃ fs', m.create fs = some fs' ∧ fs' m.dir = some m.createdFiles ∧
      ∀ e v, ¬ m.dir <+: e → fs e = some v → fs' e = some v := by
  obtain ⟨fs', h1, h2, h3⟩ := dumps_spec statesTopic m.dir m.states _ _ (prepare_self fs m.dir)
  refine ⟨fs', h1, h2, fun e v he hv => ?_⟩
  rw [h3 e (fun hc => he (hc ▸ List.prefix_rfl))]
  exact prepare_other fs m.dir e he v hv

theorem states_ne_transition (c c' : Complex) :
    fileName statesTopic c ≠ fileName transitionTopic c' := by
  intro h
  obtain ⟨h, _⟩ := C09_file_names_injective statesTopic transitionTopic (by decide) (by decide) _ _ h
  exact absurd h (by decide)

/-- The directory of a model is intact: it exists and all files with states are as created. -/
def Intact (m : CacheModel A P R) (fs : FileSystem A) : Prop :=
  ∃ files, fs m.dir = some files ∧
    ∀ c, files (fileName statesTopic c) = m.createdFiles (fileName statesTopic c)

theorem dump_transition_intact (m : CacheModel A P R) (fs fs' : FileSystem A) (c : Complex) (t : A)
    (h : Intact m fs) (hd : dump fs m.dir (fileName transitionTopic c) t = some fs') :
    Intact m fs' := by
  obtain ⟨files, hf, hs⟩ := h
  obtain ⟨fs'', h1, h2⟩ := dump_self fs m.dir (fileName transitionTopic c) t files hf
  rw [h1] at hd; cases hd
  refine ⟨_, h2, fun c' => ?_⟩
  simp only [states_ne_transition c' c, if_false]
  exact hs c'

/-- Evaluation changes no other directory and keeps the own directory intact. -/
theorem paramObjects_frame (m : CacheModel A P R) (p : P) (cs : List Complex) (fs : FileSystem A) :
    (∀ e, e ≠ m.dir → (m.paramObjects p cs fs).1 e = fs e) ∧
    (Intact m fs → Intact m (m.paramObjects p cs fs).1) := by
  induction cs generalizing fs with
  | nil => exact ⟨fun _ _ => rfl, id⟩
  | cons c cs ih =>
    unfold CacheModel.paramObjects
    cases load fs m.dir (fileName statesTopic c) with
    | none => exact ⟨fun _ _ => rfl, id⟩
    | some s =>
      cases htr : m.transition with
      | none => simp only; exact ih fs
      | some tr =>
        simp only
        cases htp : tr p c s with
        | none => exact ⟨fun _ _ => rfl, id⟩
        | some t =>
          simp only [Option.bind_some]
          cases hd : dump fs m.dir (fileName transitionTopic c) t with
          | none => exact ⟨fun _ _ => rfl, id⟩
          | some fs' =>
            obtain ⟨h1, h2⟩ := ih fs'
            exact ⟨fun e he => (h1 e he).trans (dump_other _ _ _ _ _ _ he hd),
              fun hi => h2 (dump_transition_intact m fs fs' c t hi hd)⟩

theorem load_states_of_intact (m : CacheModel A P R) (fs : FileSystem A) (h : Intact m fs)
    (c : Complex) :
    load fs m.dir (fileName statesTopic c) = m.createdFiles (fileName statesTopic c) := by
  obtain ⟨files, hf, hs⟩ := h
  simp [load, hf, hs]

/-- Two intact file systems: the outcome agrees, and the transition files written agree. -/
theorem paramObjects_agree (m : CacheModel A P R) (p : P) (cs : List Complex)
    (fs fs' : FileSystem A) (h : Intact m fs) (h' : Intact m fs') :
    (m.paramObjects p cs fs).2 = (m.paramObjects p cs fs').2 ∧
    ((m.paramObjects p cs fs).2.isSome = true → m.transition.isSome = true → ∀ n,
      (n ∈ cs.map (fileName transitionTopic) ∨ load fs m.dir n = load fs' m.dir n) →
      load (m.paramObjects p cs fs).1 m.dir n = load (m.paramObjects p cs fs').1 m.dir n) := by
  induction cs generalizing fs fs' with
  | nil => exact ⟨rfl, fun _ _ n hn => hn.resolve_left (by simp)⟩
  | cons c cs ih =>
    unfold CacheModel.paramObjects
    rw [load_states_of_intact m fs h, load_states_of_intact m fs' h']
    cases m.createdFiles (fileName statesTopic c) with
    | none => exact ⟨rfl, fun hc => by simp at hc⟩
    | some s =>
      cases htr : m.transition with
      | none =>
        simp only
        obtain ⟨i1, _⟩ := ih fs fs' h h'
        exact ⟨by rw [i1], fun _ hc => by simp at hc⟩
      | some tr =>
        simp only
        cases htp : tr p c s with
        | none => exact ⟨rfl, fun hc => by simp at hc⟩
        | some t =>
          obtain ⟨files, hf, hs⟩ := h
          obtain ⟨files', hf', hs'⟩ := h'
          obtain ⟨g, g1, g2⟩ := dump_self fs m.dir (fileName transitionTopic c) t files hf
          obtain ⟨g', g1', g2'⟩ := dump_self fs' m.dir (fileName transitionTopic c) t files' hf'
          simp only [Option.bind_some, g1, g1']
          obtain ⟨i1, i2⟩ := ih g g' (dump_transition_intact m fs g c t ⟨files, hf, hs⟩ g1)
            (dump_transition_intact m fs' g' c t ⟨files', hf', hs'⟩ g1')
          refine ⟨by rw [i1], fun hok _ n hn => ?_⟩
          refine i2 (by simpa using hok) (by simp [htr]) n ?_
          by_cases hnc : n = fileName transitionTopic c
          · right; simp [load, g2, g2', hnc]
          · rcases hn with hn | hn
            · left
              simpa [hnc] using hn
            · right
              simp only [load, g2, g2', Option.bind_some, hnc, if_false]
              simpa [load, hf, hf'] using hn

theorem evaluate_agree (m : CacheModel A P R) (p : P) (fs fs' : FileSystem A) (h : Intact m fs)
    (h' : Intact m fs') : (m.evaluate p fs).2 = (m.evaluate p fs').2 := by
  obtain ⟨h1, h2⟩ := paramObjects_agree m p m.complexes fs fs' h h'
  unfold CacheModel.evaluate
  simp only
  cases hr : (m.paramObjects p m.complexes fs).2 with
  | none => rw [← h1, hr]; rfl
  | some states =>
    rw [← h1, hr]
    simp only [Option.bind_some]
    cases htr : m.transition with
    | none => rfl
    | some tr =>
      simp only
      congr 1
      apply mapM_congr
      intro c hc
      exact h2 (by rw [hr]; rfl) (by rw [htr]; rfl) _ (Or.inl (List.mem_map_of_mem hc))

theorem dumpedFiles_get (topic : List Char) (ht : '_' ∉ topic) (l : List (Complex × A))
    (hn : (l.map Prod.fst).Nodup) (files : Name → Option A) :
    (∀ c a, (c, a) ∈ l → dumpedFiles topic l files (fileName topic c) = some a) ∧
    ∀ c, c ∉ l.map Prod.fst → dumpedFiles topic l files (fileName topic c) =
      files (fileName topic c) := by
  induction l generalizing files with
  | nil => exact ⟨fun _ _ h => by simp at h, fun _ _ => rfl⟩
  | cons ca l ih =>
    simp only [List.map_cons, List.nodup_cons] at hn
    obtain ⟨i1, i2⟩ := ih hn.2 (fun m => if m = fileName topic ca.1 then some ca.2 else files m)
    have hrw : dumpedFiles topic (ca :: l) files = dumpedFiles topic l
      (fun m => if m = fileName topic ca.1 then some ca.2 else files m) := rfl
    rw [hrw]
    constructor
    · intro c a hca
      rcases List.mem_cons.1 hca with h | h
      · subst h
        rw [i2 c hn.1]; simp
      · exact i1 c a h
    · intro c hc
      simp only [List.map_cons, List.mem_cons, not_or] at hc
      rw [i2 c hc.2]
      have : fileName topic c ≠ fileName topic ca.1 := by
        intro h
        exact hc.1 (C09_file_names_injective topic topic ht ht _ _ h).2
      simp [this]

/-- Evaluation on an intact directory, without reference to the file system. -/
theorem paramObjects_values (m : CacheModel A P R) (p : P) (content : Complex → A)
    (hst : ∀ c ∈ m.complexes, m.createdFiles (fileName statesTopic c) = some (content c))
    (tr : P → Complex → A → Option A) (htr : m.transition = some tr)
    (t : Complex → A) (ht : ∀ c ∈ m.complexes, tr p c (content c) = some (t c))
    (cs : List Complex) (hcs : ∀ c ∈ cs, c ∈ m.complexes) (fs : FileSystem A) (h : Intact m fs) :
    (m.paramObjects p cs fs).2 = some (cs.map content) ∧
    ∀ c ∈ m.complexes, (c ∈ cs ∨ load fs m.dir (fileName transitionTopic c) = some (t c)) →
      load (m.paramObjects p cs fs).1 m.dir (fileName transitionTopic c) = some (t c) := by
  induction cs generalizing fs with
  | nil => exact ⟨rfl, fun c _ hl => hl.resolve_left (by simp)⟩
  | cons c cs ih =>
    have hc := hcs c (by simp)
    obtain ⟨files, hf, hs⟩ := h
    obtain ⟨g, g1, g2⟩ := dump_self fs m.dir (fileName transitionTopic c) (t c) files hf
    unfold CacheModel.paramObjects
    rw [load_states_of_intact m fs ⟨files, hf, hs⟩, hst c hc]
    simp only [htr, ht c hc, Option.bind_some, g1]
    obtain ⟨i1, i2⟩ := ih (fun x hx => hcs x (by simp [hx])) g
      (dump_transition_intact m fs g c _ ⟨files, hf, hs⟩ g1)
    refine ⟨by rw [i1]; rfl, fun x hx hl => i2 x hx ?_⟩
    by_cases hxc : x = c
    · right; subst hxc; simp [load, g2]
    · rcases hl with hl | hl
      · left; simpa [hxc] using hl
      · right
        have hne : fileName transitionTopic x ≠ fileName transitionTopic c := fun he =>
          hxc (C09_file_names_injective _ _ (by decide) (by decide) _ _ he).2
        simp only [load, g2, Option.bind_some, hne, if_false]
        simpa [load, hf] using hl

theorem paramObjects_values_none (m : CacheModel A P R) (p : P) (content : Complex → A)
    (hst : ∀ c ∈ m.complexes, m.createdFiles (fileName statesTopic c) = some (content c))
    (htr : m.transition = none)
    (cs : List Complex) (hcs : ∀ c ∈ cs, c ∈ m.complexes) (fs : FileSystem A) (h : Intact m fs) :
    (m.paramObjects p cs fs).2 = some (cs.map content) := by
  induction cs with
  | nil => rfl
  | cons c cs ih =>
    unfold CacheModel.paramObjects
    rw [load_states_of_intact m fs h, hst c (hcs c (by simp))]
    simp only [htr]
    rw [ih (fun x hx => hcs x (by simp [hx]))]
    rfl

end Respy
