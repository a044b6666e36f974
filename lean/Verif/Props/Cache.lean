import Verif.Lemmas.Cache

/-!
# Properties of the cache directory: C16, C56
-/

set_option linter.unusedSectionVars false

namespace Respy

variable {A P R : Type _}

/-! ## C56 -/

/-- **C56.** Whatever is specified, the directory which is deleted and recreated is named `.respy`,
it is absolute, and processing the result again (from any working directory) does not change it. -/
theorem C56_cache_directory (cwd : Path) (p : Option UserPath) :
    (parseCacheDirectory cwd p).absolute = true ∧
    (parseCacheDirectory cwd p).parts.getLast? = some ".respy".toList ∧
    ∀ cwd', parseCacheDirectory cwd' (some (parseCacheDirectory cwd p)) =
      parseCacheDirectory cwd p := by
  have key : ∀ q : UserPath, q.absolute = true → q.parts.getLast? = some respyName →
      ∀ cwd', parseCacheDirectory cwd' (some q) = q := by
    intro q h1 h2 cwd'
    simp [parseCacheDirectory, h1, h2]
  have h1 : (parseCacheDirectory cwd p).absolute = true := by
    unfold parseCacheDirectory
    simp only
    split <;> split <;> first | assumption | rfl
  have h2 : (parseCacheDirectory cwd p).parts.getLast? = some respyName := by
    unfold parseCacheDirectory
    simp only
    generalize (if (p.getD ⟨false, [respyName]⟩).absolute = true then p.getD ⟨false, [respyName]⟩
      else ⟨true, cwd ++ (p.getD ⟨false, [respyName]⟩).parts⟩ : UserPath) = q
    split
    · assumption
    · simp
  exact ⟨h1, h2, key _ h1 h2⟩

/-- **C56.** Preparing the cache directory deletes files only below this directory, and leaves it
empty. -/
theorem C56_only_cache_deleted (fs : FileSystem A) (d : Path) :
    (∀ e, ¬ d <+: e → (fs e).isSome = true → prepareCacheDirectory fs d e = fs e) ∧
    prepareCacheDirectory fs d d = some fun _ => none := by
  refine ⟨fun e he hs => ?_, prepare_self fs d⟩
  obtain ⟨v, hv⟩ := Option.isSome_iff_exists.1 hs
  rw [hv, prepare_other fs d e he v hv]

/-- A relative directory of the user gets a subdirectory, the default is used as it is. -/
example : (parseCacheDirectory ["home".toList] (some ⟨false, ["data".toList]⟩)).parts =
      ["home".toList, "data".toList, ".respy".toList] ∧
    (parseCacheDirectory ["home".toList] none).parts = ["home".toList, ".respy".toList] := by
  decide +kernel

/-! ## C16 -/

/-- What model `m` computes alone: it is created on some file system and evaluated. -/
def aloneResult (m : CacheModel A P R) (p : P) (fs : FileSystem A) : Option R :=
  (m.create fs).bind fun fs' => (m.evaluate p fs').2

/-- **C16 (partial).** Let any number of models have cache directories none of which contains another.
In every interleaving of creations and evaluations of these models, an evaluation of a model which
has been created gives what it gives alone. Missing: models with the same or nested directories, for
which the property fails (`C16_same_directory_false`, `C16_nested_directory_false`). -/
theorem C16_no_interference_partial {ι : Type _} (m : ι → CacheModel A P R)
    (hdir : ∀ i j, i ≠ j → ¬ (m i).dir <+: (m j).dir)
    (es : List (CacheEvent ι P)) (i : ι) (hi : CacheEvent.create i ∈ es) (p : P)
    (fs fs' : FileSystem A) :
    ((m i).evaluate p (cacheRun m es fs)).2 = aloneResult (m i) p fs' := by
  have hstep : ∀ (e : CacheEvent ι P) (fs : FileSystem A),
      (e = .create i ∨ Intact (m i) fs) → Intact (m i) (cacheStep m fs e) := by
    intro e fs h
    cases e with
    | create j =>
      obtain ⟨g, g1, g2, g3⟩ := create_spec (m j) fs
      simp only [cacheStep, g1, Option.getD_some]
      by_cases hj : j = i
      · subst hj; exact ⟨_, g2, fun _ => rfl⟩
      · rcases h with h | ⟨files, hf, hs⟩
        · cases h; exact absurd rfl hj
        · exact ⟨files, g3 _ _ (hdir j i hj) hf, hs⟩
    | evaluate j q =>
      rcases h with h | h
      · cases h
      obtain ⟨f1, f2⟩ := paramObjects_frame (m j) q (m j).complexes fs
      simp only [cacheStep, CacheModel.evaluate]
      by_cases hj : j = i
      · subst hj; exact f2 h
      · obtain ⟨files, hf, hs⟩ := h
        refine ⟨files, ?_, hs⟩
        rw [f1 _ (fun hc => hdir j i hj (hc ▸ List.prefix_rfl)), hf]
  have hrun : ∀ (es : List (CacheEvent ι P)) (fs : FileSystem A),
      (CacheEvent.create i ∈ es ∨ Intact (m i) fs) → Intact (m i) (cacheRun m es fs) := by
    intro es
    induction es with
    | nil => intro fs h; simpa [cacheRun] using h
    | cons e es ih =>
      intro fs h
      refine ih (cacheStep m fs e) ?_
      rcases h with h | h
      · rcases List.mem_cons.1 h with h | h
        · exact Or.inr (hstep e fs (Or.inl h.symm))
        · exact Or.inl h
      · exact Or.inr (hstep e fs (Or.inr h))
  obtain ⟨g, g1, g2, _⟩ := create_spec (m i) fs'
  rw [aloneResult, g1, Option.bind_some]
  exact evaluate_agree (m i) p _ _ (hrun es fs (Or.inl hi)) ⟨_, g2, fun _ => rfl⟩

/-- **C16.** The cache is transparent: alone, a model computes from each complex exactly the states
which were created for it, and the transition probabilities of the current parameters. -/
theorem C16_cache_transparent (m : CacheModel A P R) (hn : (m.states.map Prod.fst).Nodup)
    (content : Complex → A) (hc : ∀ c ∈ m.complexes, (c, content c) ∈ m.states)
    (p : P) (fs : FileSystem A) :
    (m.transition = none → aloneResult m p fs = m.result p (m.complexes.map content) []) ∧
    ∀ tr t, m.transition = some tr → (∀ c ∈ m.complexes, tr p c (content c) = some (t c)) →
      aloneResult m p fs = m.result p (m.complexes.map content) (m.complexes.map t) := by
  obtain ⟨g, g1, g2, _⟩ := create_spec m fs
  have hint : Intact m g := ⟨_, g2, fun _ => rfl⟩
  have hst : ∀ c ∈ m.complexes, m.createdFiles (fileName statesTopic c) = some (content c) :=
    fun c h => (dumpedFiles_get statesTopic (by decide) m.states hn _).1 c _ (hc c h)
  constructor
  · intro htr
    rw [aloneResult, g1, Option.bind_some]
    simp only [CacheModel.evaluate, htr]
    rw [paramObjects_values_none m p content hst htr _ (fun _ h => h) g hint]
    rfl
  · intro tr t htr ht
    rw [aloneResult, g1, Option.bind_some]
    simp only [CacheModel.evaluate, htr]
    obtain ⟨i1, i2⟩ := paramObjects_values m p content hst tr htr t ht m.complexes (fun _ h => h)
      g hint
    rw [i1, Option.bind_some]
    have : (m.complexes.mapM fun c => load (m.paramObjects p m.complexes g).1 m.dir
        (fileName transitionTopic c)) = some (m.complexes.map t) := by
      rw [mapM_eq_some_iff]
      rw [List.forall₂_map_right_iff]
      exact List.forall₂_same.2 fun c hcm => i2 c hcm (Or.inl hcm)
    rw [this, Option.bind_some]

/-- A model with one state space part with content `x`; it returns the content times the
parameter. -/
def exampleCacheModel (dir : Path) (x : Nat) : CacheModel Nat Nat Nat where
  dir := dir
  states := [(⟨0, [true], none⟩, x)]
  complexes := [⟨0, [true], none⟩]
  transition := none
  result := fun p s _ => s.head?.map (· * p)

def dirA : Path := ["a".toList, ".respy".toList]
def dirB : Path := ["b".toList, ".respy".toList]

/-- Two models in different directories, an interleaving. -/
example : (∀ i j : Bool, i ≠ j →
      ¬ ((fun b : Bool => if b then exampleCacheModel dirA 3 else exampleCacheModel dirB 5) i).dir <+:
        ((fun b : Bool => if b then exampleCacheModel dirA 3 else exampleCacheModel dirB 5) j).dir) ∧
    ((exampleCacheModel dirA 3).evaluate 2 (cacheRun
      (fun b : Bool => if b then exampleCacheModel dirA 3 else exampleCacheModel dirB 5)
      [.create true, .create false, .evaluate false 7] fun _ => none)).2 = some 6 := by
  decide +kernel

/-- **C16 (negated).** Two models with the default cache directory: after the second has been
created, the first one is evaluated on the states of the second. -/
theorem C16_same_directory_false :
    (parseCacheDirectory ["a".toList] none).parts = dirA ∧
    ∃ m : Bool → CacheModel Nat Nat Nat, (∀ b, (m b).dir = dirA) ∧
      aloneResult (m true) 2 (fun _ => none) = some 6 ∧
      ((m true).evaluate 2 (cacheRun m [.create true, .create false] fun _ => none)).2 = some 10 := by
  refine ⟨by decide +kernel, fun b => exampleCacheModel dirA (if b then 3 else 5), fun _ => rfl,
    by decide +kernel, by decide +kernel⟩

/-- **C16 (negated).** Different directories are not enough: creating a model deletes the cache of a
model whose cache lies below its own cache directory, and the evaluation of this model fails. -/
theorem C16_nested_directory_false :
    ∃ m : Bool → CacheModel Nat Nat Nat, (m true).dir ≠ (m false).dir ∧
      (m true).dir = (parseCacheDirectory [] (some ⟨true, dirA ++ ["b".toList]⟩)).parts ∧
      (m false).dir = (parseCacheDirectory [] (some ⟨true, dirA⟩)).parts ∧
      aloneResult (m true) 2 (fun _ => none) = some 6 ∧
      ((m true).evaluate 2 (cacheRun m [.create true, .create false] fun _ => none)).2 = none := by
  refine ⟨fun b => if b then exampleCacheModel (dirA ++ dirB) 3 else exampleCacheModel dirA 5,
    by decide +kernel, by decide +kernel, by decide +kernel, by decide +kernel, by decide +kernel⟩

end Respy
