import Verif.Props.Grown

/-!
# One requirement in a file is replaced by another one with the same id

What this means for the artefact and for the project.  Used for changes of titles and of references (C140, C141).
-/

namespace Reqtrace

open Spec

/-- The file says `new` where it said `old`, and else the same. -/
def Replaces (env : Env) (w w' : World) (parser : ArtefactParser) (p : Path) (old new : Requirement) : Prop :=
  ∀ reqs errs, PathMeans env w parser p reqs errs →
    ∃ a b, reqs = a ++ old :: b ∧ PathMeans env w' parser p (a ++ new :: b) errs

theorem paths_replace {env : Env} {w w' : World} {parser : ArtefactParser} {p : Path} {old new : Requirement} {post : List Path}
    (h : Replaces env w w' parser p old new) : ∀ {pre : List Path} {reqs : List Requirement} {errs : List Error},
    (∀ q ∈ pre ++ post, SameFile env w w' q) → PathsMean env w parser (pre ++ p :: post) reqs errs →
    ∃ a b, reqs = a ++ old :: b ∧ PathsMean env w' parser (pre ++ p :: post) (a ++ new :: b) errs
  | [], reqs, errs, hs, hp => by
    cases hp with
    | @cons _ _ r rs e es h1 h2 =>
      obtain ⟨a, b, rfl, h3⟩ := h _ _ h1
      refine ⟨a, b ++ rs, by simp, ?_⟩
      have := PathsMean.cons h3 (paths_same h2 (fun q hq => hs q (by simp [hq])))
      simpa using this
  | q :: pre, reqs, errs, hs, hp => by
    cases hp with
    | @cons _ _ r rs e es h1 h2 =>
      obtain ⟨a, b, rfl, h3⟩ := paths_replace h (pre := pre) (fun q hq => hs q (by simp at hq ⊢; exact .inr hq)) h2
      refine ⟨r ++ a, b, by simp, ?_⟩
      have := PathsMean.cons (pathMeans_same (hs q (by simp)) h1) h3
      simpa using this

/-- If the id is given twice, there is an error. -/
theorem fresh_of_no_duplicate {x y : List Requirement} {old : Requirement}
    (h : ∀ first again, Error.duplicateRequirement first again ∈ duplicates (x ++ old :: y) → first.id ≠ old.id) :
    ∀ r ∈ x ++ y, r.id ≠ old.id := by
  intro r hr he
  rcases List.mem_append.1 hr with hr | hr
  · cases hf : x.find? (fun r => r.id = old.id) with
    | none => exact List.find?_eq_none.1 hf r hr (by simp [he])
    | some f =>
      refine h f old (mem_duplicates.2 ⟨x.length, by simp, by simpa using hf⟩) ?_
      simpa using List.find?_some hf
  · obtain ⟨a, b, rfl⟩ := List.append_of_mem hr
    cases hf : (x ++ old :: a).find? (fun s => s.id = r.id) with
    | none => exact List.find?_eq_none.1 hf old (by simp) (by simp [he])
    | some f =>
      have e1 : x ++ old :: (a ++ r :: b) = (x ++ old :: a) ++ r :: b := by simp
      rw [e1] at h
      refine h f r (mem_duplicates.2 ⟨(x ++ old :: a).length, by rw [List.getElem?_append_right (Nat.le_refl _), Nat.sub_self]; rfl, by rw [List.take_left]; exact hf⟩) ?_
      have := List.find?_some hf
      simp only [decide_eq_true_eq] at this
      rw [this, he]

theorem collect_replace {old new : Requirement} {a b : List Requirement} {e : List Error} (hid : new.id = old.id)
    (h : ∀ r ∈ a ++ b, r.id ≠ old.id) :
    (collectRequirements (a ++ new :: b) .empty e).2 = (collectRequirements (a ++ old :: b) .empty e).2 ∧
    (∀ k, (collectRequirements (a ++ new :: b) .empty e).1.get k =
      if k = old.id then some new else (collectRequirements (a ++ old :: b) .empty e).1.get k) ∧
    ∀ p : Requirement → Bool, p old = false → p new = false →
      (collectRequirements (a ++ new :: b) .empty e).1.values.filter p =
        (collectRequirements (a ++ old :: b) .empty e).1.values.filter p := by
  obtain ⟨h1, h2⟩ := collect_grows (n := old) (e := e) h
  obtain ⟨h3, h4⟩ := collect_grows (n := new) (e := e) (a := a) (b := b) (by rw [hid]; exact h)
  have hno : (collectRequirements (a ++ b) .empty e).1.get old.id = none := by
    rw [(collect_eq ..).1, List.find?_eq_none]
    exact fun r hr => by simpa using h r hr
  refine ⟨h3.trans h1.symm, fun k => ?_, fun p hp hp' => ?_⟩
  · rw [h4, h2, hid]
    by_cases hk : k = old.id
    · rw [if_pos hk, if_pos hk]
    · rw [if_neg hk, if_neg hk, if_neg hk]
  · rw [values_grow hp' (by rw [hid]; exact hno) h4, values_grow hp hno h2]

theorem makeArtefact_replace {env : Env} {w w' : World} (hg : SameMatches env w w') {base : Path} {ac : ArtefactConfig}
    {roots : BMap ArtefactId Bool} {old new : Requirement} {pre post : List Path} {p : Path} (hid : new.id = old.id)
    (ht : ac.referenceWithTitle = some true → old.title ≠ none ∧ new.title ≠ none)
    (hf : FilesOf env w ac base (pre ++ p :: post))
    (hp : Replaces env w w' ac.parser p old new) (hs : ∀ q ∈ pre ++ post, SameFile env w w' q) {a : Artefact}
    (h : makeArtefact env w base roots ac = .ok a)
    (hd : ∀ first again, Error.duplicateRequirement first again ∈ a.errors → first.id ≠ old.id) :
    a.requirements.get old.id = some old ∧
    ∃ reqs, makeArtefact env w' base roots ac = .ok { a with requirements := reqs } ∧
      ∀ k, reqs.get k = if k = old.id then some new else a.requirements.get k := by
  obtain ⟨root, files, m, errs, h1, h2, rfl⟩ := makeArtefact_ok h
  obtain ⟨reqs, perrs, h3, rfl, h5⟩ := parseFromConfig_ok h2
  have h6 : PathsMean env w ac.parser (pre ++ p :: post) reqs perrs ∧ files = pre ++ p :: post := by
    obtain ⟨a1, a2⟩ := (parseArtefact_filesOf hf _).1 h3
    simp only [Prod.mk.injEq] at a2
    exact ⟨(pathsMean_iff _ _ _).2 ⟨a1, a2.2.1, a2.2.2⟩, a2.1⟩
  obtain ⟨h6, rfl⟩ := h6
  obtain ⟨x, y, rfl, h7⟩ := paths_replace hp hs h6
  have h8 := parseArtefact_iff.2 (.files (filesOf_same hg hf) h7)
  have hfresh : ∀ r ∈ x ++ y, r.id ≠ old.id := by
    refine fresh_of_no_duplicate fun f s hfs => hd f s ?_
    simp only [h5]
    split
    · exact List.mem_append.2 (.inl (List.mem_append.2 (.inr hfs)))
    · exact List.mem_append.2 (.inr hfs)
  obtain ⟨h9, h10, h11⟩ := collect_replace (e := perrs) hid hfresh
  refine ⟨?_, (collectRequirements (x ++ new :: y) .empty perrs).1, ?_, h10⟩
  · simp only
    rw [(collect_eq ..).1, List.find?_append, List.find?_eq_none.2 (fun r hr => by simpa using hfresh r (by simp [hr]))]
    simp
  · have h12 : errs = (collectRequirements (x ++ old :: y) .empty perrs).2 := by rw [h5]; exact (collect_eq ..).2.symm
    subst h12
    unfold makeArtefact parseFromConfig
    rw [h1, h8]
    simp only [orPanic, bind, Except.bind, pure, Except.pure, Except.ok.injEq, Artefact.mk.injEq, true_and]
    cases hb : ac.referenceWithTitle with
    | none => simpa using h9
    | some b =>
      cases b with
      | false => simpa using h9
      | true =>
        simp only [Option.getD_some, if_true]
        obtain ⟨t1, t2⟩ := ht hb
        rw [h9, h11 (fun r => r.title.isNone)]
        · cases hx : old.title with
          | none => exact absurd hx t1
          | some v => rfl
        · cases hx : new.title with
          | none => exact absurd hx t2
          | some v => rfl

/-- One artefact is read differently, all others the same. -/
theorem makeArtefacts_one {env : Env} {w w' : World} {base : Path} {roots : BMap ArtefactId Bool} {before aft : List ArtefactConfig}
    {ac : ArtefactConfig} (h3 : ∀ b ∈ aft, b.id ≠ ac.id)
    (hsame : ∀ b ∈ before ++ aft, makeArtefact env w' base roots b = makeArtefact env w base roots b)
    {m : BMap ArtefactId Artefact} (h2 : makeArtefacts env w base roots (before ++ ac :: aft) .empty = .ok m) :
    ∃ art, makeArtefact env w base roots ac = .ok art ∧ m.get ac.id = some art ∧
      ∀ art', makeArtefact env w' base roots ac = .ok art' →
        ∃ m', makeArtefacts env w' base roots (before ++ ac :: aft) .empty = .ok m' ∧
          ∀ k, m'.get k = if k = ac.id then some art' else m.get k := by
  rw [makeArtefacts_append] at h2 ⊢
  rw [makeArtefacts_congr before (fun b hb => hsame b (by simp [hb]))]
  cases hb : makeArtefacts env w base roots before .empty with
  | error e => rw [hb] at h2; cases h2
  | ok m0 =>
    rw [hb] at h2
    simp only [Except.bind] at h2 ⊢
    rw [makeArtefacts] at h2 ⊢
    cases ha : makeArtefact env w base roots ac with
    | error e => rw [ha] at h2; cases h2
    | ok a =>
      rw [ha] at h2
      have h2' : makeArtefacts env w base roots aft (m0.insert ac.id a) = .ok m := h2
      obtain ⟨g1, -⟩ := makeArtefacts_other aft h3 (a' := a) (m' := m0.insert ac.id a) (fun k => by
        rw [BMap.get_insert]
        by_cases hk : k = ac.id
        · rw [if_pos hk, if_pos hk]
        · rw [if_neg hk, if_neg hk]) h2'
      rw [BMap.get_insert, if_pos rfl] at g1
      refine ⟨a, rfl, g1, fun art' ha' => ?_⟩
      obtain ⟨-, m1', g4, g5⟩ := makeArtefacts_other aft h3 (a' := art') (m' := m0.insert ac.id art') (fun k => by
          rw [BMap.get_insert, BMap.get_insert]
          by_cases hk : k = ac.id
          · rw [if_pos hk, if_pos hk]
          · rw [if_neg hk, if_neg hk, if_neg hk]) h2'
      refine ⟨m1', ?_, g5⟩
      rw [ha']
      show makeArtefacts env w' base roots aft _ = _
      rw [makeArtefacts_congr aft (fun b hb => hsame b (by simp [hb]))]
      exact g4

/-- The graph has the requirement `new` in the artefact `x` instead of `old`, which has the same id. -/
structure ReplacesRequirement (g g' : Graph) (x : ArtefactId) (old new : Requirement) : Prop where
  relations : g'.relations = g.relations
  others : ∀ a, a ≠ x → g'.artefacts.get a = g.artefacts.get a
  artefact : ∃ art reqs, g.artefacts.get x = some art ∧ g'.artefacts.get x = some { art with requirements := reqs } ∧
    art.requirements.get old.id = some old ∧ ∀ k, reqs.get k = if k = old.id then some new else art.requirements.get k
  id : new.id = old.id

theorem ReplacesRequirement.keyed {g g' : Graph} {x : ArtefactId} {old new : Requirement}
    (h : ReplacesRequirement g g' x old new) (hk : Keyed g) : Keyed g' := by
  obtain ⟨art, reqs, h1, h2, -, h3⟩ := h.artefact
  constructor
  · intro a b hb
    by_cases ha : a = x
    · subst ha
      rw [h2] at hb; cases hb
      exact (hk.artefact _ art h1 :)
    · rw [h.others a ha] at hb
      exact hk.artefact _ _ hb
  · intro a b hb k r hr
    by_cases ha : a = x
    · subst ha
      rw [h2] at hb; cases hb
      simp only [h3] at hr
      by_cases hkn : k = old.id
      · rw [if_pos hkn] at hr; cases hr
        rw [h.id, hkn]
      · rw [if_neg hkn] at hr
        exact hk.requirement _ _ h1 _ _ hr
    · rw [h.others a ha] at hb
      exact hk.requirement _ _ hb _ _ hr

theorem ReplacesRequirement.relationsExist {g g' : Graph} {x : ArtefactId} {old new : Requirement}
    (h : ReplacesRequirement g g' x old new) (hr : RelationsExist g) : RelationsExist g' := by
  obtain ⟨art, reqs, h1, h2, -, h3⟩ := h.artefact
  have key : ∀ a, (∃ art, g.artefacts.get a = some art) → ∃ art, g'.artefacts.get a = some art := by
    intro a ha
    by_cases e : a = x
    · subst e; exact ⟨_, h2⟩
    · rw [h.others a e]; exact ha
  intro rel hrel
  rw [h.relations] at hrel
  exact ⟨key _ (hr rel hrel).1, fun a ha => key a ((hr rel hrel).2 a ha)⟩

/-- The project is as before, but for one file of one artefact, in which a requirement is replaced. -/
theorem project_replace {env : Env} {w w' : World} {base : Path} {config : Config} {before aft : List ArtefactConfig}
    {ac : ArtefactConfig} {pre post : List Path} {p : Path} {old new : Requirement} (hm : SameMatches env w w')
    (e1 : config.artefacts = before ++ ac :: aft) (e3 : ∀ b ∈ aft, b.id ≠ ac.id) (hid : new.id = old.id)
    (ht : ac.referenceWithTitle = some true → old.title ≠ none ∧ new.title ≠ none)
    (hf : FilesOf env w ac base (pre ++ p :: post)) (hp : Replaces env w w' ac.parser p old new)
    (hs : ∀ q ∈ pre ++ post, SameFile env w w' q)
    (ho : ∀ b ∈ before ++ aft, ∀ fs, FilesOf env w b base fs → ∀ q ∈ fs, SameFile env w w' q)
    {c : Controller} (h : Controller.new env w config base = .ok c)
    (hd : ∀ art, c.graph.artefacts.get ac.id = some art → ∀ first again, Error.duplicateRequirement first again ∈ art.errors →
      first.id ≠ old.id) :
    ∃ c', Controller.new env w' config base = .ok c' ∧ ReplacesRequirement c.graph c'.graph ac.id old new ∧ c'.jobs = c.jobs := by
  obtain ⟨roots, h1, h2, h3, h4, h5, h6, h7⟩ := new_ok h
  obtain ⟨hk, hr⟩ := C18_consistent h
  have hsame : ∀ b ∈ before ++ aft, makeArtefact env w' base roots b = makeArtefact env w base roots b := by
    intro b hb
    unfold makeArtefact parseFromConfig
    rw [parseArtefact_congr hm (ho b hb)]
  rw [e1] at h2
  obtain ⟨art, g1, g2, g3⟩ := makeArtefacts_one e3 hsame h2
  obtain ⟨g4, reqs, g5, g6⟩ := makeArtefact_replace hm hid ht hf hp hs g1 (hd art g2)
  obtain ⟨m', g7, g8⟩ := g3 _ g5
  have hadd : ReplacesRequirement c.graph ⟨m', config.relations⟩ ac.id old new :=
    ⟨h3.symm, fun a ha => by simp only; rw [g8, if_neg ha], ⟨art, reqs, g2, by simp only; rw [g8, if_pos rfl], g4, g6⟩, hid⟩
  obtain ⟨tg', ht'⟩ := C10_no_panic (hadd.keyed hk) (hadd.relationsExist hr)
  refine ⟨⟨base, ⟨m', config.relations⟩, tg', config.jobs.getD .empty, config.defaultJobs.getD []⟩, ?_, hadd, h6.symm⟩
  unfold Controller.new
  rw [h1]
  simp only [bind, Except.bind]
  rw [e1, g7]
  simp only
  rw [ht']
  rfl

end Reqtrace
